import Verif.Model.Painters
import Verif.Props.ImageOptions
/-!
# C100: one writer, many goroutines
-/
namespace QR.Painters
open QR QR.Standard

theorem sizes_eq (o : Opts) (m : Matrix) : sizes o m = ⟨canvasW o m, canvasH o m, logoValid o m, logoW o m, logoH o m⟩ := rfl

theorem finishOps_eq (o : Opts) (m : Matrix) : finishOps o m = tailOps o m := rfl

/-- What a load of byte `c` may return to a goroutine that has cleared the bytes `K`. -/
def Allowed (orig : RGBA) (shared : Bool) (K : Chan → Bool) (c : Chan) (v : UInt8) : Prop := v = (if K c then 0 else byte orig c) ∨ shared = true ∧ v = 0

/-- Whatever the loads return, the program ends in `Q`. -/
def Wp (scale : Scaler) (o : Opts) (m : Matrix) (orig : RGBA) (shared : Bool) (Q : Local → Prop) : List Act → (Chan → Bool) → Local → Prop
  | [], _, l => Q l
  | .clear c :: r, K, l => Wp scale o m orig shared Q r (fun d => K d || decide (d = c)) l
  | .load c :: r, K, l => ∀ v, Allowed orig shared K c v → Wp scale o m orig shared Q r K { l with reg := setByte l.reg c v }
  | .fill :: r, K, l => Wp scale o m orig shared Q r K { l with ops := l.ops ++ [.fillRect l.reg 0 0 (sizes o m).w (sizes o m).h] }
  | .mask :: r, K, l => match maskBitmap o m with
    | none => Q { l with panicked := true }
    | some bm => Wp scale o m orig shared Q r K { l with bitMap := bm }
  | .paint x y v :: r, K, l => Wp scale o m orig shared Q r K { l with ops := l.ops ++ paintOps scale o m.width l.bitMap (if v.qrbool then o.qrColor else l.reg) x y v }
  | .finish :: r, K, l => Wp scale o m orig shared Q r K { l with ops := l.ops ++ finishOps o m }

variable {scale : Scaler} {o : Opts} {m : Matrix} {orig : RGBA} {shared : Bool} {Q : Local → Prop}

theorem byte_setByte (c : RGBA) (ch d : Chan) (v : UInt8) : byte (setByte c ch v) d = if d = ch then v else byte c d := by
  cases ch <;> cases d <;> rfl

theorem wp_step {act : Act} {rest : List Act} {K : Chan → Bool} {l : Local} (h : Wp scale o m orig shared Q (act :: rest) K l) {c : RGBA} (hc : ∀ ch, Allowed orig shared K ch (byte c ch)) :
    ∃ K', Wp scale o m orig shared Q (effect scale o m c l rest act).todo K' (effect scale o m c l rest act).own ∧ ∀ ch, Allowed orig shared K' ch (byte (store c act) ch) := by
  cases act with
  | clear d =>
    refine ⟨_, h, fun ch => ?_⟩
    unfold store Allowed
    simp only [byte_setByte]
    by_cases e : ch = d
    · left; simp [e]
    · rcases hc ch with g | g
      · left; simp [e, g]
      · right; simp [e, g]
  | load d => exact ⟨K, h _ (hc d), hc⟩
  | fill => exact ⟨K, h, hc⟩
  | mask =>
    unfold Wp at h
    unfold effect
    simp only [sizes_eq] at *
    change match maskBitmap o m with
      | none => Q { l with panicked := true }
      | some bm => Wp scale o m orig shared Q rest K { l with bitMap := bm } at h
    change ∃ K', Wp scale o m orig shared Q (match maskBitmap o m with
      | none => (⟨[], { l with panicked := true }⟩ : Painter)
      | some bm => ⟨rest, { l with bitMap := bm }⟩).todo K' _ ∧ _
    cases hb : maskBitmap o m with
    | none =>
      rw [hb] at h
      refine ⟨K, ?_, hc⟩
      unfold maskBitmap at hb
      unfold safeOn at hb
      rw [hb]
      exact h
    | some bm =>
      rw [hb] at h
      refine ⟨K, ?_, hc⟩
      unfold maskBitmap at hb
      unfold safeOn at hb
      rw [hb]
      exact h
  | paint x y v => exact ⟨K, h, hc⟩
  | finish => exact ⟨K, h, hc⟩

theorem effect_todo {c : RGBA} {l : Local} {rest : List Act} {act : Act} : ∀ a, a ∈ (effect scale o m c l rest act).todo → a ∈ rest := by
  intro a ha
  unfold effect at ha
  cases act <;> try exact ha
  simp only at ha
  split at ha
  · cases ha
  · exact ha

theorem no_clear {j : Job} {opts : Nat → Opts} (h : (opts j.writer).bgTransparent = false) (c : Chan) : Act.clear c ∉ program (opts j.writer) j.mat := by
  unfold program backgroundActs
  simp only [h, Bool.false_eq_true, if_false, List.nil_append, List.append_assoc, List.mem_append, List.mem_flatMap, loads, List.mem_cons, List.not_mem_nil, reduceCtorEq, or_false, false_or, not_exists, not_and]
  rintro ⟨x, y, v⟩ _
  unfold moduleActs
  simp only [h, Bool.false_eq_true, if_false, List.nil_append]
  split
  · simp
  · split <;> simp [loads]

/-- What is known of goroutine `i` at any time. -/
def Knows (scale : Scaler) (opts : Nat → Opts) (jobs : Nat → Job) (shared : Bool) (Q : Local → Prop) (i : Nat) (s : St) : Prop :=
  (∃ K, Wp scale (opts (jobs i).writer) (jobs i).mat (opts (jobs i).writer).bgColor shared Q (s.painter i).todo K (s.painter i).own ∧
    ∀ ch, Allowed (opts (jobs i).writer).bgColor shared K ch (byte (s.bg (jobs i).writer) ch)) ∧
  ∀ j, (opts (jobs j).writer).bgTransparent = false → ∀ c, Act.clear c ∉ (s.painter j).todo

theorem knows_step {opts : Nat → Opts} {jobs : Nat → Job} {i : Nat}
    (hex : shared = true ∨ (opts (jobs i).writer).bgTransparent = false ∨ ∀ j, j ≠ i → (jobs j).writer ≠ (jobs i).writer)
    {s s' : St} {k : Nat} (hs : step scale opts jobs k s = some s') (h : Knows scale opts jobs shared Q i s) : Knows scale opts jobs shared Q i s' := by
  obtain ⟨⟨K, h1, h2⟩, h3⟩ := h
  unfold step at hs
  simp only at hs
  split at hs
  · cases hs
  rename_i act rest htodo
  obtain rfl := Option.some.inj hs
  refine ⟨?_, fun j hj c => ?_⟩
  · by_cases e : i = k
    · subst e
      simp only [if_true]
      rw [htodo] at h1
      exact wp_step h1 h2
    · simp only [if_neg e]
      refine ⟨K, h1, fun ch => ?_⟩
      by_cases ew : (jobs i).writer = (jobs k).writer
      · rw [if_pos ew]
        cases act with
        | clear d =>
          unfold store
          rw [byte_setByte, ← ew]
          rcases hex with g | g | g
          · split
            · exact Or.inr ⟨g, rfl⟩
            · exact h2 ch
          · exact absurd (by rw [htodo]; simp) (h3 k (by rw [← ew]; exact g) d)
          · exact absurd ew.symm (g k fun q => e q.symm)
        | _ => unfold store; rw [← ew]; exact h2 ch
      · rw [if_neg ew]
        exact h2 ch
  · simp only
    by_cases e : j = k
    · rw [if_pos e]
      intro hmem
      refine h3 k (by rw [← e]; exact hj) c ?_
      rw [htodo]
      exact List.mem_cons_of_mem _ (effect_todo _ hmem)
    · rw [if_neg e]
      exact h3 j hj c

theorem knows_run {opts : Nat → Opts} {jobs : Nat → Job} {i : Nat}
    (hex : shared = true ∨ (opts (jobs i).writer).bgTransparent = false ∨ ∀ j, j ≠ i → (jobs j).writer ≠ (jobs i).writer) :
    ∀ (sched : List Nat) {s s' : St}, run scale opts jobs sched s = some s' → Knows scale opts jobs shared Q i s → Knows scale opts jobs shared Q i s' := by
  intro sched
  induction sched with
  | nil => intro s s' h k; cases h; exact k
  | cons a l ih =>
    intro s s' h k
    unfold run at h
    cases hs : step scale opts jobs a s with
    | none => rw [hs] at h; cases h
    | some s1 => rw [hs] at h; exact ih h (knows_step hex hs k)

theorem paintOps_eq {bm : List (List Bool)} {x y : Nat} {v : QRValue} {safe : Bool} {w h lw lh : Int}
    (hn : (safe && blockOverlapsLogo x y o.qrBlockWidth o.borders.left o.borders.top w h lw lh && v.qrbool) = false) :
    paintOps scale o m.width bm (moduleColor o v) x y v = moduleOps scale w h m.width bm safe lw lh o x y v := by
  unfold paintOps moduleOps
  rw [hn]
  obtain ⟨ty, bit⟩ := v
  simp only [QRValue.qrtype, Bool.false_eq_true, if_false]
  cases ty <;> cases hh : o.halftone <;> rfl

/-- After the four loads the colour is whatever they returned. -/
theorem wp_loads {r : List Act} {K : Chan → Bool} {l : Local}
    (h : ∀ c : RGBA, (∀ ch, Allowed orig shared K ch (byte c ch)) → Wp scale o m orig shared Q r K { l with reg := c }) :
    Wp scale o m orig shared Q (loads ++ r) K l := by
  intro v1 h1 v2 h2 v3 h3 v4 h4
  have := h ⟨v1, v2, v3, v4⟩ (fun ch => by cases ch <;> assumption)
  exact this

theorem wp_module (ho : orig = o.bgColor) {r : List Act} {K : Chan → Bool} {l : Local} (hx : shared = true → o.bgTransparent = true) (hK : o.bgTransparent = false → K = fun _ => false)
    (x y : Nat) (v : QRValue)
    (h : ∀ K' c, (o.bgTransparent = false → K' = fun _ => false) → Wp scale o m orig shared Q r K'
      { l with reg := c, ops := l.ops ++ moduleOps scale (canvasW o m) (canvasH o m) m.width l.bitMap (safeOn o m) (logoW o m) (logoH o m) o x y v }) :
    Wp scale o m orig shared Q (moduleActs o m x y v ++ r) K l := by
  unfold moduleActs
  simp only [sizes_eq]
  change Wp scale o m orig shared Q ((if safeOn o m && blockOverlapsLogo x y o.qrBlockWidth o.borders.left o.borders.top (canvasW o m) (canvasH o m) (logoW o m) (logoH o m) && v.qrbool then _ else _) ++ r) K l
  by_cases hn : (safeOn o m && blockOverlapsLogo x y o.qrBlockWidth o.borders.left o.borders.top (canvasW o m) (canvasH o m) (logoW o m) (logoH o m) && v.qrbool) = true
  · rw [if_pos hn]
    have := h K l.reg hK
    unfold moduleOps at this
    rw [if_pos hn, List.append_nil] at this
    exact this
  · rw [if_neg hn]
    have hn' := Bool.eq_false_iff.2 hn
    by_cases hv : v.qrbool = true
    · rw [if_pos hv]
      have := h K l.reg hK
      rw [← paintOps_eq hn'] at this
      have e : moduleColor o v = if v.qrbool = true then o.qrColor else l.reg := by
        unfold moduleColor
        simp [hv]
      rw [e] at this
      exact this
    · rw [if_neg hv]
      cases ht : o.bgTransparent with
      | false =>
        rw [if_neg (by simp), List.nil_append, List.append_assoc]
        refine wp_loads fun c hc => ?_
        have hKf := hK ht
        have hcol : c = moduleColor o v := by
          have k : ∀ ch, byte c ch = byte orig ch := by
            intro ch
            rcases hc ch with g | ⟨g, _⟩
            · rw [hKf] at g; simpa using g
            · rw [hx g] at ht; cases ht
          unfold moduleColor
          simp only [hv, ht, Bool.false_eq_true, if_false]
          rw [← ho]
          have k1 := k .r
          have k2 := k .g
          have k3 := k .b
          have k4 := k .a
          obtain ⟨c1, c2, c3, c4⟩ := c
          simp only [byte] at k1 k2 k3 k4
          rw [k1, k2, k3, k4]
        have := h K c hK
        rw [← paintOps_eq hn', ← hcol] at this
        change Wp scale o m orig shared Q r _ { reg := c, bitMap := _, ops := l.ops ++ paintOps scale o m.width l.bitMap (if v.qrbool = true then o.qrColor else c) x y v, panicked := _ }
        rw [if_neg hv]
        exact this
      | true =>
        rw [if_pos rfl, List.append_assoc, List.append_assoc]
        change Wp scale o m orig shared Q (loads ++ _) _ l
        refine wp_loads fun c hc => ?_
        have hcol : c = moduleColor o v := by
          have k : ∀ ch, byte c ch = 0 := by
            intro ch
            rcases hc ch with g | ⟨_, g⟩
            · rw [g]; cases ch <;> simp
            · exact g
          unfold moduleColor
          simp only [hv, ht, Bool.false_eq_true, if_false, if_true]
          have k1 := k .r
          have k2 := k .g
          have k3 := k .b
          have k4 := k .a
          obtain ⟨c1, c2, c3, c4⟩ := c
          simp only [byte] at k1 k2 k3 k4
          simp only [k1, k2, k3, k4]
        have := h (fun d => (fun d => (fun d => (fun d => K d || decide (d = Chan.a)) d || decide (d = Chan.r)) d || decide (d = Chan.g)) d || decide (d = Chan.b)) c (fun g => by rw [ht] at g; cases g)
        rw [← paintOps_eq hn', ← hcol] at this
        change Wp scale o m orig shared Q r _ { reg := c, bitMap := _, ops := l.ops ++ paintOps scale o m.width l.bitMap (if v.qrbool = true then o.qrColor else c) x y v, panicked := _ }
        rw [if_neg hv]
        exact this

theorem wp_modules (ho : orig = o.bgColor) (hx : shared = true → o.bgTransparent = true) {r : List Act} : ∀ (ms : List (Nat × Nat × QRValue)) {K : Chan → Bool} {l : Local},
    (o.bgTransparent = false → K = fun _ => false) →
    (∀ K' c, Wp scale o m orig shared Q r K'
      { l with reg := c, ops := l.ops ++ ms.flatMap fun a => moduleOps scale (canvasW o m) (canvasH o m) m.width l.bitMap (safeOn o m) (logoW o m) (logoH o m) o a.1 a.2.1 a.2.2 }) →
    Wp scale o m orig shared Q (ms.flatMap (fun (x, y, v) => moduleActs o m x y v) ++ r) K l := by
  intro ms
  induction ms with
  | nil =>
    intro K l _ h
    have := h K l.reg
    simp only [List.flatMap_nil, List.append_nil] at this
    exact this
  | cons a ms ih =>
    intro K l hK h
    obtain ⟨x, y, v⟩ := a
    rw [List.flatMap_cons, List.append_assoc]
    refine wp_module ho hx hK x y v fun K' c hK' => ih hK' fun K'' c' => ?_
    have := h K'' c'
    rw [List.flatMap_cons, ← List.append_assoc] at this
    exact this

/-- A colour that a reader may see of `c` while others clear bytes of it. -/
def Faded (c d : RGBA) : Prop := d.a = c.a ∧ (d.r = c.r ∨ d.r = 0) ∧ (d.g = c.g ∨ d.g = 0) ∧ (d.b = c.b ∨ d.b = 0)

/-- The calls made, or the panic. -/
def Local.result (l : Local) : Option (List DrawOp) := if l.panicked then none else some l.ops

/-- The calls of `draw`, with another colour for the background. -/
def withBackground (c : RGBA) : List DrawOp → List DrawOp
  | first :: .fillRect _ x y w h :: rest => first :: .fillRect c x y w h :: rest
  | ops => ops

theorem draw_none (h : maskBitmap o m = none) : draw scale o m = none := by
  have hs := backgroundColor_sim o
  have hsz : ∀ w h, logoSize o.backgroundColor.2 w h = logoSize o w h := by
    intro w h; rw [hs.eq]; rfl
  have hsafe : o.backgroundColor.2.logoSafeZone = o.logoSafeZone := by rw [hs.eq]
  have hclr : ∀ w h s lw lh, clearedBitmap o.backgroundColor.2 m w h s lw lh = clearedBitmap o m w h s lw lh := by
    intro w h s lw lh; rw [hs.eq]; rfl
  unfold draw
  simp only [hsz, hsafe, hclr]
  have h' : clearedBitmap o m (m.width * o.qrBlockWidth + o.borders.left + o.borders.right) (m.height * o.qrBlockWidth + o.borders.top + o.borders.bottom)
    ((logoSize o (m.width * o.qrBlockWidth + o.borders.left + o.borders.right) (m.height * o.qrBlockWidth + o.borders.top + o.borders.bottom)).1 && o.logoSafeZone)
    (logoSize o (m.width * o.qrBlockWidth + o.borders.left + o.borders.right) (m.height * o.qrBlockWidth + o.borders.top + o.borders.bottom)).2.1
    (logoSize o (m.width * o.qrBlockWidth + o.borders.left + o.borders.right) (m.height * o.qrBlockWidth + o.borders.top + o.borders.bottom)).2.2 = none := h
  rw [h']
  rfl

theorem wp_program (ho : orig = o.bgColor) (hx : shared = true → o.bgTransparent = true) (l : Local) (hp : l.panicked = false) (hl : l.ops = [.newContext (sizes o m).w (sizes o m).h]) :
    Wp scale o m orig shared (fun l => ∃ c, Faded o.backgroundColor.1 c ∧ (shared = false → c = o.backgroundColor.1) ∧
      l.result = (draw scale o m).map fun r => withBackground c r.1) (program o m) (fun _ => false) l := by
  have body : ∀ K c, (o.bgTransparent = false → K = fun _ => false) → Faded o.backgroundColor.1 c → (shared = false → c = o.backgroundColor.1) →
      Wp scale o m orig shared (fun l => ∃ c, Faded o.backgroundColor.1 c ∧ (shared = false → c = o.backgroundColor.1) ∧
      l.result = (draw scale o m).map fun r => withBackground c r.1) ([.fill] ++ [.mask] ++ (m.iterate .row).flatMap (fun (x, y, v) => moduleActs o m x y v) ++ [.finish]) K { l with reg := c } := by
    intro K c hK hf hc
    change match maskBitmap o m with
      | none => _
      | some bm => _
    cases hb : maskBitmap o m with
    | none =>
      refine ⟨c, hf, hc, ?_⟩
      rw [draw_none hb]
      rfl
    | some bm =>
      refine wp_modules ho hx _ hK fun K' c' => ?_
      refine ⟨c, hf, hc, ?_⟩
      obtain ⟨o', _, he⟩ := draw_eq scale o m hb
      rw [he]
      simp only [Local.result, hp, hl, finishOps_eq, sizes_eq, withBackground]
      rfl
  unfold program backgroundActs
  rw [List.append_assoc, List.append_assoc, List.append_assoc, List.append_assoc]
  cases ht : o.bgTransparent with
  | false =>
    rw [if_neg (by simp), List.nil_append]
    refine wp_loads fun c hcol => ?_
    have k : ∀ ch, byte c ch = byte orig ch := by
      intro ch
      rcases hcol ch with g | ⟨g, _⟩
      · simpa using g
      · rw [hx g] at ht; cases ht
    have e : c = o.backgroundColor.1 := by
      unfold Opts.backgroundColor
      simp only [ht, Bool.false_eq_true, if_false]
      rw [← ho]
      have k1 := k .r
      have k2 := k .g
      have k3 := k .b
      have k4 := k .a
      obtain ⟨c1, c2, c3, c4⟩ := c
      simp only [byte] at k1 k2 k3 k4
      simp only [k1, k2, k3, k4]
    have := body (fun _ => false) c (fun _ => rfl) (by rw [e]; exact ⟨rfl, Or.inl rfl, Or.inl rfl, Or.inl rfl⟩) (fun _ => e)
    simpa only [List.append_assoc] using this
  | true =>
    rw [if_pos rfl]
    change Wp scale o m orig shared _ (loads ++ _) _ l
    refine wp_loads fun c hcol => ?_
    have eb : o.backgroundColor.1 = { orig with a := 0 } := by
      unfold Opts.backgroundColor
      simp only [ht, if_true]
      rw [← ho]
    have ka : c.a = 0 := by
      rcases hcol .a with g | ⟨_, g⟩
      · simpa [byte] using g
      · exact g
    have k : ∀ ch, ch ≠ .a → byte c ch = byte orig ch ∨ shared = true ∧ byte c ch = 0 := by
      intro ch hn
      rcases hcol ch with g | g
      · left; simpa [hn] using g
      · exact Or.inr g
    have hf : Faded o.backgroundColor.1 c := by
      rw [eb]
      exact ⟨ka, (k .r (by simp)).imp_right (·.2), (k .g (by simp)).imp_right (·.2), (k .b (by simp)).imp_right (·.2)⟩
    have := body (fun d => false || decide (d = Chan.a)) c (fun g => by rw [ht] at g; cases g) hf (fun hs => by
      have q : ∀ ch, ch ≠ .a → byte c ch = byte orig ch := fun ch hn => (k ch hn).resolve_right fun g => by rw [hs] at g; cases g.1
      rw [eb]
      have k1 := q .r (by simp)
      have k2 := q .g (by simp)
      have k3 := q .b (by simp)
      obtain ⟨c1, c2, c3, c4⟩ := c
      simp only [byte] at k1 k2 k3 ka
      simp only [k1, k2, k3, ka])
    simpa only [List.append_assoc] using this

/-! ## The claims -/

theorem start_knows (opts : Nat → Opts) (jobs : Nat → Job) (i : Nat) (hx : shared = true → (opts (jobs i).writer).bgTransparent = true) :
    Knows scale opts jobs shared (fun l => ∃ c, Faded (opts (jobs i).writer).backgroundColor.1 c ∧ (shared = false → c = (opts (jobs i).writer).backgroundColor.1) ∧
      l.result = (draw scale (opts (jobs i).writer) (jobs i).mat).map fun r => withBackground c r.1) i (start opts jobs) :=
  ⟨⟨fun _ => false, wp_program rfl hx _ rfl rfl, fun _ => Or.inl (by simp [start])⟩, fun _ hj c => no_clear hj c⟩

theorem withBackground_same : ((draw scale o m).map fun r => withBackground o.backgroundColor.1 r.1) = (draw scale o m).map (·.1) := by
  cases hb : maskBitmap o m with
  | none => rw [draw_none hb]; rfl
  | some bm =>
    obtain ⟨o', _, he⟩ := draw_eq scale o m hb
    rw [he]
    rfl

/-- The writer of goroutine `i` has a transparent background and another goroutine uses it too. -/
def SharesTransparent (opts : Nat → Opts) (jobs : Nat → Job) (i : Nat) : Prop :=
  (opts (jobs i).writer).bgTransparent = true ∧ ∃ j, j ≠ i ∧ (jobs j).writer = (jobs i).writer

/-- **C100.** Any number of goroutines, writers and symbols, every interleaving: a goroutine that has finished drawing has made the calls it makes alone, unless it shares a writer that has a transparent
background. -/
theorem C100_alone (scale : Scaler) (opts : Nat → Opts) (jobs : Nat → Job) {sched : List Nat} {s : St} (hs : run scale opts jobs sched (start opts jobs) = some s)
    {i : Nat} (hi : (s.painter i).todo = []) (hn : ¬ SharesTransparent opts jobs i) :
    (s.painter i).own.result = (draw scale (opts (jobs i).writer) (jobs i).mat).map (·.1) := by
  have hex : false = true ∨ (opts (jobs i).writer).bgTransparent = false ∨ ∀ j, j ≠ i → (jobs j).writer ≠ (jobs i).writer := by
    right
    cases ht : (opts (jobs i).writer).bgTransparent with
    | false => exact Or.inl rfl
    | true => exact Or.inr fun j hj e => hn ⟨ht, j, hj, e⟩
  obtain ⟨⟨K, h1, _⟩, _⟩ := knows_run hex sched hs (start_knows (scale := scale) opts jobs i (by simp))
  rw [hi] at h1
  obtain ⟨c, _, hc, hr⟩ := h1
  rw [hr, hc rfl, withBackground_same]

/-- **C100, a shared writer with a transparent background.** All calls but the one that fills the background are those made alone, and that one is made with alpha 0 and a red, green and blue that are each
as given or 0. -/
theorem C100_shared (scale : Scaler) (opts : Nat → Opts) (jobs : Nat → Job) {sched : List Nat} {s : St} (hs : run scale opts jobs sched (start opts jobs) = some s)
    {i : Nat} (hi : (s.painter i).todo = []) (ht : (opts (jobs i).writer).bgTransparent = true) :
    ∃ c, c.a = 0 ∧ (c.r = (opts (jobs i).writer).bgColor.r ∨ c.r = 0) ∧ (c.g = (opts (jobs i).writer).bgColor.g ∨ c.g = 0) ∧ (c.b = (opts (jobs i).writer).bgColor.b ∨ c.b = 0) ∧
      (s.painter i).own.result = (draw scale (opts (jobs i).writer) (jobs i).mat).map fun r => withBackground c r.1 := by
  obtain ⟨⟨K, h1, _⟩, _⟩ := knows_run (shared := true) (Or.inl rfl) sched hs (start_knows (scale := scale) opts jobs i fun _ => ht)
  rw [hi] at h1
  obtain ⟨c, hf, _, hr⟩ := h1
  have eb : (opts (jobs i).writer).backgroundColor.1 = { (opts (jobs i).writer).bgColor with a := 0 } := by
    unfold Opts.backgroundColor
    simp only [ht, if_true]
  rw [eb] at hf
  exact ⟨c, hf.1, hf.2.1, hf.2.2.1, hf.2.2.2, hr⟩

/-- Two accesses to the same byte, one of them a store. -/
def Conflict : Act → Act → Prop
  | .clear c, .clear d => c = d
  | .clear c, .load d => c = d
  | .load c, .clear d => c = d
  | _, _ => False

/-- Two goroutines are about to access the same byte, and nothing orders the accesses: a data race. -/
def Race (jobs : Nat → Job) (s : St) : Prop :=
  ∃ i j, i ≠ j ∧ (jobs i).writer = (jobs j).writer ∧ ∃ a b r r', (s.painter i).todo = a :: r ∧ (s.painter j).todo = b :: r' ∧ Conflict a b

/-- **C100, data races.** There is a schedule with a data race exactly if two goroutines share a writer with a transparent background. -/
theorem C100_race (scale : Scaler) (opts : Nat → Opts) (jobs : Nat → Job) :
    (∃ sched s, run scale opts jobs sched (start opts jobs) = some s ∧ Race jobs s) ↔ ∃ i, SharesTransparent opts jobs i := by
  constructor
  · rintro ⟨sched, s, hs, i, j, hij, hw, a, b, r, r', h1, h2, hc⟩
    refine ⟨i, ?_, j, fun e => hij e.symm, hw.symm⟩
    by_contra hn
    have ht := Bool.eq_false_iff.2 hn
    obtain ⟨_, hk⟩ := knows_run (shared := false) (i := i) (Or.inr (Or.inl ht)) sched hs (start_knows (scale := scale) opts jobs i (by simp))
    have k1 : ∀ c, a ≠ .clear c := fun c e => hk i ht c (by rw [h1, e]; simp)
    have k2 : ∀ c, b ≠ .clear c := fun c e => hk j (by rw [← hw]; exact ht) c (by rw [h2, e]; simp)
    cases a <;> cases b <;> first | exact hc | exact k1 _ rfl | exact k2 _ rfl
  · rintro ⟨i, ht, j, hj, hw⟩
    have key : ∀ k, (opts (jobs k).writer).bgTransparent = true → ∃ r, ((start opts jobs).painter k).todo = .clear .a :: r := by
      intro k hk
      refine ⟨loads ++ [.fill] ++ [.mask] ++ ((jobs k).mat.iterate .row).flatMap (fun (x, y, v) => moduleActs (opts (jobs k).writer) (jobs k).mat x y v) ++ [.finish], ?_⟩
      change program _ _ = _
      unfold program backgroundActs
      rw [hk]
      rfl
    obtain ⟨r, h1⟩ := key i ht
    obtain ⟨r', h2⟩ := key j (by rw [hw]; exact ht)
    exact ⟨[], start opts jobs, rfl, i, j, fun e => hj e.symm, hw.symm, _, _, r, r', h1, h2, rfl⟩

/-- **C100, nobody waits.** At any time a goroutine that has not finished can go on, and finishes after at most as many steps as its program is long if it alone is scheduled. -/
theorem C100_finishes (scale : Scaler) (opts : Nat → Opts) (jobs : Nat → Job) (i : Nat) : ∀ (s : St),
    ∃ n s', n ≤ (s.painter i).todo.length ∧ run scale opts jobs (List.replicate n i) s = some s' ∧ (s'.painter i).todo = [] := by
  have key : ∀ (n : Nat) (s : St), (s.painter i).todo.length ≤ n →
      ∃ k s', k ≤ (s.painter i).todo.length ∧ run scale opts jobs (List.replicate k i) s = some s' ∧ (s'.painter i).todo = [] := by
    intro n
    induction n with
    | zero => intro s h; exact ⟨0, s, by omega, rfl, List.length_eq_zero_iff.1 (by omega)⟩
    | succ n ih =>
      intro s h
      cases ht : (s.painter i).todo with
      | nil => exact ⟨0, s, by simp, rfl, ht⟩
      | cons act rest =>
        have hlen : ∀ c l, (effect scale (opts (jobs i).writer) (jobs i).mat c l rest act).todo.length ≤ rest.length := by
          intro c l
          unfold effect
          cases act <;> simp only [Nat.le_refl]
          split
          · simp
          · exact Nat.le_refl _
        obtain ⟨s1, hs1, e1⟩ : ∃ s1, step scale opts jobs i s = some s1 ∧ (s1.painter i).todo.length ≤ rest.length := by
          refine ⟨_, by unfold step; simp only [ht]; rfl, ?_⟩
          simp only [if_true]
          exact hlen _ _
        rw [ht, List.length_cons] at h
        obtain ⟨k, s', hk, hr, hd⟩ := ih s1 (by omega)
        refine ⟨k + 1, s', by rw [List.length_cons]; omega, ?_, hd⟩
        rw [List.replicate_succ]
        unfold run
        rw [hs1]
        exact hr
  exact fun s => key _ s (Nat.le_refl _)

/-- One writer with a transparent background, two goroutines. -/
abbrev glass : Opts := { defaultOpts with bgTransparent := true, qrWidth := 1, borders := ⟨0, 0, 0, 0⟩ }
def fills : List DrawOp → List RGBA := List.filterMap fun op => match op with
  | .fillRect c _ _ _ _ => some c
  | _ => none

/-- **C100, the difference shows.** Two goroutines draw a symbol with one light module: if one is done before the other begins, the first fills the background with a transparent white, the second with a
transparent black; and there is an interleaving in which the second fills it with a mixture. -/
theorem C100_counterexample : let scale : Scaler := fun _ _ _ _ => (0, 0, 0, 0)
    let jobs : Nat → Job := fun _ => ⟨0, lightM⟩
    (∃ s, run scale (fun _ => glass) jobs (List.replicate 17 0 ++ List.replicate 17 1) (start (fun _ => glass) jobs) = some s ∧
      (s.painter 0).todo = [] ∧ (s.painter 1).todo = [] ∧ fills (s.painter 0).own.ops = [⟨255, 255, 255, 0⟩] ∧ fills (s.painter 1).own.ops = [⟨0, 0, 0, 0⟩]) ∧
    ∃ s, run scale (fun _ => glass) jobs ([1, 1] ++ List.replicate 17 0 ++ List.replicate 15 1) (start (fun _ => glass) jobs) = some s ∧
      (s.painter 1).todo = [] ∧ fills (s.painter 1).own.ops = [⟨255, 0, 0, 0⟩] := by
  refine ⟨⟨_, rfl, rfl, rfl, rfl, rfl⟩, ⟨_, rfl, rfl, rfl⟩⟩

end QR.Painters
