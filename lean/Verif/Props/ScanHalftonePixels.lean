import Verif.Props.ScanPixels
import Verif.Props.ScanHalftone
/-!
# C84: halftone pictures, pixel by pixel
-/
namespace QR.Standard
open QR QR.Matrix Spec Plane

/-- As `SubBlocks`, with enough pixels for a scanner that looks at one of them: rectangles in blocks of at least 12 pixels; or a shape that needs no flag, in blocks of at least 30 pixels whose
width is a multiple of three. -/
def SubPixels (o : Opts) (s : LibShape) : Prop :=
  12 ≤ o.qrBlockWidth ∧ (o.getShape = .rectangle ∨ (30 ≤ o.qrBlockWidth ∧ o.qrBlockWidth % 3 = 0 ∧ needsSelf s false = false))

theorem SubPixels.subBlocks {o : Opts} {s : LibShape} (h : SubPixels o s) : SubBlocks o s := by
  refine ⟨by have := h.1; omega, ?_⟩
  rcases h.2 with h | ⟨h1, h2, h3⟩
  · exact .inl h
  · exact .inr ⟨h2, h3, fun _ => by omega⟩

/-- Which third of which block a coordinate close to the middle of a block belongs to. -/
theorem third_near {bw w left p : Rat} (hbw : 12 ≤ bw) (hw : w ≤ bw / 3) {i x k : Nat} (hk : k < 3)
    (c1 : p ≤ left + bw * (i + 1 / 2) + 5 / 4) (c2 : left + bw * (i + 1 / 2) - 5 / 4 ≤ p)
    (h1 : (x : Rat) * bw + left + (k : Rat) * (bw / 3) ≤ p) (h2 : p ≤ (x : Rat) * bw + left + (k : Rat) * (bw / 3) + w) :
    x = i ∧ k = 1 := by
  have hpos : 0 < bw := by linarith
  have a1 : ((6 * x + 2 * k : Nat) : Rat) * bw < ((6 * i + 4 : Nat) : Rat) * bw := by push_cast; linarith
  have a2 : ((6 * i + 2 : Nat) : Rat) * bw < ((6 * x + 2 * k + 2 : Nat) : Rat) * bw := by push_cast; linarith
  have b1 : 6 * x + 2 * k < 6 * i + 4 := by exact_mod_cast lt_of_mul_lt_mul_right a1 hpos.le
  have b2 : 6 * i + 2 < 6 * x + 2 * k + 2 := by exact_mod_cast lt_of_mul_lt_mul_right a2 hpos.le
  omega

theorem close_centre {o : Opts} {i j : Nat} {px py : Int} (hat : AtCentre o i j px py) {p : Pt} (hp : CloseTo px py p) :
    p.x ≤ (centre o i j).x + 5 / 4 ∧ (centre o i j).x - 5 / 4 ≤ p.x ∧ p.y ≤ (centre o i j).y + 5 / 4 ∧ (centre o i j).y - 5 / 4 ≤ p.y := by
  obtain ⟨c1, c2, c3, c4⟩ := hat
  obtain ⟨p1, p2, p3, p4⟩ := hp
  refine ⟨?_, ?_, ?_, ?_⟩ <;> linarith

theorem painted_fills {cmds : List Cmd} {path : List Figure} (hp : path ∈ fills [] cmds) {f : Figure} (hf : f ∈ path) {p : Pt} (hc : f.covers p) : Painted cmds p :=
  ⟨path, hp, f, hf, hc⟩

/-- Sub-blocks touch no pixel at the centre of a block but the middle one those of its own block. -/
theorem sub_touched {assembled : Nat → DrawFn × DrawFn} {o : Opts} (hS : SubPixels o (meaning assembled o.getShape)) {scale : Scaler} {m : Matrix} {img : Image}
    {x y s t i j : Nat} (hs : s < 3) (ht : t < 3) {px py : Int} (hat : AtCentre o i j px py) {p : Pt} (hcl : CloseTo px py p)
    (hP : Painted ((meaning assembled o.getShape).cmds false (subCtx scale o m img x y s t)) p) :
    x = i ∧ y = j ∧ s = 1 ∧ t = 1 := by
  obtain ⟨u, hU, _, hp, _⟩ := sub_unit hS.subBlocks scale m img x y s t
  have h3 := hS.1
  have hbw : (12 : Rat) ≤ (o.qrBlockWidth : Rat) := by exact_mod_cast h3
  have hw : (0 : Rat) < ((o.qrBlockWidth / 3 : Int) : Rat) := by exact_mod_cast (by omega : 0 < o.qrBlockWidth / 3)
  have hle : ((o.qrBlockWidth / 3 : Int) : Rat) ≤ (o.qrBlockWidth : Rat) / 3 := by
    have : (((o.qrBlockWidth / 3) * 3 : Int) : Rat) ≤ (o.qrBlockWidth : Rat) := Rat.intCast_le_intCast.2 (by omega)
    push_cast at this
    linarith
  have e := tr_surj hw ⟨(subCtx scale o m img x y s t).x, (subCtx scale o m img x y s t).y⟩ p
  rw [← e, hp] at hP
  obtain ⟨f, hf, hc⟩ := painted_add hP
  obtain ⟨_, _, _, _, r1, r2, r3, r4⟩ := hU.reach f hf _ hc
  have hno : ∀ k, ¬ flag 0 k := by
    intro k h
    have : (0 : UInt16).toNat = 0 := rfl
    unfold flag at h
    rw [this, Nat.zero_testBit] at h
    cases h
  have b1 : 0 ≤ (p.x - (subCtx scale o m img x y s t).x) * 2 / ((o.qrBlockWidth / 3 : Int) : Rat) := by
    by_contra hn; exact hno _ (r1 (not_le.1 hn)).1
  have b2 : (p.x - (subCtx scale o m img x y s t).x) * 2 / ((o.qrBlockWidth / 3 : Int) : Rat) ≤ 2 := by
    by_contra hn; exact hno _ (r2 (not_le.1 hn)).1
  have b3 : 0 ≤ (p.y - (subCtx scale o m img x y s t).y) * 2 / ((o.qrBlockWidth / 3 : Int) : Rat) := by
    by_contra hn; exact hno _ (r3 (not_le.1 hn)).1
  have b4 : (p.y - (subCtx scale o m img x y s t).y) * 2 / ((o.qrBlockWidth / 3 : Int) : Rat) ≤ 2 := by
    by_contra hn; exact hno _ (r4 (not_le.1 hn)).1
  rw [le_div_iff₀ hw] at b1 b3
  rw [div_le_iff₀ hw] at b2 b4
  obtain ⟨c1, c2, c3, c4⟩ := close_centre hat hcl
  simp only [centre] at c1 c2 c3 c4
  simp only [subCtx] at b1 b2 b3 b4
  push_cast at b1 b2 b3 b4 hle
  obtain ⟨e1, e2⟩ := third_near (i := i) (x := x) (p := p.x) (left := o.borders.left) hbw hle hs c1 c2 (by linarith) (by linarith)
  obtain ⟨e3, e4⟩ := third_near (i := j) (x := y) (p := p.y) (left := o.borders.top) hbw hle ht c3 c4 (by linarith) (by linarith)
  exact ⟨e1, e3, e2, e4⟩

/-- The middle sub-block covers the pixels at the centre. -/
theorem sub_covers {assembled : Nat → DrawFn × DrawFn} {o : Opts} (hS : SubPixels o (meaning assembled o.getShape)) (hbold : (meaning assembled o.getShape).bold)
    (scale : Scaler) (m : Matrix) (img : Image) (i j : Nat) {px py : Int} (hat : AtCentre o i j px py) :
    ∃ path ∈ fills [] ((meaning assembled o.getShape).cmds false (subCtx scale o m img i j 1 1)), ∃ f ∈ path, ∀ p, CloseTo px py p → f.covers p := by
  have h3 := hS.1
  have hbw : (12 : Rat) ≤ (o.qrBlockWidth : Rat) := by exact_mod_cast h3
  rcases hS.2 with hr | ⟨h30, hmod, hns⟩
  · rw [hr]
    refine ⟨_, List.mem_cons_self, .rect (subCtx scale o m img i j 1 1).x (subCtx scale o m img i j 1 1).y ((o.qrBlockWidth / 3 : Int) : Rat) ((o.qrBlockWidth / 3 : Int) : Rat),
      List.mem_cons_self, fun p hcl => ?_⟩
    obtain ⟨c1, c2, c3, c4⟩ := close_centre hat hcl
    have hk : (o.qrBlockWidth : Rat) ≤ 3 * ((o.qrBlockWidth / 3 : Int) : Rat) + ((o.qrBlockWidth % 3 : Int) : Rat) := by
      have : o.qrBlockWidth ≤ 3 * (o.qrBlockWidth / 3) + o.qrBlockWidth % 3 := by omega
      exact_mod_cast this
    have hk2 : (o.qrBlockWidth : Rat) + 8 < 6 * ((o.qrBlockWidth / 3 : Int) : Rat) ∨ o.qrBlockWidth = 13 ∨ o.qrBlockWidth = 14 ∨ o.qrBlockWidth = 12 := by
      by_cases h : o.qrBlockWidth + 8 < 6 * (o.qrBlockWidth / 3)
      · left; exact_mod_cast h
      · right; omega
    have hk3 : (o.qrBlockWidth : Rat) / 6 + 5 / 4 < ((o.qrBlockWidth / 3 : Int) : Rat) := by
      rcases hk2 with h | h | h | h
      · linarith
      · rw [h]; norm_num
      · rw [h]; norm_num
      · rw [h]; norm_num
    simp only [centre] at c1 c2 c3 c4
    simp only [Figure.covers, subCtx]
    push_cast at c1 c2 c3 c4 hk3 ⊢
    refine ⟨by linarith, by linarith, by linarith, by linarith⟩
  · have hk10 : 10 ≤ o.qrBlockWidth / 3 := by omega
    obtain ⟨u, hu, hU⟩ := lib_unit_near (meaning assembled o.getShape) hbold false (c := subCtx scale o m img i j 1 1) rfl hk10
    obtain ⟨f, hf, hcov⟩ := hU.own (.inr hns)
    obtain ⟨path, hp, hfp⟩ := add_mem_fills u [] hU.left (.inr hf)
    have hw : (0 : Rat) < ((o.qrBlockWidth / 3 : Int) : Rat) := by exact_mod_cast (by omega : 0 < o.qrBlockWidth / 3)
    have hk : (10 : Rat) ≤ ((o.qrBlockWidth / 3 : Int) : Rat) := by exact_mod_cast hk10
    have e3 : (o.qrBlockWidth : Rat) = 3 * ((o.qrBlockWidth / 3 : Int) : Rat) := by
      have : o.qrBlockWidth = 3 * (o.qrBlockWidth / 3) := by omega
      exact_mod_cast congrArg (Int.cast : Int → Rat) this
    have hfills : fills [] ((meaning assembled o.getShape).cmds false (subCtx scale o m img i j 1 1)) =
        (fills [] u).map (List.map (figTr (((o.qrBlockWidth / 3 : Int) : Rat) / 2) ⟨(subCtx scale o m img i j 1 1).x, (subCtx scale o m img i j 1 1).y⟩)) := by
      rw [hu]
      exact fills_map _ _ u []
    refine ⟨_, by rw [hfills]; exact List.mem_map_of_mem hp, _, List.mem_map_of_mem hfp, fun p hcl => ?_⟩
    have ht := tr_surj hw ⟨(subCtx scale o m img i j 1 1).x, (subCtx scale o m img i j 1 1).y⟩ p
    rw [← ht, covers_tr (by linarith)]
    obtain ⟨c1, c2, c3, c4⟩ := close_centre hat hcl
    refine hcov _ ?_
    simp only [centre] at c1 c2 c3 c4
    rw [e3] at c1 c2 c3 c4
    have ex : (subCtx scale o m img i j 1 1).x = o.borders.left + ((o.qrBlockWidth / 3 : Int) : Rat) * (3 * i + 1) := by
      simp only [subCtx]; push_cast; rw [e3]; ring
    have ey : (subCtx scale o m img i j 1 1).y = o.borders.top + ((o.qrBlockWidth / 3 : Int) : Rat) * (3 * j + 1) := by
      simp only [subCtx]; push_cast; rw [e3]; ring
    rw [ex, ey]
    generalize ((o.qrBlockWidth / 3 : Int) : Rat) = w at *
    refine ⟨?_, ?_, ?_, ?_⟩ <;> simp only <;> push_cast
    · rw [le_div_iff₀ hw]; nlinarith
    · rw [div_le_iff₀ hw]; nlinarith
    · rw [le_div_iff₀ hw]; nlinarith
    · rw [div_le_iff₀ hw]; nlinarith

theorem only_shapes : ∀ (l : List DrawOp), (∀ op ∈ l, ∃ a b c, op = .shape a b c) → l = (shapeCalls l).map fun a => DrawOp.shape a.1 a.2.1 a.2.2
  | [], _ => rfl
  | op :: l, h => by
    obtain ⟨a, b, c, rfl⟩ := h op List.mem_cons_self
    have := only_shapes l fun op hop => h op (List.mem_cons_of_mem _ hop)
    change _ = DrawOp.shape a b c :: (shapeCalls l).map _
    rw [← this]

theorem moduleOps_only {scale w h dim bm safe lw lh o x y v} : ∀ op ∈ moduleOps scale w h dim bm safe lw lh o x y v, ∃ a b c, op = .shape a b c := by
  intro op hop
  unfold moduleOps at hop
  split at hop
  · cases hop
  · split at hop
    · rw [List.mem_singleton] at hop; exact ⟨_, _, _, hop⟩
    · split at hop
      · unfold subOps at hop
        obtain ⟨s, _, hop⟩ := List.mem_flatMap.1 hop
        obtain ⟨t, _, rfl⟩ := List.mem_map.1 hop
        exact ⟨_, _, _, rfl⟩
      · rw [List.mem_singleton] at hop; exact ⟨_, _, _, hop⟩

/-- The picture with a halftone image. -/
theorem halftone_picture (scale : Scaler) {cov : Coverage} (hcov : Rasters cov) (blend : Blend) {put : Put} (hput : PutsOver put) (direction : Rat → Rat × Rat)
    (assembled : Nat → DrawFn × DrawFn) {o : Opts} (hS : SubPixels o (meaning assembled o.getShape)) (hbold : (meaning assembled o.getShape).bold)
    {himg : Image} (hht : o.halftone = some himg)
    (hcol : Contrast o) (hg : ∀ g, o.qrGradient = some g → GradientContrast o g) {m : Matrix} (hsq : m.width = m.height)
    (hb : 0 ≤ o.borders.top ∧ 0 ≤ o.borders.right ∧ 0 ≤ o.borders.bottom ∧ 0 ≤ o.borders.left) (hpos : 0 < m.width)
    (hl : ∀ img, o.logo = some img → logoValid o m = true → img.minX = 0 ∧ img.minY = 0) :
    CentrePicture scale cov blend put direction assembled o m := by
  have hw : 10 ≤ o.qrBlockWidth := by have := hS.1; omega
  obtain ⟨ops, o1, bm, hd, hM, hcalls⟩ := halftone_calls scale hsq hht
  obtain ⟨bm', hbm', _⟩ := mask_any (o := o) hsq
  obtain ⟨o', he⟩ : ∃ o', draw scale o m = some (bodyOps scale o m bm' ++ tailOps o m, o') := by
    obtain ⟨o', _, he⟩ := draw_eq scale o m hbm'
    exact ⟨o', he⟩
  have hops : ops = bodyOps scale o m bm' ++ tailOps o m := by
    rw [hd] at he
    exact congrArg Prod.fst (Option.some.inj he)
  generalize hl0 : (m.iterate .row).flatMap (fun a => moduleOps scale (canvasW o m) (canvasH o m) m.width bm' (safeOn o m) (logoW o m)
          (logoH o m) o a.1 a.2.1 a.2.2) = l0
  have hsc : shapeCalls ops = shapeCalls l0 := by
    rw [hops]
    unfold bodyOps
    rw [hl0, shapeCalls_append, shapeCalls_append, (tail_shapes o m).1, List.append_nil]
    rfl
  have hl0' := only_shapes l0 (fun op hop => by
    rw [← hl0] at hop
    obtain ⟨a, _, hop⟩ := List.mem_flatMap.1 hop
    exact moduleOps_only op hop)
  rw [hsc] at hcalls
  have hpx := fun x y => module_pixels (assembled := assembled) hw hbold hM x y
  have hbody : bodyOps scale o m bm' = headOps o m ++ (shapeCalls l0).map fun a => DrawOp.shape a.1 a.2.1 a.2.2 := by
    unfold bodyOps headOps
    rw [hl0, ← hl0']
  rw [hbody] at he
  obtain ⟨cv, h1, h2, h3, h4⟩ := calls_body hcov blend (plainGradient put direction) (fun sh => (meaning assembled sh).cmds) hw hcol hsq hb hpos (fun a ha => by
    obtain ⟨x, y, _, _, _, ⟨_, s, t, _, _, rfl⟩ | ⟨_, rfl⟩⟩ := (hcalls a).1 ha
    · obtain ⟨u, _, h, _⟩ := sub_unit hS.subBlocks scale m himg x y s t
      exact h
    · exact (hpx x y).1)
  refine picture_of_body blend (meaning assembled o.getShape) (fun sh => (meaning assembled sh).cmds) hw hcol (fun g h => plain_keeps hcol (hg g h) hput direction) he h1 h2 h3 (fun x y px py hx hy hat hok => h4 x y px py hx hy hat (fun a ha => ?_) (fun hbit => ?_)) hl
  · obtain ⟨x', y', _, _, _, ⟨_, s, t, g1, g2, rfl⟩ | ⟨_, rfl⟩⟩ := (hcalls a).1 ha
    · intro path hp f hf p hcl hc
      obtain ⟨rfl, rfl, rfl, rfl⟩ := sub_touched hS g1 g2 hat hcl (painted_fills hp hf hc)
      simp only [subCtx, and_self, if_true]
    · exact (hpx x' y').2.1 x y px py hat
  · obtain ⟨g1, g2⟩ := hok hbit
    by_cases hdt : (m.raw x y).ty = .data
    · obtain ⟨path, hp, f, hf, hc⟩ := sub_covers hS hbold scale m himg x y hat
      exact ⟨_, (hcalls _).2 ⟨x, y, hx, hy, drawn_of g1, .inl ⟨hdt, 1, 1, by omega, by omega, rfl⟩⟩, path, hp, f, hf, hc⟩
    · obtain ⟨path, hp, f, hf, hc⟩ := (hpx x y).2.2 px py hat hx hy hbit g2
      exact ⟨_, (hcalls _).2 ⟨x, y, hx, hy, drawn_of g1, .inr ⟨hdt, rfl⟩⟩, path, hp, f, hf, hc⟩

/-- **C84.**  Text, halftone picture, text: rectangles in blocks of at least 12 pixels (or another shape that is not too thin and needs no flag, in blocks of at least 30 pixels whose width is a
multiple of three), borders that are not negative, colours that can be told apart, with or without a gradient, no logo (or one that is too large): drawing succeeds, and a scanner that looks at one pixel
at the centre of every block reads exactly the text, whatever the halftone image shows. -/
theorem C84_halftone {E : Ext} {unsjis : Nat → Option Nat} (hE : E.Ok unsjis) {c : AlignCache} (hc : CacheReachable c)
    {arrival : List Nat} (ha : Arrival arrival) {t : TextType} {text : Bytes} {opts : List EncodeOption} {q : QRCode}
    (h : newWith E c arrival t text opts = .ok q)
    (hx : ¬ (modeIn opts = encAuto ∧ AlnumThenKanji E.sjis (nats text)))
    (scale : Scaler) {cov : Coverage} (hcov : Rasters cov) (blend : Blend) {put : Put} (hput : PutsOver put) (direction : Rat → Rat × Rat)
    (assembled : Nat → DrawFn × DrawFn) {o : Opts} {himg : Image} (hht : o.halftone = some himg)
    (hS : SubPixels o (meaning assembled o.getShape)) (hbold : (meaning assembled o.getShape).bold)
    (hcol : Contrast o) (hg : ∀ g, o.qrGradient = some g → GradientContrast o g)
    (hb : 0 ≤ o.borders.top ∧ 0 ≤ o.borders.right ∧ 0 ≤ o.borders.bottom ∧ 0 ≤ o.borders.left)
    (hl : ∀ img, o.logo = some img → ¬ (o.logoSizeMultiplier * (img.maxX - img.minX) ≤ (o.attribute q.dimension).w ∧
      o.logoSizeMultiplier * (img.maxY - img.minY) ≤ (o.attribute q.dimension).h)) :
    ∃ ops o' cv, draw scale o q.mat = some (ops, o') ∧ paintAllShapes cov (meaning assembled) blend put direction ops = some cv ∧
      ∀ pt, AtCentres o q.dimension pt → decode unsjis (seenInk o q.dimension cv pt) = some (nats text) := by
  obtain ⟨hmw, hmh⟩ := mat_size hE hc ha h
  have hd : 0 < q.dimension := by obtain ⟨v, _, hd, _⟩ := C11_dimension hE hc ha h; omega
  exact text_of_picture hE hc ha h hx (halftone_picture scale hcov blend hput direction assembled hS hbold hht hcol hg (hmw.trans hmh.symm) hb (by omega)
    (fun img hi hv => absurd (logoValid_iff hmw hmh hi |>.1 hv) (hl img hi))) hl

/-- **C84, with a logo** as in C69, for a scanner that corrects errors, with or without a safe zone. -/
theorem C84_halftone_logo {E : Ext} {unsjis : Nat → Option Nat} (hE : E.Ok unsjis) (hRS : E.rs = rsEncode) {c : AlignCache} (hc : CacheReachable c)
    {arrival : List Nat} (ha : Arrival arrival) {t : TextType} {text : Bytes} {opts : List EncodeOption} {q : QRCode}
    (h : newWith E c arrival t text opts = .ok q)
    (hx : ¬ (modeIn opts = encAuto ∧ AlnumThenKanji E.sjis (nats text)))
    {v : Nat} (hv : q.dimension = 17 + 4 * v)
    (hlv : ¬ (levelIn opts = .L ∧ v ∈ [1, 2, 3, 4, 5, 6, 36] ∨ levelIn opts = .M ∧ v ∈ [2, 4]))
    (scale : Scaler) {cov : Coverage} (hcov : Rasters cov) (blend : Blend) {put : Put} (hput : PutsOver put) (direction : Rat → Rat × Rat)
    (assembled : Nat → DrawFn × DrawFn) {o : Opts} {himg : Image} (hht : o.halftone = some himg)
    (hS : SubPixels o (meaning assembled o.getShape)) (hbold : (meaning assembled o.getShape).bold)
    (hcol : Contrast o) (hg : ∀ g, o.qrGradient = some g → GradientContrast o g)
    (hbx : 0 ≤ o.borders.left ∧ o.borders.left ≤ 2 * o.qrBlockWidth ∧ o.borders.right = o.borders.left)
    (hby : 0 ≤ o.borders.top ∧ o.borders.top ≤ 2 * o.qrBlockWidth ∧ o.borders.bottom = o.borders.top)
    {img : Image} (hl : o.logo = some img) (hmin : img.minX = 0 ∧ img.minY = 0) (hmax : 0 ≤ img.maxX ∧ 0 ≤ img.maxY)
    (hk : 5 ≤ o.logoSizeMultiplier) :
    ∃ ops o' cv, draw scale o q.mat = some (ops, o') ∧ paintAllShapes cov (meaning assembled) blend put direction ops = some cv ∧
      ∀ pt, AtCentres o q.dimension pt → decodeDamaged unsjis (seenInk o q.dimension cv pt) = some (nats text) := by
  obtain ⟨hmw, hmh⟩ := mat_size hE hc ha h
  exact text_of_picture_logo hE hRS hc ha h hx hv hlv (halftone_picture scale hcov blend hput direction assembled hS hbold hht hcol hg (m := q.mat) (hmw.trans hmh.symm) (by omega)
    (by omega) (fun i hi _ => by rw [hl] at hi; cases hi; exact hmin)) hbx hby hl hmin hmax hk

/-- The hypotheses of C84 are met: the default options (rectangles, blocks of 20 pixels) with any halftone image; and liquid blocks in blocks of 30 pixels. -/
example (himg : Image) :
    (let o : Opts := { defaultOpts with halftone := some himg }
     SubPixels o (meaning (fun _ => (.roundedFinder, .liquidBlock)) o.getShape) ∧ (meaning (fun _ => (.roundedFinder, .liquidBlock)) o.getShape).bold) ∧
    (let o : Opts := { defaultOpts with halftone := some himg, qrWidth := 30, shape := some (.custom 0) }
     SubPixels o (meaning (fun _ => (.roundedFinder, .liquidBlock)) o.getShape) ∧ (meaning (fun _ => (.roundedFinder, .liquidBlock)) o.getShape).bold) := by
  have d5 : (12 : Int) ≤ defaultOpts.qrBlockWidth := by decide
  exact ⟨⟨⟨d5, .inl rfl⟩, trivial⟩, ⟨⟨by show (12 : Int) ≤ 30; decide, .inr ⟨by show (30 : Int) ≤ 30; decide, by show (30 : Int) % 3 = 0; decide, rfl⟩⟩, ⟨trivial, trivial⟩⟩⟩

end QR.Standard
