import Verif.Props.Standard
/-!
# C44, C54, C56: options of the standard writer, reuse of a writer, logos
-/
namespace QR.Standard
open QR Matrix

/-! ## C44: the meaning of a list of options

For every setting, a table of what each option asks for; the writer uses the last request. -/

/-- The documented forms of `WithBorderWidth` (three numbers count as two, more than four as the first four); the default is 40. -/
def askedBorders : ImgOpt → Option Borders
  | .borderWidth [] => some ⟨40, 40, 40, 40⟩
  | .borderWidth [a] => some { top := a, right := a, bottom := a, left := a }
  | .borderWidth [a, b] => some { top := a, right := b, bottom := a, left := b }
  | .borderWidth [a, b, _] => some { top := a, right := b, bottom := a, left := b }
  | .borderWidth (a :: b :: c :: d :: _) => some { top := a, right := b, bottom := c, left := d }
  | _ => none

/-- `WithQRWidth(w)`; 0 means 20. -/
def askedBlock : ImgOpt → Option Int
  | .qrWidth w => some (if w = 0 then 20 else w.toNat)
  | _ => none

/-- Foreground: a colour that is not nil, or a hexadecimal one. -/
def askedFg : ImgOpt → Option RGBA
  | .fgColor (some c) => some (parseFromColor c)
  | .fgHex s => parseFromHex s
  | _ => none

/-- Background: a colour that is not nil, or a hexadecimal one that is not empty. -/
def askedBg : ImgOpt → Option RGBA
  | .bgColor (some c) => some (parseFromColor c)
  | .bgHex s => if s = [] then none else parseFromHex s
  | _ => none

/-- A gradient that is not nil and has stops. -/
def askedGradient : ImgOpt → Option LinearGradient
  | .fgGradient (some g) => if g.stops = [] then none else some g
  | _ => none

/-- A logo that is not nil and can be read. -/
def askedLogo : ImgOpt → Option Image
  | .logo i => i
  | .logoFile i => i
  | _ => none

/-- The shape; a nil shape asks for rectangles. -/
def askedShape : ImgOpt → Option Shape
  | .circleShape => some .circle
  | .customShape none => some .rectangle
  | .customShape (some s) => some s
  | _ => none

/-- The encoder: JPEG (0), PNG (1), or a custom one that is not nil. -/
def askedEncoder : ImgOpt → Option Encoder
  | .builtinEncoder f => if f = 0 then some .jpeg else if f = 1 then some .png else none
  | .customEncoder (some k) => some (.custom k)
  | _ => none

/-- The halftone image (outside: asked at all; inside: nil removes it). -/
def askedHalftone : ImgOpt → Option (Option Image)
  | .halftoneFile (some i) => some (some i)
  | .halftoneImage i => some i
  | _ => none

def askedMultiplier : ImgOpt → Option Int
  | .logoSizeMultiplier n => some n
  | _ => none

def askedTransparent : ImgOpt → Option Bool
  | .bgTransparent => some true
  | _ => none

def askedSafeZone : ImgOpt → Option Bool
  | .logoSafeZone => some true
  | _ => none

/-- The last request in a list of options. -/
def lastAsked {α : Type} (asked : ImgOpt → Option α) (opts : List ImgOpt) : Option α := opts.reverse.findSome? asked

theorem last_wins {α : Type} (proj : Opts → α) (asked : ImgOpt → Option α)
    (h : ∀ o x o', apply o x = some o' → proj o' = (asked x).getD (proj o)) :
    ∀ (opts : List ImgOpt) (o o' : Opts), opts.foldlM apply o = some o' → proj o' = (lastAsked asked opts).getD (proj o) := by
  intro opts
  induction opts with
  | nil => intro o o' e; simp only [List.foldlM_nil, Option.pure_def, Option.some.injEq] at e; rw [← e]; rfl
  | cons x opts ih =>
    intro o o' e
    rw [List.foldlM_cons] at e
    cases hx : apply o x with
    | none => rw [hx] at e; cases e
    | some o1 =>
      rw [hx] at e
      have := ih o1 o' e
      rw [this, h o x o1 hx]
      unfold lastAsked
      rw [List.reverse_cons, List.findSome?_append]
      cases opts.reverse.findSome? asked with
      | some v => rfl
      | none =>
        simp only [List.findSome?_cons, List.findSome?_nil, Option.none_or]
        cases asked x <;> rfl

/-- An option that makes the constructor panic: a hexadecimal colour that does not parse, an unknown format. -/
def Panics : ImgOpt → Prop
  | .fgHex s => parseFromHex s = none
  | .bgHex s => s ≠ [] ∧ parseFromHex s = none
  | .builtinEncoder f => f ≠ 0 ∧ f ≠ 1
  | _ => False

theorem apply_none (o : Opts) (x : ImgOpt) : apply o x = none ↔ Panics x := by
  cases x with
  | bgColor c => cases c <;> simp [apply, Panics]
  | fgColor c => cases c <;> simp [apply, Panics]
  | bgHex s =>
    simp only [apply, Panics]
    split
    · simp [*]
    · cases parseFromHex s <;> simp [*]
  | fgHex s => simp only [apply, Panics]; cases parseFromHex s <;> simp
  | fgGradient g =>
    cases g with
    | none => simp [apply, Panics]
    | some g => simp only [apply, Panics]; split <;> simp
  | logo i => cases i <;> simp [apply, Panics]
  | logoFile i => cases i <;> simp [apply, Panics]
  | builtinEncoder f =>
    simp only [apply, Panics]
    split
    · simp [*]
    · split <;> simp [*]
  | customEncoder k => cases k <;> simp [apply, Panics]
  | halftoneFile i => cases i <;> simp [apply, Panics]
  | _ => simp [apply, Panics]

/-- **C44, panics.**  Making a writer panics exactly if the writer is nil or one of the options panics. -/
theorem C44_panics (nilWriter : Bool) (opts : List ImgOpt) :
    newWithWriter nilWriter opts = none ↔ nilWriter = true ∨ ∃ x ∈ opts, Panics x := by
  have key : ∀ (opts : List ImgOpt) (o : Opts), opts.foldlM apply o = none ↔ ∃ x ∈ opts, Panics x := by
    intro opts
    induction opts with
    | nil => intro o; simp
    | cons x opts ih =>
      intro o
      rw [List.foldlM_cons]
      cases hx : apply o x with
      | none =>
        have := (apply_none o x).1 hx
        simp [this]
      | some o1 =>
        have hn : ¬ Panics x := fun hc => by rw [(apply_none o x).2 hc] at hx; cases hx
        have := ih o1
        simp only [Option.bind_eq_bind, Option.bind_some, this, List.mem_cons, exists_eq_or_imp, hn, false_or]
  unfold newWithWriter
  cases h : opts.foldlM apply defaultOpts with
  | none => simp [(key opts defaultOpts).1 h]
  | some o =>
    have hn : ¬ ∃ x ∈ opts, Panics x := fun hc => by rw [(key opts defaultOpts).2 hc] at h; cases h
    cases nilWriter <;> simp [hn]

/-- **C44.**  For every list of options that does not panic, every setting of the writer is the one the last option that asks for
it has asked for, or else the default: white background, black foreground, no gradient, no logo, no halftone, blocks of 20 pixels,
rectangles, JPEG, borders of 40 pixels, a logo of at most a fifth, no transparency and no safe zone.  `Attribute` reports the
borders and the block width. -/
theorem C44_options (opts : List ImgOpt) {o : Opts} (h : newWithWriter false opts = some o) :
    o.borders = (lastAsked askedBorders opts).getD ⟨40, 40, 40, 40⟩ ∧
    o.qrBlockWidth = (lastAsked askedBlock opts).getD 20 ∧
    o.qrColor = (lastAsked askedFg opts).getD ⟨0, 0, 0, 255⟩ ∧
    o.bgColor = (lastAsked askedBg opts).getD ⟨255, 255, 255, 255⟩ ∧
    o.bgTransparent = (lastAsked askedTransparent opts).getD false ∧
    o.qrGradient = lastAsked askedGradient opts ∧
    o.logo = lastAsked askedLogo opts ∧
    o.logoSizeMultiplier = (lastAsked askedMultiplier opts).getD 5 ∧
    o.logoSafeZone = (lastAsked askedSafeZone opts).getD false ∧
    o.getShape = (lastAsked askedShape opts).getD .rectangle ∧
    o.imageEncoder = (lastAsked askedEncoder opts).getD .jpeg ∧
    o.halftone = (lastAsked askedHalftone opts).getD none ∧
    ∀ d, (o.attribute d).borders = (lastAsked askedBorders opts).getD ⟨40, 40, 40, 40⟩ ∧
      (o.attribute d).blockWidth = (lastAsked askedBlock opts).getD 20 := by
  have hf : opts.foldlM apply defaultOpts = some o := by
    unfold newWithWriter at h
    cases hh : opts.foldlM apply defaultOpts with
    | none => rw [hh] at h; cases h
    | some o1 => rw [hh] at h; simpa using h
  have step : ∀ {o : Opts} {x : ImgOpt} {o' : Opts}, apply o x = some o' →
      o'.borders = (askedBorders x).getD o.borders ∧ o'.qrBlockWidth = (askedBlock x).getD o.qrBlockWidth ∧
      o'.qrColor = (askedFg x).getD o.qrColor ∧ o'.bgColor = (askedBg x).getD o.bgColor ∧
      o'.bgTransparent = (askedTransparent x).getD o.bgTransparent ∧
      o'.qrGradient = ((askedGradient x).map some).getD o.qrGradient ∧
      o'.logo = ((askedLogo x).map some).getD o.logo ∧
      o'.logoSizeMultiplier = (askedMultiplier x).getD o.logoSizeMultiplier ∧
      o'.logoSafeZone = (askedSafeZone x).getD o.logoSafeZone ∧
      o'.getShape = (askedShape x).getD o.getShape ∧
      o'.imageEncoder = (askedEncoder x).getD o.imageEncoder ∧
      o'.halftone = (askedHalftone x).getD o.halftone := by
    intro o x o' e
    cases x with
    | bgColor c => cases c <;> (simp only [apply, Option.some.injEq] at e; subst e; simp [askedBorders, askedBlock, askedFg, askedBg, askedTransparent, askedGradient, askedLogo, askedMultiplier, askedSafeZone, askedShape, askedEncoder, askedHalftone, Opts.qrBlockWidth, Opts.getShape])
    | fgColor c => cases c <;> (simp only [apply, Option.some.injEq] at e; subst e; simp [askedBorders, askedBlock, askedFg, askedBg, askedTransparent, askedGradient, askedLogo, askedMultiplier, askedSafeZone, askedShape, askedEncoder, askedHalftone, Opts.qrBlockWidth, Opts.getShape])
    | bgHex s =>
      simp only [apply] at e
      split at e
      · rename_i hs; simp only [Option.some.injEq] at e; subst e
        simp [askedBorders, askedBlock, askedFg, askedBg, askedTransparent, askedGradient, askedLogo, askedMultiplier, askedSafeZone, askedShape, askedEncoder, askedHalftone, Opts.qrBlockWidth, Opts.getShape, hs]
      · rename_i hs
        cases hp : parseFromHex s with
        | none => rw [hp] at e; cases e
        | some c =>
          rw [hp] at e; simp only [Option.map_some, Option.some.injEq] at e; subst e
          simp [askedBorders, askedBlock, askedFg, askedBg, askedTransparent, askedGradient, askedLogo, askedMultiplier, askedSafeZone, askedShape, askedEncoder, askedHalftone, Opts.qrBlockWidth, Opts.getShape, hs, hp]
    | fgHex s =>
      simp only [apply] at e
      cases hp : parseFromHex s with
      | none => rw [hp] at e; cases e
      | some c =>
        rw [hp] at e; simp only [Option.map_some, Option.some.injEq] at e; subst e
        simp [askedBorders, askedBlock, askedFg, askedBg, askedTransparent, askedGradient, askedLogo, askedMultiplier, askedSafeZone, askedShape, askedEncoder, askedHalftone, Opts.qrBlockWidth, Opts.getShape, hp]
    | fgGradient g =>
      cases g with
      | none => simp only [apply, Option.some.injEq] at e; subst e; simp [askedBorders, askedBlock, askedFg, askedBg, askedTransparent, askedGradient, askedLogo, askedMultiplier, askedSafeZone, askedShape, askedEncoder, askedHalftone, Opts.qrBlockWidth, Opts.getShape]
      | some g =>
        simp only [apply] at e
        split at e
        · rename_i hs; simp only [Option.some.injEq] at e; subst e
          simp [askedBorders, askedBlock, askedFg, askedBg, askedTransparent, askedGradient, askedLogo, askedMultiplier, askedSafeZone, askedShape, askedEncoder, askedHalftone, Opts.qrBlockWidth, Opts.getShape, hs]
        · rename_i hs; simp only [Option.some.injEq] at e; subst e
          simp [askedBorders, askedBlock, askedFg, askedBg, askedTransparent, askedGradient, askedLogo, askedMultiplier, askedSafeZone, askedShape, askedEncoder, askedHalftone, Opts.qrBlockWidth, Opts.getShape, hs]
    | logo c => cases c <;> (simp only [apply, Option.some.injEq] at e; subst e; simp [askedBorders, askedBlock, askedFg, askedBg, askedTransparent, askedGradient, askedLogo, askedMultiplier, askedSafeZone, askedShape, askedEncoder, askedHalftone, Opts.qrBlockWidth, Opts.getShape])
    | logoFile c => cases c <;> (simp only [apply, Option.some.injEq] at e; subst e; simp [askedBorders, askedBlock, askedFg, askedBg, askedTransparent, askedGradient, askedLogo, askedMultiplier, askedSafeZone, askedShape, askedEncoder, askedHalftone, Opts.qrBlockWidth, Opts.getShape])
    | customShape c => cases c <;> (simp only [apply, Option.some.injEq] at e; subst e; simp [askedBorders, askedBlock, askedFg, askedBg, askedTransparent, askedGradient, askedLogo, askedMultiplier, askedSafeZone, askedShape, askedEncoder, askedHalftone, Opts.qrBlockWidth, Opts.getShape])
    | customEncoder c => cases c <;> (simp only [apply, Option.some.injEq] at e; subst e; simp [askedBorders, askedBlock, askedFg, askedBg, askedTransparent, askedGradient, askedLogo, askedMultiplier, askedSafeZone, askedShape, askedEncoder, askedHalftone, Opts.qrBlockWidth, Opts.getShape])
    | halftoneFile c => cases c <;> (simp only [apply, Option.some.injEq] at e; subst e; simp [askedBorders, askedBlock, askedFg, askedBg, askedTransparent, askedGradient, askedLogo, askedMultiplier, askedSafeZone, askedShape, askedEncoder, askedHalftone, Opts.qrBlockWidth, Opts.getShape])
    | builtinEncoder f =>
      simp only [apply] at e
      split at e
      · rename_i hf; simp only [Option.some.injEq] at e; subst e
        simp [askedBorders, askedBlock, askedFg, askedBg, askedTransparent, askedGradient, askedLogo, askedMultiplier, askedSafeZone, askedShape, askedEncoder, askedHalftone, Opts.qrBlockWidth, Opts.getShape, hf]
      · split at e
        · rename_i hf hf'; simp only [Option.some.injEq] at e; subst e
          simp [askedBorders, askedBlock, askedFg, askedBg, askedTransparent, askedGradient, askedLogo, askedMultiplier, askedSafeZone, askedShape, askedEncoder, askedHalftone, Opts.qrBlockWidth, Opts.getShape, hf']
        · cases e
    | qrWidth w =>
      simp only [apply, Option.some.injEq] at e; subst e
      have hw : (({ o with qrWidth := (w.toNat : Int) } : Opts).qrBlockWidth) = if w = 0 then 20 else (w.toNat : Int) := by
        unfold Opts.qrBlockWidth
        simp only
        have := w.toNat_lt
        by_cases hw : w = 0
        · subst hw; rfl
        · have : w.toNat ≠ 0 := fun hc => hw (UInt8.toNat_inj.1 hc)
          rw [if_neg (by omega), if_neg hw]
      refine ⟨rfl, hw, rfl, rfl, rfl, rfl, rfl, rfl, rfl, rfl, rfl, rfl⟩
    | borderWidth ws =>
      simp only [apply, Option.some.injEq] at e; subst e
      refine ⟨?_, rfl, rfl, rfl, rfl, rfl, rfl, rfl, rfl, rfl, rfl, rfl⟩
      match ws with
      | [] => rfl
      | [a] => rfl
      | [a, b] => rfl
      | [a, b, c] => rfl
      | a :: b :: c :: d :: l => rfl
    | _ => simp only [apply, Option.some.injEq] at e; subst e; simp [askedBorders, askedBlock, askedFg, askedBg, askedTransparent, askedGradient, askedLogo, askedMultiplier, askedSafeZone, askedShape, askedEncoder, askedHalftone, Opts.qrBlockWidth, Opts.getShape]
  have h1 := last_wins (·.borders) askedBorders (fun o x o' e => (step e).1) opts defaultOpts o hf
  have h2 := last_wins Opts.qrBlockWidth askedBlock (fun o x o' e => (step e).2.1) opts defaultOpts o hf
  have h3 := last_wins (·.qrColor) askedFg (fun o x o' e => (step e).2.2.1) opts defaultOpts o hf
  have h4 := last_wins (·.bgColor) askedBg (fun o x o' e => (step e).2.2.2.1) opts defaultOpts o hf
  have h5 := last_wins (·.bgTransparent) askedTransparent (fun o x o' e => (step e).2.2.2.2.1) opts defaultOpts o hf
  have h6 := last_wins (·.qrGradient) (fun x => (askedGradient x).map some) (fun o x o' e => (step e).2.2.2.2.2.1) opts defaultOpts o hf
  have h7 := last_wins (·.logo) (fun x => (askedLogo x).map some) (fun o x o' e => (step e).2.2.2.2.2.2.1) opts defaultOpts o hf
  have h8 := last_wins (·.logoSizeMultiplier) askedMultiplier (fun o x o' e => (step e).2.2.2.2.2.2.2.1) opts defaultOpts o hf
  have h9 := last_wins (·.logoSafeZone) askedSafeZone (fun o x o' e => (step e).2.2.2.2.2.2.2.2.1) opts defaultOpts o hf
  have h10 := last_wins Opts.getShape askedShape (fun o x o' e => (step e).2.2.2.2.2.2.2.2.2.1) opts defaultOpts o hf
  have h11 := last_wins (·.imageEncoder) askedEncoder (fun o x o' e => (step e).2.2.2.2.2.2.2.2.2.2.1) opts defaultOpts o hf
  have h12 := last_wins (·.halftone) askedHalftone (fun o x o' e => (step e).2.2.2.2.2.2.2.2.2.2.2) opts defaultOpts o hf
  have optm : ∀ {α : Type} (f : ImgOpt → Option α), (lastAsked (fun x => (f x).map some) opts).getD none = lastAsked f opts := by
    intro α f
    unfold lastAsked
    generalize opts.reverse = l
    induction l with
    | nil => rfl
    | cons x l ih =>
      rw [List.findSome?_cons, List.findSome?_cons]
      cases f x with
      | none => exact ih
      | some v => rfl
  refine ⟨h1, h2, h3, h4, h5, ?_, ?_, h8, h9, h10, h11, h12, fun d => ⟨h1, h2⟩⟩
  · exact Eq.trans h6 (optm askedGradient)
  · exact Eq.trans h7 (optm askedLogo)

/-- A list of options: the second border wins, nil colours are ignored, a nil shape is the rectangle. -/
example : ((newWithWriter false [.borderWidth [1, 2], .qrWidth 0, .fgColor none, .circleShape, .borderWidth [7], .customShape none]).map
    fun o => (o.borders, o.qrBlockWidth, o.qrColor, o.getShape)) = some (⟨7, 7, 7, 7⟩, 20, ⟨0, 0, 0, 255⟩, .rectangle) := by decide +kernel

/-! ## C54: using a writer again -/

/-- The options after drawing the symbols of a list one after another; `none` if one of them panics. -/
def afterDrawing (scale : Scaler) (o : Opts) (ms : List Matrix) : Option Opts := ms.foldlM (fun o m => (draw scale o m).map (·.2)) o

theorem Sim.trans {a b c : Opts} (h1 : Sim a b) (h2 : Sim b c) : Sim a c := by
  obtain ⟨e1, t1⟩ := h1
  obtain ⟨e2, t2⟩ := h2
  have ht : b.bgTransparent = a.bgTransparent := by rw [e1]
  refine ⟨?_, fun h => ?_⟩
  · rw [e2, e1]
  · rw [t2 (ht.trans h), t1 h]

theorem afterDrawing_sim (scale : Scaler) : ∀ (ms : List Matrix) (o : Opts), (∀ m ∈ ms, m.width = m.height) →
    ∃ o', afterDrawing scale o ms = some o' ∧ Sim o o' := by
  intro ms
  induction ms with
  | nil => intro o _; exact ⟨o, rfl, Sim.refl o⟩
  | cons m ms ih =>
    intro o h
    obtain ⟨bm, hbm⟩ := maskBitmap_some (o := o) (m := m) (Or.inl (h m (by simp)))
    obtain ⟨o1, hs, he⟩ := draw_eq scale o m hbm
    obtain ⟨o2, e2, hs2⟩ := ih o1 (fun m' hm => h m' (by simp [hm]))
    refine ⟨o2, ?_, hs.trans hs2⟩
    unfold afterDrawing at e2 ⊢
    rw [List.foldlM_cons, he]
    exact e2

/-- **C54, what holds.**  Without a transparent background, after drawing any list of (square) symbols the writer draws the next
one exactly as a new writer with the same options would. -/
theorem C54_reuse_partial (scale : Scaler) {o : Opts} (ht : o.bgTransparent = false) (ms : List Matrix) (h : ∀ m ∈ ms, m.width = m.height)
    (m : Matrix) : ∃ o', afterDrawing scale o ms = some o' ∧ draw scale o' m = draw scale o m := by
  obtain ⟨o', e, hs⟩ := afterDrawing_sim scale ms o h
  refine ⟨o', e, ?_⟩
  have : o' = o := by
    rw [hs.eq, hs.bg ht]
  rw [this]

/-- **C54, transparent background.**  All calls but the one that fills the background are the same. -/
theorem C54_reuse_transparent (scale : Scaler) {o : Opts} (ms : List Matrix) (h : ∀ m ∈ ms, m.width = m.height) (m : Matrix)
    (hm : m.width = m.height) : ∃ o' ops ops' o1 o1', afterDrawing scale o ms = some o' ∧ draw scale o m = some (ops, o1) ∧
      draw scale o' m = some (ops', o1') ∧ ops'.take 1 = ops.take 1 ∧ ops'.drop 2 = ops.drop 2 := by
  obtain ⟨o', e, hs⟩ := afterDrawing_sim scale ms o h
  obtain ⟨bm, hbm⟩ := maskBitmap_some (o := o) (m := m) (Or.inl hm)
  obtain ⟨o1, hs1, he⟩ := draw_eq scale o m hbm
  have hbm' : maskBitmap o' m = some bm := by rw [← hbm, hs.eq]; rfl
  obtain ⟨o1', hs1', he'⟩ := draw_eq scale o' m hbm'
  refine ⟨o', _, _, o1, o1', e, he, he', ?_, ?_⟩
  · rw [hs.eq]; rfl
  · simp only [List.cons_append, List.nil_append, List.drop_succ_cons, List.drop_zero]
    have hc : ∀ v, moduleColor o' v = moduleColor o v := by
      intro v
      unfold moduleColor
      have e1 : o'.qrColor = o.qrColor := by rw [hs.eq]
      have e2 : o'.bgTransparent = o.bgTransparent := by rw [hs.eq]
      rw [e1, e2]
      cases ht : o.bgTransparent
      · rw [hs.bg ht]
      · rfl
    have hx : ∀ x y v, moduleCtx o' bm x y v = moduleCtx o bm x y v := by
      intro x y v
      unfold moduleCtx
      rw [hc]
      rw [hs.eq]
      rfl
    have hops : (fun a : Nat × Nat × QRValue => moduleOps scale (canvasW o' m) (canvasH o' m) m.width bm (safeOn o' m) (logoW o' m)
          (logoH o' m) o' a.1 a.2.1 a.2.2) =
        (fun a => moduleOps scale (canvasW o m) (canvasH o m) m.width bm (safeOn o m) (logoW o m)
          (logoH o m) o a.1 a.2.1 a.2.2) := by
      funext a
      unfold moduleOps subOps
      simp only [hx, hc]
      rw [hs.eq]
      rfl
    rw [hops, hs.eq]
    rfl

/-- A symbol with one light module. -/
def lightM : Matrix := ⟨1, 1, [[DATA_V0]]⟩

/-- **C54 is false with a transparent background**: the first picture of a light module is white with alpha 0, the second one black
with alpha 0 (an encoder that ignores alpha, like JPEG, shows the difference). -/
theorem C54_counterexample : let o := { defaultOpts with bgTransparent := true, qrWidth := 1, borders := ⟨0, 0, 0, 0⟩ }
    let first := draw (fun _ _ _ _ => (0, 0, 0, 0)) o lightM
    let second := (afterDrawing (fun _ _ _ _ => (0, 0, 0, 0)) o [lightM]).bind fun o' => draw (fun _ _ _ _ => (0, 0, 0, 0)) o' lightM
    ((first.bind fun r => paintAll r.1).map fun c => c.pix 0 0) = some ⟨255, 255, 255, 0⟩ ∧
    ((second.bind fun r => paintAll r.1).map fun c => c.pix 0 0) = some ⟨0, 0, 0, 0⟩ := by
  decide +kernel

/-! ## C56: logos -/

/-- **C56.**  For every square symbol and all options: the logo is drawn exactly if `multiplier` times its width and height fit into
the picture; then it is drawn once, after everything else, in the centre (to half a pixel).  With a multiplier of at least 1 (the
default is 5) and a logo with ordinary bounds it lies entirely inside the picture and takes at most `1 / multiplier` of its width and
height. -/
theorem C56_logo (scale : Scaler) {o : Opts} {m : Matrix} {dim : Nat} (hw : m.width = dim) (hh : m.height = dim) :
    ∃ ops o', draw scale o m = some (ops, o') ∧
      (o.logo = none → images ops = []) ∧
      ∀ img, o.logo = some img →
        let lw := img.maxX - img.minX
        let lh := img.maxY - img.minY
        let W := (o.attribute dim).w
        let H := (o.attribute dim).h
        (¬ (o.logoSizeMultiplier * lw ≤ W ∧ o.logoSizeMultiplier * lh ≤ H) → images ops = []) ∧
        (o.logoSizeMultiplier * lw ≤ W ∧ o.logoSizeMultiplier * lh ≤ H →
          ∃ lx ly, images ops = [(img, lx, ly)] ∧ ops.getLast? = some (.image img lx ly) ∧
            -1 ≤ 2 * lx + lw - W ∧ 2 * lx + lw - W ≤ 1 ∧ -1 ≤ 2 * ly + lh - H ∧ 2 * ly + lh - H ≤ 1 ∧
            (1 ≤ o.logoSizeMultiplier → 0 ≤ lw → 0 ≤ lh → 0 ≤ lx ∧ lx + lw ≤ W ∧ 0 ≤ ly ∧ ly + lh ≤ H)) := by
  obtain ⟨bm, hbm⟩ := maskBitmap_some (o := o) (m := m) (Or.inl (hw.trans hh.symm))
  obtain ⟨o', hs, he⟩ := draw_eq scale o m hbm
  have e1 : canvasW o m = (o.attribute dim).w := by
    unfold canvasW Opts.attribute; rw [hw]; simp only; omega
  have e2 : canvasH o m = (o.attribute dim).h := by
    unfold canvasH Opts.attribute; rw [hh]
  have hnil : images ((m.iterate .row).flatMap fun a => moduleOps scale (canvasW o m) (canvasH o m) m.width bm (safeOn o m)
        (logoW o m) (logoH o m) o a.1 a.2.1 a.2.2) = [] := by
    unfold images
    rw [filterMap_flatMap]
    exact flatMap_nil fun a _ => moduleOps_shapes.2
  have himg : ∀ {ops}, ops = ([DrawOp.newContext (canvasW o m) (canvasH o m), .fillRect o.backgroundColor.1 0 0 (canvasW o m) (canvasH o m)] ++
        (m.iterate .row).flatMap (fun a => moduleOps scale (canvasW o m) (canvasH o m) m.width bm (safeOn o m) (logoW o m)
          (logoH o m) o a.1 a.2.1 a.2.2) ++ tailOps o m) → images ops = images (tailOps o m) := by
    rintro ops rfl
    rw [images_append, images_append, hnil]
    rfl
  refine ⟨_, o', he, ?_, ?_⟩
  · intro hl
    rw [himg rfl]
    unfold tailOps
    rw [hl]
    cases o.qrGradient <;> rfl
  · intro img hl
    simp only
    have hv : logoValid o m = decide (o.logoSizeMultiplier * (img.maxX - img.minX) ≤ (o.attribute dim).w ∧
        o.logoSizeMultiplier * (img.maxY - img.minY) ≤ (o.attribute dim).h) := by
      unfold logoValid logoSize
      rw [hl, e1, e2]
      simp only [validLogoImage, ge_iff_le, Bool.decide_and]
    have hlw : logoW o m = img.maxX - img.minX := by unfold logoW logoSize; rw [hl]
    have hlh : logoH o m = img.maxY - img.minY := by unfold logoH logoSize; rw [hl]
    refine ⟨fun hn => ?_, fun hy => ?_⟩
    · rw [himg rfl]
      rw [decide_eq_false hn] at hv
      unfold tailOps
      rw [hl, hv]
      cases o.qrGradient <;> rfl
    · rw [decide_eq_true hy] at hv
      refine ⟨Int.tdiv (canvasW o m - logoW o m) 2, Int.tdiv (canvasH o m - logoH o m) 2, ?_, ?_, ?_⟩
      · rw [himg rfl]
        unfold tailOps
        rw [hl, hv]
        cases o.qrGradient <;> rfl
      · have : tailOps o m = (match o.qrGradient with
            | none => []
            | some g => [DrawOp.gradient g o.qrColor]) ++
            [DrawOp.image img (Int.tdiv (canvasW o m - logoW o m) 2) (Int.tdiv (canvasH o m - logoH o m) 2)] := by
          unfold tailOps
          rw [hl, hv]
          rfl
        rw [this, ← List.append_assoc, List.getLast?_append]
        rfl
      · rw [e1, e2, hlw, hlh]
        have tb : ∀ {d : Int}, -1 ≤ 2 * Int.tdiv d 2 - d ∧ 2 * Int.tdiv d 2 - d ≤ 1 ∧ (0 ≤ d → 0 ≤ Int.tdiv d 2 ∧ 2 * Int.tdiv d 2 ≤ d) := by
          intro d
          have := Int.mul_tdiv_add_tmod d 2
          have h1 := Int.tmod_lt_of_pos d (b := 2) (by omega)
          have h2 : -2 < Int.tmod d 2 := by
            have := Int.lt_tmod_of_pos d (b := 2) (by omega)
            omega
          refine ⟨by omega, by omega, fun hd => ?_⟩
          have := Int.tmod_nonneg 2 hd
          constructor <;> omega
        obtain ⟨x1, x2, x3⟩ := tb (d := (o.attribute dim).w - (img.maxX - img.minX))
        obtain ⟨y1, y2, y3⟩ := tb (d := (o.attribute dim).h - (img.maxY - img.minY))
        refine ⟨by omega, by omega, by omega, by omega, fun hn h1 h2 => ?_⟩
        have k1 : (img.maxX - img.minX) ≤ (o.attribute dim).w := by
          have := Int.mul_le_mul_of_nonneg_right hn h1
          omega
        have k2 : (img.maxY - img.minY) ≤ (o.attribute dim).h := by
          have := Int.mul_le_mul_of_nonneg_right hn h2
          omega
        have := x3 (by omega)
        have := y3 (by omega)
        refine ⟨by omega, by omega, by omega, by omega⟩

end QR.Standard
