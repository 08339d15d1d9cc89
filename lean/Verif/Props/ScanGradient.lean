import Verif.Model.CanvasGradient
import Verif.Props.Scan
import Verif.Props.Gradient
/-!
# C79: pictures with a gradient keep the text

With `WithFgGradient` the dark modules have no single colour any more.  The scanner of C79 calls a pixel dark if it is opaque and (unless the
background is transparent) does not have the background colour.
-/
namespace QR.Standard
open QR Matrix Spec

/-- What is assumed of drawing one pixel over another: an opaque one replaces it, and a transparent one on a transparent one stays transparent. -/
structure PutsOver (put : Put) : Prop where
  solid : ∀ c old : RGBA, c.a = 255 → put c old = c
  clear : ∀ c old : RGBA, c.a = 0 → old.a = 0 → (put c old).a = 0

/-- In one of the three channels both colours are below the background, or both more than one above it. -/
def Apart (bg a b : RGBA) : Prop :=
  (a.r.toNat < bg.r.toNat ∧ b.r.toNat < bg.r.toNat) ∨ (bg.r.toNat + 1 < a.r.toNat ∧ bg.r.toNat + 1 < b.r.toNat) ∨
  (a.g.toNat < bg.g.toNat ∧ b.g.toNat < bg.g.toNat) ∨ (bg.g.toNat + 1 < a.g.toNat ∧ bg.g.toNat + 1 < b.g.toNat) ∨
  (a.b.toNat < bg.b.toNat ∧ b.b.toNat < bg.b.toNat) ∨ (bg.b.toNat + 1 < a.b.toNat ∧ bg.b.toNat + 1 < b.b.toNat)

instance (bg a b : RGBA) : Decidable (Apart bg a b) := by unfold Apart; infer_instance

/-- Every stop, and every two stops that follow each other, stand out from the background (the channel that shows it may be another one for every two stops). -/
def StandsOut (bg : RGBA) (stops : List ColorStop) : Prop :=
  (∀ s ∈ stops, Apart bg s.color s.color) ∧ ∀ i a b, stops[i]? = some a → stops[i + 1]? = some b → Apart bg a.color b.color

/-- The gradient can be told apart from the background: its stops are opaque, and the background is transparent or the stops stand out from it. -/
structure GradientContrast (o : Opts) (g : LinearGradient) : Prop where
  some_stop : g.stops ≠ []
  positions : Repr64 float64Round g.stops
  solid : ∀ s ∈ g.stops, s.color.a = 255
  bg : o.bgTransparent = true ∨ StandsOut o.bgColor g.stops

/-- Dark for the scanner: opaque and not the background. -/
def ink (o : Opts) (c : RGBA) : Bool := decide (c.a = 255) && (o.bgTransparent || decide (c ≠ o.bgColor))

/-- What this scanner sees of a picture. -/
def seenInk (o : Opts) (dim : Nat) (cv : Canvas) (pt : Nat → Nat → Int × Int) : List (List Bool) :=
  scan dim (fun px py => ink o (cv.pix px py)) pt

/-- One stop, or two that follow each other. -/
def Together (stops : List ColorStop) (a b : ColorStop) : Prop := (a ∈ stops ∧ b = a) ∨ ∃ i : Nat, stops[i]? = some a ∧ stops[i + 1]? = some b

/-- The colours of a gradient are between those of two stops that follow each other, or one below. -/
theorem gradient_colour {stops : List ColorStop} (hne : stops ≠ []) (h : Repr64 float64Round stops) (hop : ∀ s ∈ stops, s.color.a = 255) (t : Rat) :
    ∃ c, (interpolateColor float64Round stops t).color = some c ∧ c.a = 255 ∧
      ∃ a b, Together stops a b ∧ ChannelsBetween 1 a.color b.color c := by
  obtain ⟨h1, h2, h3⟩ := C47_float64_partial h t
  obtain ⟨s, rest, rfl⟩ := List.exists_cons_of_ne_nil hne
  have hl : (s :: rest).getLast? = some ((s :: rest).getLast (by simp)) := List.getLast?_eq_getLast_of_ne_nil (by simp)
  have hself : ∀ c : RGBA, ChannelsBetween 1 c c c := fun c => by unfold ChannelsBetween; omega
  rcases le_or_gt t s.t with c | c
  · rw [h1 s rfl c]
    exact ⟨s.color, rfl, hop s (by simp), s, s, .inl ⟨by simp, rfl⟩, hself _⟩
  · rcases le_or_gt ((s :: rest).getLast (by simp)).t t with d | d
    · rw [h2 s _ rfl hl c d]
      have hm : (s :: rest).getLast (by simp) ∈ s :: rest := List.getLast_mem _
      exact ⟨_, rfl, hop _ hm, _, _, .inl ⟨hm, rfl⟩, hself _⟩
    · obtain ⟨i, a, b, den, f, col, ha, hb, _, _, e, _, _, _, hcol, hch⟩ := h3 s _ rfl hl c d
      rw [e]
      exact ⟨col, rfl, hcol, a, b, .inr ⟨i, ha, hb⟩, hch⟩

theorem standsOut_ne {bg : RGBA} {stops : List ColorStop} (h : StandsOut bg stops) {a b : ColorStop} (hab : Together stops a b) {c : RGBA}
    (hc : ChannelsBetween 1 a.color b.color c) : c ≠ bg := by
  have h : Apart bg a.color b.color := by
    rcases hab with ⟨ha, rfl⟩ | ⟨i, ha, hb⟩
    · exact h.1 _ ha
    · exact h.2 i a b ha hb
  rintro rfl
  obtain ⟨⟨r1, r2⟩, ⟨g1, g2⟩, b1, b2⟩ := hc
  rcases h with h | h | h | h | h | h <;> omega

/-- For a list of stops, in a form that can be computed. -/
def standsOutB (bg : RGBA) : List ColorStop → Bool
  | [] => true
  | [s] => decide (Apart bg s.color s.color)
  | s :: s' :: rest => decide (Apart bg s.color s.color) && decide (Apart bg s.color s'.color) && standsOutB bg (s' :: rest)

theorem standsOutB_iff (bg : RGBA) : ∀ stops, standsOutB bg stops = true ↔ StandsOut bg stops
  | [] => by simp [standsOutB, StandsOut]
  | [s] => by simp [standsOutB, StandsOut]
  | s :: s' :: rest => by
    rw [standsOutB, Bool.and_eq_true, Bool.and_eq_true, decide_eq_true_eq, decide_eq_true_eq, standsOutB_iff bg (s' :: rest)]
    constructor
    · rintro ⟨⟨h1, h2⟩, h3, h4⟩
      refine ⟨fun x hx => ?_, fun i a b ha hb => ?_⟩
      · rcases List.mem_cons.1 hx with rfl | hx
        · exact h1
        · exact h3 x hx
      · cases i with
        | zero =>
          simp only [List.getElem?_cons_zero, List.getElem?_cons_succ, Option.some.injEq] at ha hb
          subst ha hb; exact h2
        | succ i => exact h4 i a b (by simpa using ha) (by simpa using hb)
    · rintro ⟨h1, h2⟩
      exact ⟨⟨h1 s (by simp), h2 0 s s' rfl rfl⟩, fun x hx => h1 x (List.mem_cons_of_mem _ hx), fun i a b ha hb => h2 (i + 1) a b (by simpa using ha) (by simpa using hb)⟩

theorem foldlM_paintGradient (blend : Blend) (put : Put) (direction : Rat → Rat × Rat) : ∀ (ops : List DrawOp) (cv : Canvas),
    (∀ op ∈ ops, (∀ img x y, op ≠ .image img x y) ∧ ∀ g c, op ≠ .gradient g c) →
    ops.foldlM (Canvas.paintGradient blend put direction) cv = ops.foldlM Canvas.paint cv := by
  intro ops
  induction ops with
  | nil => intro cv _; rfl
  | cons op ops ih =>
    intro cv h
    have h1 : Canvas.paintGradient blend put direction cv op = cv.paint op := by
      cases op with
      | image img x y => exact absurd rfl ((h (.image img x y) (by simp)).1 img x y)
      | gradient g c => exact absurd rfl ((h (.gradient g c) (by simp)).2 g c)
      | _ => rfl
    rw [List.foldlM_cons, List.foldlM_cons, h1]
    cases cv.paint op with
    | none => rfl
    | some cv' => exact ih cv' (fun op ho => h op (by simp [ho]))

/-- One pixel of a module after the gradient. -/
theorem gradient_ink {o : Opts} {g : LinearGradient} (hcol : Contrast o) (hg : GradientContrast o g) {put : Put} (hput : PutsOver put) (v : QRValue)
    (t : Rat) {c : RGBA} (hc : (if over (moduleColor o v) (over o.backgroundColor.1 ⟨0, 0, 0, 0⟩) = o.qrColor then
      (interpolateColor float64Round g.stops t).color else some (over (moduleColor o v) (over o.backgroundColor.1 ⟨0, 0, 0, 0⟩))) = some c) :
    ink o (put c (over (moduleColor o v) (over o.backgroundColor.1 ⟨0, 0, 0, 0⟩))) = v.bit := by
  cases hv : v.bit with
  | true =>
    rw [if_pos ((contrast_iff hcol v).2 hv)] at hc
    obtain ⟨c', e, ha, a, b, hab, hch⟩ := gradient_colour hg.some_stop hg.positions hg.solid t
    rw [e] at hc
    cases hc
    rw [hput.solid _ _ ha]
    unfold ink
    rw [ha]
    rcases hg.bg with h | h
    · rw [h]; rfl
    · rw [decide_eq_true (standsOut_ne h hab hch), Bool.or_true]; rfl
  | false =>
    rw [if_neg (fun h => by rw [(contrast_iff hcol v).1 h] at hv; cases hv)] at hc
    cases hc
    have hclear : o.bgTransparent = true → (over (moduleColor o v) (over o.backgroundColor.1 ⟨0, 0, 0, 0⟩)).a = 0 := by
      intro ht
      have hb : o.backgroundColor.1.a = 0 := by unfold Opts.backgroundColor; rw [ht]; rfl
      unfold moduleColor
      rw [show v.qrbool = v.bit from rfl, hv, if_neg (by decide), if_pos ht]
      simp only [over]
      rw [hb]
      decide +kernel
    cases ht : o.bgTransparent with
    | true =>
      have h0 := hclear ht
      unfold ink
      rw [hput.clear _ _ h0 h0]
      rfl
    | false =>
      rcases hcol.bg with h | ⟨ha, _⟩
      · rw [ht] at h; cases h
      · have e : over (moduleColor o v) (over o.backgroundColor.1 ⟨0, 0, 0, 0⟩) = o.bgColor := by
          unfold moduleColor
          rw [show v.qrbool = v.bit from rfl, hv, if_neg (by decide), ht, if_neg (by decide), over_opaque ha]
        rw [e, hput.solid _ _ ha]
        unfold ink
        rw [ht]
        simp

/-- Every pixel in the block of a module that is not covered by a logo shows the module's colour to the scanner. -/
theorem gradient_picture (scale : Scaler) (blend : Blend) {put : Put} (hput : PutsOver put) (direction : Rat → Rat × Rat) {o : Opts}
    (hsh : o.shape = none ∨ o.shape = some .rectangle) (hht : o.halftone = none) {g : LinearGradient} (hgr : o.qrGradient = some g) (hcol : Contrast o)
    (hg : GradientContrast o g) {m : Matrix} (hsq : m.width = m.height)
    (hb : 0 ≤ o.borders.top ∧ 0 ≤ o.borders.right ∧ 0 ≤ o.borders.bottom ∧ 0 ≤ o.borders.left) (hpos : 0 < m.width)
    (hl : ∀ img, o.logo = some img → logoValid o m = true → img.minX = 0 ∧ img.minY = 0) :
    ∃ ops o' cv, draw scale o m = some (ops, o') ∧ paintAllGradient blend put direction ops = some cv ∧
      ∀ x y px py, x < m.width → y < m.height → InBlock o x y px py → covered o m x y = false → ink o (cv.pix px py) = (m.raw x y).bit := by
  obtain ⟨bm, o', cv, he, hfold, hno, s1, s2, hpix⟩ := rects_body scale hsh hht hsq hb hpos
  obtain ⟨cv', hcv'⟩ : ∃ cv', cv.applyGradient put direction g o.qrColor = some cv' := by
    unfold Canvas.applyGradient
    rw [if_neg hg.some_stop]
    exact ⟨_, rfl⟩
  have hink : cv'.w = cv.w ∧ cv'.h = cv.h ∧ ∀ x y px py, x < m.width → y < m.height → InBlock o x y px py → covered o m x y = false →
      ink o (cv'.pix px py) = (m.raw x y).bit := by
    unfold Canvas.applyGradient at hcv'
    rw [if_neg hg.some_stop] at hcv'
    cases hcv'
    refine ⟨rfl, rfl, fun x y px py hx hy hin hcov => ?_⟩
    obtain ⟨hr, hc⟩ := hpix x y px py hx hy hin hcov
    simp only
    rw [if_pos (by rw [s1, s2]; exact hr), hc]
    unfold gradientPixel
    split
    · rename_i c hcc
      exact gradient_ink hcol hg hput _ _ hcc
    · rename_i hcc
      exfalso
      split at hcc
      · obtain ⟨c, e, _⟩ := gradient_colour hg.some_stop hg.positions hg.solid
          (gradientPos float64Round (direction g.angle).1 (direction g.angle).2 0 cv.w 0 cv.h px py)
        rw [e] at hcc
        cases hcc
      · cases hcc
  have hbase : List.foldlM (Canvas.paintGradient blend put direction) ⟨0, 0, fun _ _ => ⟨0, 0, 0, 0⟩⟩ (bodyOps scale o m bm ++ [.gradient g o.qrColor]) =
      some cv' := by
    rw [List.foldlM_append, foldlM_paintGradient _ _ _ _ _ hno, hfold]
    change (List.foldlM (Canvas.paintGradient blend put direction) cv [.gradient g o.qrColor]) = some cv'
    rw [List.foldlM_cons, Canvas.paintGradient, hcv']
    rfl
  obtain ⟨w1, w2, hink⟩ := hink
  by_cases hlo : ∃ img, o.logo = some img ∧ logoValid o m = true
  · obtain ⟨img, hlogo, hval⟩ := hlo
    obtain ⟨hmx, hmy⟩ := hl img hlogo hval
    have htail : tailOps o m = [.gradient g o.qrColor] ++ [.image img (Int.tdiv (canvasW o m - logoW o m) 2) (Int.tdiv (canvasH o m - logoH o m) 2)] := by
      unfold tailOps
      rw [hgr, hlogo]
      simp only [hval, if_true]
    refine ⟨_, o', cv'.drawImage blend img (Int.tdiv (canvasW o m - logoW o m) 2) (Int.tdiv (canvasH o m - logoH o m) 2), he, ?_, ?_⟩
    · unfold paintAllGradient
      rw [htail, ← List.append_assoc, List.foldlM_append, hbase]
      rfl
    · intro x y px py hx hy hin hcov
      rw [← hink x y px py hx hy hin hcov]
      unfold Canvas.drawImage
      simp only
      rw [if_neg]
      rintro ⟨⟨a1, a2, a3, a4⟩, _⟩
      unfold covered at hcov
      rw [hlogo, hval] at hcov
      simp only [Option.isSome_some, Bool.true_and] at hcov
      have hlw : logoW o m = img.maxX - img.minX := by unfold logoW logoSize; rw [hlogo]
      have hlh : logoH o m = img.maxY - img.minY := by unfold logoH logoSize; rw [hlogo]
      unfold overlaps blockOverlapsLogo at hcov
      obtain ⟨b1, b2, b3, b4⟩ := hin
      rw [Int.add_mul, Int.one_mul] at b2 b4
      have : (decide ((x : Int) * o.qrBlockWidth + o.borders.left + o.qrBlockWidth > Int.tdiv (canvasW o m - logoW o m) 2) &&
          decide ((x : Int) * o.qrBlockWidth + o.borders.left < Int.tdiv (canvasW o m - logoW o m) 2 + logoW o m) &&
          decide ((y : Int) * o.qrBlockWidth + o.borders.top + o.qrBlockWidth > Int.tdiv (canvasH o m - logoH o m) 2) &&
          decide ((y : Int) * o.qrBlockWidth + o.borders.top < Int.tdiv (canvasH o m - logoH o m) 2 + logoH o m)) = true := by
        simp only [Bool.and_eq_true, decide_eq_true_eq]
        generalize Int.tdiv (canvasW o m - logoW o m) 2 = lx at *
        generalize Int.tdiv (canvasH o m - logoH o m) 2 = ly at *
        refine ⟨⟨⟨?_, ?_⟩, ?_⟩, ?_⟩ <;> omega
      exact absurd this (by simpa using hcov)
  · have htail : tailOps o m = [.gradient g o.qrColor] := by
      unfold tailOps
      rw [hgr]
      cases hlogo : o.logo with
      | none => rfl
      | some img =>
        simp only
        rw [if_neg (fun h => hlo ⟨img, hlogo, h⟩)]
        rfl
    refine ⟨_, o', cv', he, ?_, hink⟩
    unfold paintAllGradient
    rw [htail]
    exact hbase

/-- **C79.** Text, picture with a gradient, text: with rectangles, no halftone and no logo (or one that is too large to be drawn), borders that are not negative, a foreground
that can be told apart from the background and a gradient whose stops can be told apart from it, drawing succeeds, and a scanner that looks at any one pixel of every block reads
exactly the text - whatever the angle of the gradient and the order and positions of its stops. -/
theorem C79_gradient {E : Ext} {unsjis : Nat → Option Nat} (hE : E.Ok unsjis) {c : AlignCache} (hc : CacheReachable c)
    {arrival : List Nat} (ha : Arrival arrival) {t : TextType} {text : Bytes} {opts : List EncodeOption} {q : QRCode}
    (h : newWith E c arrival t text opts = .ok q)
    (hx : ¬ (modeIn opts = encAuto ∧ AlnumThenKanji E.sjis (nats text)))
    (scale : Scaler) (blend : Blend) {put : Put} (hput : PutsOver put) (direction : Rat → Rat × Rat) {o : Opts}
    (hsh : o.shape = none ∨ o.shape = some .rectangle) (hht : o.halftone = none) {g : LinearGradient} (hgr : o.qrGradient = some g)
    (hcol : Contrast o) (hg : GradientContrast o g)
    (hb : 0 ≤ o.borders.top ∧ 0 ≤ o.borders.right ∧ 0 ≤ o.borders.bottom ∧ 0 ≤ o.borders.left)
    (hl : ∀ img, o.logo = some img → ¬ (o.logoSizeMultiplier * (img.maxX - img.minX) ≤ (o.attribute q.dimension).w ∧
      o.logoSizeMultiplier * (img.maxY - img.minY) ≤ (o.attribute q.dimension).h)) :
    ∃ ops o' cv, draw scale o q.mat = some (ops, o') ∧ paintAllGradient blend put direction ops = some cv ∧
      ∀ pt, InBlocks o q.dimension pt → decode unsjis (seenInk o q.dimension cv pt) = some (nats text) := by
  obtain ⟨hw, hh⟩ := mat_size hE hc ha h
  have hd : 0 < q.dimension := by obtain ⟨v, _, hd, _⟩ := C11_dimension hE hc ha h; omega
  have hval : ∀ img, o.logo = some img → logoValid o q.mat = false := by
    intro img hi
    rw [← Bool.not_eq_true]
    intro hv
    exact hl img hi (logoValid_iff hw hh hi |>.1 hv)
  obtain ⟨ops, o', cv, h1, h2, h3⟩ := gradient_picture scale blend hput direction hsh hht hgr hcol hg (hw.trans hh.symm) hb (by omega)
    (fun img hi hv => by rw [hval img hi] at hv; cases hv)
  refine ⟨ops, o', cv, h1, h2, fun pt hpt => ?_⟩
  have : seenInk o q.dimension cv pt = q.mat.bitmap := by
    refine scan_eq hw hh fun x y hx hy => ?_
    have hcov : covered o q.mat x y = false := by
      unfold covered
      cases hlo : o.logo with
      | none => rfl
      | some img => rw [hval img hlo]; rfl
    exact h3 x y _ _ (by omega) (by omega) (hpt x y hx hy) hcov
  rw [this]
  exact C01_roundtrip_partial hE hc ha h hx

/-- **C79, with a logo.** The same with a logo under the conditions of C69, for a scanner that corrects errors, whatever the logo shows and with or without a safe zone. -/
theorem C79_gradient_logo {E : Ext} {unsjis : Nat → Option Nat} (hE : E.Ok unsjis) (hRS : E.rs = rsEncode) {c : AlignCache} (hc : CacheReachable c)
    {arrival : List Nat} (ha : Arrival arrival) {t : TextType} {text : Bytes} {opts : List EncodeOption} {q : QRCode}
    (h : newWith E c arrival t text opts = .ok q)
    (hx : ¬ (modeIn opts = encAuto ∧ AlnumThenKanji E.sjis (nats text)))
    {v : Nat} (hv : q.dimension = 17 + 4 * v)
    (hlv : ¬ (levelIn opts = .L ∧ v ∈ [1, 2, 3, 4, 5, 6, 36] ∨ levelIn opts = .M ∧ v ∈ [2, 4]))
    (scale : Scaler) (blend : Blend) {put : Put} (hput : PutsOver put) (direction : Rat → Rat × Rat) {o : Opts}
    (hsh : o.shape = none ∨ o.shape = some .rectangle) (hht : o.halftone = none) {g : LinearGradient} (hgr : o.qrGradient = some g)
    (hcol : Contrast o) (hg : GradientContrast o g)
    (hbx : 0 ≤ o.borders.left ∧ o.borders.left ≤ 2 * o.qrBlockWidth ∧ o.borders.right = o.borders.left)
    (hby : 0 ≤ o.borders.top ∧ o.borders.top ≤ 2 * o.qrBlockWidth ∧ o.borders.bottom = o.borders.top)
    {img : Image} (hl : o.logo = some img) (hmin : img.minX = 0 ∧ img.minY = 0) (hmax : 0 ≤ img.maxX ∧ 0 ≤ img.maxY)
    (hk : 5 ≤ o.logoSizeMultiplier) :
    ∃ ops o' cv, draw scale o q.mat = some (ops, o') ∧ paintAllGradient blend put direction ops = some cv ∧
      ∀ pt, InBlocks o q.dimension pt → decodeDamaged unsjis (seenInk o q.dimension cv pt) = some (nats text) := by
  obtain ⟨hw, hh⟩ := mat_size hE hc ha h
  have hd : 0 < q.dimension := by omega
  have hs : side v = q.dimension := by rw [hv]; rfl
  obtain ⟨ops, o', cv, h1, h2, h3⟩ := gradient_picture scale blend hput direction hsh hht hgr hcol hg (m := q.mat) (hw.trans hh.symm) (by omega) (by omega)
    (fun i hi _ => by rw [hl] at hi; cases hi; exact hmin)
  refine ⟨ops, o', cv, h1, h2, fun pt hpt => ?_⟩
  refine middle_damage hE hRS hc ha h hx hv hlv (scan_length _ _ _) ?_
  intro i j hi hj hne
  rw [hs] at hi hj
  have hcov : covered o q.mat j i = true := by
    by_contra hn
    apply hne
    unfold seenInk
    rw [pixel_scan hi hj, (bitmap_spec q.mat).2 i j (by omega) (by omega), h3 j i _ _ (by omega) (by omega) (hpt j i hj hi) (by simpa using hn)]
  obtain ⟨g1, g2, g3, g4⟩ := covered_range (hw.trans hs.symm) (hh.trans hs.symm) hl (by omega) (by omega) hk ⟨hbx.1, hby.1⟩ ⟨hbx.2.2, hby.2.2⟩ ⟨hbx.2.1, hby.2.1⟩ hcov
  exact ⟨g3, g4, g1, g2⟩

/-- A gradient from red to blue on white. -/
def demoGradient : LinearGradient := newGradient 45 [⟨0, ⟨255, 0, 0, 255⟩⟩, ⟨1, ⟨0, 0, 255, 255⟩⟩]

/-- Stops given in order stay as they are. -/
theorem newGradient_sorted {angle : Rat} {stops : List ColorStop} (h : stops.Pairwise fun a b => a.t ≤ b.t) : newGradient angle stops = ⟨stops, angle⟩ := by
  unfold newGradient
  rw [List.mergeSort_of_pairwise (h.imp fun h => by simpa using h)]

/-- Red, green and blue on white, as in example/example.go: no channel tells all of it from white, but between two stops that follow each other one does. -/
theorem rgb_contrast {stops : List ColorStop} (h : stops = [⟨0, ⟨255, 0, 0, 255⟩⟩, ⟨1 / 2, ⟨0, 255, 0, 255⟩⟩, ⟨1, ⟨0, 0, 255, 255⟩⟩]) {angle : Rat} {o : Opts}
    (ho : o.bgColor = ⟨255, 255, 255, 255⟩) : GradientContrast o (newGradient angle stops) := by
  subst h
  rw [newGradient_sorted (by simp; norm_num)]
  refine ⟨by simp, ?_, ?_, Or.inr ?_⟩
  · intro s hs
    simp only [List.mem_cons, List.not_mem_nil, or_false] at hs
    rcases hs with rfl | rfl | rfl <;> decide +kernel
  · intro s hs
    simp only [List.mem_cons, List.not_mem_nil, or_false] at hs
    rcases hs with rfl | rfl | rfl <;> rfl
  · rw [ho]
    change StandsOut _ [_, _, _]
    exact (standsOutB_iff _ _).1 (by decide)

/-- The hypotheses of C79 are met: red to blue on a white background, the default options otherwise (green tells the gradient from white). -/
theorem demo_contrast : Contrast { defaultOpts with qrGradient := some demoGradient } ∧ GradientContrast { defaultOpts with qrGradient := some demoGradient } demoGradient ∧
    PutsOver (fun c old => if c.a = 0 then old else c) := by
  have e : demoGradient.stops = [⟨0, ⟨255, 0, 0, 255⟩⟩, ⟨1, ⟨0, 0, 255, 255⟩⟩] := by
    unfold demoGradient
    rw [newGradient_sorted (by simp)]
  refine ⟨⟨rfl, Or.inr ⟨rfl, ?_⟩⟩, ⟨by rw [e]; simp, ?_, ?_, Or.inr ?_⟩, ?_, ?_⟩
  · exact (by decide : defaultOpts.bgColor ≠ defaultOpts.qrColor)
  · intro s hs
    rw [e] at hs
    simp only [List.mem_cons, List.not_mem_nil, or_false] at hs
    rcases hs with rfl | rfl <;> decide +kernel
  · intro s hs
    rw [e] at hs
    simp only [List.mem_cons, List.not_mem_nil, or_false] at hs
    rcases hs with rfl | rfl <;> rfl
  · rw [e]
    exact (standsOutB_iff _ _).1 (by decide : standsOutB defaultOpts.bgColor _ = true)
  · intro c old h
    rw [if_neg (by rw [h]; decide)]
  · intro c old h h0
    rw [if_pos h]
    exact h0

end QR.Standard
