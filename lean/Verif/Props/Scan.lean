import Verif.Props.Damage
import Verif.Proof.Picture
import Verif.Proof.LogoTable
/-!
# C69, C70: from text to picture and back

A scanner (`Spec.scan`, `Spec/Scan.lean`) looks at one pixel in the block of every module and calls it dark if it has the foreground colour.  What it sees is given to
the readers of `Spec/Reader.lean` and `Spec/Damage.lean`.
-/
namespace QR.Standard
open QR Matrix Spec

/-- The colours can be told apart: the foreground is opaque, the background is transparent or an opaque other colour. -/
structure Contrast (o : Opts) : Prop where
  fg : o.qrColor.a = 255
  bg : o.bgTransparent = true ∨ (o.bgColor.a = 255 ∧ o.bgColor ≠ o.qrColor)

/-- The scanner's pixels: one in the block of every module of a symbol of the given dimension. -/
def InBlocks (o : Opts) (dim : Nat) (pt : Nat → Nat → Int × Int) : Prop := ∀ x y, x < dim → y < dim → InBlock o x y (pt x y).1 (pt x y).2

/-- What the scanner sees of a picture. -/
def seen (o : Opts) (dim : Nat) (cv : Canvas) (pt : Nat → Nat → Int × Int) : List (List Bool) :=
  scan dim (fun px py => decide (cv.pix px py = o.qrColor)) pt

theorem contrast_iff {o : Opts} (h : Contrast o) (v : QRValue) : over (moduleColor o v) (over o.backgroundColor.1 ⟨0, 0, 0, 0⟩) = o.qrColor ↔ v.bit = true := by
  unfold moduleColor
  have e : v.qrbool = v.bit := rfl
  rw [e]
  cases v.bit with
  | true =>
    rw [if_pos rfl, over_opaque h.fg]
    exact ⟨fun _ => rfl, fun _ => rfl⟩
  | false =>
    rw [if_neg (by decide)]
    refine ⟨fun hc => ?_, fun hc => by cases hc⟩
    exfalso
    rcases h.bg with ht | ⟨ha, hne⟩
    · rw [if_pos ht] at hc
      have hb : o.backgroundColor.1.a = 0 := by unfold Opts.backgroundColor; rw [ht]; rfl
      have h0 : (over ⟨0, 0, 0, 0⟩ (over o.backgroundColor.1 ⟨0, 0, 0, 0⟩)).a = 0 := by
        simp only [over]
        rw [hb]
        decide +kernel
      rw [hc, h.fg] at h0
      exact absurd h0 (by decide)
    · cases ht : o.bgTransparent with
      | true =>
        rw [ht, if_pos rfl] at hc
        have hb : o.backgroundColor.1.a = 0 := by unfold Opts.backgroundColor; rw [ht]; rfl
        have h0 : (over ⟨0, 0, 0, 0⟩ (over o.backgroundColor.1 ⟨0, 0, 0, 0⟩)).a = 0 := by
          simp only [over]
          rw [hb]
          decide +kernel
        rw [hc, h.fg] at h0
        exact absurd h0 (by decide)
      | false =>
        rw [ht, if_neg (by decide), over_opaque ha] at hc
        exact hne hc

theorem scan_length (dim : Nat) (dark : Int → Int → Bool) (pt : Nat → Nat → Int × Int) : (scan dim dark pt).length = dim := by
  unfold scan; rw [List.length_map, List.length_range]

theorem pixel_scan {dim : Nat} {dark : Int → Int → Bool} {pt : Nat → Nat → Int × Int} {i j : Nat} (hi : i < dim) (hj : j < dim) :
    pixel (scan dim dark pt) i j = dark (pt j i).1 (pt j i).2 := by
  unfold pixel scan
  simp only [List.getD_eq_getElem?_getD, List.getElem?_map, List.getElem?_range hi, Option.map_some, Option.getD_some, List.getElem?_range hj]

/-- If the scanner sees every module right, it sees the bitmap. -/
theorem scan_eq {m : Matrix} {dim : Nat} (hw : m.width = dim) (hh : m.height = dim) {dark : Int → Int → Bool} {pt : Nat → Nat → Int × Int}
    (h : ∀ x y, x < dim → y < dim → dark (pt x y).1 (pt x y).2 = (m.raw x y).bit) : scan dim dark pt = m.bitmap := by
  obtain ⟨⟨t1, t2⟩, hp⟩ := bitmap_spec m
  have hs : ∀ i < dim, ∀ r, (scan dim dark pt)[i]? = some r → r.length = dim := by
    intro i hi r hr
    unfold scan at hr
    rw [List.getElem?_map, List.getElem?_range hi, Option.map_some, Option.some.injEq] at hr
    rw [← hr, List.length_map, List.length_range]
  have hpix : ∀ i < dim, ∀ j < dim, pixel (scan dim dark pt) i j = pixel m.bitmap i j := by
    intro i hi j hj
    rw [pixel_scan hi hj, hp i j (by omega) (by omega), h j i hj hi]
  apply List.ext_getElem
  · rw [scan_length, t1, hh]
  · intro i h1 h2
    have l1 : ((scan dim dark pt)[i]).length = dim := hs i (by rw [scan_length] at h1; exact h1) _ (List.getElem?_eq_getElem h1)
    have l2 := t2 _ (List.getElem_mem h2)
    apply List.ext_getElem
    · rw [l1, l2, hw]
    · intro j h3 h4
      have := hpix i (by rw [scan_length] at h1; exact h1) j (by omega)
      unfold pixel at this
      simp only [List.getD_eq_getElem?_getD, List.getElem?_eq_getElem h1, List.getElem?_eq_getElem h2, Option.getD_some,
        List.getElem?_eq_getElem h3, List.getElem?_eq_getElem h4] at this
      exact this

/-- The symbol's matrix is a square of its dimension. -/
theorem mat_size {E : Ext} {unsjis : Nat → Option Nat} (hE : E.Ok unsjis) {c : AlignCache} (hc : CacheReachable c)
    {arrival : List Nat} (ha : Arrival arrival) {t : TextType} {text : Bytes} {opts : List EncodeOption} {q : QRCode}
    (h : newWith E c arrival t text opts = .ok q) : q.mat.width = q.dimension ∧ q.mat.height = q.dimension := by
  obtain ⟨v, _, hd, hl, _⟩ := C11_dimension hE hc ha h
  refine ⟨rfl, ?_⟩
  rw [(bitmap_spec q.mat).1.1] at hl
  omega

theorem dark_eq {o : Opts} (h : Contrast o) (v : QRValue) :
    decide (over (moduleColor o v) (over o.backgroundColor.1 ⟨0, 0, 0, 0⟩) = o.qrColor) = v.bit := by
  cases hv : v.bit with
  | true => exact decide_eq_true ((contrast_iff h v).2 hv)
  | false => exact decide_eq_false (fun hc => by rw [(contrast_iff h v).1 hc] at hv; cases hv)

theorem logoValid_iff {o : Opts} {m : Matrix} {dim : Nat} (hw : m.width = dim) (hh : m.height = dim) {img : Image} (hl : o.logo = some img) :
    logoValid o m = true ↔ o.logoSizeMultiplier * (img.maxX - img.minX) ≤ (o.attribute dim).w ∧
      o.logoSizeMultiplier * (img.maxY - img.minY) ≤ (o.attribute dim).h := by
  unfold logoValid logoSize canvasW canvasH Opts.attribute
  rw [hl, hw, hh]
  simp only [validLogoImage, Bool.and_eq_true, decide_eq_true_eq, ge_iff_le]
  rw [Int.add_assoc (_ * _), Int.add_comm o.borders.left, ← Int.add_assoc]

/-! ## Without a logo -/

/-- **C70.** Text, picture, text: with rectangles, no halftone, no gradient and no logo (or one that is too large to be drawn), colours that can be told apart
and borders that are not negative, drawing succeeds, and a scanner that looks at any one pixel of every block reads exactly the text. -/
theorem C70_picture {E : Ext} {unsjis : Nat → Option Nat} (hE : E.Ok unsjis) {c : AlignCache} (hc : CacheReachable c)
    {arrival : List Nat} (ha : Arrival arrival) {t : TextType} {text : Bytes} {opts : List EncodeOption} {q : QRCode}
    (h : newWith E c arrival t text opts = .ok q)
    (hx : ¬ (modeIn opts = encAuto ∧ AlnumThenKanji E.sjis (nats text)))
    (scale : Scaler) (blend : Blend) {o : Opts} (hp : Rects o) (hcol : Contrast o)
    (hb : 0 ≤ o.borders.top ∧ 0 ≤ o.borders.right ∧ 0 ≤ o.borders.bottom ∧ 0 ≤ o.borders.left)
    (hl : ∀ img, o.logo = some img → ¬ (o.logoSizeMultiplier * (img.maxX - img.minX) ≤ (o.attribute q.dimension).w ∧
      o.logoSizeMultiplier * (img.maxY - img.minY) ≤ (o.attribute q.dimension).h)) :
    ∃ ops o' cv, draw scale o q.mat = some (ops, o') ∧ paintAllImg blend ops = some cv ∧
      ∀ pt, InBlocks o q.dimension pt → decode unsjis (seen o q.dimension cv pt) = some (nats text) := by
  obtain ⟨hw, hh⟩ := mat_size hE hc ha h
  have hd : 0 < q.dimension := by obtain ⟨v, _, hd, _⟩ := C11_dimension hE hc ha h; omega
  have hval : ∀ img, o.logo = some img → logoValid o q.mat = false := by
    intro img hi
    rw [← Bool.not_eq_true]
    intro hv
    exact hl img hi (logoValid_iff hw hh hi |>.1 hv)
  obtain ⟨ops, o', cv, h1, h2, h3⟩ := rects_picture scale blend hp (hw.trans hh.symm) hb (by omega) (fun img hi hv => by rw [hval img hi] at hv; cases hv)
  refine ⟨ops, o', cv, h1, h2, fun pt hpt => ?_⟩
  have : seen o q.dimension cv pt = q.mat.bitmap := by
    refine scan_eq hw hh fun x y hx hy => ?_
    have hcov : covered o q.mat x y = false := by
      unfold covered
      cases hlo : o.logo with
      | none => rfl
      | some img => rw [hval img hlo]; rfl
    rw [h3 x y _ _ (by omega) (by omega) (hpt x y hx hy) hcov]
    exact dark_eq hcol _
  rw [this]
  exact C01_roundtrip_partial hE hc ha h hx

/-! ## With a logo -/

/-- One direction: a block that meets the logo lies in the middle fifth (and a little more) of the symbol. -/
theorem overlap_range {n x : Nat} {bw border lw k : Int} (hbw : 0 < bw) (hk : 5 ≤ k) (hlw : 0 ≤ lw) (hb0 : 0 ≤ border) (hb2 : border ≤ 2 * bw)
    (hfit : k * lw ≤ n * bw + border + border)
    (h1 : (x : Int) * bw + border + bw > Int.tdiv (n * bw + border + border - lw) 2)
    (h2 : (x : Int) * bw + border < Int.tdiv (n * bw + border + border - lw) 2 + lw) : 4 * n < 10 * x + 14 ∧ 10 * x < 6 * n + 4 := by
  have h5 : 5 * lw ≤ n * bw + border + border := Int.le_trans (Int.mul_le_mul_of_nonneg_right hk hlw) hfit
  rw [Int.tdiv_eq_ediv_of_nonneg (by omega)] at h1 h2
  have a1 : (4 * (n : Int) - (10 * x + 14)) * bw < 0 := by nlinarith [Int.ediv_mul_le (n * bw + border + border - lw) (b := 2) (by decide), Int.lt_ediv_add_one_mul_self (n * bw + border + border - lw) (b := 2) (by decide)]
  have a2 : (10 * (x : Int) - (6 * n + 4)) * bw < 0 := by nlinarith [Int.ediv_mul_le (n * bw + border + border - lw) (b := 2) (by decide), Int.lt_ediv_add_one_mul_self (n * bw + border + border - lw) (b := 2) (by decide)]
  constructor
  · by_contra hn; have := Int.mul_nonneg (a := 4 * (n : Int) - (10 * x + 14)) (b := bw) (by omega) (by omega); omega
  · by_contra hn; have := Int.mul_nonneg (a := 10 * (x : Int) - (6 * n + 4)) (b := bw) (by omega) (by omega); omega

theorem covered_range {o : Opts} {m : Matrix} {v : Nat} (hw : m.width = side v) (hh : m.height = side v)
    {img : Image} (hl : o.logo = some img) (hsx : img.minX ≤ img.maxX) (hsy : img.minY ≤ img.maxY) (hk : 5 ≤ o.logoSizeMultiplier)
    (hb0 : 0 ≤ o.borders.left ∧ 0 ≤ o.borders.top) (hbe : o.borders.right = o.borders.left ∧ o.borders.bottom = o.borders.top)
    (hb2 : o.borders.left ≤ 2 * o.qrBlockWidth ∧ o.borders.top ≤ 2 * o.qrBlockWidth) {x y : Nat} (hc : covered o m x y = true) :
    logoLo v ≤ x ∧ x ≤ logoHi v ∧ logoLo v ≤ y ∧ y ≤ logoHi v := by
  unfold covered at hc
  simp only [Bool.and_eq_true] at hc
  obtain ⟨⟨_, hv⟩, ho⟩ := hc
  have hlw : logoW o m = img.maxX - img.minX := by unfold logoW logoSize; rw [hl]
  have hlh : logoH o m = img.maxY - img.minY := by unfold logoH logoSize; rw [hl]
  have hvf := (logoValid_iff hw hh hl).1 hv
  unfold overlaps blockOverlapsLogo at ho
  simp only [Bool.and_eq_true, decide_eq_true_eq] at ho
  obtain ⟨⟨⟨o1, o2⟩, o3⟩, o4⟩ := ho
  unfold canvasW at o1 o2
  unfold canvasH at o3 o4
  unfold Opts.attribute at hvf
  simp only at hvf
  rw [hw, hbe.1, hlw] at o1 o2
  rw [hh, hbe.2, hlh] at o3 o4
  have hbw := (blockWidth_pos o).1
  have r1 := overlap_range hbw hk (by omega) hb0.1 hb2.1 (by rw [← hbe.1] at hvf ⊢; rw [hbe.1] at hvf ⊢; exact hvf.1) o1 o2
  have r2 := overlap_range hbw hk (by omega) hb0.2 hb2.2 (by have := hvf.2; rw [hbe.2] at this; exact this) o3 o4
  unfold logoLo logoHi
  omega

/-- Format modules in the middle of the symbol: at most one. -/
theorem format_middle : ∀ v ∈ List.range 41, 1 ≤ v → (formatCells1 ++ formatCells2 v).countP (fun p => decide (logoLo v ≤ p.1 ∧ p.1 ≤ logoHi v ∧
    logoLo v ≤ p.2 ∧ p.2 ≤ logoHi v)) ≤ 6 := by
  decide +kernel

/-- If only modules in the middle of the symbol are wrong, the text can be recovered. -/
theorem middle_damage {E : Ext} {unsjis : Nat → Option Nat} (hE : E.Ok unsjis) (hRS : E.rs = rsEncode) {c : AlignCache} (hc : CacheReachable c)
    {arrival : List Nat} (ha : Arrival arrival) {t : TextType} {text : Bytes} {opts : List EncodeOption} {q : QRCode}
    (h : newWith E c arrival t text opts = .ok q)
    (hx : ¬ (modeIn opts = encAuto ∧ AlnumThenKanji E.sjis (nats text)))
    {v : Nat} (hv : q.dimension = 17 + 4 * v) (hl : ¬ logoTooLarge v (levelIn opts)) {bm : List (List Bool)} (hlen : bm.length = q.dimension)
    (hm : ∀ i j, i < side v → j < side v → pixel q.mat.bitmap i j ≠ pixel bm i j →
      logoLo v ≤ i ∧ i ≤ logoHi v ∧ logoLo v ≤ j ∧ j ≤ logoHi v) : decodeDamaged unsjis bm = some (nats text) := by
  obtain ⟨v', _, hd', h1, h40, _⟩ : ∃ v' k : Nat, q.dimension = 17 + 4 * v' ∧ 1 ≤ v' ∧ v' ≤ 40 ∧ True := by
    obtain ⟨v', k, m, p, bits, hd, h1, h40, _⟩ := symbol_facts hE hc ha h
    exact ⟨v', k, hd, h1, h40, trivial⟩
  have : v' = v := by omega
  subst this
  obtain ⟨T, hT, hcount⟩ := logo_all h1 h40
  refine C68_damage hE hRS hc ha h hx hv hlen ?_ ?_
  · have e : wrongAt q.mat.bitmap bm formatCells1 + wrongAt q.mat.bitmap bm (formatCells2 v') = wrongAt q.mat.bitmap bm (formatCells1 ++ formatCells2 v') := by
      unfold wrongAt; rw [List.countP_append]
    rw [e]
    refine Nat.le_trans ?_ (format_middle v' (List.mem_range.2 (by omega)) h1)
    unfold wrongAt
    refine List.countP_mono_left ?_
    intro p hp hw
    obtain ⟨i, j⟩ := p
    obtain ⟨p1, p2⟩ := (formatCells_table v' (List.mem_range.2 (by omega)) h1).2 (i, j) hp
    exact decide_eq_true (hm i j p1 p2 (by simpa using hw))
  · intro b hb
    refine Nat.le_trans (wrongCodewords_le h1 h40 (levelIn opts) hb (T := T) ?_) (hcount _ hl b hb)
    intro i _ hw
    unfold wrongAt at hw
    obtain ⟨⟨a, b⟩, hp, hw⟩ := List.countP_pos_iff.1 (Nat.pos_of_ne_zero hw)
    unfold codewordCells at hp
    obtain ⟨r, hr⟩ := List.mem_iff_getElem?.1 hp
    rw [List.getElem?_take] at hr
    split at hr
    · rename_i h8
      rw [List.getElem?_drop] at hr
      obtain ⟨g1, g2⟩ := mem_allCells.1 ((dataModules_cells h1).2 _ (List.mem_of_getElem? hr))
      obtain ⟨m1, m2, m3, m4⟩ := hm a b g1 g2 (by simpa using hw)
      have := hT _ _ _ hr m1 m2 m3 m4
      rwa [show (8 * i + r) / 8 = i by omega] at this
    · cases hr

/-- **C69.** Text, picture with a logo, text: with rectangles, no halftone and no gradient, colours that can be told apart, equal borders left and right and equal
borders above and below, each at most two blocks wide, and a logo that occupies at most a fifth of the picture's width and height (multiplier at least 5, the default): drawing
succeeds, and a scanner that looks at any one pixel of every block and corrects errors reads exactly the text, whatever the logo shows and with or without a safe zone, except at
level L in the versions 1 to 6 and 36 and at level M in the versions 2 and 4, where the logo may cover more codewords than can be corrected. -/
theorem C69_logo {E : Ext} {unsjis : Nat → Option Nat} (hE : E.Ok unsjis) (hRS : E.rs = rsEncode) {c : AlignCache} (hc : CacheReachable c)
    {arrival : List Nat} (ha : Arrival arrival) {t : TextType} {text : Bytes} {opts : List EncodeOption} {q : QRCode}
    (h : newWith E c arrival t text opts = .ok q)
    (hx : ¬ (modeIn opts = encAuto ∧ AlnumThenKanji E.sjis (nats text)))
    {v : Nat} (hv : q.dimension = 17 + 4 * v)
    (hlv : ¬ (levelIn opts = .L ∧ v ∈ [1, 2, 3, 4, 5, 6, 36] ∨ levelIn opts = .M ∧ v ∈ [2, 4]))
    (scale : Scaler) (blend : Blend) {o : Opts} (hp : Rects o) (hcol : Contrast o)
    (hbx : 0 ≤ o.borders.left ∧ o.borders.left ≤ 2 * o.qrBlockWidth ∧ o.borders.right = o.borders.left)
    (hby : 0 ≤ o.borders.top ∧ o.borders.top ≤ 2 * o.qrBlockWidth ∧ o.borders.bottom = o.borders.top)
    {img : Image} (hl : o.logo = some img) (hmin : img.minX = 0 ∧ img.minY = 0) (hmax : 0 ≤ img.maxX ∧ 0 ≤ img.maxY)
    (hk : 5 ≤ o.logoSizeMultiplier) :
    ∃ ops o' cv, draw scale o q.mat = some (ops, o') ∧ paintAllImg blend ops = some cv ∧
      ∀ pt, InBlocks o q.dimension pt → decodeDamaged unsjis (seen o q.dimension cv pt) = some (nats text) := by
  obtain ⟨hw, hh⟩ := mat_size hE hc ha h
  have hd : 0 < q.dimension := by omega
  have hs : side v = q.dimension := by rw [hv]; rfl
  obtain ⟨ops, o', cv, h1, h2, h3⟩ := rects_picture scale blend hp (m := q.mat) (hw.trans hh.symm) (by omega) (by omega)
    (fun i hi _ => by rw [hl] at hi; cases hi; exact hmin)
  refine ⟨ops, o', cv, h1, h2, fun pt hpt => ?_⟩
  refine middle_damage hE hRS hc ha h hx hv hlv (scan_length _ _ _) ?_
  intro i j hi hj hne
  rw [hs] at hi hj
  have hcov : covered o q.mat j i = true := by
    by_contra hn
    apply hne
    unfold seen
    rw [pixel_scan hi hj, (bitmap_spec q.mat).2 i j (by omega) (by omega), h3 j i _ _ (by omega) (by omega) (hpt j i hj hi) (by simpa using hn)]
    exact (dark_eq hcol _).symm
  obtain ⟨g1, g2, g3, g4⟩ := covered_range (hw.trans hs.symm) (hh.trans hs.symm) hl (by omega) (by omega) hk ⟨hbx.1, hby.1⟩ ⟨hbx.2.2, hby.2.2⟩ ⟨hbx.2.1, hby.2.1⟩ hcov
  exact ⟨g3, g4, g1, g2⟩

/-- The hypotheses of C70 are met by the default options. -/
example : Rects defaultOpts ∧ Contrast defaultOpts ∧ (0 ≤ defaultOpts.borders.top ∧ 0 ≤ defaultOpts.borders.right ∧ 0 ≤ defaultOpts.borders.bottom ∧
    0 ≤ defaultOpts.borders.left) ∧ (∀ img, defaultOpts.logo ≠ some img) ∧ InBlocks defaultOpts 45 (fun x y => (50 + 20 * x, 50 + 20 * y)) := by
  refine ⟨⟨Or.inr rfl, rfl, rfl⟩, ⟨rfl, Or.inr ⟨rfl, by decide⟩⟩, by decide, (fun img h => by cases h), ?_⟩
  intro x y _ _
  have e : defaultOpts.qrBlockWidth = 20 := rfl
  have b : defaultOpts.borders = ⟨40, 40, 40, 40⟩ := rfl
  unfold InBlock
  rw [e, b]
  simp only
  omega

/-- The hypotheses of C69 are met: the symbol `HELLO` of version 7 (level Q) with the default options and a logo of 196 by 150 pixels. -/
example {c : AlignCache} (hc : CacheReachable c) {arrival : List Nat} (ha : Arrival arrival) (scale : Scaler) (blend : Blend)
    (chan : Int → Int → UInt32 × UInt32 × UInt32 × UInt32) (safe : Bool) :
    let o : Opts := { defaultOpts with logo := some ⟨0, 0, 196, 150, chan⟩, logoSafeZone := safe }
    ∃ q ops o' cv, newWith demoExt c arrival .string [72, 69, 76, 76, 79] [.withEncodingMode encAlphanumeric, .withMinimumVersion 7] = .ok q ∧
      draw scale o q.mat = some (ops, o') ∧ paintAllImg blend ops = some cv ∧ covered o q.mat 22 22 = true ∧
      ∀ pt, InBlocks o q.dimension pt → decodeDamaged demoUnsjis (seen o q.dimension cv pt) = some [72, 69, 76, 76, 79] := by
  intro o
  obtain ⟨q, hq, hd⟩ := demo_symbol hc ha
  have d1 : defaultOpts.bgColor ≠ defaultOpts.qrColor := by decide
  have d2 : 0 ≤ defaultOpts.borders.left ∧ defaultOpts.borders.left ≤ 2 * defaultOpts.qrBlockWidth ∧ defaultOpts.borders.right = defaultOpts.borders.left := by decide
  have d3 : 0 ≤ defaultOpts.borders.top ∧ defaultOpts.borders.top ≤ 2 * defaultOpts.qrBlockWidth ∧ defaultOpts.borders.bottom = defaultOpts.borders.top := by decide
  have d4 : (5 : Int) ≤ defaultOpts.logoSizeMultiplier := by decide
  obtain ⟨ops, o', cv, h1, h2, h3⟩ := C69_logo demo_ok rfl hc ha hq (fun h => absurd h.1 (by decide)) hd (by decide) scale blend (o := o)
    ⟨Or.inr rfl, rfl, rfl⟩ ⟨rfl, Or.inr ⟨rfl, d1⟩⟩ d2 d3 rfl ⟨rfl, rfl⟩ ⟨by simp, by simp⟩ d4
  refine ⟨q, ops, o', cv, hq, h1, h2, ?_, h3⟩
  obtain ⟨hw, hh⟩ := mat_size demo_ok hc ha hq
  unfold covered logoValid overlaps logoW logoH logoSize canvasW canvasH
  rw [hw, hh, hd]
  rfl

end QR.Standard
