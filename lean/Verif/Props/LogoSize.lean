import Verif.Props.Examples
import Verif.Props.Sizes
import Verif.Spec.LogoArea
/-!
# C93: logos of any size

`WithLogoSizeMultiplier` allows logos larger than a fifth of the picture.
-/
namespace QR.Standard
open QR QR.Matrix Spec

/-- The modules whose blocks meet the logo, as (row, column). -/
def under (o : Opts) (dim : Nat) (img : Image) (p : Nat × Nat) : Bool :=
  underLogo (o.attribute dim).w (o.attribute dim).h img.maxX img.maxY o.qrBlockWidth o.borders.left o.borders.top p.2 p.1

theorem covered_under {o : Opts} {m : Matrix} {dim : Nat} (hw : m.width = dim) (hh : m.height = dim) {img : Image} (hl : o.logo = some img)
    (hmin : img.minX = 0 ∧ img.minY = 0) {x y : Nat} (hc : covered o m x y = true) : under o dim img (y, x) = true := by
  unfold covered at hc
  simp only [Bool.and_eq_true] at hc
  obtain ⟨_, ho⟩ := hc
  have hlw : logoW o m = img.maxX := by unfold logoW logoSize; rw [hl]; simp only; rw [hmin.1, Int.sub_zero]
  have hlh : logoH o m = img.maxY := by unfold logoH logoSize; rw [hl]; simp only; rw [hmin.2, Int.sub_zero]
  unfold overlaps blockOverlapsLogo at ho
  rw [hlw, hlh] at ho
  unfold canvasW canvasH at ho
  rw [hw, hh] at ho
  simp only [Bool.and_eq_true, decide_eq_true_eq] at ho
  obtain ⟨⟨⟨o1, o2⟩, o3⟩, o4⟩ := ho
  unfold under underLogo Opts.attribute
  simp only
  rw [Int.add_right_comm _ o.borders.right o.borders.left, Int.add_comm o.borders.left, Int.add_comm o.borders.top]
  exact decide_eq_true ⟨o2, o1, o4, o3⟩

/-- **C93.** Text, picture with a logo of any size, text: with rectangles, no halftone and no gradient, colours that can be told apart and borders that are not negative, drawing succeeds,
and a scanner that looks at any one pixel of every block and corrects errors reads exactly the text, whatever the logo shows and with or without a safe zone - provided that, in every
Reed-Solomon block, the blocks of modules that meet the logo belong to at most half as many codewords as there are error correction codewords, and that at most 6 of them are
format information. -/
theorem C93_logo {E : Ext} {unsjis : Nat → Option Nat} (hE : E.Ok unsjis) (hRS : E.rs = rsEncode) {c : AlignCache} (hc : CacheReachable c)
    {arrival : List Nat} (ha : Arrival arrival) {t : TextType} {text : Bytes} {opts : List EncodeOption} {q : QRCode}
    (h : newWith E c arrival t text opts = .ok q)
    (hx : ¬ (modeIn opts = encAuto ∧ AlnumThenKanji E.sjis (nats text)))
    {v : Nat} (hv : q.dimension = 17 + 4 * v)
    (scale : Scaler) (blend : Blend) {o : Opts} (hp : Rects o) (hcol : Contrast o)
    (hb : 0 ≤ o.borders.top ∧ 0 ≤ o.borders.right ∧ 0 ≤ o.borders.bottom ∧ 0 ≤ o.borders.left)
    {img : Image} (hl : o.logo = some img) (hmin : img.minX = 0 ∧ img.minY = 0)
    (hfmt : (formatCells1 ++ formatCells2 v).countP (under o q.dimension img) ≤ 6)
    (hcw : ∀ b < numBlocks v (levelIn opts), (blockIndices v (levelIn opts) b).countP (fun i => (codewordCells v i).any (under o q.dimension img)) ≤
      ecPerBlock v (levelIn opts) / 2) :
    ∃ ops o' cv, draw scale o q.mat = some (ops, o') ∧ paintAllImg blend ops = some cv ∧
      ∀ pt, InBlocks o q.dimension pt → decodeDamaged unsjis (seen o q.dimension cv pt) = some (nats text) := by
  obtain ⟨hw, hh⟩ := mat_size hE hc ha h
  obtain ⟨v', hv1, hv40, hd'⟩ : ∃ v' : Nat, 1 ≤ v' ∧ v' ≤ 40 ∧ q.dimension = 17 + 4 * v' := by
    obtain ⟨v', k, m, p, bits, hd, h1, h40, _⟩ := symbol_facts hE hc ha h
    exact ⟨v', h1, h40, hd⟩
  have : v' = v := by omega
  subst this
  have hs : side v' = q.dimension := by rw [hv]; rfl
  obtain ⟨ops, o', cv, h1, h2, h3⟩ := rects_picture scale blend hp (m := q.mat) (hw.trans hh.symm) hb (by omega)
    (fun i hi _ => by rw [hl] at hi; cases hi; exact hmin)
  refine ⟨ops, o', cv, h1, h2, fun pt hpt => ?_⟩
  have hm : ∀ i j, i < side v' → j < side v' → pixel q.mat.bitmap i j ≠ pixel (seen o q.dimension cv pt) i j → under o q.dimension img (i, j) = true := by
    intro i j hi hj hne
    rw [hs] at hi hj
    have hcov : covered o q.mat j i = true := by
      by_contra hn
      apply hne
      unfold seen
      rw [pixel_scan hi hj, (bitmap_spec q.mat).2 i j (by omega) (by omega), h3 j i _ _ (by omega) (by omega) (hpt j i hj hi) (by simpa using hn)]
      exact (dark_eq hcol _).symm
    exact covered_under hw hh hl hmin hcov
  refine C68_damage hE hRS hc ha h hx hv (scan_length _ _ _) ?_ ?_
  · have e : ∀ a b : List (List Bool), wrongAt a b formatCells1 + wrongAt a b (formatCells2 v') = wrongAt a b (formatCells1 ++ formatCells2 v') := by
      intro a b; unfold wrongAt; rw [List.countP_append]
    rw [e]
    refine Nat.le_trans ?_ hfmt
    unfold wrongAt
    refine List.countP_mono_left ?_
    intro p hp hw
    obtain ⟨i, j⟩ := p
    obtain ⟨p1, p2⟩ := (formatCells_table v' (List.mem_range.2 (by omega)) hv1).2 (i, j) hp
    exact hm i j p1 p2 (by simpa using hw)
  · intro b hb
    refine Nat.le_trans ?_ (hcw b hb)
    unfold wrongCodewords
    refine List.countP_mono_left ?_
    intro i _ hw
    have hw := of_decide_eq_true hw
    unfold wrongAt at hw
    obtain ⟨⟨a, b⟩, hp, hw⟩ := List.countP_pos_iff.1 (Nat.pos_of_ne_zero hw)
    refine List.any_eq_true.2 ⟨(a, b), hp, ?_⟩
    unfold codewordCells at hp
    obtain ⟨g1, g2⟩ := mem_allCells.1 ((dataModules_cells hv1).2 _ (List.mem_of_mem_drop (List.mem_of_mem_take hp)))
    exact hm a b g1 g2 (by simpa using hw)

/-- **C93, small logos.** The condition of C69 is about the logo, not about the multiplier: the text can be read from the picture whenever the logo occupies at most a fifth of its width and
height, whatever multiplier was set. -/
theorem C93_fifth {E : Ext} {unsjis : Nat → Option Nat} (hE : E.Ok unsjis) (hRS : E.rs = rsEncode) {c : AlignCache} (hc : CacheReachable c)
    {arrival : List Nat} (ha : Arrival arrival) {t : TextType} {text : Bytes} {opts : List EncodeOption} {q : QRCode}
    (h : newWith E c arrival t text opts = .ok q)
    (hx : ¬ (modeIn opts = encAuto ∧ AlnumThenKanji E.sjis (nats text)))
    {v : Nat} (hv : q.dimension = 17 + 4 * v)
    (hlv : ¬ (levelIn opts = .L ∧ v ∈ [1, 2, 3, 4, 5, 6, 36] ∨ levelIn opts = .M ∧ v ∈ [2, 4]))
    (scale : Scaler) (blend : Blend) {o : Opts} (hp : Rects o) (hcol : Contrast o)
    (hbx : 0 ≤ o.borders.left ∧ o.borders.left ≤ 2 * o.qrBlockWidth ∧ o.borders.right = o.borders.left)
    (hby : 0 ≤ o.borders.top ∧ o.borders.top ≤ 2 * o.qrBlockWidth ∧ o.borders.bottom = o.borders.top)
    {img : Image} (hl : o.logo = some img) (hmin : img.minX = 0 ∧ img.minY = 0) (hmax : 0 ≤ img.maxX ∧ 0 ≤ img.maxY)
    (hk : 5 * img.maxX ≤ (o.attribute q.dimension).w ∧ 5 * img.maxY ≤ (o.attribute q.dimension).h) :
    ∃ ops o' cv, draw scale o q.mat = some (ops, o') ∧ paintAllImg blend ops = some cv ∧
      ∀ pt, InBlocks o q.dimension pt → decodeDamaged unsjis (seen o q.dimension cv pt) = some (nats text) := by
  obtain ⟨hw, hh⟩ := mat_size hE hc ha h
  have hs : side v = q.dimension := by rw [hv]; rfl
  obtain ⟨ops, o', cv, h1, h2, h3⟩ := rects_picture scale blend hp (m := q.mat) (hw.trans hh.symm) (by omega) (by omega)
    (fun i hi _ => by rw [hl] at hi; cases hi; exact hmin)
  refine ⟨ops, o', cv, h1, h2, fun pt hpt => ?_⟩
  refine middle_damage hE hRS hc ha h hx hv hlv (scan_length _ _ _) ?_
  intro i j hi hj hne
  rw [hs] at hi hj
  have hcov : covered o q.mat j i = true := by
    by_contra hn
    apply hne
    unfold seen
    rw [pixel_scan hi hj, (bitmap_spec q.mat).2 i j (by omega) (by omega), h3 j i _ _ (by omega) (by omega) (hpt j i hj hi) (by simpa using hn)]
    exact (dark_eq hcol _).symm
  have hu := covered_under hw hh hl hmin hcov
  unfold under underLogo Opts.attribute at hu
  unfold Opts.attribute at hk
  simp only at hu hk
  rw [hbx.2.2, hby.2.2] at hu hk
  obtain ⟨u1, u2, u3, u4⟩ := of_decide_eq_true hu
  have hbw := (blockWidth_pos o).1
  have r1 := overlap_range (x := j) hbw (Int.le_refl 5) hmax.1 hbx.1 hbx.2.1 hk.1 (by omega) (by omega)
  have r2 := overlap_range (x := i) hbw (Int.le_refl 5) hmax.2 hby.1 hby.2.1 hk.2 (by omega) (by omega)
  unfold logoLo logoHi
  rw [hs]
  omega

/-- **C93, the limit.** With multiplier 1 a logo may be as large as the picture: then nothing of the symbol is left.  Whatever the two texts and the options of the two calls, if the symbols
have the same dimension, the same image options and an opaque logo of the size of the picture (`hop`: what was there before does not matter) give the same picture, so no reader can tell the
texts apart. -/
theorem C93_counterexample {E : Ext} {unsjis : Nat → Option Nat} (hE : E.Ok unsjis) {c c' : AlignCache} (hc : CacheReachable c) (hc' : CacheReachable c')
    {arrival arrival' : List Nat} (ha : Arrival arrival) (ha' : Arrival arrival') {t t' : TextType} {text text' : Bytes} {opts opts' : List EncodeOption} {q q' : QRCode}
    (h : newWith E c arrival t text opts = .ok q) (h' : newWith E c' arrival' t' text' opts' = .ok q') (hd : q.dimension = q'.dimension)
    (scale : Scaler) (blend : Blend) {o : Opts} (hp : Rects o)
    (hb : 0 ≤ o.borders.top ∧ 0 ≤ o.borders.right ∧ 0 ≤ o.borders.bottom ∧ 0 ≤ o.borders.left)
    {img : Image} (hl : o.logo = some img) (hmin : img.minX = 0 ∧ img.minY = 0) (hmax : img.maxX = (o.attribute q.dimension).w ∧ img.maxY = (o.attribute q.dimension).h)
    (hone : o.logoSizeMultiplier = 1) (hop : ∀ px py old old', blend img px py old = blend img px py old') :
    ∃ ops ops' o1 o2 cv cv', draw scale o q.mat = some (ops, o1) ∧ draw scale o q'.mat = some (ops', o2) ∧ paintAllImg blend ops = some cv ∧ paintAllImg blend ops' = some cv' ∧
      ∀ px py, 0 ≤ px → px < (o.attribute q.dimension).w → 0 ≤ py → py < (o.attribute q.dimension).h → cv.pix px py = cv'.pix px py := by
  have key : ∀ {q : QRCode} {dim : Nat}, 0 < dim → q.mat.width = dim → q.mat.height = dim → img.maxX = (o.attribute dim).w → img.maxY = (o.attribute dim).h →
      ∃ ops o1 cv, draw scale o q.mat = some (ops, o1) ∧ paintAllImg blend ops = some cv ∧
        ∀ px py, 0 ≤ px → px < (o.attribute dim).w → 0 ≤ py → py < (o.attribute dim).h → ∃ old, cv.pix px py = blend img px py old := by
    intro q dim hpos hw hh mx my
    obtain ⟨ops, o1, cv, e1, e2, _, e3⟩ := rects_picture_logo scale blend hp (m := q.mat) (hw.trans hh.symm) hb (by omega)
      (fun i hi _ => by rw [hl] at hi; cases hi; exact hmin)
    refine ⟨ops, o1, cv, e1, e2, fun px py p1 p2 p3 p4 => ?_⟩
    have hval : logoValid o q.mat = true := (logoValid_iff hw hh hl).2 (by rw [hone, hmin.1, hmin.2]; omega)
    have w1 : canvasW o q.mat = (o.attribute dim).w := by unfold canvasW Opts.attribute; rw [hw]; simp only; omega
    have h1 : canvasH o q.mat = (o.attribute dim).h := by unfold canvasH Opts.attribute; rw [hh]
    have hlw : logoW o q.mat = img.maxX := by unfold logoW logoSize; rw [hl]; simp only; rw [hmin.1, Int.sub_zero]
    have hlh : logoH o q.mat = img.maxY := by unfold logoH logoSize; rw [hl]; simp only; rw [hmin.2, Int.sub_zero]
    have z1 : Int.tdiv (canvasW o q.mat - logoW o q.mat) 2 = 0 := by rw [hlw, w1, mx, Int.sub_self]; rfl
    have z2 : Int.tdiv (canvasH o q.mat - logoH o q.mat) 2 = 0 := by rw [hlh, h1, my, Int.sub_self]; rfl
    have := e3 img hl hval px py p1 (by omega) p3 (by omega) (by omega) (by omega) (by omega) (by omega)
    rw [z1, z2, Int.add_zero, Int.add_zero] at this
    exact this
  obtain ⟨hw, hh⟩ := mat_size hE hc ha h
  obtain ⟨hw', hh'⟩ := mat_size hE hc' ha' h'
  have hpos : 0 < q.dimension := by obtain ⟨v, _, hd, _⟩ := C11_dimension hE hc ha h; omega
  obtain ⟨ops, o1, cv, e1, e2, e3⟩ := key hpos hw hh hmax.1 hmax.2
  obtain ⟨ops', o2, cv', f1, f2, f3⟩ := key hpos (hw'.trans hd.symm) (hh'.trans hd.symm) hmax.1 hmax.2
  refine ⟨ops, ops', o1, o2, cv, cv', e1, f1, e2, f2, fun px py p1 p2 p3 p4 => ?_⟩
  obtain ⟨a, ea⟩ := e3 px py p1 p2 p3 p4
  obtain ⟨b, eb⟩ := f3 px py p1 p2 p3 p4
  rw [ea, eb]
  exact hop px py a b

end QR.Standard

namespace QR.Examples
open QR QR.Standard Spec

set_option maxRecDepth 1000000 in
/-- The logo file of example/with-logosize-multiplier (194 × 59 pixels) in the middle of the picture of a symbol of at most version 6: at level Q it can be corrected. -/
theorem logo_corrected : ∀ v ∈ [1, 2, 3, 4, 5, 6],
    (formatCells1 ++ formatCells2 v).countP (fun p => underLogo (side v * 20 + 40 + 40 : Int) (side v * 20 + 40 + 40) 194 59 20 40 40 p.2 p.1) ≤ 6 ∧
    ∀ b ∈ List.range (numBlocks v .Q), (blockIndices v .Q b).countP (fun i => (codewordCells v i).any fun p =>
      underLogo (side v * 20 + 40 + 40 : Int) (side v * 20 + 40 + 40) 194 59 20 40 40 p.2 p.1) ≤ ecPerBlock v .Q / 2 := by decide +kernel

/-- **C93, the program** example/with-logosize-multiplier, with its own logo file (194 × 59 pixels, whatever they show), allows logos up to half of the picture; given any ASCII text of at most 1273
characters instead of its own it draws a picture that a scanner which corrects errors reads as exactly this text. -/
theorem C93_program {E : Ext} {unsjis : Nat → Option Nat} (hE : E.Ok unsjis) (hRS : E.rs = rsEncode) {c : AlignCache} (hc : CacheReachable c) {arrival : List Nat} (ha : Arrival arrival)
    (scale : Scaler) (blend : Blend) (show_ : Int → Int → UInt32 × UInt32 × UInt32 × UInt32) :
    Reads E c arrival (logoSizeMultiplier (some ⟨0, 0, 194, 59, show_⟩)) (fun o q ops text => ∃ cv, paintAllImg blend ops = some cv ∧
      ∀ pt, InBlocks o q.dimension pt → decodeDamaged unsjis (seen o q.dimension cv pt) = some (nats text)) scale := by
  have dc : Contrast defaultOpts := ⟨by decide, by decide⟩
  have d2 : 0 ≤ defaultOpts.borders.left ∧ defaultOpts.borders.left ≤ 2 * defaultOpts.qrBlockWidth ∧ defaultOpts.borders.right = defaultOpts.borders.left := by decide
  have d3 : 0 ≤ defaultOpts.borders.top ∧ defaultOpts.borders.top ≤ 2 * defaultOpts.qrBlockWidth ∧ defaultOpts.borders.bottom = defaultOpts.borders.top := by decide
  have db : (0 : Int) ≤ defaultOpts.borders.top ∧ 0 ≤ defaultOpts.borders.right ∧ 0 ≤ defaultOpts.borders.bottom ∧ 0 ≤ defaultOpts.borders.left := by decide
  refine ⟨{ defaultOpts with logo := some ⟨0, 0, 194, 59, show_⟩, logoSizeMultiplier := 2 }, rfl, fun text h1 h2 => ?_⟩
  obtain ⟨q, hq⟩ := C04_ascii hE hc ha (opts := [.withEncodingMode encByte, .withErrorCorrectionLevel ecQuart]) (by decide) (by decide) h1 h2
  have hlev : levelIn [.withEncodingMode encByte, .withErrorCorrectionLevel ecQuart] = .Q := by decide
  obtain ⟨v, _, hd, _⟩ := C11_dimension hE hc ha hq
  have hs : side v = q.dimension := by unfold side; omega
  by_cases h7 : v ≤ 6
  · have hv1 : 1 ≤ v := by
      obtain ⟨v', k, m, p, bits, hd', h1, h40, _⟩ := symbol_facts hE hc ha hq
      omega
    obtain ⟨g1, g2⟩ := logo_corrected v (by simp; omega)
    obtain ⟨ops, o', cv, e1, e2, e3⟩ := C93_logo hE hRS hc ha hq (fun h => absurd h.1 (by decide)) (v := v) (by omega) scale blend
      (o := { defaultOpts with logo := some ⟨0, 0, 194, 59, show_⟩, logoSizeMultiplier := 2 }) ⟨.inr rfl, rfl, rfl⟩ ⟨dc.fg, dc.bg⟩ db rfl ⟨rfl, rfl⟩
      (by rw [← hs]; exact g1) (fun b hb => by rw [hlev] at hb ⊢; rw [← hs]; exact g2 b (List.mem_range.2 hb))
    exact ⟨q, ops, o', hq, e1, cv, e2, e3⟩
  · have hw : (970 : Int) ≤ (q.dimension : Int) * 20 + 40 + 40 := by omega
    obtain ⟨ops, o', cv, e1, e2, e3⟩ := C93_fifth hE hRS hc ha hq (fun h => absurd h.1 (by decide)) (v := v) (by omega) (fun h => by
        rcases h with ⟨h, _⟩ | ⟨h, _⟩ <;> exact absurd h (by decide)) scale blend
      (o := { defaultOpts with logo := some ⟨0, 0, 194, 59, show_⟩, logoSizeMultiplier := 2 }) ⟨.inr rfl, rfl, rfl⟩ ⟨dc.fg, dc.bg⟩ d2 d3 rfl ⟨rfl, rfl⟩ ⟨by simp, by simp⟩
      ⟨hw, Int.le_trans (show (295 : Int) ≤ 970 by decide) hw⟩
    exact ⟨q, ops, o', hq, e1, cv, e2, e3⟩

end QR.Examples
