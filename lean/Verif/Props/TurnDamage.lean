import Verif.Spec.TurnDamage
import Verif.Props.Turn
import Verif.Props.Damage
import Verif.Props.Machine
/-!
# C109: damaged symbols, and symbols with a logo, are read in any direction

`Spec/TurnDamage.lean` has the reader `decodeDamagedAnyWay`.
-/
namespace Spec

theorem bitDist_append : ∀ (a b c d : List Bool), a.length = b.length → bitDist (a ++ c) (b ++ d) = bitDist a b + bitDist c d
  | [], [], c, d, _ => by simp [bitDist]
  | x :: a, y :: b, c, d, h => by
    have := bitDist_append a b c d (by simpa using h)
    simp only [List.cons_append, bitDist, this]
    omega

theorem bitDist_reverse : ∀ a b : List Bool, a.length = b.length → bitDist a.reverse b.reverse = bitDist a b
  | [], [], _ => rfl
  | x :: a, y :: b, h => by
    have hl : a.length = b.length := by simpa using h
    rw [List.reverse_cons, List.reverse_cons, bitDist_append _ _ _ _ (by simpa using hl), bitDist_reverse a b hl]
    simp only [bitDist]
    omega

theorem bitsAt_swap {n bm} (hn : 9 ≤ n) : bitsAt (view n bm (true, false, false)) formatCells1 = (bitsAt bm formatCells1).reverse := by
  have px : ∀ i j, i < 9 → j < 9 → pixel (view n bm (true, false, false)) i j = pixel bm j i := by
    intro i j hi hj
    rw [view, pixel_picture (by omega) (by omega)]; rfl
  simp only [bitsAt, formatCells1, List.map_cons, List.map_nil, List.reverse_cons, List.reverse_nil, List.nil_append, List.cons_append]
  rw [px _ _ (by omega) (by omega), px _ _ (by omega) (by omega), px _ _ (by omega) (by omega), px _ _ (by omega) (by omega),
    px _ _ (by omega) (by omega), px _ _ (by omega) (by omega), px _ _ (by omega) (by omega), px _ _ (by omega) (by omega),
    px _ _ (by omega) (by omega), px _ _ (by omega) (by omega), px _ _ (by omega) (by omega), px _ _ (by omega) (by omega),
    px _ _ (by omega) (by omega), px _ _ (by omega) (by omega), px _ _ (by omega) (by omega)]

/-- Read in the mirror, a format word differs from every format word in at least three bits. -/
theorem format_mirror_far : ∀ f ∈ formats, ∀ f' ∈ formats,
    3 ≤ bitDist (numBits 15 (formatWord f'.1 f'.2)) (numBits 15 (formatWord f.1 f.2)).reverse := by
  decide +kernel

theorem numBits_len (n w : Nat) : (numBits n w).length = n := by simp [numBits]

section
variable {v : Nat} {lv : Level} {k : Nat} {stream : List Bool} {a bm : List (List Bool)}

theorem format_near (h : IsSymbol v lv k stream a) (hw : wrongAt a bm formatCells1 ≤ 1) :
    bitDist (numBits 15 (formatWord lv k)) (bitsAt bm formatCells1) ≤ 1 := by
  rw [← h.format1]
  exact Nat.le_trans (Nat.le_of_eq (QR.bitDist_bitsAt a bm formatCells1)) hw

theorem near_only (h : IsSymbol v lv k stream a) (hf : finderAt bm (side v - 7) (side v - 7) = false) (hw : wrongAt a bm formatCells1 ≤ 1) {g}
    (hu : uprightNear (view (side v) bm g) = true) : g = (false, false, false) := by
  have hs : 21 ≤ side v := by have := h.version; unfold side; omega
  simp only [uprightNear, Bool.and_eq_true, show (view (side v) bm g).length = side v from picture_length _ _] at hu
  obtain ⟨⟨⟨h1, h2⟩, h3⟩, h4⟩ := hu
  obtain ⟨x, b, c⟩ := g
  by_cases hg : b = true ∨ c = true
  · have := finder_lower_right (by omega) h1 h2 h3 hg
    rw [hf] at this; exact absurd this (by decide)
  · have hb : b = false := by cases b <;> simp_all
    have hc : c = false := by cases c <;> simp_all
    subst hb hc
    cases x with
    | false => rfl
    | true =>
      rw [bitsAt_swap (by omega), List.any_eq_true] at h4
      obtain ⟨f, hfm, hd⟩ := h4
      have hd := of_decide_eq_true hd
      have h5 := format_near h hw
      have hl : (bitsAt bm formatCells1).length = 15 := by simp [bitsAt, formatCells1]
      have t := bitDist_triangle (numBits 15 (formatWord f.1 f.2)) (bitsAt bm formatCells1).reverse (numBits 15 (formatWord lv k)).reverse
        (by rw [List.length_reverse, hl, numBits_len]) (by rw [List.length_reverse, List.length_reverse, hl, numBits_len])
      rw [bitDist_reverse _ _ (by rw [hl, numBits_len]), bitDist_comm (bitsAt bm formatCells1)] at t
      have := format_mirror_far _ (mem_formats lv h.mask) f hfm
      simp only at this
      omega

theorem find_uprightNear (h : IsSymbol v lv k stream a) (hr : bm.length = side v) (hc : ∀ r ∈ bm, r.length = side v)
    (h1 : finderAt bm 0 0 = true) (h2 : finderAt bm 0 (side v - 7) = true) (h3 : finderAt bm (side v - 7) 0 = true)
    (hf : finderAt bm (side v - 7) (side v - 7) = false) (hw : wrongAt a bm formatCells1 ≤ 1) {s} (hs : Seen bm s) :
    (views s).find? uprightNear = some bm := by
  obtain ⟨g, rfl⟩ := seen_view hr hc hs
  have hm := mem_views_view (g := g) hr hc
  have hu : uprightNear bm = true := by
    simp only [uprightNear, hr, h1, h2, h3, Bool.true_and, List.any_eq_true]
    exact ⟨(lv, k), mem_formats lv h.mask, decide_eq_true (format_near h hw)⟩
  cases e : (views (view (side v) bm g)).find? uprightNear with
  | none => exact absurd hu (List.find?_eq_none.1 e _ hm)
  | some x =>
    have hu := List.find?_some e
    have hx := List.mem_of_find?_eq_some e
    rw [views_view, List.mem_map] at hx
    obtain ⟨g', _, rfl⟩ := hx
    rw [near_only h hf hw hu, view_id hr hc]

theorem finderAt_congr {a bm : List (List Bool)} {x y : Nat} (h : ∀ i j, i < 7 → j < 7 → pixel a (x + i) (y + j) = pixel bm (x + i) (y + j)) :
    finderAt a x y = finderAt bm x y := by
  rw [Bool.eq_iff_iff, finderAt_iff, finderAt_iff]
  constructor
  · intro e i j hi hj; rw [← h i j hi hj]; exact e i j hi hj
  · intro e i j hi hj; rw [h i j hi hj]; exact e i j hi hj

/-- Where the alignment pattern shows that the lower right corner has no finder pattern. -/
def corner4 (n : Nat) : List (Nat × Nat) := [(n - 7, n - 6), (n - 6, n - 7), (n - 6, n - 5), (n - 5, n - 6)]

theorem align_pattern4 : ∀ v, 2 ≤ v → v ≤ 40 → patternColour v (side v - 7) (side v - 6) = some false ∧ patternColour v (side v - 6) (side v - 7) = some false ∧
    patternColour v (side v - 6) (side v - 5) = some true ∧ patternColour v (side v - 5) (side v - 6) = some true := by
  have : ∀ v ∈ List.range 41, 2 ≤ v → patternColour v (side v - 7) (side v - 6) = some false ∧ patternColour v (side v - 6) (side v - 7) = some false ∧
    patternColour v (side v - 6) (side v - 5) = some true ∧ patternColour v (side v - 5) (side v - 6) = some true := by decide +kernel
  intro v h2 h40
  exact this v (List.mem_range.2 (by omega)) h2

/-- From version 2 on a fourth finder pattern takes at least four wrong modules. -/
theorem fourth_finder (h : IsSymbol v lv k stream a) (h2 : 2 ≤ v) (hx : finderAt bm (side v - 7) (side v - 7) = true) :
    4 ≤ wrongAt a bm (corner4 (side v)) := by
  have hs : 25 ≤ side v := by unfold side; omega
  rw [finderAt_iff] at hx
  obtain ⟨p1, p2, p3, p4⟩ := align_pattern4 v h2 h.version.2
  have x1 := hx 0 1 (by omega) (by omega)
  have x2 := hx 1 0 (by omega) (by omega)
  have x3 := hx 1 2 (by omega) (by omega)
  have x4 := hx 2 1 (by omega) (by omega)
  rw [Nat.add_zero, show side v - 7 + 1 = side v - 6 by omega] at x1
  rw [show side v - 7 + 1 = side v - 6 by omega, show side v - 7 + 0 = side v - 7 by omega] at x2
  rw [show side v - 7 + 1 = side v - 6 by omega, show side v - 7 + 2 = side v - 5 by omega] at x3 x4
  unfold wrongAt corner4
  simp only [List.countP_cons, List.countP_nil, x1, x2, x3, x4, h.pattern _ _ _ (by omega) (by omega) p1, h.pattern _ _ _ (by omega) (by omega) p2,
    h.pattern _ _ _ (by omega) (by omega) p3, h.pattern _ _ _ (by omega) (by omega) p4]
  decide

end
end Spec

namespace QR
open QR.Standard _root_.Spec

theorem logo_format1 : ∀ v ∈ List.range 41, 1 ≤ v → formatCells1.countP (fun p => decide (logoLo v ≤ p.1 ∧ p.1 ≤ logoHi v ∧ logoLo v ≤ p.2 ∧ p.2 ≤ logoHi v)) ≤ 1 := by
  decide +kernel

theorem scan_rows (dim : Nat) (dark : Int → Int → Bool) (pt : Nat → Nat → Int × Int) : ∀ r ∈ scan dim dark pt, r.length = dim := by
  intro r hr
  unfold scan at hr
  obtain ⟨y, _, rfl⟩ := List.mem_map.1 hr
  rw [List.length_map, List.length_range]

section
variable {E : Ext} {unsjis : Nat → Option Nat} (hE : E.Ok unsjis) (hRS : E.rs = rsEncode) {c : AlignCache} (hc : CacheReachable c)
  {arrival : List Nat} (ha : Arrival arrival) {t : TextType} {text : Bytes} {opts : List EncodeOption} {q : QRCode}
include hE hRS hc ha

/-- **C109.**  A reader that is not told how the picture is turned or mirrored recovers the text from a damaged symbol as long as the three finder patterns can be seen and no fourth, at most one module of
the first copy of the format information and at most 6 of both are wrong, and in every block at most half as many codewords are damaged as the block has error correction codewords. -/
theorem C109_damage (h : newWith E c arrival t text opts = .ok q) (hx : ¬ (modeIn opts = encAuto ∧ AlnumThenKanji E.sjis (nats text)))
    {v : Nat} (hv : q.dimension = 17 + 4 * v) {bm : List (List Bool)} (hlen : bm.length = q.dimension) (hrow : ∀ r ∈ bm, r.length = q.dimension)
    (h1 : finderAt bm 0 0 = true) (h2 : finderAt bm 0 (q.dimension - 7) = true) (h3 : finderAt bm (q.dimension - 7) 0 = true)
    (h4 : finderAt bm (q.dimension - 7) (q.dimension - 7) = false)
    (hf1 : wrongAt q.mat.bitmap bm formatCells1 ≤ 1)
    (hfmt : wrongAt q.mat.bitmap bm formatCells1 + wrongAt q.mat.bitmap bm (formatCells2 v) ≤ 6)
    (hcw : ∀ b < numBlocks v (levelIn opts), wrongCodewords v (levelIn opts) q.mat.bitmap bm b ≤ ecPerBlock v (levelIn opts) / 2)
    {s : List (List Bool)} (hs : Seen bm s) : decodeDamagedAnyWay unsjis s = some (nats text) := by
  obtain ⟨v', k, st, hd, hq, _⟩ := corner_of hE hc ha h
  rw [hd] at h2 h3 h4 hlen hrow
  unfold decodeDamagedAnyWay
  rw [find_uprightNear hq hlen hrow h1 h2 h3 h4 hf1 hs]
  exact C68_damage hE hRS hc ha h hx hv (hlen.trans hd.symm) hfmt hcw

/-- **C109.**  In particular, from version 2 on, up to three wrong modules do no harm if the finder patterns can be seen and at most one of the three lies in the first copy of the format information. -/
theorem C109_few_modules (h : newWith E c arrival t text opts = .ok q) (hx : ¬ (modeIn opts = encAuto ∧ AlnumThenKanji E.sjis (nats text)))
    {v : Nat} (hv : q.dimension = 17 + 4 * v) (hv2 : 2 ≤ v) {bm : List (List Bool)} (hlen : bm.length = q.dimension) (hrow : ∀ r ∈ bm, r.length = q.dimension)
    (h1 : finderAt bm 0 0 = true) (h2 : finderAt bm 0 (q.dimension - 7) = true) (h3 : finderAt bm (q.dimension - 7) 0 = true)
    (hf1 : wrongAt q.mat.bitmap bm formatCells1 ≤ 1) (hw : wrongAt q.mat.bitmap bm (allCells v) ≤ 3)
    {s : List (List Bool)} (hs : Seen bm s) : decodeDamagedAnyWay unsjis s = some (nats text) := by
  obtain ⟨v', k, st, hd, hq, _⟩ := corner_of hE hc ha h
  have hvv : v' = v := by unfold side at hd; omega
  subst hvv
  have hv1 := hq.version.1
  have h40 := hq.version.2
  refine C109_damage hE hRS hc ha h hx hv hlen hrow h1 h2 h3 ?_ hf1 (Nat.le_trans (wrongFormat_le hv1 h40 _ _) (by omega))
    (fun b hb => Nat.le_trans (wrongCodewords_le_wrong hv1 h40 _ hb _ _) (Nat.le_trans hw ((C68_margin hv1 h40).1 _))) hs
  rw [← Bool.not_eq_true]
  intro h4
  rw [hd] at h4
  have h5 := fourth_finder hq hv2 h4
  have hs25 : 25 ≤ side v' := by unfold side; omega
  have hsub : List.Subperm (corner4 (side v')) (allCells v') := by
    refine List.subperm_of_subset ?_ ?_
    · unfold corner4
      simp only [List.nodup_cons, List.mem_cons, Prod.mk.injEq, List.not_mem_nil, or_false, not_false_eq_true, List.nodup_nil, and_true]
      refine ⟨?_, ?_, ?_⟩ <;> omega
    · intro p hp
      obtain ⟨i, j⟩ := p
      unfold corner4 at hp
      simp only [List.mem_cons, Prod.mk.injEq, List.not_mem_nil, or_false] at hp
      rw [mem_allCells]
      omega
  have := hsub.countP_le fun p => pixel q.mat.bitmap p.1 p.2 != pixel bm p.1 p.2
  unfold wrongAt at h5 hw
  omega

/-- If only modules in the middle of the symbol are wrong, the text can be recovered, whichever way up the picture is. -/
theorem middle_any_way (h : newWith E c arrival t text opts = .ok q) (hx : ¬ (modeIn opts = encAuto ∧ AlnumThenKanji E.sjis (nats text)))
    {v : Nat} (hv : q.dimension = 17 + 4 * v) (hl : ¬ logoTooLarge v (levelIn opts)) {bm : List (List Bool)} (hlen : bm.length = q.dimension)
    (hrow : ∀ r ∈ bm, r.length = q.dimension)
    (hm : ∀ i j, i < side v → j < side v → pixel q.mat.bitmap i j ≠ pixel bm i j →
      logoLo v ≤ i ∧ i ≤ logoHi v ∧ logoLo v ≤ j ∧ j ≤ logoHi v) {s : List (List Bool)} (hs : Seen bm s) : decodeDamagedAnyWay unsjis s = some (nats text) := by
  obtain ⟨v', k, st, hd, hq, _⟩ := corner_of hE hc ha h
  have hvv : v' = v := by unfold side at hd; omega
  subst hvv
  have hv1 := hq.version.1
  have h40 := hq.version.2
  have hs21 : 21 ≤ side v' := by unfold side; omega
  have out : ∀ i j, i < side v' → j < side v' → ¬ (logoLo v' ≤ i ∧ i ≤ logoHi v' ∧ logoLo v' ≤ j ∧ j ≤ logoHi v') → pixel q.mat.bitmap i j = pixel bm i j := by
    intro i j hi hj hn
    by_contra hne
    exact hn (hm i j hi hj hne)
  obtain ⟨f1, f2, f3, f4⟩ := C101_three_finders hE hc ha h
  rw [hd] at f2 f3 f4 hlen hrow
  have lo : 8 ≤ logoLo v' := by unfold logoLo; omega
  have hi' : logoHi v' < side v' - 7 := by unfold logoHi; omega
  have e1 : finderAt q.mat.bitmap 0 0 = finderAt bm 0 0 := finderAt_congr fun i j _ _ => out _ _ (by omega) (by omega) (by omega)
  have e2 : finderAt q.mat.bitmap 0 (side v' - 7) = finderAt bm 0 (side v' - 7) := finderAt_congr fun i j _ _ => out _ _ (by omega) (by omega) (by omega)
  have e3 : finderAt q.mat.bitmap (side v' - 7) 0 = finderAt bm (side v' - 7) 0 := finderAt_congr fun i j _ _ => out _ _ (by omega) (by omega) (by omega)
  have e4 : finderAt q.mat.bitmap (side v' - 7) (side v' - 7) = finderAt bm (side v' - 7) (side v' - 7) :=
    finderAt_congr fun i j _ _ => out _ _ (by omega) (by omega) (by omega)
  have hw : wrongAt q.mat.bitmap bm formatCells1 ≤ 1 := by
    refine Nat.le_trans ?_ (logo_format1 v' (List.mem_range.2 (by omega)) hv1)
    unfold wrongAt
    refine List.countP_mono_left fun p hp hne => ?_
    obtain ⟨i, j⟩ := p
    obtain ⟨p1, p2⟩ := (formatCells_table v' (List.mem_range.2 (by omega)) hv1).2 (i, j) (List.mem_append_left _ hp)
    exact decide_eq_true (hm i j p1 p2 (by simpa using hne))
  unfold decodeDamagedAnyWay
  rw [find_uprightNear hq hlen hrow (e1 ▸ f1) (e2 ▸ f2) (e3 ▸ f3) (e4 ▸ f4) hw hs]
  exact middle_damage hE hRS hc ha h hx hv hl (hlen.trans hd.symm) hm

/-- **C109, pictures with a logo.**  Under the conditions of C69 a scanner that corrects errors, looks at any one pixel of every block and is not told how the picture is turned or mirrored reads exactly
the text, whatever the logo shows. -/
theorem C109_logo (h : newWith E c arrival t text opts = .ok q) (hx : ¬ (modeIn opts = encAuto ∧ AlnumThenKanji E.sjis (nats text)))
    {v : Nat} (hv : q.dimension = 17 + 4 * v)
    (hlv : ¬ (levelIn opts = .L ∧ v ∈ [1, 2, 3, 4, 5, 6, 36] ∨ levelIn opts = .M ∧ v ∈ [2, 4]))
    (scale : Scaler) (blend : Blend) {o : Opts} (hp : Rects o) (hcol : Contrast o)
    (hbx : 0 ≤ o.borders.left ∧ o.borders.left ≤ 2 * o.qrBlockWidth ∧ o.borders.right = o.borders.left)
    (hby : 0 ≤ o.borders.top ∧ o.borders.top ≤ 2 * o.qrBlockWidth ∧ o.borders.bottom = o.borders.top)
    {img : Image} (hl : o.logo = some img) (hmin : img.minX = 0 ∧ img.minY = 0) (hmax : 0 ≤ img.maxX ∧ 0 ≤ img.maxY)
    (hk : 5 ≤ o.logoSizeMultiplier) :
    ∃ ops o' cv, draw scale o q.mat = some (ops, o') ∧ paintAllImg blend ops = some cv ∧
      ∀ pt, InBlocks o q.dimension pt → ∀ s, Seen (seen o q.dimension cv pt) s → decodeDamagedAnyWay unsjis s = some (nats text) := by
  obtain ⟨hw, hh⟩ := mat_size hE hc ha h
  have hs : side v = q.dimension := by rw [hv]; rfl
  obtain ⟨ops, o', cv, h1, h2, h3⟩ := rects_picture scale blend hp (m := q.mat) (hw.trans hh.symm) (by omega) (by omega)
    (fun i hi _ => by rw [hl] at hi; cases hi; exact hmin)
  refine ⟨ops, o', cv, h1, h2, fun pt hpt s hsn => ?_⟩
  refine middle_any_way hE hRS hc ha h hx hv hlv (scan_length _ _ _) (scan_rows _ _ _) ?_ hsn
  intro i j hi hj hne
  rw [hs] at hi hj
  have hcov : covered o q.mat j i = true := by
    by_contra hn
    apply hne
    rw [pixel_scan hi hj, (bitmap_spec q.mat).2 i j (by omega) (by omega), h3 j i _ _ (by omega) (by omega) (hpt j i hj hi) (by simpa using hn)]
    exact (Standard.dark_eq hcol _).symm
  obtain ⟨g1, g2, g3, g4⟩ := covered_range (hw.trans hs.symm) (hh.trans hs.symm) hl (by omega) (by omega) hk ⟨hbx.1, hby.1⟩ ⟨hbx.2.2, hby.2.2⟩ ⟨hbx.2.1, hby.2.1⟩ hcov
  exact ⟨g3, g4, g1, g2⟩

/-- From a picture with a logo to the text, whichever way up the picture is. -/
theorem any_way_of_picture_logo (h : newWith E c arrival t text opts = .ok q) (hx : ¬ (modeIn opts = encAuto ∧ AlnumThenKanji E.sjis (nats text)))
    {v : Nat} (hv : q.dimension = 17 + 4 * v)
    (hlv : ¬ (levelIn opts = .L ∧ v ∈ [1, 2, 3, 4, 5, 6, 36] ∨ levelIn opts = .M ∧ v ∈ [2, 4]))
    {drawn : Option (List DrawOp × Opts)} {cov : Coverage} {blend : Blend} {grad : GradientPainter}
    {lib : LibShape} {run : Shape → Bool → Ctx → List Cmd} {o : Opts} (hpic : CentrePictureRun drawn cov blend grad lib run o q.mat)
    (hbx : 0 ≤ o.borders.left ∧ o.borders.left ≤ 2 * o.qrBlockWidth ∧ o.borders.right = o.borders.left)
    (hby : 0 ≤ o.borders.top ∧ o.borders.top ≤ 2 * o.qrBlockWidth ∧ o.borders.bottom = o.borders.top)
    {img : Image} (hl : o.logo = some img) (hmax : 0 ≤ img.maxX ∧ 0 ≤ img.maxY) (hmin : img.minX = 0 ∧ img.minY = 0)
    (hk : 5 ≤ o.logoSizeMultiplier) :
    ∃ ops o' cv, drawn = some (ops, o') ∧ paintAllRun cov run blend grad ops = some cv ∧
      ∀ pt, AtCentres o q.dimension pt → ∀ s, Seen (seenInk o q.dimension cv pt) s → decodeDamagedAnyWay unsjis s = some (nats text) := by
  obtain ⟨hmw, hmh⟩ := mat_size hE hc ha h
  have hs : side v = q.dimension := by rw [hv]; rfl
  obtain ⟨ops, o', cv, h1, h2, h3⟩ := hpic
  have hrange : ∀ x y, covered o q.mat x y = true → logoLo v ≤ x ∧ x ≤ logoHi v ∧ logoLo v ≤ y ∧ y ≤ logoHi v := fun x y hcov =>
    covered_range (hmw.trans hs.symm) (hmh.trans hs.symm) hl (by omega) (by omega) hk ⟨hbx.1, hby.1⟩ ⟨hbx.2.2, hby.2.2⟩ ⟨hbx.2.1, hby.2.1⟩ hcov
  refine ⟨ops, o', cv, h1, h2, fun pt hpt s hsn => ?_⟩
  refine middle_any_way hE hRS hc ha h hx hv hlv (scan_length _ _ _) (scan_rows _ _ _) ?_ hsn
  intro i j hi hj hne
  rw [hs] at hi hj
  by_contra hn
  apply hne
  rw [pixel_scan hi hj, (bitmap_spec q.mat).2 i j (by omega) (by omega), (h3 j i _ _ (by omega) (by omega) (hpt j i hj hi) ?_ ?_).1]
  · rw [← Bool.not_eq_true]
    intro hcv
    obtain ⟨g1, g2, g3, g4⟩ := hrange _ _ hcv
    exact hn ⟨g3, g4, g1, g2⟩
  · intro hsz _
    rw [← Bool.not_eq_true]
    intro ho
    have hcv : covered o q.mat i j = true := by
      unfold safeOn at hsz
      unfold covered
      rw [hl, ho]
      simpa using (Bool.and_eq_true_iff.1 hsz).1
    obtain ⟨g1, g2, g3, g4⟩ := hrange _ _ hcv
    exact hn ⟨g1, g2, g3, g4⟩

/-- **C109, pictures with shapes, halftone images, gradients and a logo** under the conditions of C106 (any machine), a scanner as in C106 that corrects errors and is not told how the picture is turned or mirrored. -/
theorem C109_machine_logo (h : newWith E c arrival t text opts = .ok q) (hx : ¬ (modeIn opts = encAuto ∧ AlnumThenKanji E.sjis (nats text)))
    {v : Nat} (hv : q.dimension = 17 + 4 * v)
    (hlv : ¬ (levelIn opts = .L ∧ v ∈ [1, 2, 3, 4, 5, 6, 36] ∨ levelIn opts = .M ∧ v ∈ [2, 4]))
    (M : Machine) (hA : M.arch.bits = 32 ∨ M.arch.bits = 64)
    (scale : Scaler) {cov : Coverage} (hcov : Rasters cov) (blend : Blend) {put : Put} (hput : PutsOver put) (direction : Rat → Rat × Rat)
    (assembled : Nat → DrawFn × DrawFn) {o : Opts} (hm : Small o) (hw : 10 ≤ o.qrBlockWidth) (hbold : (meaning assembled o.getShape).bold64 float64Round)
    (hht : ∀ himg, o.halftone = some himg → SubPixels o (meaning assembled o.getShape))
    (hcol : Contrast o) (hg : ∀ g, o.qrGradient = some g → GradientContrast o g)
    (hbx : 0 ≤ o.borders.left ∧ o.borders.left ≤ 2 * o.qrBlockWidth ∧ o.borders.right = o.borders.left)
    (hby : 0 ≤ o.borders.top ∧ o.borders.top ≤ 2 * o.qrBlockWidth ∧ o.borders.bottom = o.borders.top)
    (hfit : 4 * ((o.attribute q.dimension).w.natAbs * (o.attribute q.dimension).h.natAbs) ≤ M.arch.limit)
    {img : Image} (hl : o.logo = some img) (hmin : img.minX = 0 ∧ img.minY = 0) (hmax : 0 ≤ img.maxX ∧ 0 ≤ img.maxY)
    (hk : 5 ≤ o.logoSizeMultiplier) :
    ∃ ops o' cv, drawM M float64Round scale o q.mat = some (ops, o') ∧ M.paint cov (meaning assembled) blend put direction ops = some cv ∧
      ∀ pt, AtCentres o q.dimension pt → ∀ s, Seen (seenInk o q.dimension cv pt) s → decodeDamagedAnyWay unsjis s = some (nats text) :=
  any_way_of_picture_logo hE hRS hc ha h hx hv hlv (machine_picture hE hc ha h M hA scale hcov blend hput direction assembled hm hw hbold hht hcol hg (by omega) hfit
    (fun i hi _ => by rw [hl] at hi; cases hi; exact hmin)) hbx hby hl hmax hmin hk

end
end QR
