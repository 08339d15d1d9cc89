import Verif.Proof.CompressedAny
import Verif.Props.Photo
/-!
# C103: settings that make no sense

`compressed.Option` has two `int` fields and `WithBorderWidth` takes any `int`; nothing checks them.
-/
namespace QR.Compressed
open QR _root_.Spec

variable {E : Ext} {unsjis : Nat → Option Nat} {c : AlignCache} {arrival : List Nat} {t : TextType} {text : Bytes} {opts : List EncodeOption} {q : QRCode}

/-- The module in the upper left corner of a symbol is dark. -/
theorem corner_dark (hE : E.Ok unsjis) (hc : CacheReachable c) (ha : Arrival arrival) (h : newWith E c arrival t text opts = .ok q) :
    (q.mat.raw 0 0).bit = true := by
  obtain ⟨hw, hh⟩ := Standard.mat_size hE hc ha h
  have hd : 0 < q.dimension := by obtain ⟨v, _, hd, _⟩ := C11_dimension hE hc ha h; omega
  have hf := (C101_three_finders hE hc ha h).1
  obtain ⟨_, hbit⟩ := bitmap_spec q.mat
  rw [← hbit 0 0 (by omega) (by omega)]
  have h1 := List.all_eq_true.1 hf 0 (by decide)
  have h2 := List.all_eq_true.1 h1 0 (by decide)
  rw [beq_iff_eq] at h2
  exact h2.trans (by decide)

/-- **C103, compressed writer, panics.** Whatever the padding and the block size, `Write` panics exactly if the blocks have an
extent and the padding is negative, but not so much that the symbol lies left of and above the origin altogether. -/
theorem C103_panics (hE : E.Ok unsjis) (hc : CacheReachable c) (ha : Arrival arrival) (h : newWith E c arrival t text opts = .ok q)
    (padding blockSize : Int) : write (some ⟨padding, blockSize⟩) q.mat = none ↔
      0 < blockSize ∧ -(q.dimension * blockSize) < padding ∧ padding < 0 := by
  obtain ⟨hw, hh⟩ := Standard.mat_size hE hc ha h
  have hd : 0 < q.dimension := by obtain ⟨v, _, hd, _⟩ := C11_dimension hE hc ha h; omega
  have e : write (some ⟨padding, blockSize⟩) q.mat = image ⟨padding, blockSize⟩ q.mat := rfl
  constructor
  · intro hn
    refine Decidable.byContradiction fun hcon => ?_
    by_cases hb : blockSize ≤ 0
    · rw [e, image_blank hb] at hn; cases hn
    · have hcase : 0 ≤ padding ∨ padding ≤ -(q.mat.width * blockSize) := by
        rw [hw]
        by_cases h0 : 0 ≤ padding
        · exact Or.inl h0
        · right
          by_cases h1 : padding ≤ -(q.dimension * blockSize)
          · exact h1
          · exact absurd ⟨by omega, by omega, by omega⟩ hcon
      have ok : ∀ p b : Int, 0 ≤ p → 0 < b → image ⟨p, b⟩ q.mat ≠ none := by
        intro p b hp hb hn
        obtain ⟨p', rfl⟩ : ∃ n : Nat, p = n := ⟨p.toNat, by omega⟩
        obtain ⟨b', rfl⟩ : ∃ n : Nat, b = n := ⟨b.toNat, by omega⟩
        obtain ⟨img, hi, _⟩ := C36_pixels q.mat (by omega) p' b'
        have : image ⟨p', b'⟩ q.mat = some img := hi
        rw [hn] at this
        cases this
      rcases hcase with h0 | h0
      · exact ok _ _ h0 (by omega) hn
      · rw [e, image_shift (by omega) h0, Option.map_eq_none_iff] at hn
        exact ok _ _ (by omega) (by omega) hn
  · rintro ⟨h1, h2, h3⟩
    rw [← hw] at h2
    exact image_panics h1 h3 h2 (corner_dark hE hc ha h) (by omega) (by omega)

/-- **C103, compressed writer, no blocks.** With a block size of 0 or below there is no dark pixel in the picture, whatever the symbol. -/
theorem C103_blank (m : Matrix) (padding : Int) {blockSize : Int} (hb : blockSize ≤ 0) :
    ∃ img, write (some ⟨padding, blockSize⟩) m = some img ∧ ∀ px py, img.at' px py ≠ some 0x00 := by
  refine ⟨_, image_blank hb padding m, fun px py h => ?_⟩
  unfold Paletted.at' at h
  split at h
  · obtain ⟨i, h1, h2⟩ := Option.bind_eq_some_iff.1 h
    have h0 : i = 0 := (List.mem_replicate.1 (List.mem_of_getElem? h1)).2
    subst h0
    revert h2
    show ([backgroundColor, foregroundColor] : List Nat)[0]? = some 0 → False
    decide
  · cases h

/-- **C103, compressed writer, left of and above the origin.** If the padding is so negative that nothing of the symbol is right of or
below the origin, the picture is made after all, at negative coordinates, and contains the text. -/
theorem C103_negative (hE : E.Ok unsjis) (hc : CacheReachable c) (ha : Arrival arrival) (h : newWith E c arrival t text opts = .ok q)
    (hx : ¬ (modeIn opts = encAuto ∧ AlnumThenKanji E.sjis (nats text))) {padding blockSize : Int} (hb : 0 < blockSize)
    (hp : padding ≤ -(q.dimension * blockSize)) :
    ∃ img, write (some ⟨padding, blockSize⟩) q.mat = some img ∧ img.minX = q.dimension * blockSize + 2 * padding ∧ img.minY = img.minX ∧
      img.maxX = 0 ∧ img.maxY = 0 ∧
      ∀ s, Seen (photo (-img.minX).toNat (-img.minY).toNat fun x y => decide (img.at' (img.minX + x) (img.minY + y) = some 0x00)) s →
        decodePhoto unsjis s = some (nats text) := by
  obtain ⟨hw, hh⟩ := Standard.mat_size hE hc ha h
  have hd : 0 < q.dimension := by obtain ⟨v, _, hd, _⟩ := C11_dimension hE hc ha h; omega
  obtain ⟨L, hL⟩ : ∃ n : Nat, -(q.dimension * blockSize) - padding = n := ⟨(-(q.dimension * blockSize) - padding).toNat, by omega⟩
  obtain ⟨b, rfl⟩ : ∃ n : Nat, blockSize = n := ⟨blockSize.toNat, by omega⟩
  obtain ⟨img, hi, hr⟩ := C102_compressed hE hc ha h hx (padding := L) (blockSize := b) (by omega)
  obtain ⟨img', hi', ⟨s1, s2, s3, s4⟩, _⟩ := C36_pixels q.mat (by omega) L b
  rw [hi] at hi'
  cases hi'
  have hsh : write (some ⟨padding, b⟩) q.mat = some (img.shift (q.dimension * b + 2 * padding)) := by
    have e := image_shift (p := padding) (b := b) (m := q.mat) hb (by rw [hw]; exact hp)
    rw [hw, hL] at e
    have hi2 : image ⟨L, b⟩ q.mat = some img := hi
    rw [hi2] at e
    exact e
  obtain ⟨d, hdd⟩ : ∃ d : Int, d = q.dimension * b + 2 * padding := ⟨_, rfl⟩
  rw [← hdd] at hsh
  have s3' : img.maxX = -d := by rw [s3, hw]; omega
  have s4' : img.maxY = -d := by rw [s4, hw]; omega
  have m1 : (img.shift d).minX = d := by show img.minX + d = d; omega
  have m2 : (img.shift d).minY = d := by show img.minY + d = d; omega
  refine ⟨_, hsh, by rw [m1, hdd], by rw [m1, m2], ?_, ?_, fun s hs => hr s ?_⟩
  · show img.maxX + d = 0; omega
  · show img.maxY + d = 0; omega
  · rw [m1, m2] at hs
    rw [s3', s4']
    have : ∀ x y : Nat, (img.shift d).at' (d + x) (d + y) = img.at' x y := by
      intro x y
      unfold Paletted.at' Paletted.pixOffset Paletted.shift
      simp only
      rw [show d + (y : Int) - (img.minY + d) = y - img.minY by omega, show d + (x : Int) - (img.minX + d) = x - img.minX by omega]
      refine if_congr ?_ rfl rfl
      constructor <;> (rintro ⟨a, b, c, d⟩; exact ⟨by omega, by omega, by omega, by omega⟩)
    simp only [this] at hs
    exact hs

end QR.Compressed

namespace QR.Standard
open QR _root_.Spec

variable {E : Ext} {unsjis : Nat → Option Nat} {c : AlignCache} {arrival : List Nat} {t : TextType} {text : Bytes} {opts : List EncodeOption} {q : QRCode}

/-- The same options without borders. -/
abbrev Opts.borderless (o : Opts) : Opts := { o with borders := ⟨0, 0, 0, 0⟩ }

/-- **C103, image writer.** Whatever the borders, also negative ones, as long as anything is left of the picture: the picture has the
size `Attribute` reports and shows the picture without borders, moved by the left and the top border, on the background.  So a
negative border cuts off as many pixels of the symbol as it says. -/
theorem C103_cut (scale : Scaler) {o : Opts} (hp : Plain o) (m : Matrix) {dim : Nat} (hw : m.width = dim) (hh : m.height = dim)
    (hd : 0 < dim) (hpos : 0 < (o.attribute dim).w ∧ 0 < (o.attribute dim).h) :
    ∃ ops o' cv ops0 o0' cv0, draw scale o m = some (ops, o') ∧ paintAll ops = some cv ∧
      cv.w = (o.attribute dim).w ∧ cv.h = (o.attribute dim).h ∧
      draw scale o.borderless m = some (ops0, o0') ∧ paintAll ops0 = some cv0 ∧ cv0.w = dim * o.qrBlockWidth ∧ cv0.h = dim * o.qrBlockWidth ∧
      ∀ px py, 0 ≤ px → px < cv.w → 0 ≤ py → py < cv.h →
        cv.pix px py = if 0 ≤ px - o.borders.left ∧ px - o.borders.left < cv0.w ∧ 0 ≤ py - o.borders.top ∧ py - o.borders.top < cv0.h then
          cv0.pix (px - o.borders.left) (py - o.borders.top) else over o.backgroundColor.1 ⟨0, 0, 0, 0⟩ := by
  have hbw := (blockWidth_pos o).1
  have hbw0 : o.borderless.qrBlockWidth = o.qrBlockWidth := rfl
  have hbg0 : o.borderless.backgroundColor.1 = o.backgroundColor.1 := by unfold Opts.backgroundColor; split <;> rfl
  have hmc : ∀ v, moduleColor o.borderless v = moduleColor o v := fun v => rfl
  have hD : 0 < dim * o.qrBlockWidth := Int.mul_pos (by omega) hbw
  have hp0 : Plain o.borderless := ⟨hp.shape, hp.halftone, hp.gradient, hp.logo⟩
  have e1 : canvasW o m = (o.attribute dim).w := by
    unfold canvasW Opts.attribute; rw [hw]; simp only; omega
  have e2 : canvasH o m = (o.attribute dim).h := by
    unfold canvasH Opts.attribute; rw [hh]
  have f1 : canvasW o.borderless m = dim * o.qrBlockWidth := by unfold canvasW; rw [hw, hbw0]; simp
  have f2 : canvasH o.borderless m = dim * o.qrBlockWidth := by unfold canvasH; rw [hh, hbw0]; simp
  obtain ⟨ops, o', cv, h1, h2, h3, h4, _⟩ := plain_picture scale hp m (px := 0) (py := 0) (by rw [e1]; omega) (by rw [e2]; omega)
  obtain ⟨ops0, o0', cv0, g1, g2, g3, g4, _⟩ := plain_picture scale hp0 m (px := 0) (py := 0) (by rw [f1]; omega) (by rw [f2]; omega)
  refine ⟨ops, o', cv, ops0, o0', cv0, h1, h2, by rw [h3, e1], by rw [h4, e2], g1, g2, by rw [g3, f1], by rw [g4, f2], fun px py p1 p2 p3 p4 => ?_⟩
  rw [h3] at p2
  rw [h4] at p4
  obtain ⟨_, _, _, k1, k2, _, _, k5, k6⟩ := plain_picture scale hp m (px := px) (py := py) ⟨p1, p2⟩ ⟨p3, p4⟩
  rw [h1] at k1
  obtain ⟨rfl, rfl⟩ := Prod.mk.inj (Option.some.inj k1)
  rw [h2] at k2
  obtain rfl := Option.some.inj k2
  have hin : ∀ x y, InBlock o x y px py ↔ InBlock o.borderless x y (px - o.borders.left) (py - o.borders.top) := by
    intro x y
    unfold InBlock
    rw [hbw0]
    show _ ↔ 0 + x * o.qrBlockWidth ≤ _ ∧ _ < 0 + (x + 1) * o.qrBlockWidth ∧ 0 + y * o.qrBlockWidth ≤ _ ∧ _ < 0 + (y + 1) * o.qrBlockWidth
    constructor <;> (rintro ⟨a1, a2, a3, a4⟩; exact ⟨by omega, by omega, by omega, by omega⟩)
  rw [g3, g4, f1, f2]
  split
  · rename_i hr
    obtain ⟨r1, r2, r3, r4⟩ := hr
    obtain ⟨_, _, _, l1, l2, _, _, l5, l6⟩ := plain_picture scale hp0 m (px := px - o.borders.left) (py := py - o.borders.top)
      ⟨r1, by rw [f1]; exact r2⟩ ⟨r3, by rw [f2]; exact r4⟩
    rw [g1] at l1
    obtain ⟨rfl, rfl⟩ := Prod.mk.inj (Option.some.inj l1)
    rw [g2] at l2
    obtain rfl := Option.some.inj l2
    by_cases hex : ∃ x y, x < m.width ∧ y < m.height ∧ InBlock o x y px py
    · obtain ⟨x, y, hx, hy, hi⟩ := hex
      rw [k5 x y hx hy hi, l5 x y hx hy ((hin x y).1 hi), hbg0, hmc]
    · rw [k6 fun x y hx hy hi => hex ⟨x, y, hx, hy, hi⟩, l6 fun x y hx hy hi => hex ⟨x, y, hx, hy, (hin x y).2 hi⟩, hbg0]
  · rename_i hr
    refine k6 fun x y hx hy hi => hr ?_
    obtain ⟨a1, a2, a3, a4⟩ := hi
    have m1 : ((x : Int) + 1) * o.qrBlockWidth ≤ dim * o.qrBlockWidth := Int.mul_le_mul_of_nonneg_right (by omega) (by omega)
    have m2 : ((y : Int) + 1) * o.qrBlockWidth ≤ dim * o.qrBlockWidth := Int.mul_le_mul_of_nonneg_right (by omega) (by omega)
    have n1 : 0 ≤ (x : Int) * o.qrBlockWidth := Int.mul_nonneg (by omega) (by omega)
    have n2 : 0 ≤ (y : Int) * o.qrBlockWidth := Int.mul_nonneg (by omega) (by omega)
    exact ⟨by omega, by omega, by omega, by omega⟩

/-- **C103, image writer, nothing left.** With borders of `1 - d` pixels on the right and at the bottom, where `d` is the side of the
symbol in pixels, and none on the left and at the top, the picture of every symbol is one pixel in the foreground colour. -/
theorem C103_nothing_left (hE : E.Ok unsjis) (hc : CacheReachable c) (ha : Arrival arrival) (h : newWith E c arrival t text opts = .ok q)
    (scale : Scaler) {o : Opts} (hp : Plain o) (hfg : o.qrColor.a = 255)
    (hb : o.borders = ⟨0, 1 - q.dimension * o.qrBlockWidth, 1 - q.dimension * o.qrBlockWidth, 0⟩) :
    ∃ ops o' cv, draw scale o q.mat = some (ops, o') ∧ paintAll ops = some cv ∧ cv.w = 1 ∧ cv.h = 1 ∧ cv.pix 0 0 = o.qrColor := by
  obtain ⟨hw, hh⟩ := mat_size hE hc ha h
  have hd : 0 < q.dimension := by obtain ⟨v, _, hd, _⟩ := C11_dimension hE hc ha h; omega
  have hbw := (blockWidth_pos o).1
  have e1 : canvasW o q.mat = 1 := by
    unfold canvasW; rw [hw, hb]; simp only; omega
  have e2 : canvasH o q.mat = 1 := by
    unfold canvasH; rw [hh, hb]; simp only; omega
  obtain ⟨ops, o', cv, h1, h2, h3, h4, h5, _⟩ := plain_picture scale hp q.mat (px := 0) (py := 0) (by rw [e1]; omega) (by rw [e2]; omega)
  refine ⟨ops, o', cv, h1, h2, h3.trans e1, h4.trans e2, ?_⟩
  have hin : InBlock o 0 0 0 0 := by
    unfold InBlock
    rw [hb]
    simp only
    push_cast
    exact ⟨by omega, by omega, by omega, by omega⟩
  rw [h5 0 0 (by omega) (by omega) hin]
  have hbit := Compressed.corner_dark hE hc ha h
  have : moduleColor o (q.mat.raw 0 0) = o.qrColor := by
    unfold moduleColor
    simp only [QRValue.qrbool, hbit, if_true]
  rw [this, over_opaque hfg]

end QR.Standard
