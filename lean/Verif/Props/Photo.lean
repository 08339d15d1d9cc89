import Verif.Proof.PhotoSize
import Verif.Props.Turn
import Verif.Props.ScanWriters
import Verif.Props.Programs
/-!
# C102: a reader that is told nothing

`Spec/Photo.lean` has the reader `decodePhoto`: it gets the pixels of a picture, dark or not, and has to find out on its own where
the symbol is, which way up, whether mirrored, how large a module is and which version it has.
-/
namespace QR
open _root_.Spec

/-- **C102.** If the dark pixels of a picture are those of the symbol, every module a square of `b` by `b` pixels, anywhere in the
picture, and the picture is turned and mirrored in any way, then the reader that is told nothing reads exactly the text. -/
theorem C102_photo {E : Ext} {unsjis : Nat → Option Nat} (hE : E.Ok unsjis) {c : AlignCache} (hc : CacheReachable c)
    {arrival : List Nat} (ha : Arrival arrival) {t : TextType} {text : Bytes} {opts : List EncodeOption} {q : QRCode}
    (h : newWith E c arrival t text opts = .ok q)
    (hx : ¬ (modeIn opts = encAuto ∧ AlnumThenKanji E.sjis (nats text)))
    {b left top : Nat} (hb : 0 < b) {p : List (List Bool)} (hp : Shows p left top (inflate b q.mat.bitmap))
    {s : List (List Bool)} (hs : Seen p s) : decodePhoto unsjis s = some (nats text) := by
  obtain ⟨v, k, st, _, hq, hf⟩ := corner_of hE hc ha h
  unfold decodePhoto
  rw [find_photo hq hf hb hp hs]
  exact C01_roundtrip_partial hE hc ha h hx

/-- A picture in which exactly the pixels in the squares of dark modules are dark shows the symbol. -/
theorem shows_of {m : Matrix} {dim : Nat} (hw : m.width = dim) (hh : m.height = dim) (hd : 0 < dim) {b left top w h : Nat} (hb : 0 < b)
    (hroom : left + b * dim ≤ w ∧ top + b * dim ≤ h) {dark : Nat → Nat → Bool}
    (hdark : ∀ px py, px < w → py < h → (dark px py = true ↔ ∃ x y, x < dim ∧ y < dim ∧ (m.raw x y).bit = true ∧
      left + x * b ≤ px ∧ px < left + (x + 1) * b ∧ top + y * b ≤ py ∧ py < top + (y + 1) * b)) :
    Shows (photo w h dark) left top (inflate b m.bitmap) := by
  obtain ⟨⟨t1, t2⟩, hbit⟩ := bitmap_spec m
  have hlen : m.bitmap.length = dim := by rw [t1, hh]
  have hbd : 0 < b * dim := Nat.mul_pos hb hd
  have hl : (photo w h dark).length = h := sheet_length _ _ _
  have hwd : width (photo w h dark) = w := by rw [photo, sheet_width, if_neg (by omega)]
  refine ⟨sheet_rows', ?_, ?_⟩
  · rw [inflate_length, inflate_width, hlen, hl, hwd]; exact hroom
  · rw [inflate_length, inflate_width, hlen, hl, hwd]
    intro i j hi hj
    rw [photo, pixel_sheet hi hj, hdark j i hj hi]
    have div : ∀ {o z c : Nat}, o + z * b ≤ c → c < o + (z + 1) * b → (c - o) / b = z := by
      intro o z c h1 h2
      rw [Nat.add_mul, Nat.one_mul] at h2
      have e : c - o = b * z + (c - o - z * b) := by rw [Nat.mul_comm b z]; omega
      rw [e, Nat.mul_add_div hb, Nat.div_eq_of_lt (by omega)]; omega
    have dm : ∀ {z : Nat}, z < dim → (z + 1) * b ≤ b * dim := by
      intro z hz; rw [Nat.mul_comm b dim]; exact Nat.mul_le_mul_right b hz
    constructor
    · rintro ⟨x, y, hx, hy, hbt, h1, h2, h3, h4⟩
      have m1 := dm hx
      have m2 := dm hy
      refine ⟨by omega, by omega, by omega, by omega, ?_⟩
      rw [pixel_inflate (by rw [hlen]; omega) (by rw [hlen]; omega), div h1 h2, div h3 h4, hbit _ _ (by omega) (by omega)]
      exact hbt
    · rintro ⟨h1, h2, h3, h4, h5⟩
      rw [pixel_inflate (by rw [hlen]; omega) (by rw [hlen]; omega)] at h5
      have g1 : (j - left) / b < dim := Nat.div_lt_of_lt_mul (by omega)
      have g2 : (i - top) / b < dim := Nat.div_lt_of_lt_mul (by omega)
      rw [hbit _ _ (by omega) (by omega)] at h5
      have d1 := Nat.div_add_mod (j - left) b
      have d2 := Nat.div_add_mod (i - top) b
      have l1 := Nat.mod_lt (j - left) hb
      have l2 := Nat.mod_lt (i - top) hb
      refine ⟨_, _, g1, g2, h5, ?_, ?_, ?_, ?_⟩
      · rw [Nat.mul_comm _ b]; omega
      · rw [Nat.add_mul, Nat.mul_comm _ b]; omega
      · rw [Nat.mul_comm _ b]; omega
      · rw [Nat.add_mul, Nat.mul_comm _ b]; omega

/-- **C102, compressed writer.** The picture, turned and mirrored in any way, contains the text for a reader that is told nothing. -/
theorem C102_compressed {E : Ext} {unsjis : Nat → Option Nat} (hE : E.Ok unsjis) {c : AlignCache} (hc : CacheReachable c)
    {arrival : List Nat} (ha : Arrival arrival) {t : TextType} {text : Bytes} {opts : List EncodeOption} {q : QRCode}
    (h : newWith E c arrival t text opts = .ok q)
    (hx : ¬ (modeIn opts = encAuto ∧ AlnumThenKanji E.sjis (nats text))) {padding blockSize : Nat} (hpos : 0 < blockSize) :
    ∃ img, Compressed.write (some ⟨padding, blockSize⟩) q.mat = some img ∧
      ∀ s, Seen (photo img.maxX.toNat img.maxY.toNat fun x y => decide (img.at' x y = some 0x00)) s →
        decodePhoto unsjis s = some (nats text) := by
  obtain ⟨hw, hh⟩ := Standard.mat_size hE hc ha h
  have hd : 0 < q.dimension := by obtain ⟨v, _, hd, _⟩ := C11_dimension hE hc ha h; omega
  obtain ⟨img, hi, ⟨_, _, e1, e2⟩, hp⟩ := Compressed.C36_pixels q.mat (by omega) padding blockSize
  have s1 : img.maxX.toNat = q.dimension * blockSize + 2 * padding := by rw [e1, hw]; omega
  have s2 : img.maxY.toNat = q.dimension * blockSize + 2 * padding := by rw [e2, hw]; omega
  refine ⟨img, hi, fun s hs => ?_⟩
  rw [s1, s2] at hs
  refine C102_photo hE hc ha h hx hpos (left := padding) (top := padding) (shows_of hw hh hd hpos ?_ ?_) hs
  · rw [Nat.mul_comm blockSize]; omega
  · intro px py h1 h2
    rw [decide_eq_true_eq]
    rw [← hw] at h1 h2
    rw [(hp px py h1 h2).2, hw, hh]

end QR

namespace QR.Standard
open QR _root_.Spec

/-- The background alone does not look like the foreground. -/
theorem contrast_background {o : Opts} (h : Contrast o) : over o.backgroundColor.1 ⟨0, 0, 0, 0⟩ ≠ o.qrColor := by
  cases ht : o.bgTransparent with
  | true =>
    intro hc
    have hb : o.backgroundColor.1.a = 0 := by unfold Opts.backgroundColor; rw [ht]; rfl
    have h0 : (over o.backgroundColor.1 ⟨0, 0, 0, 0⟩).a = 0 := by
      simp only [over]
      rw [hb]
      decide +kernel
    rw [hc, h.fg] at h0
    exact absurd h0 (by decide)
  | false =>
    rcases h.bg with hb | ⟨ha, hne⟩
    · rw [ht] at hb; cases hb
    · have hbgc : o.backgroundColor.1 = o.bgColor := by unfold Opts.backgroundColor; rw [ht]; rfl
      rw [hbgc, over_opaque ha]
      exact hne

/-- Light pixels, in the borders and in light modules, have the colour of the background alone. -/
theorem light_colour {o : Opts} (h : Contrast o) {v : QRValue} (hv : v.bit = false) :
    over (moduleColor o v) (over o.backgroundColor.1 ⟨0, 0, 0, 0⟩) = over o.backgroundColor.1 ⟨0, 0, 0, 0⟩ := by
  unfold moduleColor
  rw [show v.qrbool = false from hv]
  cases ht : o.bgTransparent with
  | true => exact over_clear _
  | false =>
    rcases h.bg with hb | ⟨ha, _⟩
    · rw [ht] at hb; cases hb
    · have hbgc : o.backgroundColor.1 = o.bgColor := by unfold Opts.backgroundColor; rw [ht]; rfl
      simp only [Bool.false_eq_true, if_false]
      rw [hbgc, over_opaque ha, over_opaque ha]

/-- The pixels in the foreground colour show the symbol, and all other pixels have one other colour. -/
theorem plain_shows {E : Ext} {unsjis : Nat → Option Nat} (hE : E.Ok unsjis) {c : AlignCache} (hc : CacheReachable c)
    {arrival : List Nat} (ha : Arrival arrival) {t : TextType} {text : Bytes} {opts : List EncodeOption} {q : QRCode}
    (h : newWith E c arrival t text opts = .ok q) (scale : Scaler) {o : Opts} (hp : Plain o) (hcol : Contrast o)
    (hb : 0 ≤ o.borders.top ∧ 0 ≤ o.borders.right ∧ 0 ≤ o.borders.bottom ∧ 0 ≤ o.borders.left) :
    ∃ ops o' cv, ∃ b left top : Nat, draw scale o q.mat = some (ops, o') ∧ paintAll ops = some cv ∧ 0 < b ∧
      Shows (photo cv.w.toNat cv.h.toNat fun x y => decide (cv.pix x y = o.qrColor)) left top (inflate b q.mat.bitmap) ∧
      ∀ x y : Nat, x < cv.w.toNat → y < cv.h.toNat → cv.pix x y = o.qrColor ∨ cv.pix x y = over o.backgroundColor.1 ⟨0, 0, 0, 0⟩ := by
  obtain ⟨hw, hh⟩ := mat_size hE hc ha h
  have hd : 0 < q.dimension := by obtain ⟨v, _, hd, _⟩ := C11_dimension hE hc ha h; omega
  have hbw := (blockWidth_pos o).1
  obtain ⟨b, hbN⟩ : ∃ b : Nat, o.qrBlockWidth = b := ⟨o.qrBlockWidth.toNat, by omega⟩
  obtain ⟨left, hl⟩ : ∃ n : Nat, o.borders.left = n := ⟨o.borders.left.toNat, by omega⟩
  obtain ⟨top, ht⟩ : ∃ n : Nat, o.borders.top = n := ⟨o.borders.top.toNat, by omega⟩
  obtain ⟨right, hr⟩ : ∃ n : Nat, o.borders.right = n := ⟨o.borders.right.toNat, by omega⟩
  obtain ⟨bottom, hbo⟩ : ∃ n : Nat, o.borders.bottom = n := ⟨o.borders.bottom.toNat, by omega⟩
  have hb0 : 0 < b := by omega
  have e1 : canvasW o q.mat = ((left + q.dimension * b + right : Nat) : Int) := by
    unfold canvasW; rw [hw, hbN, hl, hr]; push_cast; omega
  have e2 : canvasH o q.mat = ((top + q.dimension * b + bottom : Nat) : Int) := by
    unfold canvasH; rw [hh, hbN, ht, hbo]; push_cast; omega
  have hbd : 0 < q.dimension * b := Nat.mul_pos hd hb0
  obtain ⟨ops, o', cv, h1, h2, h3, h4, _⟩ := plain_picture scale hp q.mat (px := 0) (py := 0) (by rw [e1]; omega) (by rw [e2]; omega)
  refine ⟨ops, o', cv, b, left, top, h1, h2, hb0, ?_⟩
  rw [h3, h4, e1, e2, Int.toNat_natCast, Int.toNat_natCast]
  have pic : ∀ px py : Nat, px < left + q.dimension * b + right → py < top + q.dimension * b + bottom →
      (∀ x y, x < q.mat.width → y < q.mat.height → InBlock o x y px py →
        cv.pix px py = over (moduleColor o (q.mat.raw x y)) (over o.backgroundColor.1 ⟨0, 0, 0, 0⟩)) ∧
      ((∀ x y, x < q.mat.width → y < q.mat.height → ¬ InBlock o x y px py) → cv.pix px py = over o.backgroundColor.1 ⟨0, 0, 0, 0⟩) := by
    intro px py hpx hpy
    obtain ⟨ops1, o1, cv1, k1, k2, _, _, k5, k6⟩ := plain_picture scale hp q.mat (px := px) (py := py) (by rw [e1]; omega) (by rw [e2]; omega)
    rw [h1] at k1
    obtain ⟨rfl, rfl⟩ := Prod.mk.inj (Option.some.inj k1)
    rw [h2] at k2
    obtain rfl := Option.some.inj k2
    exact ⟨k5, k6⟩
  refine ⟨shows_of hw hh hd hb0 ?_ ?_, ?_⟩
  · rw [Nat.mul_comm b]; omega
  · intro px py hpx hpy
    obtain ⟨k5, k6⟩ := pic px py hpx hpy
    have hin : ∀ x y : Nat, InBlock o x y px py ↔ (left + x * b ≤ px ∧ px < left + (x + 1) * b ∧ top + y * b ≤ py ∧ py < top + (y + 1) * b) := by
      intro x y
      unfold InBlock
      rw [hbN, hl, ht]
      norm_cast
    rw [decide_eq_true_eq]
    constructor
    · intro hcx
      by_cases hex : ∃ x y, x < q.mat.width ∧ y < q.mat.height ∧ InBlock o x y px py
      · obtain ⟨x, y, hx', hy', hi⟩ := hex
        rw [k5 x y hx' hy' hi, contrast_iff hcol] at hcx
        obtain ⟨g1, g2, g3, g4⟩ := (hin x y).1 hi
        exact ⟨x, y, by omega, by omega, hcx, g1, g2, g3, g4⟩
      · exfalso
        rw [k6 fun x y hx' hy' hi => hex ⟨x, y, hx', hy', hi⟩] at hcx
        exact contrast_background hcol hcx
    · rintro ⟨x, y, hx', hy', hbt, g⟩
      rw [k5 x y (by omega) (by omega) ((hin x y).2 g), contrast_iff hcol]
      exact hbt

  · intro px py hpx hpy
    obtain ⟨k5, k6⟩ := pic px py hpx hpy
    by_cases hex : ∃ x y, x < q.mat.width ∧ y < q.mat.height ∧ InBlock o x y px py
    · obtain ⟨x, y, hx', hy', hi⟩ := hex
      rw [k5 x y hx' hy' hi]
      cases hv : (q.mat.raw x y).bit with
      | true => exact Or.inl ((contrast_iff hcol _).2 hv)
      | false => exact Or.inr (light_colour hcol hv)
    · exact Or.inr (k6 fun x y hx' hy' hi => hex ⟨x, y, hx', hy', hi⟩)

/-- **C102, image writer.** With rectangles, no halftone, gradient or logo, colours that can be told apart and borders that are not
negative: the picture, turned and mirrored in any way, contains the text for a reader that is told nothing but the colour of dark
modules. -/
theorem C102_standard {E : Ext} {unsjis : Nat → Option Nat} (hE : E.Ok unsjis) {c : AlignCache} (hc : CacheReachable c)
    {arrival : List Nat} (ha : Arrival arrival) {t : TextType} {text : Bytes} {opts : List EncodeOption} {q : QRCode}
    (h : newWith E c arrival t text opts = .ok q)
    (hx : ¬ (modeIn opts = encAuto ∧ AlnumThenKanji E.sjis (nats text)))
    (scale : Scaler) {o : Opts} (hp : Plain o) (hcol : Contrast o)
    (hb : 0 ≤ o.borders.top ∧ 0 ≤ o.borders.right ∧ 0 ≤ o.borders.bottom ∧ 0 ≤ o.borders.left) :
    ∃ ops o' cv, draw scale o q.mat = some (ops, o') ∧ paintAll ops = some cv ∧
      ∀ s, Seen (photo cv.w.toNat cv.h.toNat fun x y => decide (cv.pix x y = o.qrColor)) s →
        decodePhoto unsjis s = some (nats text) := by
  obtain ⟨ops, o', cv, b, left, top, h1, h2, hb0, hs, _⟩ := plain_shows hE hc ha h scale hp hcol hb
  exact ⟨ops, o', cv, h1, h2, fun s hss => C102_photo hE hc ha h hx hb0 hs hss⟩

end QR.Standard

namespace QR.Cli
open QR QR.Standard _root_.Spec

/-- **C102, command line.** Without circles and halftone the picture for the file, turned and mirrored in any way, contains the text
for a reader that is told nothing but that dark means black. -/
theorem C102_cli {E : Ext} {unsjis : Nat → Option Nat} (hE : E.Ok unsjis) {c : AlignCache} (hc : CacheReachable c)
    {arrival : List Nat} (ha : Arrival arrival) (readImage : Bytes → Option Image) (f : Flags)
    {top right bottom left : Nat} (hb : parseBorders f.borders = some [top, right, bottom, left])
    {q : QRCode} (hq : new E c arrival .string f.text = .ok q) (hx : ¬ AlnumThenKanji E.sjis (nats f.text))
    (ht : f.terminal = false) (hcirc : f.circle = false) (hh : f.halftone = [] ∨ readImage f.halftone = none) (scale : Scaler) :
    ∃ o ops o' cv, run E c arrival readImage f = .file f.output o q ∧ draw scale o q.mat = some (ops, o') ∧ paintAll ops = some cv ∧
      ∀ s, Seen (photo cv.w.toNat cv.h.toNat fun x y => decide (cv.pix x y = ⟨0, 0, 0, 255⟩)) s →
        decodePhoto unsjis s = some (nats f.text) := by
  obtain ⟨o, hr, h1, h2, h3, h4, h5, h6, h7, h8, h9⟩ := file_options E c arrival readImage f hb hq ht
  rw [hcirc] at h3
  have h5' : o.halftone = none := by
    rw [h5]
    split
    · rfl
    · rename_i hne
      exact hh.resolve_left hne
  have hrect := rects_of h3 h5' h9
  rw [new_eq] at hq
  obtain ⟨ops, o', cv, d1, d2, d3⟩ := C102_standard hE hc ha hq (fun h => hx h.2) scale ⟨hrect.shape, hrect.halftone, hrect.gradient, h8⟩
    (file_contrast h6 h7) (by rw [h1]; simp)
  rw [h6] at d3
  exact ⟨o, ops, o', cv, hr, d1, d2, d3⟩

end QR.Cli
