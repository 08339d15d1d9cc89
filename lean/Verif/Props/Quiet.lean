import Verif.Spec.Quiet
import Verif.Model.CliFlags
import Verif.Props.Programs
import Verif.Props.Compressed
import Verif.Props.Terminal
import Verif.Props.FileWriter
/-!
# C89: the quiet zone
-/
namespace QR
open QR _root_.Spec

/-- A picture whose margins are too small has no quiet zone, whatever it shows. -/
theorem quiet_margins {k dim : Nat} {w h mw mh left top right bottom : Int} {light : Int → Int → Prop} (hd : 0 < dim) (hmw : 0 < mw) (hmh : 0 < mh)
    (hw : w = left + dim * mw + right) (hh : h = top + dim * mh + bottom) (hk : 1 ≤ k)
    (hq : QuietZone k w h mw mh left top dim light) : k * mh ≤ top ∧ k * mw ≤ right ∧ k * mh ≤ bottom ∧ k * mw ≤ left := by
  unfold QuietZone at hq
  have e1 : ((dim : Int) + k) * mw = dim * mw + k * mw := Int.add_mul _ _ _
  have e2 : ((dim : Int) + k) * mh = dim * mh + k * mh := Int.add_mul _ _ _
  rw [e1, e2] at hq
  have p1 : 0 < (dim : Int) * mw := Int.mul_pos (by omega) hmw
  have p2 : 0 < (dim : Int) * mh := Int.mul_pos (by omega) hmh
  have p3 : 0 < (k : Int) * mw := Int.mul_pos (by omega) hmw
  have p4 : 0 < (k : Int) * mh := Int.mul_pos (by omega) hmh
  generalize (dim : Int) * mw = dw at *
  generalize (dim : Int) * mh = dh at *
  generalize (k : Int) * mw = kw at *
  generalize (k : Int) * mh = kh at *
  have q1 := hq (left - kw) (top - kh) (by omega) (by omega) (by omega) (by omega) (by omega)
  have q2 := hq (left + dw + kw - 1) (top + dh + kh - 1) (by omega) (by omega) (by omega) (by omega) (by omega)
  omega

end QR

namespace QR.Standard
open QR _root_.Spec

/-- The light pixels of a picture drawn with options `o`: those with the background colour, and the transparent ones if the background is transparent. -/
def Light (o : Opts) (cv : Canvas) (px py : Int) : Prop := if o.bgTransparent then (cv.pix px py).a = 0 else cv.pix px py = o.bgColor

/-- **C89, the image writer.**  A picture with rectangles in opaque colours, no halftone, gradient or logo, has a quiet zone of `k` modules if and only if each of its four
borders is at least `k` modules wide. -/
theorem C89_standard_partial (scale : Scaler) {o : Opts} (hp : Plain o) (m : Matrix) {dim : Nat} (hw : m.width = dim) (hh : m.height = dim) (hd : 0 < dim)
    (hb : 0 ≤ o.borders.top ∧ 0 ≤ o.borders.right ∧ 0 ≤ o.borders.bottom ∧ 0 ≤ o.borders.left) (hbw : 0 < o.qrBlockWidth)
    (hbg : o.bgColor.a = 255 ∨ o.bgTransparent = true) :
    ∃ ops o' cv, draw scale o m = some (ops, o') ∧ paintAll ops = some cv ∧ cv.w = (o.attribute dim).w ∧ cv.h = (o.attribute dim).h ∧
      ∀ k : Nat, 1 ≤ k → (QuietZone k cv.w cv.h o.qrBlockWidth o.qrBlockWidth o.borders.left o.borders.top dim (Light o cv) ↔
        k * o.qrBlockWidth ≤ o.borders.top ∧ k * o.qrBlockWidth ≤ o.borders.right ∧ k * o.qrBlockWidth ≤ o.borders.bottom ∧ k * o.qrBlockWidth ≤ o.borders.left) := by
  have e1 : canvasW o m = (o.attribute dim).w := by
    unfold canvasW Opts.attribute; rw [hw]; simp only; omega
  have e2 : canvasH o m = (o.attribute dim).h := by
    unfold canvasH Opts.attribute; rw [hh]
  have p1 : 0 < (dim : Int) * o.qrBlockWidth := Int.mul_pos (by omega) hbw
  have sizes : (o.attribute dim).w = o.borders.left + dim * o.qrBlockWidth + o.borders.right ∧ (o.attribute dim).h = o.borders.top + dim * o.qrBlockWidth + o.borders.bottom := by
    unfold Opts.attribute; simp only; omega
  obtain ⟨ops, o', cv, h1, h2, h3, h4, _⟩ := plain_picture scale hp m (px := o.borders.left) (py := o.borders.top) (by rw [e1, sizes.1]; omega) (by rw [e2, sizes.2]; omega)
  refine ⟨ops, o', cv, h1, h2, by rw [h3, e1], by rw [h4, e2], fun k hk => ⟨?_, ?_⟩⟩
  · rw [h3, h4, e1, e2]
    intro hq
    exact quiet_margins hd hbw hbw sizes.1 sizes.2 hk hq
  · rintro ⟨g1, g2, g3, g4⟩ px py a1 a2 a3 a4 hn
    rw [Int.add_mul] at a2 a4
    rw [h3, h4, e1, e2, sizes.1, sizes.2]
    refine ⟨by omega, by omega, by omega, by omega, ?_⟩
    obtain ⟨ops1, o1, cv1, k1, k2, _, _, _, k6⟩ := plain_picture scale hp m (px := px) (py := py) (by rw [e1, sizes.1]; omega) (by rw [e2, sizes.2]; omega)
    rw [h1] at k1
    obtain ⟨rfl, rfl⟩ := Prod.mk.inj (Option.some.inj k1)
    rw [h2] at k2
    obtain rfl := Option.some.inj k2
    have hpix := k6 (fun x y hx hy hin => hn (by
      obtain ⟨b1, b2, b3, b4⟩ := hin
      have m1 : ((x : Int) + 1) * o.qrBlockWidth ≤ dim * o.qrBlockWidth := Int.mul_le_mul_of_nonneg_right (by omega) (by omega)
      have m2 : ((y : Int) + 1) * o.qrBlockWidth ≤ dim * o.qrBlockWidth := Int.mul_le_mul_of_nonneg_right (by omega) (by omega)
      have m3 : 0 ≤ (x : Int) * o.qrBlockWidth := Int.mul_nonneg (by omega) (by omega)
      have m4 : 0 ≤ (y : Int) * o.qrBlockWidth := Int.mul_nonneg (by omega) (by omega)
      omega))
    unfold Light
    rw [hpix]
    cases ht : o.bgTransparent with
    | true =>
      have hbg0 : o.backgroundColor.1.a = 0 := by unfold Opts.backgroundColor; rw [ht]; rfl
      unfold over
      simp only [hbg0, if_true]
      exact overChan_clear 0
    | false =>
      have hbgc : o.backgroundColor.1 = o.bgColor := by unfold Opts.backgroundColor; rw [ht]; rfl
      rw [hbgc, over_opaque (hbg.resolve_right (by rw [ht]; decide))]
      rfl

/-- **C89 is false of the image writer.**  With the default options (blocks of 20 pixels, borders of 40) the picture of every symbol has a quiet zone of two modules and no
more, where the standard asks for four. -/
theorem C89_default_counterexample (scale : Scaler) (m : Matrix) {dim : Nat} (hw : m.width = dim) (hh : m.height = dim) (hd : 0 < dim) :
    ∃ ops o' cv, draw scale defaultOpts m = some (ops, o') ∧ paintAll ops = some cv ∧ cv.w = 20 * dim + 80 ∧ cv.h = 20 * dim + 80 ∧
      QuietZone 2 cv.w cv.h 20 20 40 40 dim (fun px py => cv.pix px py = ⟨255, 255, 255, 255⟩) ∧
      ∀ k, 3 ≤ k → ¬ ∃ light, QuietZone k cv.w cv.h 20 20 40 40 dim light := by
  obtain ⟨ops, o', cv, h1, h2, h3, h4, h5⟩ := C89_standard_partial scale (o := defaultOpts) ⟨Or.inr rfl, rfl, rfl, rfl⟩ m hw hh hd (by decide) (by decide) (Or.inl (by decide))
  have s1 : cv.w = 20 * dim + 80 := by
    rw [h3]
    show (dim : Int) * 20 + 40 + 40 = 20 * dim + 80
    omega
  have s2 : cv.h = 20 * dim + 80 := by
    rw [h4]
    show (dim : Int) * 20 + 40 + 40 = 20 * dim + 80
    omega
  refine ⟨ops, o', cv, h1, h2, s1, s2, (h5 2 (by decide)).2 (by decide), ?_⟩
  rintro k hk ⟨light, hq⟩
  have := quiet_margins (right := 40) (bottom := 40) hd (by decide) (by decide) (by rw [s1]; omega) (by rw [s2]; omega) (by omega) hq
  omega

/-- **C89, every picture of the image writer.**  Whatever the options, the size of the picture leaves room for `k` modules around the symbol only if each border is at least
`k` modules wide. -/
theorem C89_room (scale : Scaler) (o : Opts) (m : Matrix) {dim : Nat} (hw : m.width = dim) (hh : m.height = dim) (hd : 0 < dim) (hbw : 0 < o.qrBlockWidth) :
    ∃ ops o', draw scale o m = some (ops, o') ∧ ∀ w h, contexts ops = [(w, h)] → ∀ k : Nat, 1 ≤ k → ∀ light : Int → Int → Prop,
      QuietZone k w h o.qrBlockWidth o.qrBlockWidth o.borders.left o.borders.top dim light →
        k * o.qrBlockWidth ≤ o.borders.top ∧ k * o.qrBlockWidth ≤ o.borders.right ∧ k * o.qrBlockWidth ≤ o.borders.bottom ∧ k * o.qrBlockWidth ≤ o.borders.left := by
  obtain ⟨ops, o', h1, h2, _⟩ := C39_attribute scale o m hw hh
  refine ⟨ops, o', h1, fun w h hc k hk light hq => ?_⟩
  rw [h2] at hc
  simp only [List.cons.injEq, Prod.mk.injEq, and_true] at hc
  obtain ⟨rfl, rfl⟩ := hc
  exact quiet_margins hd hbw hbw (by unfold Opts.attribute; simp only; omega) (by unfold Opts.attribute; simp only; omega) hk hq

end QR.Standard

namespace QR.Cli
open QR QR.Standard _root_.Spec

/-- **C89, the command line.**  Without circles and halftone, the picture for the file has a quiet zone of `k` modules if and only if each of the four `--borders` is at least
`k` blocks. -/
theorem C89_cli_partial {E : Ext} {unsjis : Nat → Option Nat} (hE : E.Ok unsjis) {c : AlignCache} (hc : CacheReachable c) {arrival : List Nat} (ha : Arrival arrival)
    (readImage : Bytes → Option Image) (f : Flags) {top right bottom left : Nat} (hb : parseBorders f.borders = some [top, right, bottom, left]) {q : QRCode}
    (hq : new E c arrival .string f.text = .ok q) (ht : f.terminal = false) (hcirc : f.circle = false) (hhalf : f.halftone = [] ∨ readImage f.halftone = none) (scale : Scaler) :
    ∃ o ops o' cv, run E c arrival readImage f = .file f.output o q ∧ draw scale o q.mat = some (ops, o') ∧ paintAll ops = some cv ∧
      cv.w = left + q.dimension * usedBlock f + right ∧ cv.h = top + q.dimension * usedBlock f + bottom ∧
      ∀ k : Nat, 1 ≤ k →
        (QuietZone k cv.w cv.h (usedBlock f) (usedBlock f) left top q.dimension
            (fun px py => if f.transparent then (cv.pix px py).a = 0 else cv.pix px py = ⟨255, 255, 255, 255⟩) ↔
          k * usedBlock f ≤ top ∧ k * usedBlock f ≤ right ∧ k * usedBlock f ≤ bottom ∧ k * usedBlock f ≤ left) := by
  obtain ⟨o, hr, h1, h2, h3, h4, h5, h6, h7, h8, h9⟩ := file_options E c arrival readImage f hb hq ht
  rw [hcirc] at h3
  have h5' : o.halftone = none := by
    rw [h5]
    split
    · rfl
    · rename_i hne
      exact hhalf.resolve_left hne
  have hrect := rects_of h3 h5' h9
  rw [new_eq] at hq
  obtain ⟨hw, hh⟩ := Standard.mat_size hE hc ha hq
  have hd : 0 < q.dimension := by obtain ⟨v, _, hd, _⟩ := C11_dimension hE hc ha hq; omega
  have hpos : 0 < usedBlock f := by unfold usedBlock; split <;> omega
  obtain ⟨ops, o', cv, k1, k2, k3, k4, k5⟩ := C89_standard_partial scale (o := o) ⟨hrect.shape, hrect.halftone, hrect.gradient, h8⟩ q.mat hw hh hd (by rw [h1]; simp) (by rw [h2]; exact hpos)
    (Or.inl (by rw [h7]))
  refine ⟨o, ops, o', cv, hr, k1, k2, ?_, ?_, fun k hk => ?_⟩
  · rw [k3]; unfold Opts.attribute; rw [h1, h2]; simp only; omega
  · rw [k4]; unfold Opts.attribute; rw [h1, h2]; simp only; omega
  · have := k5 k hk
    unfold Light at this
    rw [h1, h2, h4, h7] at this
    exact this

theorem default_values (text : Bytes) : parseBorders (defaultFlags text).borders = some [0, 0, 0, 0] ∧ usedBlock (defaultFlags text) = 5 :=
  (by decide : parseBorders (defaultFlags []).borders = some [0, 0, 0, 0] ∧ usedBlock (defaultFlags []) = 5)

/-- **C89 is false of the command line.**  Without flags the picture ends where the symbol ends: there is no quiet zone at all. -/
theorem C89_cli_counterexample {E : Ext} {unsjis : Nat → Option Nat} (hE : E.Ok unsjis) {c : AlignCache} (hc : CacheReachable c) {arrival : List Nat} (ha : Arrival arrival)
    (readImage : Bytes → Option Image) (scale : Scaler) {text : Bytes} {q : QRCode} (hq : new E c arrival .string text = .ok q) :
    ∃ o ops o' cv, run E c arrival readImage (defaultFlags text) = .file (defaultFlags text).output o q ∧ draw scale o q.mat = some (ops, o') ∧ paintAll ops = some cv ∧
      cv.w = 5 * q.dimension ∧ cv.h = 5 * q.dimension ∧ ∀ k, 1 ≤ k → ¬ ∃ light, QuietZone k cv.w cv.h 5 5 0 0 q.dimension light := by
  obtain ⟨d1, d2⟩ := default_values text
  obtain ⟨o, ops, o', cv, hr, k1, k2, k3, k4, _⟩ := C89_cli_partial hE hc ha readImage (defaultFlags text) (top := 0) (right := 0) (bottom := 0) (left := 0) d1 hq rfl rfl (Or.inl rfl) scale
  rw [d2] at k3 k4
  refine ⟨o, ops, o', cv, hr, k1, k2, by rw [k3]; push_cast; omega, by rw [k4]; push_cast; omega, ?_⟩
  rintro k hk ⟨light, hz⟩
  have hd : 0 < q.dimension := by
    rw [new_eq] at hq
    obtain ⟨v, _, hd, _⟩ := C11_dimension hE hc ha hq
    omega
  have := quiet_margins (right := 0) (bottom := 0) hd (by decide) (by decide) (by rw [k3]; push_cast; omega) (by rw [k4]; push_cast; omega) (by omega) hz
  omega

end QR.Cli

namespace QR.Compressed
open QR _root_.Spec

/-- **C89, the compressed writer.**  The picture has a quiet zone of `k` modules if and only if the padding is at least `k` blocks. -/
theorem C89_compressed_partial (m : Matrix) {dim : Nat} (hw : m.width = dim) (hh : m.height = dim) (hd : 0 < dim) (padding blockSize : Nat) (hb : 0 < blockSize) :
    ∃ img, write (some ⟨padding, blockSize⟩) m = some img ∧ ∀ k, 1 ≤ k →
      (QuietZone k (img.maxX - img.minX) (img.maxY - img.minY) blockSize blockSize padding padding dim (fun px py => img.at' px py = some 0xff) ↔ k * blockSize ≤ padding) := by
  obtain ⟨img, h1, ⟨e1, e2, e3, e4⟩, h3⟩ := C36_pixels m (by omega) padding blockSize
  refine ⟨img, h1, fun k hk => ⟨fun hq => ?_, fun hle => ?_⟩⟩
  · have := quiet_margins (right := padding) (bottom := padding) hd (by omega) (by omega) (by rw [e1, e3, hw]; omega) (by rw [e2, e4, hw]; omega) hk hq
    have h := this.1
    exact_mod_cast h
  · intro px py a1 a2 a3 a4 hn
    rw [Int.add_mul] at a2 a4
    have hle' : (k : Int) * blockSize ≤ padding := by exact_mod_cast hle
    obtain ⟨x, rfl⟩ := Int.eq_ofNat_of_zero_le (a := px) (by omega)
    obtain ⟨y, rfl⟩ := Int.eq_ofNat_of_zero_le (a := py) (by omega)
    rw [hw] at e3 e4 h3
    have b1 : x < dim * blockSize + 2 * padding := by
      have : (x : Int) < ((dim * blockSize + 2 * padding : Nat) : Int) := by push_cast; omega
      exact_mod_cast this
    have b2 : y < dim * blockSize + 2 * padding := by
      have : (y : Int) < ((dim * blockSize + 2 * padding : Nat) : Int) := by push_cast; omega
      exact_mod_cast this
    refine ⟨by omega, by rw [e1, e3]; omega, by omega, by rw [e2, e4]; omega, ?_⟩
    obtain ⟨k1, k2⟩ := h3 x y b1 b2
    refine k1.resolve_left fun hbk => hn ?_
    obtain ⟨x', y', hx, hy, _, c1, c2, c3, c4⟩ := k2.1 hbk
    have m1 : (x' + 1) * blockSize ≤ dim * blockSize := Nat.mul_le_mul_right _ (by omega)
    have m2 : (y' + 1) * blockSize ≤ dim * blockSize := Nat.mul_le_mul_right _ (by omega)
    have m1' : ((x' + 1) * blockSize : Nat) ≤ ((dim : Int) * blockSize) := by exact_mod_cast m1
    have m2' : ((y' + 1) * blockSize : Nat) ≤ ((dim : Int) * blockSize) := by exact_mod_cast m2
    generalize x' * blockSize = u at *
    generalize y' * blockSize = v at *
    generalize (x' + 1) * blockSize = u' at *
    generalize (y' + 1) * blockSize = v' at *
    omega

end QR.Compressed

namespace QR.Terminal
open QR _root_.Spec

/-- **C89, the terminal writer.**  On a terminal that is large enough, the quiet zone is exactly one module (two columns and one row): the cells there are white, and there
is no room to the left and above for two modules. -/
theorem C89_terminal_counterexample {m : Matrix} {dim : Nat} (hw : m.width = dim) (hh : m.height = dim) (hd : 0 < dim) (s : Screen) (runeWidth : Nat → Nat)
    (ambiguous : Nat → Bool) (hcols : 2 * (dim + 2) ≤ s.cols) (hrows : dim + 2 ≤ s.rows) :
    QuietZone 1 s.cols s.rows 2 1 2 1 dim (fun cx cy => (render runeWidth ambiguous s m).cells (cx, cy) = some ⟨fullBlock, colorWhite, colorWhite⟩) ∧
    ∀ k, 2 ≤ k → ¬ ∃ light, QuietZone k s.cols s.rows 2 1 2 1 dim light := by
  constructor
  · intro px py a1 a2 a3 a4 hn
    refine ⟨by omega, by omega, by omega, by omega, ?_⟩
    obtain ⟨x, rfl⟩ := Int.eq_ofNat_of_zero_le (a := px) (by omega)
    obtain ⟨y, rfl⟩ := Int.eq_ofNat_of_zero_le (a := py) (by omega)
    refine (C38_cells (m := m) (by omega) (by omega) s runeWidth ambiguous x y (by omega) (by omega) (by omega) (by omega)).2 fun hdk => hn ?_
    obtain ⟨x', y', hx, hy, _, c1, c2⟩ := hdk
    simp only at c1 c2
    omega
  · rintro k hk ⟨light, hq⟩
    have := hq (2 - k * 2) 1 (by omega) (by omega) (by omega) (by omega) (by omega)
    omega

end QR.Terminal

namespace QR.FileWriter
open QR _root_.Spec

/-- **C89, the file writer.**  The text has as many characters in a line as the symbol has columns and as many lines as it has pairs of rows: there is no quiet zone. -/
theorem C89_file_counterexample (m : Matrix) {dim : Nat} (hw : m.width = dim) (hh : m.height = dim) (hd : 0 < dim) (sink : Sink) (hs : ∀ i, sink i = none) :
    ∃ text lines, write (some sink) m = some (text, none) ∧ runes text = lines.flatMap (fun l => l ++ [10]) ∧ (∀ l ∈ lines, l.length = dim) ∧ lines.length = (dim + 1) / 2 ∧
      (∀ x y, x < dim → y < dim → inkAt lines x y = some (m.raw x y).bit) ∧
      ∀ k, 1 ≤ k → ¬ ∃ light, QuietZone k dim (2 * lines.length) 1 1 0 0 dim light := by
  obtain ⟨text, lines, h1, h2, h3, h4, h5⟩ := C35_picture m sink hs
  rw [hh] at h3
  refine ⟨text, lines, h1, h2, fun l hl => by rw [(h4 l hl).1, hw], h3, fun x y hx hy => h5 x y (by omega) (by omega), ?_⟩
  rintro k hk ⟨light, hq⟩
  have := hq (-1) 0 (by omega) (by omega) (by omega) (by omega) (by omega)
  omega

end QR.FileWriter
