import Verif.Props.Cli
import Verif.Props.Wasm
import Verif.Props.ScanShapes
import Verif.Props.ScanWriters
/-!
# C75, C76: the two programs, from what the user types to what a scanner reads
-/
namespace QR.Cli
open QR QR.Standard _root_.Spec

/-- The block size `--block` leads to (see `C51_block`). -/
def usedBlock (f : Flags) : Int := if f.block % 256 = 0 then 20 else ((f.block % 256 : Nat) : Int)

/-- What the flags lead to, in one place. -/
theorem file_options (E : Ext) (c : AlignCache) (arrival : List Nat) (readImage : Bytes → Option Image) (f : Flags)
    {top right bottom left : Nat} (hb : parseBorders f.borders = some [top, right, bottom, left])
    {q : QRCode} (hq : new E c arrival .string f.text = .ok q) (ht : f.terminal = false) :
    ∃ o, run E c arrival readImage f = .file f.output o q ∧ o.borders = ⟨top, right, bottom, left⟩ ∧ o.qrBlockWidth = usedBlock f ∧
      o.getShape = (if f.circle then .circle else .rectangle) ∧ o.bgTransparent = f.transparent ∧
      o.halftone = (if f.halftone = [] then none else readImage f.halftone) ∧
      o.qrColor = ⟨0, 0, 0, 255⟩ ∧ o.bgColor = ⟨255, 255, 255, 255⟩ ∧ o.logo = none ∧ o.qrGradient = none := by
  obtain ⟨o, ho⟩ := options_ok readImage
    (⟨f.output, trimDot (ext f.output), UInt8.ofNat f.block, [top, right, bottom, left], f.circle, f.transparent, f.halftone⟩ : FileOutputOptions)
  have h := options_of (a := top) (b := right) (c := bottom) (d := left) rfl ho
  simp only at h
  obtain ⟨h1, _, _, h4, h5, h6, h7, h8, h9, h10⟩ := h
  have hr : run E c arrival readImage f = .file f.output o q := by
    unfold run parse
    rw [hb, Option.map_some, hq, ht]
    simp only [ho]
    rfl
  exact ⟨o, hr, h1, C51_block E c arrival readImage f hr, h4, h5, h6, h7, h8, h9, h10⟩

theorem file_contrast {o : Opts} (h1 : o.qrColor = ⟨0, 0, 0, 255⟩) (h2 : o.bgColor = ⟨255, 255, 255, 255⟩) : Contrast o := by
  refine ⟨by rw [h1], Or.inr ⟨by rw [h2], ?_⟩⟩
  rw [h1, h2]
  decide

theorem rects_of {o : Opts} (h1 : o.getShape = .rectangle) (h2 : o.halftone = none) (h3 : o.qrGradient = none) : Rects o := by
  refine ⟨?_, h2, h3⟩
  unfold Opts.getShape at h1
  cases hs : o.shape with
  | none => exact Or.inl rfl
  | some s => rw [hs] at h1; exact Or.inr (congrArg some h1)

/-- **C75, what the program does.** It panics exactly if the borders are malformed; it reports an error exactly if they are not and the text has no symbol (C04 says when); otherwise it shows the
symbol in the terminal or draws it for the file given. -/
theorem C75_outcome {E : Ext} {unsjis : Nat → Option Nat} (hE : E.Ok unsjis) {c : AlignCache} (hc : CacheReachable c)
    {arrival : List Nat} (ha : Arrival arrival) (readImage : Bytes → Option Image) (f : Flags) :
    (run E c arrival readImage f = .panic ↔ parseBorders f.borders = none) ∧
    (∀ e, run E c arrival readImage f = .failed e ↔ parseBorders f.borders ≠ none ∧ new E c arrival .string f.text = .err e) ∧
    (∀ q, run E c arrival readImage f = .terminal q ↔ parseBorders f.borders ≠ none ∧ new E c arrival .string f.text = .ok q ∧ f.terminal = true) ∧
    (∀ name q, (∃ o, run E c arrival readImage f = .file name o q) ↔
      parseBorders f.borders ≠ none ∧ new E c arrival .string f.text = .ok q ∧ f.terminal = false ∧ name = f.output) := by
  cases hb : parseBorders f.borders with
  | none =>
    have : run E c arrival readImage f = .panic := (C51_run_partial E c arrival readImage f).1 hb
    rw [this]
    simp
  | some vs =>
    obtain ⟨t, r, b, l, hv⟩ := four_borders hb
    subst hv
    rcases C07_new_no_panic hE hc ha (t := .string) (by simp) f.text with ⟨q, hq⟩ | ⟨e, he⟩
    · rw [hq]
      cases ht : f.terminal with
      | true =>
        rw [((C51_run_partial E c arrival readImage f).2 _ hb q hq).1 ht]
        simp
      | false =>
        obtain ⟨o, hr, _⟩ := file_options E c arrival readImage f hb hq ht
        rw [hr]
        simp
        intro name q'
        constructor
        · rintro ⟨rfl, rfl⟩; exact ⟨rfl, rfl⟩
        · rintro ⟨rfl, rfl⟩; exact ⟨rfl, rfl⟩
    · have : run E c arrival readImage f = .failed e := by
        unfold run parse
        rw [hb, Option.map_some, he]
      rw [this, he]
      simp

/-- **C75, picture.** If the borders are well-formed, the text has a symbol (and does not meet the exception of C01), `--terminal` is not given, and neither are circles nor a halftone
picture that can be read: the program draws the picture for the file given, and a scanner that looks at any one pixel of every block, the first block starting right and below of the borders given,
reads exactly the text given. -/
theorem C75_picture {E : Ext} {unsjis : Nat → Option Nat} (hE : E.Ok unsjis) {c : AlignCache} (hc : CacheReachable c)
    {arrival : List Nat} (ha : Arrival arrival) (readImage : Bytes → Option Image) (f : Flags)
    {top right bottom left : Nat} (hb : parseBorders f.borders = some [top, right, bottom, left])
    {q : QRCode} (hq : new E c arrival .string f.text = .ok q) (hx : ¬ AlnumThenKanji E.sjis (nats f.text))
    (ht : f.terminal = false) (hcirc : f.circle = false) (hh : f.halftone = [] ∨ readImage f.halftone = none) (scale : Scaler) (blend : Blend) :
    ∃ o ops o' cv, run E c arrival readImage f = .file f.output o q ∧ draw scale o q.mat = some (ops, o') ∧ paintAllImg blend ops = some cv ∧
      ∀ pt : Nat → Nat → Int × Int, (∀ x y, x < q.dimension → y < q.dimension →
          left + x * usedBlock f ≤ (pt x y).1 ∧ (pt x y).1 < left + (x + 1) * usedBlock f ∧
          top + y * usedBlock f ≤ (pt x y).2 ∧ (pt x y).2 < top + (y + 1) * usedBlock f) →
        decode unsjis (scan q.dimension (fun px py => decide (cv.pix px py = ⟨0, 0, 0, 255⟩)) pt) = some (nats f.text) := by
  obtain ⟨o, hr, h1, h2, h3, h4, h5, h6, h7, h8, h9⟩ := file_options E c arrival readImage f hb hq ht
  rw [hcirc] at h3
  have h5' : o.halftone = none := by
    rw [h5]
    split
    · rfl
    · rcases hh with hh | hh
      · contradiction
      · exact hh
  rw [new_eq] at hq
  obtain ⟨ops, o', cv, d1, d2, d3⟩ := C70_picture hE hc ha hq (fun h => hx h.2) scale blend (rects_of h3 h5' h9) (file_contrast h6 h7)
    (by rw [h1]; simp) (fun img hi => by rw [h8] at hi; cases hi)
  refine ⟨o, ops, o', cv, hr, d1, d2, fun pt hpt => ?_⟩
  have := d3 pt (fun x y hx hy => by unfold InBlock; rw [h1, h2]; exact hpt x y hx hy)
  unfold seen at this
  rw [h6] at this
  exact this

/-- **C75, circles and halftone.** The same with `--circle` if the block size is at least 2, and with a halftone picture if it is at least 3 (and no circles): the centres of the blocks show the text. -/
theorem C75_shapes {E : Ext} {unsjis : Nat → Option Nat} (hE : E.Ok unsjis) {c : AlignCache} (hc : CacheReachable c)
    {arrival : List Nat} (ha : Arrival arrival) (readImage : Bytes → Option Image) (f : Flags)
    {top right bottom left : Nat} (hb : parseBorders f.borders = some [top, right, bottom, left])
    {q : QRCode} (hq : new E c arrival .string f.text = .ok q) (hx : ¬ AlnumThenKanji E.sjis (nats f.text))
    (ht : f.terminal = false)
    (hs : (f.circle = true ∧ 2 ≤ usedBlock f ∧ (f.halftone = [] ∨ readImage f.halftone = none)) ∨ (f.circle = false ∧ 3 ≤ usedBlock f))
    (scale : Scaler) (assembled : Nat → DrawFn × DrawFn) :
    ∃ o ops o', run E c arrival readImage f = .file f.output o q ∧ draw scale o q.mat = some (ops, o') ∧
      decode unsjis (seenCentres o q.dimension (drawing (meaning assembled) (shapeCalls ops))) = some (nats f.text) := by
  obtain ⟨o, hr, h1, h2, h3, h4, h5, h6, h7, h8, h9⟩ := file_options E c arrival readImage f hb hq ht
  rw [new_eq] at hq
  rcases hs with ⟨hci, h2', hh⟩ | ⟨hci, h3'⟩
  · have h5' : o.halftone = none := by
      rw [h5]
      split
      · rfl
      · rcases hh with hh | hh
        · contradiction
        · exact hh
    obtain ⟨ops, o', d1, d2⟩ := C72_shapes hE hc ha hq (fun h => hx h.2) scale (file_contrast h6 h7) h5' (Or.inl h8) assembled (fun _ => by rw [h2]; exact h2')
    exact ⟨o, ops, o', hr, d1, d2⟩
  · rw [hci] at h3
    cases hh : o.halftone with
    | none =>
      obtain ⟨ops, o', d1, d2⟩ := C72_shapes hE hc ha hq (fun h => hx h.2) scale (file_contrast h6 h7) hh (Or.inl h8) assembled (fun h => by rw [h3] at h; cases h)
      exact ⟨o, ops, o', hr, d1, d2⟩
    | some img =>
      obtain ⟨ops, o', d1, d2⟩ := C72_halftone hE hc ha hq (fun h => hx h.2) scale (file_contrast h6 h7) hh (Or.inl h8) h3 (by rw [h2]; exact h3') assembled
      exact ⟨o, ops, o', hr, d1, d2⟩

/-- **C75, terminal.** With `--terminal`, on a terminal that is large enough, the screen shows the text given. -/
theorem C75_terminal {E : Ext} {unsjis : Nat → Option Nat} (hE : E.Ok unsjis) {c : AlignCache} (hc : CacheReachable c)
    {arrival : List Nat} (ha : Arrival arrival) (readImage : Bytes → Option Image) (f : Flags) (hb : parseBorders f.borders ≠ none)
    {q : QRCode} (hq : new E c arrival .string f.text = .ok q) (hx : ¬ AlnumThenKanji E.sjis (nats f.text)) (ht : f.terminal = true)
    (s : Terminal.Screen) (runeWidth : Nat → Nat) (ambiguous : Nat → Bool)
    (hcols : 2 * (q.dimension + 2) ≤ s.cols) (hrows : q.dimension + 2 ≤ s.rows) (half : Nat → Nat → Bool) :
    run E c arrival readImage f = .terminal q ∧
    decode unsjis ((List.range q.dimension).map fun y => (List.range q.dimension).map fun x =>
      decide (((Terminal.render runeWidth ambiguous s q.mat).cells ((2 * x + 2 + (half x y).toNat : Nat), (y + 1 : Nat))).map (·.fg) = some Terminal.colorBlack)) =
        some (nats f.text) := by
  refine ⟨((C75_outcome hE hc ha readImage f).2.2.1 q).2 ⟨hb, hq, ht⟩, ?_⟩
  rw [new_eq] at hq
  exact C71_terminal hE hc ha hq (fun h => hx h.2) s runeWidth ambiguous hcols hrows half

/-- The text `1` has a symbol, in every schedule. -/
theorem demo_one {c : AlignCache} (hc : CacheReachable c) {arrival : List Nat} (ha : Arrival arrival) :
    (∃ q, new demoExt c arrival .string [0x31] = .ok q) ∧ ¬ AlnumThenKanji demoExt.sjis (nats [0x31]) := by
  have hx : ¬ AlnumThenKanji demoExt.sjis (nats [0x31]) := by
    rintro ⟨a, b, h, ha, hb, _⟩
    have := congrArg List.length h
    rw [List.length_append] at this
    have := List.length_pos_iff.2 ha
    have := List.length_pos_iff.2 hb
    simp [nats] at *
    omega
  refine ⟨?_, hx⟩
  rcases C07_new_no_panic demo_ok hc ha (t := .string) (by simp) [0x31] with h | h
  · exact h
  · exfalso
    rw [new_eq] at h
    refine (C04_error_iff demo_ok hc ha (t := .string) (by simp) (opts := []) rfl (m := .numeric) (Or.inr (Or.inl ⟨rfl, ?_⟩))).1 h 1 (by decide) (by decide) ?_
    · refine ⟨hx, ?_⟩
      show Spec.Encodable _ _ _ ∧ _
      exact ⟨by simp only [Spec.Encodable]; decide, trivial⟩
    · decide

/-- The hypotheses of `C75_picture` are met: `--borders=1,2,3,4 --block=257 -o a.png` and the text `1` (the block size becomes 1). -/
example {c : AlignCache} (hc : CacheReachable c) {arrival : List Nat} (ha : Arrival arrival) (readImage : Bytes → Option Image) (scale : Scaler) (blend : Blend) :
    ∃ o ops o' cv q, run demoExt c arrival readImage demoFlags = .file demoFlags.output o q ∧ draw scale o q.mat = some (ops, o') ∧ paintAllImg blend ops = some cv ∧
      decode demoUnsjis (scan q.dimension (fun px py => decide (cv.pix px py = ⟨0, 0, 0, 255⟩)) (fun x y => ((4 + x : Int), (1 + y : Int)))) = some [0x31] := by
  obtain ⟨⟨q, hq⟩, hx⟩ := demo_one hc ha
  obtain ⟨o, ops, o', cv, h1, h2, h3, h4⟩ := C75_picture demo_ok hc ha readImage demoFlags (top := 1) (right := 2) (bottom := 3) (left := 4) (by decide +kernel) hq hx rfl rfl
    (Or.inl rfl) scale blend
  refine ⟨o, ops, o', cv, q, h1, h2, h3, h4 _ fun x y _ _ => ?_⟩
  have : usedBlock demoFlags = 1 := by decide
  rw [this]
  simp only
  omega

end QR.Cli

namespace QR.Wasm
open QR QR.Standard _root_.Spec

/-- What is assumed of `Save` with PNG: it fails, or the bytes it produces are decoded (by `decodeImage`, a decoder of PNG) to a picture in which every opaque pixel of the picture that was drawn is
the same, and no other pixel is opaque.  (A pixel that is not opaque may change a little, since PNG does not store premultiplied colours.) -/
def SavesPng (scale : Scaler) (blend : Blend) (decodeImage : List Nat → Option Canvas) (save : Opts → Matrix → Saved) : Prop :=
  ∀ o m b, o.imageEncoder = .png → save o m = .image b → ∃ ops o' cv img, draw scale o m = some (ops, o') ∧ paintAllImg blend ops = some cv ∧
    decodeImage (b.map UInt8.toNat) = some img ∧ ∀ px py, 0 ≤ px → px < (o.attribute m.width).w → 0 ≤ py → py < (o.attribute m.width).h →
      ((cv.pix px py).a = 255 → img.pix px py = cv.pix px py) ∧ ((cv.pix px py).a ≠ 255 → (img.pix px py).a ≠ 255)

theorem parse_opaque {s : Bytes} {x : RGBA} (h : parseFromHex s = some x) : x.a = 255 := by
  unfold parseFromHex at h
  split at h
  · obtain ⟨y, _, rfl⟩ := Option.map_eq_some_iff.1 h
    rfl
  · split at h
    · obtain ⟨y, _, rfl⟩ := Option.map_eq_some_iff.1 h
      rfl
    · cases h

theorem colour_opaque {d : RGBA} (hd : d.a = 255) (v : JS) : (colourOf d v).a = 255 := by
  unfold colourOf
  cases h : parseFromHex v.str with
  | none => exact hd
  | some x => exact parse_opaque h

/-- The margin `outputMargin` leads to, and the block size `outputQrWidth` leads to (see C52). -/
def margin (mar : Int) : Int := if mar = 0 then 40 else mar
def width (w : Int) : Int := if w % 256 = 0 then 20 else w % 256

theorem str_eq {v : JS} {l : Bytes} (hl : l.head? ≠ some 0x3c) (h : v.str = l) : v = .string l := by
  subst h
  cases v with
  | string s => rfl
  | number i t => exact absurd rfl hl
  | boolean b => cases b <;> exact absurd (by decide) hl
  | _ => exact absurd rfl hl

/-- A block lies in the picture. -/
theorem block_inside {o : Opts} (hb : 0 ≤ o.borders.top ∧ 0 ≤ o.borders.right ∧ 0 ≤ o.borders.bottom ∧ 0 ≤ o.borders.left) {dim x y : Nat} (hx : x < dim) (hy : y < dim)
    {px py : Int} (h : InBlock o x y px py) : 0 ≤ px ∧ px < (o.attribute dim).w ∧ 0 ≤ py ∧ py < (o.attribute dim).h := by
  obtain ⟨h1, h2, h3, h4⟩ := h
  have hpos := (blockWidth_pos o).1
  have m1 : ((x : Int) + 1) * o.qrBlockWidth ≤ dim * o.qrBlockWidth := Int.mul_le_mul_of_nonneg_right (by omega) (by omega)
  have m2 : ((y : Int) + 1) * o.qrBlockWidth ≤ dim * o.qrBlockWidth := Int.mul_le_mul_of_nonneg_right (by omega) (by omega)
  have n1 : 0 ≤ (x : Int) * o.qrBlockWidth := Int.mul_nonneg (by omega) (by omega)
  have n2 : 0 ≤ (y : Int) * o.qrBlockWidth := Int.mul_nonneg (by omega) (by omega)
  unfold Opts.attribute
  simp only
  omega

/-- A picture that was saved as PNG shows the text. -/
theorem saved_shows {E : Ext} {unsjis : Nat → Option Nat} (hE : E.Ok unsjis) {c : AlignCache} (hc : CacheReachable c)
    {arrival : List Nat} (ha : Arrival arrival) {scale : Scaler} {blend : Blend} {decodeImage : List Nat → Option Canvas} {save : Opts → Matrix → Saved}
    (hsave : SavesPng scale blend decodeImage save) {content : Bytes} {eo : List EncodeOption} {q : QRCode} (hq : newWith E c arrival .string content eo = .ok q)
    (hx : ¬ (modeIn eo = encAuto ∧ AlnumThenKanji E.sjis (nats content))) {o : Opts} (hpng : o.imageEncoder = .png) (hp : Rects o) (hcon : Contrast o)
    (hb : 0 ≤ o.borders.top ∧ 0 ≤ o.borders.right ∧ 0 ≤ o.borders.bottom ∧ 0 ≤ o.borders.left) (hl : o.logo = none) {b : Bytes} (hs : save o q.mat = .image b) :
    ∃ img, QR.Spec.unbase64 ((Base64.encode b).map UInt8.toNat) = some (b.map UInt8.toNat) ∧ decodeImage (b.map UInt8.toNat) = some img ∧
      ∀ pt, InBlocks o q.dimension pt → decode unsjis (scan q.dimension (fun px py => decide (img.pix px py = o.qrColor)) pt) = some (nats content) := by
  obtain ⟨ops, o', cv, img, d1, d2, d3, d4⟩ := hsave o q.mat b hpng hs
  obtain ⟨hw, _⟩ := mat_size hE hc ha hq
  refine ⟨img, C58_base64 b, d3, fun pt hbl => ?_⟩
  obtain ⟨ops2, o2, cv2, e1, e2, e3⟩ := C70_picture hE hc ha hq hx scale blend hp hcon hb (fun img hi => by rw [hl] at hi; cases hi)
  rw [e1] at d1
  cases d1
  rw [e2] at d2
  cases d2
  rw [← e3 pt hbl]
  unfold seen scan
  refine congrArg _ (List.map_congr_left fun y hy => List.map_congr_left fun x hx => ?_)
  rw [List.mem_range] at hx hy
  simp only
  obtain ⟨p1, p2, p3, p4⟩ := block_inside hb hx hy (hbl x y hx hy)
  rw [hw] at d4
  obtain ⟨g1, g2⟩ := d4 _ _ p1 p2 p3 p4
  refine decide_eq_decide.2 ⟨fun h => ?_, fun h => ?_⟩
  · by_cases h255 : (cv.pix (pt x y).1 (pt x y).2).a = 255
    · rw [← g1 h255]; exact h
    · exact absurd (by rw [h]; exact hcon.fg) (g2 h255)
  · rw [g1 (by rw [h]; exact hcon.fg)]; exact h

/-- **C76.** From the call in JavaScript to the text: with a complete options object without circles, a margin that is not negative, colours that differ (or a transparent background) and the
format PNG, whenever the call reports success the picture in the result shows the content: the base64 text is decoded to bytes, the bytes to a picture, and a scanner that looks at any one pixel of every block
of the picture reads exactly the content. -/
theorem C76_object {E : Ext} {unsjis : Nat → Option Nat} (hE : E.Ok unsjis) {c : AlignCache} (hc : CacheReachable c)
    {arrival : List Nat} (ha : Arrival arrival) {scale : Scaler} {blend : Blend} {decodeImage : List Nat → Option Canvas} {save : Opts → Matrix → Saved}
    (hsave : SavesPng scale blend decodeImage save) (content : Bytes) (get : String → JS) (rest : List JS) {ver mode w mar : Int} {t1 t2 t3 t4 : Bytes} {tr : Bool} {lv : Int}
    (h1 : get "encodeVersion" = .number ver t1) (h2 : get "encodeMode" = .number mode t2) (h3 : get "outputQrWidth" = .number w t3)
    (h4 : get "outputMargin" = .number mar t4) (h5 : get "outputBgTransparent" = .boolean tr) (h6 : get "outputCircleShape" = .boolean false)
    (h7 : UsableColour (get "outputBgColor")) (h8 : UsableColour (get "outputQrColor")) (h9 : LevelField (get "encodeECLevel") lv)
    (h10 : get "outputImageEncoder" ≠ .string (lit "jpg") ∧ get "outputImageEncoder" ≠ .string (lit "jpeg"))
    (hmar : 0 ≤ mar) (hcol : tr = true ∨ colourOf ⟨255, 255, 255, 255⟩ (get "outputBgColor") ≠ colourOf ⟨0, 0, 0, 255⟩ (get "outputQrColor"))
    (hx : ¬ (modeOf mode = encAuto ∧ AlnumThenKanji E.sjis (nats content)))
    {r : GenResult} (hr : genqrcode E c arrival save (.string content :: .object get :: rest) = .result r) (hok : r.success = true) :
    ∃ dim bytes cv, QR.Spec.unbase64 (r.base64EncodedImage.map UInt8.toNat) = some bytes ∧ decodeImage bytes = some cv ∧
      ∀ pt : Nat → Nat → Int × Int, (∀ x y, x < dim → y < dim →
          margin mar + x * width w ≤ (pt x y).1 ∧ (pt x y).1 < margin mar + (x + 1) * width w ∧
          margin mar + y * width w ≤ (pt x y).2 ∧ (pt x y).2 < margin mar + (y + 1) * width w) →
        decode unsjis (scan dim (fun px py => decide (cv.pix px py = colourOf ⟨0, 0, 0, 255⟩ (get "outputQrColor"))) pt) = some (nats content) := by
  obtain ⟨eo, o, a1, a2, a3, a4, a5, a6, a7, a8, a9, a10, a11, a12, a13⟩ := C52_settings_partial E c arrival save (.string content) get rest h1 h2 h3 h4 h5 h6 h7 h8 h9
  have hmode : modeIn eo = modeOf mode := by rw [← mode_applied, a1]
  have hsup : Supported (modeIn eo) := by
    rw [hmode]
    unfold modeOf
    split
    · rename_i h
      rcases h with h | h | h | h <;> rw [h]
      · exact Or.inr ⟨.numeric, rfl⟩
      · exact Or.inr ⟨.alnum, rfl⟩
      · exact Or.inr ⟨.kanji, rfl⟩
      · exact Or.inr ⟨.byte, rfl⟩
    · exact Or.inl rfl
  rcases C07_newWith_no_panic hE hc ha (t := .string) (by simp) content hsup with ⟨q, hq⟩ | ⟨e, he⟩
  · obtain ⟨b1, b2, b3⟩ := a13 q hq
    cases hs : save o q.mat with
    | panics => rw [b3 hs] at hr; cases hr
    | error e => rw [b1 e hs] at hr; cases hr; cases hok
    | image b =>
      rw [b2 b hs] at hr
      cases hr
      have hpng : o.imageEncoder = .png := by rw [a8, if_neg (not_or.2 ⟨fun h => h10.1 (str_eq (by decide) h), fun h => h10.2 (str_eq (by decide) h)⟩)]
      have hcon : Contrast o := ⟨by rw [a4]; exact colour_opaque rfl _, by
        rcases hcol with h | h
        · exact Or.inl (a6.trans h)
        · exact Or.inr ⟨by rw [a5]; exact colour_opaque rfl _, by rw [a4, a5]; exact h⟩⟩
      obtain ⟨img, i1, i2, i3⟩ := saved_shows hE hc ha hsave hq (by rw [hmode]; exact hx) hpng (Cli.rects_of a7 a11 a10) hcon (by rw [a2]; split <;> simp; omega) a9 hs
      refine ⟨q.dimension, _, img, i1, i2, fun pt hpt => ?_⟩
      rw [← a4]
      refine i3 pt fun x y hx hy => ?_
      have := hpt x y hx hy
      unfold InBlock
      rw [a2, a3]
      unfold margin width at this
      split <;> simp_all
  · rw [a12 e he] at hr
    cases hr
    cases hok

/-- **C76, without options.** The same for a call with the content alone: the picture is a PNG picture with blocks of 20 pixels, borders of 40 pixels, black on white. -/
theorem C76_plain {E : Ext} {unsjis : Nat → Option Nat} (hE : E.Ok unsjis) {c : AlignCache} (hc : CacheReachable c)
    {arrival : List Nat} (ha : Arrival arrival) {scale : Scaler} {blend : Blend} {decodeImage : List Nat → Option Canvas} {save : Opts → Matrix → Saved}
    (hsave : SavesPng scale blend decodeImage save) (content : Bytes) (hx : ¬ AlnumThenKanji E.sjis (nats content))
    {r : GenResult} (hr : genqrcode E c arrival save [.string content] = .result r) (hok : r.success = true) :
    ∃ dim bytes img, QR.Spec.unbase64 (r.base64EncodedImage.map UInt8.toNat) = some bytes ∧ decodeImage bytes = some img ∧
      ∀ pt : Nat → Nat → Int × Int, (∀ x y, x < dim → y < dim →
          40 + x * 20 ≤ (pt x y).1 ∧ (pt x y).1 < 40 + (x + 1) * 20 ∧ 40 + y * 20 ≤ (pt x y).2 ∧ (pt x y).2 < 40 + (y + 1) * 20) →
        decode unsjis (scan dim (fun px py => decide (img.pix px py = ⟨0, 0, 0, 255⟩)) pt) = some (nats content) := by
  obtain ⟨a1, a2⟩ := (C52_defaults E c arrival save (.string content)).2 [] (by simp)
  rcases C07_new_no_panic hE hc ha (t := .string) (by simp) content with ⟨q, hq⟩ | ⟨e, he⟩
  · obtain ⟨b1, b2⟩ := a2 q hq
    rw [if_pos rfl] at b1 b2
    cases hs : save { defaultOpts with imageEncoder := .png } q.mat with
    | panics =>
      exfalso
      rw [new_eq] at hq
      have e1 : encodeOptions (some zeroOption) = [] := by decide
      have e2 : newWithWriter false (outputOptions (some zeroOption)) = some { defaultOpts with imageEncoder := .png } := rfl
      unfold genqrcode at hr
      simp only [e1, JS.str, hq, e2, hs] at hr
      cases hr
    | error e => rw [b1 e hs] at hr; cases hr; cases hok
    | image b =>
      rw [b2 b hs] at hr
      cases hr
      rw [new_eq] at hq
      have dc : Contrast defaultOpts := ⟨rfl, Or.inr ⟨rfl, by decide⟩⟩
      have db : 0 ≤ defaultOpts.borders.top ∧ 0 ≤ defaultOpts.borders.right ∧ 0 ≤ defaultOpts.borders.bottom ∧ 0 ≤ defaultOpts.borders.left := by decide
      obtain ⟨img, i1, i2, i3⟩ := saved_shows hE hc ha hsave hq (fun h => hx h.2) (o := { defaultOpts with imageEncoder := .png }) rfl ⟨Or.inr rfl, rfl, rfl⟩ ⟨dc.fg, dc.bg⟩ db rfl hs
      exact ⟨q.dimension, _, img, i1, i2, fun pt hpt => i3 pt hpt⟩
  · rw [a1 e he] at hr
    cases hr
    cases hok

/-- The hypotheses of C76 are met: a `Save` that writes the byte 1 for the symbol of the text `1` with the default options and fails for every other one; the decoder gives the picture for the byte 1. -/
example {c : AlignCache} (hc : CacheReachable c) {arrival : List Nat} (ha : Arrival arrival) (scale : Scaler) (blend : Blend) :
    ∃ decodeImage save r, SavesPng scale blend decodeImage save ∧ genqrcode demoExt c arrival save [.string [0x31]] = .result r ∧ r.success = true := by
  classical
  obtain ⟨⟨q, hq⟩, hx⟩ := Cli.demo_one hc ha
  have hq' := hq
  rw [new_eq] at hq'
  have dc : Contrast defaultOpts := ⟨rfl, Or.inr ⟨rfl, by decide⟩⟩
  have db : 0 ≤ defaultOpts.borders.top ∧ 0 ≤ defaultOpts.borders.right ∧ 0 ≤ defaultOpts.borders.bottom ∧ 0 ≤ defaultOpts.borders.left := by decide
  obtain ⟨ops, o', cv, e1, e2, _⟩ := C70_picture demo_ok hc ha hq' (fun h => hx h.2) scale blend (o := { defaultOpts with imageEncoder := .png })
    ⟨Or.inr rfl, rfl, rfl⟩ ⟨dc.fg, dc.bg⟩ db (fun img h => by cases h)
  refine ⟨fun b => if b = [1] then some cv else none,
    fun o m => if o = { defaultOpts with imageEncoder := .png } ∧ m = q.mat then .image [1] else .error 0, ⟨true, none, Base64.encode [1]⟩, ?_, ?_, rfl⟩
  · intro o m b _ hs
    simp only at hs
    split at hs
    · rename_i h
      obtain ⟨rfl, rfl⟩ := h
      cases hs
      exact ⟨ops, o', cv, cv, e1, e2, rfl, fun _ _ _ _ _ _ => ⟨fun _ => rfl, fun h => h⟩⟩
    · cases hs
  · exact (((C52_defaults demoExt c arrival _ (.string [0x31])).2 [] (by simp)).2 q hq).2 [1] (by rw [if_pos rfl]; exact if_pos ⟨rfl, rfl⟩)

end QR.Wasm
