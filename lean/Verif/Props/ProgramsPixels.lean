import Verif.Props.Programs
import Verif.Props.ScanHalftonePixels
/-!
# C75, C76 with circles and halftone, pixel by pixel
-/
namespace QR.Standard
open QR

/-- Pixel `(px, py)` contains the centre of the block in column `x` and row `y`, if blocks are `w` pixels wide and the first one starts at `(left, top)`. -/
def CentreOf (left top w : Int) (x y : Nat) (px py : Int) : Prop :=
  2 * px ≤ 2 * left + (2 * x + 1) * w ∧ 2 * left + (2 * x + 1) * w ≤ 2 * px + 2 ∧ 2 * py ≤ 2 * top + (2 * y + 1) * w ∧ 2 * top + (2 * y + 1) * w ≤ 2 * py + 2

theorem atCentre_of {o : Opts} {x y : Nat} {px py : Int} (h : CentreOf o.borders.left o.borders.top o.qrBlockWidth x y px py) : AtCentre o x y px py := by
  obtain ⟨h1, h2, h3, h4⟩ := h
  have g1 : (2 * px : Rat) ≤ 2 * o.borders.left + (2 * x + 1) * o.qrBlockWidth := by exact_mod_cast h1
  have g2 : (2 * o.borders.left + (2 * x + 1) * o.qrBlockWidth : Rat) ≤ 2 * px + 2 := by exact_mod_cast h2
  have g3 : (2 * py : Rat) ≤ 2 * o.borders.top + (2 * y + 1) * o.qrBlockWidth := by exact_mod_cast h3
  have g4 : (2 * o.borders.top + (2 * y + 1) * o.qrBlockWidth : Rat) ≤ 2 * py + 2 := by exact_mod_cast h4
  refine ⟨?_, ?_, ?_, ?_⟩ <;> simp only [centre] <;> linarith

end QR.Standard

namespace QR.Cli
open QR QR.Standard _root_.Spec

/-- **C75, circles and halftone, pixel by pixel.** With `--circle` in blocks of at least 10 pixels, or with a halftone picture in blocks of at least 12 pixels (circles and a halftone picture: at least
30, a multiple of three), the program draws a picture for the file given, and a scanner that looks at one pixel at the centre of every block reads exactly the text given: dark are the opaque pixels that
are not white (all opaque ones with `--transparent`). -/
theorem C75_pixels {E : Ext} {unsjis : Nat → Option Nat} (hE : E.Ok unsjis) {c : AlignCache} (hc : CacheReachable c)
    {arrival : List Nat} (ha : Arrival arrival) (readImage : Bytes → Option Image) (f : Flags)
    {top right bottom left : Nat} (hb : parseBorders f.borders = some [top, right, bottom, left])
    {q : QRCode} (hq : new E c arrival .string f.text = .ok q) (hx : ¬ AlnumThenKanji E.sjis (nats f.text))
    (ht : f.terminal = false)
    (hs : (10 ≤ usedBlock f ∧ (f.halftone = [] ∨ readImage f.halftone = none)) ∨ (12 ≤ usedBlock f ∧ f.circle = false) ∨ (30 ≤ usedBlock f ∧ usedBlock f % 3 = 0))
    (scale : Scaler) {cov : Coverage} (hcov : Rasters cov) (blend : Blend) {put : Put} (hput : PutsOver put) (direction : Rat → Rat × Rat) (assembled : Nat → DrawFn × DrawFn) :
    ∃ o ops o' cv, run E c arrival readImage f = .file f.output o q ∧ draw scale o q.mat = some (ops, o') ∧
      paintAllShapes cov (meaning assembled) blend put direction ops = some cv ∧
      ∀ pt : Nat → Nat → Int × Int, (∀ x y, x < q.dimension → y < q.dimension → CentreOf left top (usedBlock f) x y (pt x y).1 (pt x y).2) →
        decode unsjis (scan q.dimension (fun px py => decide ((cv.pix px py).a = 255) && (f.transparent || decide (cv.pix px py ≠ ⟨255, 255, 255, 255⟩))) pt) =
          some (nats f.text) := by
  obtain ⟨o, hr, h1, h2, h3, h4, h5, h6, h7, h8, h9⟩ := file_options E c arrival readImage f hb hq ht
  rw [new_eq] at hq
  have hbold : (meaning assembled o.getShape).bold := by
    rw [h3]
    cases f.circle <;> exact trivial
  have hnn : 0 ≤ o.borders.top ∧ 0 ≤ o.borders.right ∧ 0 ≤ o.borders.bottom ∧ 0 ≤ o.borders.left := by rw [h1]; simp
  have hpic : ∃ ops o' cv, draw scale o q.mat = some (ops, o') ∧ paintAllShapes cov (meaning assembled) blend put direction ops = some cv ∧
      ∀ pt, AtCentres o q.dimension pt → decode unsjis (seenInk o q.dimension cv pt) = some (nats f.text) := by
    cases hht : o.halftone with
    | none =>
      exact C83_shapes hE hc ha hq (fun h => hx h.2) scale hcov blend hput direction assembled (by rw [h2]; omega) hbold hht (file_contrast h6 h7)
        (fun g hg => by rw [h9] at hg; cases hg) hnn (fun img hi => by rw [h8] at hi; cases hi)
    | some himg =>
      have hsub : SubPixels o (meaning assembled o.getShape) := by
        rcases hs with ⟨_, hh⟩ | ⟨h12, hci⟩ | ⟨h30, hm⟩
        · exfalso
          rw [h5] at hht
          split at hht
          · cases hht
          · rcases hh with hh | hh
            · contradiction
            · rw [hh] at hht; cases hht
        · refine ⟨by rw [h2]; exact h12, .inl ?_⟩
          rw [h3, hci]; rfl
        · refine ⟨by rw [h2]; omega, .inr ⟨by rw [h2]; exact h30, by rw [h2]; exact hm, ?_⟩⟩
          rw [h3]
          cases f.circle <;> rfl
      exact C84_halftone hE hc ha hq (fun h => hx h.2) scale hcov blend hput direction assembled hht hsub hbold (file_contrast h6 h7)
        (fun g hg => by rw [h9] at hg; cases hg) hnn (fun img hi => by rw [h8] at hi; cases hi)
  obtain ⟨ops, o', cv, d1, d2, d3⟩ := hpic
  refine ⟨o, ops, o', cv, hr, d1, d2, fun pt hpt => ?_⟩
  have := d3 pt (fun x y hx hy => atCentre_of (by rw [h1, h2]; exact hpt x y hx hy))
  unfold seenInk ink at this
  rw [h4, h7] at this
  exact this

/-- The hypotheses are met: the default block size is 20. -/
example : (12 : Int) ≤ usedBlock { demoFlags with block := 20, halftone := [0x61] } ∧ Flags.circle { demoFlags with block := 20, halftone := [0x61] } = false ∧
    (10 : Int) ≤ usedBlock { demoFlags with block := 20, circle := true } := by decide

end QR.Cli

namespace QR.Wasm
open QR QR.Standard _root_.Spec

/-- As `SavesPng`, for pictures with any shape. -/
def SavesPngShapes (scale : Scaler) (cov : Coverage) (assembled : Nat → DrawFn × DrawFn) (blend : Blend) (put : Put) (direction : Rat → Rat × Rat)
    (decodeImage : List Nat → Option Canvas) (save : Opts → Matrix → Saved) : Prop :=
  ∀ o m b, o.imageEncoder = .png → save o m = .image b → ∃ ops o' cv img, draw scale o m = some (ops, o') ∧
    paintAllShapes cov (meaning assembled) blend put direction ops = some cv ∧ decodeImage (b.map UInt8.toNat) = some img ∧
    ∀ px py, 0 ≤ px → px < (o.attribute m.width).w → 0 ≤ py → py < (o.attribute m.width).h →
      ((cv.pix px py).a = 255 → img.pix px py = cv.pix px py) ∧ ((cv.pix px py).a ≠ 255 → (img.pix px py).a ≠ 255)

/-- **C76 with circles, pixel by pixel.** With a complete options object, with or without circles, block sizes of at least 10, a margin that is not negative, colours that differ (or a transparent
background) and the format PNG, whenever the call reports success, a scanner that looks at one pixel at the centre of every block of the picture in the result reads exactly the content. -/
theorem C76_pixels {E : Ext} {unsjis : Nat → Option Nat} (hE : E.Ok unsjis) {c : AlignCache} (hc : CacheReachable c)
    {arrival : List Nat} (ha : Arrival arrival) {scale : Scaler} {cov : Coverage} (hcov : Rasters cov) {assembled : Nat → DrawFn × DrawFn} {blend : Blend} {put : Put}
    (hput : PutsOver put) {direction : Rat → Rat × Rat} {decodeImage : List Nat → Option Canvas} {save : Opts → Matrix → Saved}
    (hsave : SavesPngShapes scale cov assembled blend put direction decodeImage save) (content : Bytes) (get : String → JS) (rest : List JS) {ver mode w mar : Int} {t1 t2 t3 t4 : Bytes}
    {tr ci : Bool} {lv : Int}
    (h1 : get "encodeVersion" = .number ver t1) (h2 : get "encodeMode" = .number mode t2) (h3 : get "outputQrWidth" = .number w t3)
    (h4 : get "outputMargin" = .number mar t4) (h5 : get "outputBgTransparent" = .boolean tr) (h6 : get "outputCircleShape" = .boolean ci)
    (h7 : UsableColour (get "outputBgColor")) (h8 : UsableColour (get "outputQrColor")) (h9 : LevelField (get "encodeECLevel") lv)
    (h10 : get "outputImageEncoder" ≠ .string (lit "jpg") ∧ get "outputImageEncoder" ≠ .string (lit "jpeg"))
    (hw : 10 ≤ width w) (hmar : 0 ≤ mar) (hcol : tr = true ∨ colourOf ⟨255, 255, 255, 255⟩ (get "outputBgColor") ≠ colourOf ⟨0, 0, 0, 255⟩ (get "outputQrColor"))
    (hx : ¬ (modeOf mode = encAuto ∧ AlnumThenKanji E.sjis (nats content)))
    {r : GenResult} (hr : genqrcode E c arrival save (.string content :: .object get :: rest) = .result r) (hok : r.success = true) :
    ∃ dim bytes img, QR.Spec.unbase64 (r.base64EncodedImage.map UInt8.toNat) = some bytes ∧ decodeImage bytes = some img ∧
      ∀ pt : Nat → Nat → Int × Int, (∀ x y, x < dim → y < dim → CentreOf (margin mar) (margin mar) (width w) x y (pt x y).1 (pt x y).2) →
        decode unsjis (scan dim (fun px py => decide ((img.pix px py).a = 255) &&
          (tr || decide (img.pix px py ≠ colourOf ⟨255, 255, 255, 255⟩ (get "outputBgColor")))) pt) = some (nats content) := by
  obtain ⟨eo, o, a1, a2, a3, a4, a5, a6, a7, a8, a9, a10, a11, a12, a13⟩ := C52_settings_partial E c arrival save (.string content) get rest h1 h2 h3 h4 h5 h6 h7 h8 h9
  have hmode : modeIn eo = modeOf mode := by rw [← mode_applied, a1]
  have hsup : Supported (modeIn eo) := by
    rw [hmode]
    unfold modeOf
    split
    · rename_i h
      rcases h with h | h | h | h <;> rw [h]
      · exact Or.inr ⟨.numeric, rfl⟩
      · exact Or.inr ⟨.alnum, rfl⟩
      · exact Or.inr ⟨.kanji, rfl⟩
      · exact Or.inr ⟨.byte, rfl⟩
    · exact Or.inl rfl
  rcases C07_newWith_no_panic hE hc ha (t := .string) (by simp) content hsup with ⟨q, hq⟩ | ⟨e, he⟩
  · obtain ⟨b1, b2, b3⟩ := a13 q hq
    cases hs : save o q.mat with
    | panics => rw [b3 hs] at hr; cases hr
    | error e => rw [b1 e hs] at hr; cases hr; cases hok
    | image b =>
      rw [b2 b hs] at hr
      cases hr
      have hpng : o.imageEncoder = .png := by rw [a8, if_neg (not_or.2 ⟨fun h => h10.1 (str_eq (by decide) h), fun h => h10.2 (str_eq (by decide) h)⟩)]
      have hcon : Contrast o := ⟨by rw [a4]; exact colour_opaque rfl _, by
        rcases hcol with h | h
        · exact Or.inl (a6.trans h)
        · exact Or.inr ⟨by rw [a5]; exact colour_opaque rfl _, by rw [a4, a5]; exact h⟩⟩
      have hbw : o.qrBlockWidth = width w := by rw [a3]; rfl
      have hbo : o.borders = ⟨margin mar, margin mar, margin mar, margin mar⟩ := by
        rw [a2]; unfold margin; split <;> rfl
      have hnn : 0 ≤ o.borders.top ∧ 0 ≤ o.borders.right ∧ 0 ≤ o.borders.bottom ∧ 0 ≤ o.borders.left := by
        rw [hbo]; unfold margin; split <;> simp; omega
      have hbold : (meaning assembled o.getShape).bold := by
        rw [a7]
        cases ci <;> exact trivial
      obtain ⟨ops, o', cv, e1, e2, e3⟩ := C83_shapes hE hc ha hq (by rw [hmode]; exact hx) scale hcov blend hput direction assembled (by rw [hbw]; exact hw) hbold a11 hcon
        (fun g hg => by rw [a10] at hg; cases hg) hnn (fun img hi => by rw [a9] at hi; cases hi)
      obtain ⟨ops2, o2, cv2, img, d1, d2, d3, d4⟩ := hsave o q.mat b hpng hs
      rw [e1] at d1
      cases d1
      rw [e2] at d2
      cases d2
      refine ⟨q.dimension, _, img, C58_base64 b, d3, fun pt hpt => ?_⟩
      have hat : AtCentres o q.dimension pt := fun x y hx hy => atCentre_of (by rw [hbo, hbw]; exact hpt x y hx hy)
      rw [← e3 pt hat]
      unfold seenInk ink scan
      refine congrArg _ (List.map_congr_left fun y hy => List.map_congr_left fun x hx => ?_)
      rw [List.mem_range] at hx hy
      simp only
      obtain ⟨hmw, _⟩ := mat_size hE hc ha hq
      obtain ⟨p1, p2, p3, p4⟩ := block_inside hnn hx hy (atCentre_inBlock (by rw [hbw]; exact hw) (hat x y hx hy)).1
      rw [hmw] at d4
      obtain ⟨g1, g2⟩ := d4 _ _ p1 p2 p3 p4
      rw [a5, a6]
      by_cases h255 : (cv.pix (pt x y).1 (pt x y).2).a = 255
      · rw [g1 h255]
      · rw [decide_eq_false h255, decide_eq_false (g2 h255), Bool.false_and, Bool.false_and]
  · rw [a12 e he] at hr
    cases hr
    cases hok

theorem gen_success {E : Ext} {c : AlignCache} {arrival : List Nat} {save : Opts → Matrix → Saved} {content : JS} {get : String → JS} {rest : List JS} {go : GenOption}
    {o : Opts} {q : QRCode} {b : Bytes} (hopt : optionFromJSValue (.object get) = some (some go))
    (hq : newWith E c arrival .string content.str (encodeOptions (some go)) = .ok q) (ho : newWithWriter false (outputOptions (some go)) = some o)
    (hs : save o q.mat = .image b) : genqrcode E c arrival save (content :: .object get :: rest) = .result ⟨true, none, Base64.encode b⟩ := by
  unfold genqrcode
  simp only [hopt, hq, ho, hs]

/-- The hypotheses of `C76_pixels` are met: the object of the README (circles in blocks of 20 pixels), the text `1`, and a `Save` that succeeds for its symbol. -/
example {c : AlignCache} (hc : CacheReachable c) {arrival : List Nat} (ha : Arrival arrival) (scale : Scaler) (blend : Blend) (direction : Rat → Rat × Rat)
    (assembled : Nat → DrawFn × DrawFn) :
    let put : Put := fun c old => if c.a = 0 then old else c
    ∃ decodeImage save r bytes img dim, SavesPngShapes scale demoCoverage assembled blend put direction decodeImage save ∧
      genqrcode demoExt c arrival save [.string [0x31], .object readme] = .result r ∧ r.success = true ∧
      QR.Spec.unbase64 (r.base64EncodedImage.map UInt8.toNat) = some bytes ∧ decodeImage bytes = some img ∧
      decode demoUnsjis (scan dim (fun px py => decide ((img.pix px py).a = 255) && decide (img.pix px py ≠ ⟨0x12, 0x31, 0x23, 255⟩))
        (fun x y => ((20 + 20 * x + 10 : Int), (20 + 20 * y + 9 : Int)))) = some [0x31] := by
  classical
  intro put
  have hput : PutsOver put := ⟨fun c old h => by simp only [put]; rw [if_neg (by rw [h]; decide)], fun c old h h0 => by simp only [put]; rw [if_pos h]; exact h0⟩
  have u1 : UsableColour (readme "outputBgColor") := (usable_iff _).2 (Or.inr (by decide +kernel))
  have u2 : UsableColour (readme "outputQrColor") := (usable_iff _).2 (Or.inr (by decide +kernel))
  have k1 : colourOf ⟨255, 255, 255, 255⟩ (readme "outputBgColor") = ⟨0x12, 0x31, 0x23, 255⟩ := by decide +kernel
  have k2 : colourOf ⟨0, 0, 0, 255⟩ (readme "outputQrColor") = ⟨0x66, 0x66, 0x66, 255⟩ := by decide +kernel
  obtain ⟨⟨q, hq⟩, hx⟩ := Cli.demo_one hc ha
  obtain ⟨go, hgo⟩ : ∃ go : GenOption, go = ⟨0, toUint8 2, (readme "encodeECLevel").str, (readme "outputBgColor").str, false, (readme "outputQrColor").str, toUint8 20, true,
    (readme "outputImageEncoder").str, 20⟩ := ⟨_, rfl⟩
  have r1 : readme "encodeVersion" = .number 0 [0x30] := by simp [readme]
  have r2 : readme "encodeMode" = .number 2 [0x32] := by simp [readme]
  have r3 : readme "outputQrWidth" = .number 20 [0x32, 0x30] := by simp [readme]
  have r4 : readme "outputMargin" = .number 20 [0x32, 0x30] := by simp [readme]
  have r5 : readme "outputBgTransparent" = .boolean false := by simp [readme]
  have r6 : readme "outputCircleShape" = .boolean true := by simp [readme]
  have r7 : readme "outputImageEncoder" ≠ .string (lit "jpg") ∧ readme "outputImageEncoder" ≠ .string (lit "jpeg") := by
    have : readme "outputImageEncoder" = .string (lit "png") := by simp [readme]
    rw [this]
    exact ⟨fun h => absurd (JS.string.inj h) (by decide +kernel), fun h => absurd (JS.string.inj h) (by decide +kernel)⟩
  have hopt : optionFromJSValue (.object readme) = some (some go) := by
    rw [hgo]
    exact option_some (t1 := [0x30]) (t2 := [0x32]) (t3 := [0x32, 0x30]) (t4 := [0x32, 0x30]) r1 r2 r3 r4 r5 r6
  have henc : applyOptions (encodeOptions (some go)) = defaultEncodingOption := by
    rw [encode_settings go (mode := 2) (v := readme "encodeECLevel") (lv := 3) (by rw [hgo]) (by rw [hgo]) .q, hgo]
    decide
  obtain ⟨o, ho, a2, a3, a4, a5, a6, a7, a8, a9, a10, a11⟩ := output_settings go (by rw [hgo]; exact (usable_iff _).1 u1) (by rw [hgo]; exact (usable_iff _).1 u2)
  have hq' : newWith demoExt c arrival .string [0x31] (encodeOptions (some go)) = .ok q := by
    rw [new_eq] at hq
    rw [← hq]
    have h0 : applyOptions [] = defaultEncodingOption := rfl
    unfold newWith
    rw [henc, h0]
  have f1 : o.qrColor = ⟨0x66, 0x66, 0x66, 255⟩ := by rw [a4, hgo]; decide +kernel
  have f2 : o.bgColor = ⟨0x12, 0x31, 0x23, 255⟩ := by rw [a5, hgo]; decide +kernel
  have f3 : o.qrBlockWidth = 20 := by rw [a3, hgo]; decide +kernel
  have f4 : o.borders = ⟨20, 20, 20, 20⟩ := by rw [a2, hgo]; decide +kernel
  have f5 : o.getShape = .circle := by rw [a7, hgo]; rfl
  obtain ⟨ops, o', cv, e1, e2, _⟩ := C83_shapes demo_ok hc ha hq' (fun h => hx h.2) scale demo_rasters blend hput direction assembled (o := o)
    (by rw [f3]; decide) (by rw [f5]; exact trivial) a11 ⟨by rw [f1], .inr ⟨by rw [f2], by rw [f1, f2]; decide⟩⟩
    (fun g hg => by rw [a10] at hg; cases hg) (by rw [f4]; decide) (fun img hi => by rw [a9] at hi; cases hi)
  obtain ⟨save, hsv⟩ : ∃ save : Opts → Matrix → Saved, ∀ o1 m, save o1 m = if o1 = o ∧ m = q.mat then .image [1] else .error 0 := ⟨_, fun _ _ => rfl⟩
  obtain ⟨dec, hdec⟩ : ∃ dec : List Nat → Option Canvas, ∀ b, dec b = if b = [1] then some cv else none := ⟨_, fun _ => rfl⟩
  have hsaves : SavesPngShapes scale demoCoverage assembled blend put direction dec save := by
    intro o1 m b _ hs
    rw [hsv] at hs
    split at hs
    · rename_i h
      obtain ⟨rfl, rfl⟩ := h
      cases hs
      exact ⟨ops, o', cv, cv, e1, e2, by rw [hdec]; exact if_pos rfl, fun _ _ _ _ _ _ => ⟨fun _ => rfl, fun h => h⟩⟩
    · cases hs
  have hgen : genqrcode demoExt c arrival save [.string [0x31], .object readme] = .result ⟨true, none, Base64.encode [1]⟩ := by
    have hsv' : save o q.mat = .image [1] := by rw [hsv]; exact if_pos ⟨rfl, rfl⟩
    exact gen_success (content := .string [0x31]) hopt hq' ho hsv'
  obtain ⟨dim, bytes, img, g1, g2, g3⟩ := C76_pixels demo_ok hc ha demo_rasters hput hsaves [0x31] readme [] (ver := 0) (mode := 2) (w := 20) (mar := 20)
    (t1 := [0x30]) (t2 := [0x32]) (t3 := [0x32, 0x30]) (t4 := [0x32, 0x30]) (tr := false) (ci := true) (lv := 3)
    r1 r2 r3 r4 r5 r6 u1 u2 .q
    r7 (by decide) (by decide) (.inr (by rw [k1, k2]; decide)) (fun h => hx h.2) hgen rfl
  refine ⟨dec, save, _, bytes, img, dim, hsaves, hgen, rfl, g1, g2, ?_⟩
  have := g3 (fun x y => ((20 + 20 * x + 10 : Int), (20 + 20 * y + 9 : Int))) (fun x y _ _ => by
    have e1 : margin 20 = 20 := by decide
    have e2 : width 20 = 20 := by decide
    rw [e1, e2]
    unfold CentreOf
    simp only
    omega)
  rw [k1] at this
  simp only [Bool.false_or] at this
  exact this

end QR.Wasm
