import Verif.Instances.Images
import Verif.Props.ProgramsPixels
import Verif.Props.Examples
import Verif.Props.Issues
import Verif.Props.Quiet
/-!
# Instances of C51, C52, C57, C58, C75, C76, C86: the programs
-/
namespace QR.Instances
open QR QR.Standard _root_.Spec

theorem one_exists : ∃ q, new demoExt fresh inOrder .string [0x31] = .ok q := (Cli.demo_one fresh_reachable inOrder_arrival).1
/-- `New("1")`. -/
noncomputable def q1 : QRCode := Classical.choose one_exists
theorem q1_ok : new demoExt fresh inOrder .string [0x31] = .ok q1 := Classical.choose_spec one_exists
theorem q1_ok' : newWith demoExt fresh inOrder .string [0x31] [] = .ok q1 := by rw [← new_eq]; exact q1_ok
theorem one_plain : ¬ AlnumThenKanji demoExt.sjis (nats [0x31]) := (Cli.demo_one fresh_reachable inOrder_arrival).2

/-! ## The command line program -/

section
open QR.Cli
abbrev noImage : Bytes → Option Image := fun _ => none
theorem demo_borders : parseBorders demoFlags.borders = some [1, 2, 3, 4] := by decide +kernel
abbrev circles : Flags := { demoFlags with block := 20, circle := true }
abbrev photoFlags : Flags := { demoFlags with block := 20, halftone := [0x61] }
abbrev onTerminal : Flags := { demoFlags with terminal := true }
abbrev someImage : Bytes → Option Image := fun n => if n = [0x61] then some photo else none
example : ∃ a b c d va vb vc vd, demoFlags.borders = a ++ 0x2c :: (b ++ 0x2c :: (c ++ 0x2c :: d)) ∧ [1, 2, 3, 4] = [va, vb, vc, vd] ∧
      QR.Spec.IsDecimal (Cli.codes a) va ∧ QR.Spec.IsDecimal (Cli.codes b) vb ∧ QR.Spec.IsDecimal (Cli.codes c) vc ∧ QR.Spec.IsDecimal (Cli.codes d) vd ∧ va ≤ 255 ∧ vb ≤ 255 ∧ vc ≤ 255 ∧ vd ≤ 255 :=
  (C51_borders_syntax _ _).1 demo_borders
example : run demoExt fresh inOrder noImage { demoFlags with borders := [0x31, 0x2c] } = .panic :=
  (C51_run_partial demoExt fresh inOrder noImage { demoFlags with borders := [0x31, 0x2c] }).1 (by decide +kernel)
example : run demoExt fresh inOrder noImage onTerminal = .terminal q1 := ((C51_run_partial demoExt fresh inOrder noImage onTerminal).2 _ demo_borders q1 q1_ok).1 rfl
/-- The run with circles: the file it writes. -/
theorem circles_run : ∃ o, run demoExt fresh inOrder noImage circles = .file circles.output o q1 := by
  obtain ⟨o, h, _⟩ := ((C51_run_partial demoExt fresh inOrder noImage circles).2 _ demo_borders q1 q1_ok).2 rfl
  exact ⟨o, h⟩
example : ∃ o, run demoExt fresh inOrder noImage circles = .file circles.output o q1 ∧ o.qrBlockWidth = 20 ∧ o.imageEncoder = .png := by
  obtain ⟨o, h⟩ := circles_run
  exact ⟨o, h, C51_block _ _ _ _ _ h, (C57_format _ _ _ _ _ h).2.1 ⟨[0x61], rfl⟩⟩
example := C51_counterexample demoExt fresh inOrder noImage q1_ok
example := C75_outcome demo_ok fresh_reachable inOrder_arrival noImage demoFlags
example := C75_picture demo_ok fresh_reachable inOrder_arrival noImage demoFlags demo_borders q1_ok one_plain rfl rfl (Or.inl rfl) grey
example := C75_shapes demo_ok fresh_reachable inOrder_arrival noImage circles demo_borders q1_ok one_plain rfl (Or.inl ⟨rfl, by decide, Or.inl rfl⟩) grey
example := C75_shapes demo_ok fresh_reachable inOrder_arrival someImage photoFlags demo_borders q1_ok one_plain rfl (Or.inr ⟨rfl, by decide⟩) grey
/-- A terminal of 400 columns and 200 rows. -/
example := C75_terminal demo_ok fresh_reachable inOrder_arrival noImage onTerminal (by rw [demo_borders]; simp) q1_ok one_plain rfl ⟨400, 200, fun _ => none⟩ (fun _ => 1) (fun _ => false)
  (by have := (demo_penalty demo_ok fresh_reachable inOrder_arrival q1_ok').2.2; simp only; omega) (by have := (demo_penalty demo_ok fresh_reachable inOrder_arrival q1_ok').2.2; simp only; omega)
  (fun x y => decide (x < y))
example (blend : Blend) (put : Put) (hput : PutsOver put) (direction : Rat → Rat × Rat) (assembled : Nat → DrawFn × DrawFn) :=
  C75_pixels demo_ok fresh_reachable inOrder_arrival noImage circles demo_borders q1_ok one_plain rfl (Or.inl ⟨by decide, Or.inl rfl⟩) grey demo_rasters blend hput direction assembled
example (blend : Blend) (put : Put) (hput : PutsOver put) (direction : Rat → Rat × Rat) (assembled : Nat → DrawFn × DrawFn) :=
  C75_pixels demo_ok fresh_reachable inOrder_arrival someImage photoFlags demo_borders q1_ok one_plain rfl (Or.inr (Or.inl ⟨by decide, rfl⟩)) grey demo_rasters blend hput direction assembled
end

/-! ## The page -/

section
open QR.Wasm
/-- The object of the README, but without circles. -/
def squares : String → JS := fun k => if k = "outputCircleShape" then .boolean false else readme k
theorem s1 : squares "encodeVersion" = .number 0 [0x30] := by simp [squares, readme]
theorem s2 : squares "encodeMode" = .number 2 [0x32] := by simp [squares, readme]
theorem s3 : squares "outputQrWidth" = .number 20 [0x32, 0x30] := by simp [squares, readme]
theorem s4 : squares "outputMargin" = .number 20 [0x32, 0x30] := by simp [squares, readme]
theorem s5 : squares "outputBgTransparent" = .boolean false := by simp [squares, readme]
theorem s6 : squares "outputCircleShape" = .boolean false := by simp [squares]
theorem s7 : UsableColour (squares "outputBgColor") := (usable_iff _).2 (Or.inr (by decide +kernel))
theorem s8 : UsableColour (squares "outputQrColor") := (usable_iff _).2 (Or.inr (by decide +kernel))
theorem s9 : LevelField (squares "encodeECLevel") 3 := .q
theorem s10 : squares "outputImageEncoder" ≠ .string (lit "jpg") ∧ squares "outputImageEncoder" ≠ .string (lit "jpeg") := by
  have : squares "outputImageEncoder" = .string (lit "png") := by simp [squares, readme]
  rw [this]
  exact ⟨fun h => absurd (JS.string.inj h) (by decide +kernel), fun h => absurd (JS.string.inj h) (by decide +kernel)⟩
theorem k1 : colourOf ⟨255, 255, 255, 255⟩ (squares "outputBgColor") = ⟨0x12, 0x31, 0x23, 255⟩ := by decide +kernel
theorem k2 : colourOf ⟨0, 0, 0, 255⟩ (squares "outputQrColor") = ⟨0x66, 0x66, 0x66, 255⟩ := by decide +kernel

/-- A `Save` that always fails, and one that always succeeds. -/
abbrev failing : Opts → Matrix → Saved := fun _ _ => .error 4
abbrev working : Opts → Matrix → Saved := fun _ _ => .image [1, 2, 3]
example := C52_panics_partial demo_ok fresh_reachable inOrder_arrival failing (by simp) (.string [0x31]) squares []
example := C52_settings_partial demoExt fresh inOrder working (.string [0x31]) squares [] s1 s2 s3 s4 s5 s6 s7 s8 s9
theorem plain_call : genqrcode demoExt fresh inOrder working [.string [0x31]] = .result ⟨true, none, Base64.encode [1, 2, 3]⟩ :=
  (((C52_defaults demoExt fresh inOrder working (.string [0x31])).2 [] (by simp)).2 q1 q1_ok).2 [1, 2, 3] rfl
theorem failing_call : genqrcode demoExt fresh inOrder failing [.string [0x31]] = .result ⟨false, some (.save 4), []⟩ :=
  (((C52_defaults demoExt fresh inOrder failing (.string [0x31])).2 [] (by simp)).2 q1 q1_ok).1 4 rfl
example := C52_documented_modes 2 (by decide) (by decide)
example := (C52_counterexample demoExt fresh inOrder working (.string [0x31]) []).2 (fun k => if k = "encodeMode" then .undefined else readme k) "encodeMode" (by decide) (by simp)
example := C58_result demoExt fresh inOrder working [.string [0x31]] _ plain_call
example := C58_result demoExt fresh inOrder failing [.string [0x31]] _ failing_call

/-- `C76_object` on the text `1`, with a `Save` that succeeds for its symbol and a decoder for the file it makes: the reader that looks at pixel `(20 + 20 x + 7, 20 + 20 y)` reads the text. -/
example (blend : Blend) : ∃ decodeImage save r bytes img dim, SavesPng grey blend decodeImage save ∧
    genqrcode demoExt fresh inOrder save [.string [0x31], .object squares] = .result r ∧ r.success = true ∧
    QR.Spec.unbase64 (r.base64EncodedImage.map UInt8.toNat) = some bytes ∧ decodeImage bytes = some img ∧
    decode demoUnsjis (scan dim (fun px py => decide (img.pix px py = ⟨0x66, 0x66, 0x66, 255⟩)) (fun x y => ((20 + 20 * x + 7 : Int), (20 + 20 * y : Int)))) = some [0x31] := by
  classical
  obtain ⟨go, hgo⟩ : ∃ go : GenOption, go = ⟨0, toUint8 2, (squares "encodeECLevel").str, (squares "outputBgColor").str, false, (squares "outputQrColor").str, toUint8 20, false,
    (squares "outputImageEncoder").str, 20⟩ := ⟨_, rfl⟩
  have hopt : optionFromJSValue (.object squares) = some (some go) := by
    rw [hgo]
    exact option_some (t1 := [0x30]) (t2 := [0x32]) (t3 := [0x32, 0x30]) (t4 := [0x32, 0x30]) s1 s2 s3 s4 s5 s6
  have henc : applyOptions (encodeOptions (some go)) = defaultEncodingOption := by
    rw [encode_settings go (mode := 2) (v := squares "encodeECLevel") (lv := 3) (by rw [hgo]) (by rw [hgo]) .q, hgo]
    decide
  obtain ⟨o, ho, a2, a3, a4, a5, a6, a7, a8, a9, a10, a11⟩ := output_settings go (by rw [hgo]; exact (usable_iff _).1 s7) (by rw [hgo]; exact (usable_iff _).1 s8)
  have hq' : newWith demoExt fresh inOrder .string [0x31] (encodeOptions (some go)) = .ok q1 := by
    rw [← q1_ok']
    have h0 : applyOptions [] = defaultEncodingOption := rfl
    unfold newWith
    rw [henc, h0]
  have f1 : o.qrColor = ⟨0x66, 0x66, 0x66, 255⟩ := by rw [a4, hgo]; decide +kernel
  have f2 : o.bgColor = ⟨0x12, 0x31, 0x23, 255⟩ := by rw [a5, hgo]; decide +kernel
  have f4 : o.borders = ⟨20, 20, 20, 20⟩ := by rw [a2, hgo]; decide +kernel
  have f5 : o.getShape = .rectangle := by rw [a7, hgo]; rfl
  have hr : Rects o := ⟨by
    unfold Opts.getShape at f5
    cases hs : o.shape with
    | none => exact Or.inl rfl
    | some s =>
      rw [hs] at f5
      exact Or.inr (congrArg some f5), a11, a10⟩
  obtain ⟨ops, o', cv, e1, e2, _⟩ := C70_picture demo_ok fresh_reachable inOrder_arrival hq' (fun h => one_plain h.2) grey blend (o := o)
    hr ⟨by rw [f1], .inr ⟨by rw [f2], by rw [f1, f2]; decide⟩⟩ (by rw [f4]; decide) (fun img hi => by rw [a9] at hi; cases hi)
  obtain ⟨save, hsv⟩ : ∃ save : Opts → Matrix → Saved, ∀ o1 m, save o1 m = if o1 = o ∧ m = q1.mat then .image [1] else .error 0 := ⟨_, fun _ _ => rfl⟩
  obtain ⟨dec, hdec⟩ : ∃ dec : List Nat → Option Canvas, ∀ b, dec b = if b = [1] then some cv else none := ⟨_, fun _ => rfl⟩
  have hsaves : SavesPng grey blend dec save := by
    intro o1 m b _ hs
    rw [hsv] at hs
    split at hs
    · rename_i h
      obtain ⟨rfl, rfl⟩ := h
      cases hs
      exact ⟨ops, o', cv, cv, e1, e2, by rw [hdec]; exact if_pos rfl, fun _ _ _ _ _ _ => ⟨fun _ => rfl, fun h => h⟩⟩
    · cases hs
  have hgen : genqrcode demoExt fresh inOrder save [.string [0x31], .object squares] = .result ⟨true, none, Base64.encode [1]⟩ := by
    have hsv' : save o q1.mat = .image [1] := by rw [hsv]; exact if_pos ⟨rfl, rfl⟩
    exact gen_success (content := .string [0x31]) hopt hq' ho hsv'
  obtain ⟨dim, bytes, img, g1, g2, g3⟩ := C76_object demo_ok fresh_reachable inOrder_arrival hsaves [0x31] squares [] s1 s2 s3 s4 s5 s6 s7 s8 s9 s10 (by decide)
    (.inr (by rw [k1, k2]; decide)) (fun h => one_plain h.2) hgen rfl
  refine ⟨dec, save, _, bytes, img, dim, hsaves, hgen, rfl, g1, g2, ?_⟩
  have := g3 (fun x y => ((20 + 20 * x + 7 : Int), (20 + 20 * y : Int))) (fun x y _ _ => by
    have e1 : margin 20 = 20 := by decide
    have e2 : width 20 = 20 := by decide
    rw [e1, e2]
    simp only
    omega)
  rw [k2] at this
  exact this

/-- The same for `C76_plain`: the text alone, and the default picture. -/
example (blend : Blend) : ∃ decodeImage save r bytes img dim, SavesPng grey blend decodeImage save ∧
    genqrcode demoExt fresh inOrder save [.string [0x31]] = .result r ∧ r.success = true ∧
    QR.Spec.unbase64 (r.base64EncodedImage.map UInt8.toNat) = some bytes ∧ decodeImage bytes = some img ∧
    decode demoUnsjis (scan dim (fun px py => decide (img.pix px py = ⟨0, 0, 0, 255⟩)) (fun x y => ((40 + 20 * x + 7 : Int), (40 + 20 * y : Int)))) = some [0x31] := by
  classical
  have dc : Contrast defaultOpts := ⟨rfl, Or.inr ⟨rfl, by decide⟩⟩
  obtain ⟨ops, o', cv, e1, e2, _⟩ := C70_picture demo_ok fresh_reachable inOrder_arrival q1_ok' (fun h => one_plain h.2) grey blend (o := { defaultOpts with imageEncoder := .png })
    ⟨Or.inr rfl, rfl, rfl⟩ ⟨dc.fg, dc.bg⟩ (by decide) (fun img h => by cases h)
  obtain ⟨save, hsv⟩ : ∃ save : Opts → Matrix → Saved, ∀ o1 m, save o1 m = if o1 = { defaultOpts with imageEncoder := .png } ∧ m = q1.mat then .image [1] else .error 0 := ⟨_, fun _ _ => rfl⟩
  obtain ⟨dec, hdec⟩ : ∃ dec : List Nat → Option Canvas, ∀ b, dec b = if b = [1] then some cv else none := ⟨_, fun _ => rfl⟩
  have hsaves : SavesPng grey blend dec save := by
    intro o1 m b _ hs
    rw [hsv] at hs
    split at hs
    · rename_i h
      obtain ⟨rfl, rfl⟩ := h
      cases hs
      exact ⟨ops, o', cv, cv, e1, e2, by rw [hdec]; exact if_pos rfl, fun _ _ _ _ _ _ => ⟨fun _ => rfl, fun h => h⟩⟩
    · cases hs
  have hgen : genqrcode demoExt fresh inOrder save [.string [0x31]] = .result ⟨true, none, Base64.encode [1]⟩ :=
    (((C52_defaults demoExt fresh inOrder save (.string [0x31])).2 [] (by simp)).2 q1 q1_ok).2 [1] (by rw [if_pos rfl, hsv]; exact if_pos ⟨rfl, rfl⟩)
  obtain ⟨dim, bytes, img, g1, g2, g3⟩ := C76_plain demo_ok fresh_reachable inOrder_arrival hsaves [0x31] one_plain hgen rfl
  exact ⟨dec, save, _, bytes, img, dim, hsaves, hgen, rfl, g1, g2, g3 _ (fun x y _ _ => by simp only; omega)⟩
end

/-! ## The example programs -/

section
open QR.Examples
example (blend : Blend) (put : Put) (hput : PutsOver put) (direction : Rat → Rat × Rat) :=
  C86_programs demo_ok fresh_reachable inOrder_arrival grey demo_rasters blend hput direction (some photo)
example (blend : Blend) := C86_qrWidth demo_ok fresh_reachable inOrder_arrival grey blend
example (blend : Blend) := C86_logo demo_ok rfl fresh_reachable inOrder_arrival grey blend (img := square) (by decide) (by decide)
example (blend : Blend) (put : Put) (hput : PutsOver put) (direction : Rat → Rat × Rat) :=
  C86_customShape demo_ok fresh_reachable inOrder_arrival grey demo_rasters blend hput direction
example := C86_minimumVersion demo_ok fresh_reachable inOrder_arrival greeting_ascii (by decide)
example := C86_writers demo_ok fresh_reachable inOrder_arrival greeting_ascii (by decide)
end

/-! ## The programs of the issues -/

section
open QR.Issues
set_option maxRecDepth 100000
def json69 : Bytes := text69.toList.map fun c => UInt8.ofNat c.toNat
/-- The text of issue 69 itself: a picture. -/
example := C88_issue69 demo_ok fresh_reachable inOrder_arrival (text := json69) (by
  intro b hb
  have h : ∀ b ∈ nats json69, ∃ c ∈ Spec.jsonChars, c.toNat = b := by decide +kernel
  exact h b hb)
example : json69.length ≤ 1852 := by decide +kernel
/-- 漢字: a picture. -/
example := (C88_issue106 demo_ok fresh_reachable inOrder_arrival [0xE6, 0xBC, 0xA2, 0xE5, 0xAD, 0x97]).1 [0x6F22, 0x5B57] (by decide) (by
  intro r hr
  simp only [List.mem_cons, List.not_mem_nil, or_false] at hr
  rcases hr with rfl | rfl
  · exact ⟨.inl (by decide), 0x8A, 0xBF, rfl, .inl (by decide)⟩
  · exact ⟨.inl (by decide), 0x8E, 0x9A, rfl, .inl (by decide)⟩) (by decide)
end

/-! ## The quiet zone -/

section
open QR.Standard
theorem q1_size : q1.mat.width = q1.dimension ∧ q1.mat.height = q1.dimension := Standard.mat_size demo_ok fresh_reachable inOrder_arrival q1_ok'
theorem q1_pos : 0 < q1.dimension := by obtain ⟨v, _, hd, _⟩ := C11_dimension demo_ok fresh_reachable inOrder_arrival q1_ok'; omega
/-- Borders of 80 pixels for blocks of 20: four modules. -/
def wide : Opts := { defaultOpts with borders := ⟨80, 90, 100, 110⟩ }
example : ∃ ops o' cv, draw grey wide q1.mat = some (ops, o') ∧ paintAll ops = some cv ∧
    Spec.QuietZone Spec.quietModules cv.w cv.h 20 20 110 80 q1.dimension (fun px py => cv.pix px py = ⟨255, 255, 255, 255⟩) := by
  obtain ⟨ops, o', cv, h1, h2, _, _, h5⟩ := C89_standard_partial grey (o := wide) ⟨Or.inr rfl, rfl, rfl, rfl⟩ q1.mat q1_size.1 q1_size.2 q1_pos (by decide)
    (by decide) (Or.inl (by decide))
  exact ⟨ops, o', cv, h1, h2, (h5 4 (by decide)).2 (by decide)⟩
example := C89_room grey { defaultOpts with shape := some .circle } q1.mat q1_size.1 q1_size.2 q1_pos (by decide)
example := C89_default_counterexample grey q1.mat q1_size.1 q1_size.2 q1_pos
example := Cli.C89_cli_counterexample demo_ok fresh_reachable inOrder_arrival (fun _ => none) grey q1_ok
/-- The programs of the issues: four pixels for modules of one pixel. -/
example : ∃ img, Compressed.write (some Issues.writerOption) q1.mat = some img ∧ Spec.QuietZone Spec.quietModules (img.maxX - img.minX) (img.maxY - img.minY) 1 1 4 4 q1.dimension
    (fun px py => img.at' px py = some 0xff) := by
  obtain ⟨img, h1, h2⟩ := Compressed.C89_compressed_partial q1.mat q1_size.1 q1_size.2 q1_pos 4 1 (by decide)
  exact ⟨img, h1, (h2 4 (by decide)).2 (by decide)⟩
example (s : Terminal.Screen) (h1 : 2 * (q1.dimension + 2) ≤ s.cols) (h2 : q1.dimension + 2 ≤ s.rows) :=
  Terminal.C89_terminal_counterexample (m := q1.mat) q1_size.1 q1_size.2 q1_pos s (fun _ => 1) (fun _ => false) h1 h2
example := FileWriter.C89_file_counterexample q1.mat q1_size.1 q1_size.2 q1_pos (fun _ => none) (fun _ => rfl)
end

end QR.Instances
