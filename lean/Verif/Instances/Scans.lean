import Verif.Instances.Shapes
import Verif.Props.DamageLimit
import Verif.Props.ScanWriters
import Verif.Props.ScanHalftonePixels
import Verif.Props.ScanCustom
import Verif.Props.LogoSize
import Verif.Props.Compressed64
import Verif.Props.Special64
import Verif.Props.Fma
import Verif.Props.Shapes64
/-!
# Instances of C69 to C72, C79 to C81, C83 to C85, C93 to C96, C98, C105: what a reader makes of the pictures
-/
namespace QR.Instances
open QR QR.Standard _root_.Spec Plane

local notation "hE" => demo_ok
local notation "hc" => fresh_reachable
local notation "ha" => inOrder_arrival

/-- The mode was asked for. -/
theorem hx : ¬ (modeIn opts7 = encAuto ∧ AlnumThenKanji demoExt.sjis (nats hello)) := fun h => absurd h.1 (by decide)
theorem level_ok : ¬ (levelIn opts7 = .L ∧ 7 ∈ [1, 2, 3, 4, 5, 6, 36] ∨ levelIn opts7 = .M ∧ 7 ∈ [2, 4]) := by decide

/-- Pixels of an image that is drawn over another, and colours put over others. -/
abbrev showImage : Blend := fun img x y _ => ⟨UInt8.ofNat ((img.chan x y).1.toNat / 256), UInt8.ofNat ((img.chan x y).2.1.toNat / 256), UInt8.ofNat ((img.chan x y).2.2.1.toNat / 256), 255⟩
abbrev over : Put := fun c old => if c.a = 0 then old else c
theorem over_ok : PutsOver over := demo_contrast.2.2
/-- The direction of a gradient of 45 degrees. -/
abbrev diagonal : Rat → Rat × Rat := fun _ => (float64Round (7/10), -(float64Round (7/10)))

theorem colours : defaultOpts.qrColor.a = 255 ∧ defaultOpts.bgColor.a = 255 ∧ defaultOpts.bgColor ≠ defaultOpts.qrColor := by decide
/-- Every options value that keeps the default colours. -/
theorem contrast {o : Opts} (h1 : o.qrColor = defaultOpts.qrColor) (h2 : o.bgColor = defaultOpts.bgColor) : Contrast o :=
  ⟨by rw [h1]; exact colours.1, Or.inr ⟨by rw [h2]; exact colours.2.1, by rw [h1, h2]; exact colours.2.2⟩⟩
theorem gradient_ok {o : Opts} (h2 : o.bgColor = defaultOpts.bgColor) : GradientContrast o demoGradient := by
  obtain ⟨_, k, _⟩ := demo_contrast
  obtain ⟨a, b, c, d⟩ := k
  refine ⟨a, b, c, ?_⟩
  rcases d with d | d
  · cases d
  · right
    rw [h2]
    exact d

/-- A logo of 196 by 150 pixels, which is drawn, and one of 197, which is too wide. -/
abbrev logo : Image := ⟨0, 0, 196, 150, fun _ _ => (0xffff, 0, 0, 0xffff)⟩
abbrev large : Image := ⟨0, 0, 197, 150, fun _ _ => (0xffff, 0, 0, 0xffff)⟩
theorem too_large {o : Opts} (h0 : o.borders = defaultOpts.borders) (h1 : o.qrWidth = defaultOpts.qrWidth) (h2 : o.logo = some large) (h3 : o.logoSizeMultiplier = 5) :
    ∀ img, o.logo = some img → ¬ (o.logoSizeMultiplier * (img.maxX - img.minX) ≤ (o.attribute q7.dimension).w ∧
      o.logoSizeMultiplier * (img.maxY - img.minY) ≤ (o.attribute q7.dimension).h) := by
  intro img h
  rw [h2] at h
  cases h
  rw [q7_dim, h3]
  have : (o.attribute ((17 + 4 * 7 : Nat) : Int)).w = (defaultOpts.attribute ((17 + 4 * 7 : Nat) : Int)).w := by
    simp only [Opts.attribute, Opts.qrBlockWidth, h0, h1]
  rintro ⟨h, _⟩
  rw [this] at h
  revert h
  decide

/-- Plain pictures, with the logo and without. -/
example := C69_logo hE rfl hc ha q7_ok hx q7_dim level_ok grey showImage (o := { defaultOpts with logo := some logo, logoSafeZone := true }) ⟨Or.inr rfl, rfl, rfl⟩ (contrast rfl rfl)
  (by decide) (by decide) rfl ⟨rfl, rfl⟩ (by decide) (by decide)
/-- The same logo when a multiplier of 1 allows any size. (`C93_logo` itself is applied in `C93_program`.) -/
example := C93_fifth hE rfl hc ha q7_ok hx q7_dim level_ok grey showImage (o := { defaultOpts with logo := some logo, logoSizeMultiplier := 1 }) ⟨Or.inr rfl, rfl, rfl⟩ (contrast rfl rfl)
  (by decide) (by decide) rfl ⟨rfl, rfl⟩ (by decide) (by rw [q7_dim]; decide)
example := Examples.C93_program hE rfl hc ha grey showImage fun _ _ => (0, 0, 0, 0xffff)
/-- 64 bits: with a logo and the default settings, with borders that are too large, and with a multiplier that wraps around. -/
example := C94_draw hE hc ha q7_ok grey (o := { defaultOpts with logo := some logo, logoSafeZone := true })
  ⟨by decide, by decide, by decide, by decide, by decide, fun img h => by obtain rfl := Option.some.inj h; decide⟩
example := C94_too_large hE hc ha q7_ok grey (o := { defaultOpts with borders := ⟨5000000, 5000000, 5000000, 5000000⟩ }) (by decide) (by decide) (by decide) (by decide)
example := C94_wraps hE hc ha q7_ok grey (img := ⟨0, 0, 400, 400, fun _ _ => (0xffff, 0, 0, 0xffff)⟩) (a := 100) (b := 100) ⟨rfl, rfl⟩ rfl rfl (by decide)
example := Compressed.C94_compressed hE hc ha q7_ok (o := ⟨4, 10⟩) (by decide) (by decide)
example := Compressed.C94_compressed_too_large hE hc ha q7_ok (o := ⟨4, 2000000⟩) (by decide) (by decide)
/-- A logo that hides the symbols of `HELLO` and of another text of version 7. -/
abbrev whole : Image := ⟨0, 0, 980, 980, fun _ _ => (0xffff, 0, 0, 0xffff)⟩
example := C93_counterexample hE hc hc ha ha q7_ok qh_ok (q7_dim.trans qh_dim.symm) grey showImage (o := { defaultOpts with logo := some whole, logoSizeMultiplier := 1 }) ⟨Or.inr rfl, rfl, rfl⟩
  (by decide) rfl ⟨rfl, rfl⟩ (by rw [q7_dim]; decide) rfl fun _ _ _ _ => rfl
example : ∃ q, newWith demoExt fresh inOrder .string hello [.withEncodingMode encAlphanumeric, .withErrorCorrectionLevel ecLow, .withVersion 1] = .ok q ∧
    ∃ img : Image, img.minX = 0 ∧ img.minY = 0 ∧ img.maxX = 100 ∧ img.maxY = 100 ∧
      ∃ ops o' cv, draw grey { defaultOpts with logo := some img } q.mat = some (ops, o') ∧ paintAllImg showImage ops = some cv ∧
        ∀ pt, InBlocks { defaultOpts with logo := some img } 21 pt → decodeDamaged demoUnsjis (seen { defaultOpts with logo := some img } 21 cv pt) = none := by
  obtain ⟨q, hq, hd⟩ := demo_small hc ha
  exact ⟨q, hq, C69_counterexample hE rfl hc ha hq hd rfl grey (fun _ _ _ _ _ => rfl)⟩
example := C70_picture hE hc ha q7_ok hx grey showImage (o := { defaultOpts with logo := some large }) ⟨Or.inr rfl, rfl, rfl⟩ (contrast rfl rfl) (by decide) (too_large rfl rfl rfl rfl)
/-- The other writers. -/
example := C71_compressed hE hc ha q7_ok hx (padding := 30) (blockSize := 5) (by decide)
example := C71_file hE hc ha q7_ok hx (sink := fun _ => none) (fun _ => rfl)
example := C71_terminal hE hc ha q7_ok hx ⟨400, 200, fun _ => none⟩ (fun _ => 1) (fun _ => false) (by rw [q7_dim]; decide) (by rw [q7_dim]; decide) (fun x y => decide (x < y))
/-- Shapes. -/
example := C72_shapes hE hc ha q7_ok hx grey (o := dots) (contrast rfl rfl) rfl (Or.inl rfl) liquid (fun _ => by decide)
example := C72_shapes hE hc ha q7_ok hx grey (o := { drops with logo := some logo }) (contrast rfl rfl) rfl (Or.inr rfl) liquid (fun h => by cases h)
example := C72_halftone_centres grey (o := toned) (m := q7.mat) (img := photo) rfl rfl rfl (by decide) liquid
example := C72_halftone hE hc ha q7_ok hx grey (o := toned) (contrast rfl rfl) (img := photo) rfl (Or.inl rfl) rfl (by decide) liquid
example := C72_counterexample grey (o := { toned with qrWidth := 2 }) (m := q7.mat) (img := photo) rfl rfl rfl (by decide) liquid
/-- A gradient from red to blue. -/
example := C79_gradient hE hc ha q7_ok hx grey showImage over_ok diagonal (o := { defaultOpts with qrGradient := some demoGradient, logo := some large }) (Or.inr rfl) rfl rfl (contrast rfl rfl)
  (gradient_ok rfl) (by decide) (too_large rfl rfl rfl rfl)
example := C79_gradient_logo hE rfl hc ha q7_ok hx q7_dim level_ok grey showImage over_ok diagonal (o := { defaultOpts with qrGradient := some demoGradient, logo := some logo, logoSafeZone := true })
  (Or.inr rfl) rfl rfl (contrast rfl rfl) (gradient_ok rfl) (by decide) (by decide) rfl ⟨rfl, rfl⟩ (by decide) (by decide)
/-- Any angle: cosine 1 and sine 0 for every finite number meet what is assumed of them. -/
abbrev level : Trig := ⟨fun a => match a with | .fin _ => .fin 1 | _ => .nan, fun a => match a with | .fin _ => .fin 0 | _ => .nan⟩
theorem level_trig : level.Ok := by
  refine ⟨fun a h => ?_, fun q => ⟨1, 0, rfl, rfl, by norm_num, by norm_num, by norm_num, by norm_num, ?_⟩⟩
  · cases a with
    | fin q => exact absurd rfl (h q)
    | _ => exact ⟨rfl, rfl⟩
  · unfold Direction; norm_num
theorem demo_moderate : ModerateStops demoGradient.stops := by
  have e : demoGradient.stops = [⟨0, ⟨255, 0, 0, 255⟩⟩, ⟨1, ⟨0, 0, 255, 255⟩⟩] := by
    unfold demoGradient
    rw [newGradient_sorted (by simp)]
  refine ⟨(gradient_ok (o := defaultOpts) rfl).positions, ?_⟩
  have h1 : (1 : Rat) ≤ F64.pow2 1022 := by
    have h9 := pow2_le (m := 9) (n := 1022) (by decide)
    rw [pow2_9] at h9
    linarith
  rw [e]
  intro s hs
  simp only [List.mem_cons, List.not_mem_nil, or_false] at hs
  rcases hs with rfl | rfl <;> constructor <;> simp only <;> linarith
theorem level_angle : angleRad (.fin 0) = .fin 0 := by
  have h0 := pow2_pos 1023
  have hm : F64.mul (.fin 0) (.fin pi64) = .fin 0 := by
    rw [mul_fin (by linarith) (by linarith), zero_mul, round_zero]
  rw [angleRad, hm, div_fin (by norm_num) (by norm_num) (by norm_num), zero_div, round_zero]
example := C95_finite (conv := convLow) (fun _ _ _ => rfl) level_trig demo_moderate level_angle (w := 100) (h := 80) (x := 99) (y := 0) (by decide) (by decide) (by decide) (by decide) (by decide)
  (by decide) defaultOpts.qrColor defaultOpts.qrColor
example := C95_angle convHigh level_trig ⟨[⟨.fin 0, color_WHITE⟩], .nan⟩ (by simp) C95_angle_special.1 100 80 7 9 color_BLACK
example := C95_read hE hc ha q7_ok hx grey showImage over_ok (o := { defaultOpts with qrGradient := some demoGradient }) (Or.inr rfl) rfl rfl (contrast rfl rfl) (gradient_ok rfl) demo_moderate
  (Or.inr (by decide)) (by decide) rfl (conv := convHigh) (fun _ _ _ => rfl) level .pinf
example := C95_total convHigh level ⟨[⟨.nan, color_WHITE⟩, ⟨.ninf, color_BLACK⟩], .pinf⟩ (by simp) 100 80 defaultOpts.qrColor 7 9 defaultOpts.qrColor
example := C95_no_zero_division (s := 1) (e := 1) (t := 1) (by decide +kernel) (by decide +kernel) (by decide) (by decide) (by
  have := pow2_pos 1023
  rw [sub_fin (by linarith) (by linarith), sub_self, round_zero])
example := C96_factors_partial .pinf (fun h => by cases h)
example := C96_blockScale (q := 1 / 2) (by decide +kernel)
/-- A platform that fuses in different ways at different places. -/
abbrev fusing : Platform := ⟨fun _ => .left, fun x _ => if x % 2 = 0 then .right else .separate, fun _ _ k => if k = 1 then .left else .right⟩
example := C98_read hE hc ha q7_ok hx grey showImage over_ok diagonal (o := { defaultOpts with qrGradient := some demoGradient }) (Or.inr rfl) rfl rfl (contrast rfl rfl) (gradient_ok rfl)
  (by decide) rfl fusing
/-- Shapes and a logo. -/
example := C80_shapes_logo hE rfl hc ha q7_ok hx q7_dim level_ok grey (o := { drops with logo := some logo, logoSafeZone := true }) (contrast rfl rfl) rfl liquid (fun h => by cases h) (by decide)
  (by decide) rfl ⟨rfl, rfl⟩ (by decide) (by decide)
example := C80_centres grey (o := { drops with logo := some logo, logoSafeZone := true }) (m := q7.mat) (by rw [q7_mat.1, q7_mat.2]) rfl liquid (fun h => by cases h)
example := C80_lost grey (o := { demoO with shape := some (.custom 0) }) (m := demoM) rfl rfl (by decide +kernel) (fun _ => (.roundedFinder, .roundedFinder)) (fun h => by cases h)
/-- A halftone image, in blocks of 21 pixels with liquid blocks. -/
abbrev tonedDrops : Opts := { toned with qrWidth := 21, shape := some (.custom 0) }
theorem tonedDrops_sub : SubBlocks tonedDrops (meaning liquid tonedDrops.getShape) := ⟨by decide, Or.inr ⟨by decide, rfl, fun h => by cases h⟩⟩
example := C81_halftone hE hc ha q7_ok hx grey (o := tonedDrops) (contrast rfl rfl) (img := photo) rfl rfl liquid tonedDrops_sub
example := C81_halftone_logo hE rfl hc ha q7_ok hx q7_dim level_ok grey (o := { tonedDrops with logo := some logo, logoSafeZone := true }) (contrast rfl rfl) (himg := photo) rfl liquid
  ⟨by decide, Or.inr ⟨by decide, rfl, fun h => by cases h⟩⟩ (by decide) (by decide) rfl ⟨rfl, rfl⟩ (by decide) (by decide)
example := C81_centres grey (o := tonedDrops) (m := q7.mat) (by rw [q7_mat.1, q7_mat.2]) (img := photo) rfl liquid tonedDrops_sub
/-- Pixels, under a rasterizer that covers exactly the pixels that it must. -/
example := C83_shapes hE hc ha q7_ok hx grey demo_rasters showImage over_ok diagonal liquid (o := { drops with qrGradient := some demoGradient, logo := some large }) (by decide) ⟨trivial, trivial⟩ rfl
  (contrast rfl rfl) (fun g h => by cases h; exact gradient_ok rfl) (by decide) (too_large rfl rfl rfl rfl)
example := C83_shapes_logo hE rfl hc ha q7_ok hx q7_dim level_ok grey demo_rasters showImage over_ok diagonal liquid (o := { dots with logo := some logo, logoSafeZone := true }) (by decide) trivial rfl
  (contrast rfl rfl) (fun g h => by cases h) (by decide) (by decide) rfl ⟨rfl, rfl⟩ (by decide) (by decide)
example := C84_halftone hE hc ha q7_ok hx grey demo_rasters showImage over_ok diagonal liquid (o := { toned with logo := some large, qrGradient := some demoGradient }) (himg := photo) rfl
  ⟨by decide, .inl rfl⟩ trivial (contrast rfl rfl) (fun g h => by cases h; exact gradient_ok rfl) (by decide) (too_large rfl rfl rfl rfl)
example := C84_halftone_logo hE rfl hc ha q7_ok hx q7_dim level_ok grey demo_rasters showImage over_ok diagonal liquid
  (o := { toned with qrWidth := 30, shape := some (.custom 0), logo := some logo, logoSafeZone := true }) (himg := photo) rfl
  ⟨by decide, .inr ⟨by decide, by decide, rfl⟩⟩ ⟨trivial, trivial⟩ (contrast rfl rfl) (fun g h => by cases h) (by decide) (by decide) rfl ⟨rfl, rfl⟩ (by decide) (by decide)
/-- A block of 23 pixels with a neighbour above and one to the left. -/
abbrev block23 : Ctx := { x := 63, y := 17, w := 23, h := 23, color := color_BLACK, neighbours := NSelf ||| NTop ||| NLeft }
theorem block23_whole : Whole block23 := ⟨⟨63, rfl, by decide, by decide⟩, ⟨17, rfl, by decide, by decide⟩, by decide, by decide⟩
/-- Every second sum of the code is fused. -/
abbrev everySecond : Nat → Bool := fun k => k % 2 == 0
example := C105_exact everySecond block23_whole
example := C105_close block23_whole everySecond (d := .vStripeBlock (7 / 10)) ((C105_factors (.inr (by norm_num [abs_of_neg]))).1 (.inr (by norm_num)))
example := C105_close block23_whole everySecond (d := .squareBlocks (1 / 10)) ((C105_factors (.inr (by norm_num [abs_of_neg]))).2 (.inl rfl)).1
example := C105_close_any block23_whole everySecond .chainBlock
/-- It is not the same: a fifth has no `float64`. -/
example : DrawFn.cmds64 float64Round everySecond .chainBlock block23 ≠ DrawFn.cmds .chainBlock block23 := by decide +kernel
/-- The `float64` next to 0.6 is in range for the code, but below 0.6. -/
example : ¬ (DrawFn.vStripeBlock (float64Round (6 / 10))).decides float64Round := by
  show ¬ ((_ ∨ _) ↔ (_ ∨ _))
  decide +kernel
abbrev chains : Nat → DrawFn × DrawFn := fun _ => (.vStripeBlock (7 / 10), .circleBlocks (9 / 20))
theorem chains_bold : (meaning chains (.custom 0)).bold64 float64Round := ⟨trivial, by show (2 : Rat) / 5 < _; decide +kernel⟩
example := C105_text hE hc ha q7_ok hx grey demo_rasters showImage over_ok diagonal chains (fun _ _ _ => everySecond) (o := { drops with qrGradient := some demoGradient, logo := some large }) (by decide) chains_bold rfl
  (contrast rfl rfl) (fun g h => by cases h; exact gradient_ok rfl) (by decide) (by rw [q7_dim]; decide) (too_large rfl rfl rfl rfl)
example := C105_text_logo hE rfl hc ha q7_ok hx q7_dim level_ok grey demo_rasters showImage over_ok diagonal chains (fun _ _ _ => everySecond) (o := { drops with logo := some logo, logoSafeZone := true }) (by decide) chains_bold
  rfl (contrast rfl rfl) (fun g h => by cases h) (by decide) (by decide) (by rw [q7_dim]; decide) rfl ⟨rfl, rfl⟩ (by decide) (by decide)
/-- A shape of the user's: the smaller circle of the example, and the rectangle. -/
theorem circle_ok : Readable (smallerCircle demoCoverage) (fun s => s = (float64Round (7 / 10), [])) 20 10 10 :=
  smallerCircle_readable demo_rasters (p := float64Round (7 / 10)) (by decide +kernel) (bw := 20) (by omega) (by omega) (by rw [smaller_seven]; omega)
example := C85_custom hE hc ha q7_ok hx (Ok := fun s => s = (float64Round (7 / 10), [])) (s := (float64Round (7 / 10), [])) rfl (o := { drops with logo := some large }) (sx := 10) (sy := 10) circle_ok
  (by decide) (by decide) grey showImage over_ok diagonal rfl (contrast rfl rfl) (fun g h => by cases h) (by decide) (too_large rfl rfl rfl rfl)
example := C85_custom_logo hE rfl hc ha q7_ok hx q7_dim level_ok (Ok := fun s => s = (float64Round (7 / 10), [])) (s := (float64Round (7 / 10), [])) rfl (o := { drops with logo := some logo }) (sx := 10) (sy := 10)
  circle_ok (by decide) (by decide) grey showImage over_ok diagonal rfl (contrast rfl rfl) (fun g h => by cases h) (by decide) (by decide) rfl ⟨rfl, rfl⟩ (by decide) (by decide)
example := C85_example hE hc ha q7_ok hx grey demo_rasters showImage over_ok diagonal 0
example := rectangle_readable (bw := 20) (sx := 19) (sy := 0) (by decide) (by decide)

end QR.Instances
