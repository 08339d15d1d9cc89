import Verif.Instances.Writers
import Verif.Props.Standard
import Verif.Props.ImageOptions
import Verif.Props.Color
import Verif.Props.Gradient
/-!
# Instances of C39 to C47 and C53 to C56: the standard writer
-/
namespace QR.Instances
open QR QR.Standard

/-- A resampler for halftone images. -/
abbrev grey : Scaler := fun _ _ _ _ => (0x8000, 0x8000, 0x8000, 0xffff)
/-- The default options; a transparent background; a halftone image. -/
theorem plain : Plain defaultOpts := ⟨Or.inr rfl, rfl, rfl, rfl⟩
abbrev clear : Opts := { defaultOpts with bgTransparent := true }
theorem plain_clear : Plain clear := ⟨Or.inr rfl, rfl, rfl, rfl⟩
abbrev photo : Image := ⟨0, 0, 64, 64, fun _ _ => (0, 0, 0, 0xffff)⟩
abbrev toned : Opts := { defaultOpts with halftone := some photo }

example := C39_attribute grey defaultOpts q7.mat q7_mat.1 q7_mat.2
example := (C39_attribute grey defaultOpts q7.mat q7_mat.1 q7_mat.2).choose_spec.choose_spec.2.2.2.1 rfl
example := C40_calls grey defaultOpts q7.mat rfl (plain.safe _)
/-- A picture of 980 pixels: a pixel of the symbol and one of the margin. -/
example := C40_pixels grey plain q7.mat q7_mat.1 q7_mat.2 rfl rfl rfl (px := 500) (py := 111) (by decide) (by decide)
example := C40_pixels grey plain q7.mat q7_mat.1 q7_mat.2 rfl rfl rfl (px := 3) (py := 979) (by decide) (by decide)
example := C40_transparent grey plain_clear q7.mat q7_mat.1 q7_mat.2 rfl rfl (px := 500) (py := 111) (by decide) (by decide)
example := (C41_neighbours q7.mat 20 0).1 (-1) 1 (by decide) (by decide) (by decide) (by decide)
/-- The example of three by three modules with a logo on the middle row. -/
example := C42_safe_zone grey (o := demoO) (m := demoM) rfl rfl rfl (img := demoLogo) rfl (by decide +kernel) (by decide +kernel) (by decide) (by decide)
theorem demo_safe : safeOn demoO demoM = true := by decide +kernel
example := C43_mask_partial grey (o := demoO) (m := demoM) rfl rfl demo_safe
/-- A square logo of 30 pixels on the symbol `q7`. -/
abbrev square : Image := ⟨0, 0, 30, 30, fun _ _ => (0, 0, 0, 0xffff)⟩
abbrev withSquare : Opts := { defaultOpts with logo := some square, logoSafeZone := true }
example := C42_safe_zone grey (o := withSquare) (m := q7.mat) (by rw [q7_mat.1, q7_mat.2]) rfl rfl (img := square) rfl
  (by rw [q7_mat.1]; decide) (by rw [q7_mat.1]; decide) (by decide) (by decide)
example := C43_symmetric (o := withSquare) (m := q7.mat) (by rw [q7_mat.1, q7_mat.2]) rfl rfl rfl
example := C53_halftone grey (o := toned) (m := q7.mat) (img := photo) rfl rfl
example := C53_inside 20 (by decide) 1 (by decide)

/-- Options that panic, and options that do not. -/
abbrev chosen : List ImgOpt := [.borderWidth [1, 2], .qrWidth 0, .fgColor none, .circleShape, .borderWidth [7], .customShape none]
example : ∃ o, newWithWriter false chosen = some o ∧ o.borders = ⟨7, 7, 7, 7⟩ ∧ o.qrBlockWidth = 20 ∧ o.getShape = .rectangle := by
  have h : newWithWriter false chosen ≠ none := fun h => by
    rcases (C44_panics false chosen).1 h with h | ⟨x, hx, hp⟩
    · cases h
    · revert hp
      simp only [chosen, List.mem_cons, List.not_mem_nil, or_false] at hx
      rcases hx with rfl | rfl | rfl | rfl | rfl | rfl <;> simp [Panics]
  obtain ⟨o, ho⟩ := Option.ne_none_iff_exists'.1 h
  have := C44_options chosen ho
  exact ⟨o, ho, this.1, this.2.1, this.2.2.2.2.2.2.2.2.2.1⟩
example := C54_reuse_partial grey (o := defaultOpts) rfl [q7.mat, demoM] (by
  intro m hm
  simp only [List.mem_cons, List.not_mem_nil, or_false] at hm
  rcases hm with rfl | rfl
  · rw [q7_mat.1, q7_mat.2]
  · rfl) q7.mat
example := C54_reuse_transparent grey (o := clear) [q7.mat] (by
  intro m hm
  simp only [List.mem_cons, List.not_mem_nil, or_false] at hm
  subst hm
  rw [q7_mat.1, q7_mat.2]) q7.mat (by rw [q7_mat.1, q7_mat.2])
example : ∃ ops o', draw grey withSquare q7.mat = some (ops, o') ∧ ∃ lx ly, images ops = [(square, lx, ly)] ∧ 0 ≤ lx ∧ lx + 30 ≤ 980 := by
  obtain ⟨ops, o', h, _, h2⟩ := C56_logo grey (o := withSquare) q7_mat.1 q7_mat.2
  obtain ⟨lx, ly, h3, _, _, _, _, _, h4⟩ := (h2 square rfl).2 (by decide)
  have := h4 (by decide) (by decide) (by decide)
  exact ⟨ops, o', h, lx, ly, h3, this.1, this.2.1⟩
/-- A logo of 200 pixels is too large for the default multiplier. -/
example : ∃ ops o', draw grey { withSquare with logo := some ⟨0, 0, 200, 200, fun _ _ => (0, 0, 0, 0)⟩ } q7.mat = some (ops, o') ∧ images ops = [] := by
  obtain ⟨ops, o', h, _, h2⟩ := C56_logo grey (o := { withSquare with logo := some ⟨0, 0, 200, 200, fun _ _ => (0, 0, 0, 0)⟩ }) q7_mat.1 q7_mat.2
  exact ⟨ops, o', h, (h2 _ rfl).1 (by decide)⟩

/-! ## Colours and gradients -/

example : fgOf (.other 0x4242 0x4242 0x4242 0xffff) = some (GoColor.other 0x4242 0x4242 0x4242 0xffff).high :=
  ((C45_partial.2 0x4242 0x4242 0x4242 0xffff (by decide) (by decide) (by decide) (by decide)).1).2 (by unfold Doubled; decide)
/-- `#FfA07a` and `#f0c`. -/
example := C46_hex [0x23, 0x46, 0x66, 0x41, 0x30, 0x37, 0x61] (r := 255) (g := 160) (b := 122) (by decide +kernel)
example : newWithWriter false [.fgHex [0x23, 0x66, 0x30, 0x63]] ≠ none := (C46_accepts [0x23, 0x66, 0x30, 0x63] (by unfold NoSpace; decide +kernel)).2 (Or.inl (by decide +kernel))
abbrev redBlue : List ColorStop := [⟨0, ⟨255, 0, 0, 255⟩⟩, ⟨1, ⟨0, 0, 255, 255⟩⟩]
theorem redBlue_repr : Repr64 float64Round redBlue := by
  intro s hs
  simp only [redBlue, List.mem_cons, List.not_mem_nil, or_false] at hs
  rcases hs with rfl | rfl <;> decide +kernel
example := C47_float64_partial redBlue_repr (1/3)
example := C47_no_fallback (by simp [redBlue]) redBlue_repr (1/3)
example := C47_position Rounding.float64 (dx := float64Round (7/10)) (dy := -(float64Round (7/10))) (Or.inl (by decide +kernel)) (w := 100) (h := 100) (x := 50) (y := 99) (by decide) (by decide) (by decide) (by decide)
example := C55_only_foreground ⟨redBlue, 45⟩ (by simp [redBlue]) redBlue_repr (float64Round (7/10)) (-(float64Round (7/10))) 100 100 ⟨0, 0, 0, 255⟩ 50 50 ⟨255, 255, 255, 255⟩

end QR.Instances
