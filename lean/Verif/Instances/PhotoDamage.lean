import Verif.Instances.TurnDamage
import Verif.Props.PhotoDamage
/-!
# Instances of C110: the reader that is told nothing and a logo
-/
namespace QR.Instances
open QR QR.Standard _root_.Spec

/-- The symbol `q7` with six by six pixels for a module and a chequered module in the middle. -/
def chequered (a : List (List Bool)) : List (List Bool) :=
  Spec.picture 270 fun i j => if i / 6 = 22 ∧ j / 6 = 22 then decide ((i + j) % 2 = 0) else pixel a (i / 6) (j / 6)

/-- The same, three pixels from the left and five from the top, in a picture that is not a square. -/
def onPaper (a : List (List Bool)) : List (List Bool) :=
  Spec.photo 400 350 fun x y => decide (3 ≤ x ∧ x < 273 ∧ 5 ≤ y ∧ y < 275) && pixel (chequered a) (y - 5) (x - 3)

theorem paper_shows (a : List (List Bool)) : Shows (onPaper a) 3 5 (chequered a) := by
  have h1 : (onPaper a).length = 350 := Spec.sheet_length _ _ _
  have h2 : width (onPaper a) = 400 := by
    rw [onPaper, Spec.photo, Spec.sheet_width, if_neg (by decide)]
  have h3 : (chequered a).length = 270 := Spec.picture_length _ _
  have h4 : width (chequered a) = 270 := Spec.picture_width _ _
  refine ⟨Spec.sheet_rows', by rw [h1, h2, h3, h4]; decide, ?_⟩
  rw [h1, h2, h3, h4]
  intro i j hi hj
  rw [onPaper, Spec.photo, Spec.pixel_sheet hi hj, Bool.and_eq_true, decide_eq_true_eq]
  exact ⟨fun ⟨h, h'⟩ => ⟨by omega, by omega, by omega, by omega, h'⟩, fun ⟨a, b, c, d, h'⟩ => ⟨by omega, h'⟩⟩

example : decodePhotoDamaged demoUnsjis (turn (mirror (turn (onPaper q7.mat.bitmap)))) = some (nats hello) :=
  C110_photo demo_ok rfl fresh_reachable inOrder_arrival q7_ok hx q7_dim level_ok (b := 6) (by decide) (x := chequered q7.mat.bitmap)
    (by rw [q7_dim]; exact Spec.picture_length _ _) (by rw [q7_dim]; exact fun r hr => Spec.sheet_rows r hr)
    (by
      rw [q7_dim]
      intro i j hi hj hne
      rw [chequered, Spec.pixel_picture hi hj] at hne
      split at hne
      · next h => rw [h.1, h.2]; decide
      · exact absurd rfl hne)
    (paper_shows _) (.turned (.mirrored (.turned .straight)))
example := C110_logo demo_ok rfl fresh_reachable inOrder_arrival q7_ok hx q7_dim level_ok grey showImage (o := { defaultOpts with logo := some logo, logoSafeZone := true }) ⟨.inr rfl, rfl, rfl⟩
  (contrast rfl rfl) (by decide) (by decide) rfl ⟨rfl, rfl⟩ (by decide) (by decide)
example (blend : Blend) := Examples.C110_example demo_ok rfl fresh_reachable inOrder_arrival grey blend (img := square) (by decide) (by decide)

end QR.Instances
