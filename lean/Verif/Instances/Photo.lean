import Verif.Instances.Scans
import Verif.Instances.Programs
import Verif.Props.CompressedAny
import Verif.Props.Negative
import Verif.Props.Grey
/-!
# Instances of C102 to C104 and C107: the reader that is told nothing, negative borders, light on dark, grey pictures
-/
namespace QR.Instances
open QR QR.Standard _root_.Spec

/-- The symbol with seven by seven pixels for a module, three pixels from the left and five from the top, in a picture that is not a square. -/
theorem q7_shows : Shows (_root_.Spec.photo 400 350 fun x y => decide (3 ≤ x ∧ x < 318 ∧ 5 ≤ y ∧ y < 320) && pixel q7.mat.bitmap ((y - 5) / 7) ((x - 3) / 7)) 3 5
    (inflate 7 q7.mat.bitmap) := by
  obtain ⟨⟨t1, _⟩, _⟩ := bitmap_spec q7.mat
  have hlen : q7.mat.bitmap.length = 45 := by rw [t1, (mat_size demo_ok fresh_reachable inOrder_arrival q7_ok).2, q7_dim]
  have h1 : (_root_.Spec.photo 400 350 fun x y => decide (3 ≤ x ∧ x < 318 ∧ 5 ≤ y ∧ y < 320) && pixel q7.mat.bitmap ((y - 5) / 7) ((x - 3) / 7)).length = 350 :=
    sheet_length _ _ _
  have h2 : width (_root_.Spec.photo 400 350 fun x y => decide (3 ≤ x ∧ x < 318 ∧ 5 ≤ y ∧ y < 320) && pixel q7.mat.bitmap ((y - 5) / 7) ((x - 3) / 7)) = 400 := by
    rw [_root_.Spec.photo, sheet_width, if_neg (by decide)]
  refine ⟨sheet_rows', ?_, ?_⟩
  · rw [inflate_length, inflate_width, hlen, h1, h2]; decide
  · rw [inflate_length, inflate_width, hlen, h1, h2]
    intro i j hi hj
    rw [_root_.Spec.photo, pixel_sheet hi hj, Bool.and_eq_true, decide_eq_true_eq]
    constructor
    · rintro ⟨h, h'⟩
      refine ⟨by omega, by omega, by omega, by omega, ?_⟩
      rw [pixel_inflate (by rw [hlen]; omega) (by rw [hlen]; omega)]
      exact h'
    · rintro ⟨a, b, c, d, h'⟩
      rw [pixel_inflate (by rw [hlen]; omega) (by rw [hlen]; omega)] at h'
      exact ⟨by omega, h'⟩

example : decodePhoto demoUnsjis (turn (mirror (turn (_root_.Spec.photo 400 350 fun x y =>
    decide (3 ≤ x ∧ x < 318 ∧ 5 ≤ y ∧ y < 320) && pixel q7.mat.bitmap ((y - 5) / 7) ((x - 3) / 7))))) = some (nats hello) :=
  C102_photo demo_ok fresh_reachable inOrder_arrival q7_ok hx (by decide) q7_shows (.turned (.mirrored (.turned .straight)))
example := C102_compressed demo_ok fresh_reachable inOrder_arrival q7_ok hx (padding := 0) (blockSize := 1) (by decide)
example := C102_standard demo_ok fresh_reachable inOrder_arrival q7_ok hx grey plain (contrast rfl rfl) (by decide)
example := C102_standard demo_ok fresh_reachable inOrder_arrival q7_ok hx grey (o := { defaultOpts with borders := ⟨0, 7, 3, 1⟩, qrWidth := 4 }) ⟨Or.inr rfl, rfl, rfl, rfl⟩
  (contrast rfl rfl) (by decide)
example := Cli.C102_cli demo_ok fresh_reachable inOrder_arrival noImage Cli.demoFlags demo_borders q1_ok one_plain rfl rfl (Or.inl rfl) grey

/-! ## Settings that make no sense -/

example : Compressed.write (some ⟨-1, 5⟩) q7.mat = none :=
  (Compressed.C103_panics demo_ok fresh_reachable inOrder_arrival q7_ok (-1) 5).2 (by rw [q7_dim]; decide)
example : Compressed.write (some ⟨-224, 5⟩) q7.mat = none ∧ Compressed.write (some ⟨-225, 5⟩) q7.mat ≠ none := by
  refine ⟨(Compressed.C103_panics demo_ok fresh_reachable inOrder_arrival q7_ok (-224) 5).2 (by rw [q7_dim]; decide), fun h => ?_⟩
  have := (Compressed.C103_panics demo_ok fresh_reachable inOrder_arrival q7_ok (-225) 5).1 h
  rw [q7_dim] at this
  revert this
  decide
example := Compressed.C103_blank q7.mat 4 (blockSize := -3) (by decide)
example := Compressed.C103_negative demo_ok fresh_reachable inOrder_arrival q7_ok hx (padding := -1000) (blockSize := 5) (by decide) (by rw [q7_dim]; decide)
/-- The default picture without its first 30 columns and last 50 rows. -/
example := C103_cut grey (o := { defaultOpts with borders := ⟨0, 0, -50, -30⟩ }) ⟨Or.inr rfl, rfl, rfl, rfl⟩ q7.mat q7_mat.1 q7_mat.2 (by decide) (by decide)
example := C103_nothing_left demo_ok fresh_reachable inOrder_arrival q7_ok grey (o := { defaultOpts with borders := ⟨0, -899, -899, 0⟩ }) ⟨Or.inr rfl, rfl, rfl, rfl⟩ rfl
  (by rw [q7_dim]; decide)

/-! ## Light on dark -/

example := C104_negative demo_ok fresh_reachable inOrder_arrival q7_ok hx (by decide) q7_shows (.turned (.mirrored .straight))
example := C104_compressed demo_ok fresh_reachable inOrder_arrival q7_ok hx (padding := 3) (blockSize := 2) (by decide)
/-- White on black, and on a transparent background. -/
example := C104_standard demo_ok fresh_reachable inOrder_arrival q7_ok hx grey (o := { defaultOpts with qrColor := ⟨255, 255, 255, 255⟩, bgColor := ⟨0, 0, 0, 255⟩ })
  ⟨Or.inr rfl, rfl, rfl, rfl⟩ ⟨rfl, Or.inr ⟨rfl, by decide⟩⟩ (by decide)
example := C104_standard demo_ok fresh_reachable inOrder_arrival q7_ok hx grey (o := { defaultOpts with qrColor := ⟨255, 255, 255, 255⟩, bgTransparent := true })
  ⟨Or.inr rfl, rfl, rfl, rfl⟩ ⟨rfl, Or.inl rfl⟩ (by decide)

/-! ## Grey pictures -/

theorem near_refl (e : Nat) (p : List (List Nat)) : Near e p p := List.forall₂_same.2 fun _ _ => List.forall₂_same.2 fun _ _ => ⟨by omega, by omega⟩

example := C107_grey demo_ok fresh_reachable inOrder_arrival q7_ok hx (by decide) q7_shows (.turned (.mirrored .straight)) (e := 20) (d := 200) (l := 100) (.inr (by decide)) (near_refl _ _)
/-- Black on white survives any change of brightness by 63, -/
example := C107_standard demo_ok fresh_reachable inOrder_arrival q7_ok hx grey plain (contrast rfl rfl) (by decide) (e := 63) rfl rfl (by decide)
/-- yellow on a transparent blue by 49 -/
example := C107_standard demo_ok fresh_reachable inOrder_arrival q7_ok hx grey (o := { defaultOpts with qrColor := ⟨255, 255, 0, 255⟩, bgColor := ⟨0, 0, 255, 255⟩, bgTransparent := true })
  ⟨Or.inr rfl, rfl, rfl, rfl⟩ ⟨rfl, Or.inl rfl⟩ (by decide) (e := 49) rfl rfl (by decide)
example := C107_brightness 12 200 77 0
example := C107_transparent grey plain rfl rfl (m := q7.mat) (by rw [canvasW, q7_mat.1]; decide) (by rw [canvasH, q7_mat.2]; decide)
/-- A transparent background: the second picture that the writer makes has no white. -/
example := fun ops o' (hd : draw grey { defaultOpts with bgTransparent := true } q7.mat = some (ops, o')) =>
  C107_again_counterexample demo_ok fresh_reachable inOrder_arrival q7_ok grey (o := { defaultOpts with bgTransparent := true }) ⟨Or.inr rfl, rfl, rfl, rfl⟩ rfl rfl hd
    q7.mat (px := 50) (py := 60) (by rw [canvasW, q7_mat.1]; decide) (by rw [canvasH, q7_mat.2]; decide)
example := Compressed.C107_compressed demo_ok fresh_reachable inOrder_arrival q7_ok hx (padding := 3) (blockSize := 2) (by decide)
example := Cli.C107_cli demo_ok fresh_reachable inOrder_arrival noImage Cli.demoFlags demo_borders q1_ok one_plain rfl rfl (Or.inl rfl) grey
end QR.Instances
