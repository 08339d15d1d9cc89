import Verif.Instances.Base
import Verif.Props.HeapSlices
import Verif.Props.Penalty
import Verif.Props.Save
import Verif.Props.FileWriter
import Verif.Props.Compressed
import Verif.Props.Files
import Verif.Props.Terminal
/-!
# Instances of C32 to C38: matrices in memory, `Save`, and the writers for text, compressed images and terminals
-/
namespace QR.Instances
open QR Spec

/-! ## C32 and C33 -/

section
open QR.Heap
/-- One matrix has been made, two columns of three modules. -/
theorem shows0 : Shows (history empty [.new 2 3]) 0 (newMatrix 2 3) := ⟨_, rfl, by decide⟩
/-- Another matrix is made and written to. -/
example := C32_frame [.new 2 3] [.new 1 1, .set 1 0 0 DATA_V1] shows0 (by
  refine ⟨?_, ?_, ?_, ?_, trivial⟩
  · intro j h; cases h
  · decide
  · intro j h; cases h
  · decide)
example := C32_copy_equal [.new 2 3] shows0
/-- The original is written to after the copy; then the copy. -/
example := (C32_copy_independent [.new 2 3] [.set 0 1 2 DATA_V1] shows0 (o := 0) (o' := 1) rfl rfl).1
  (fun e he j => by simp at he; subst he; simp [Op.event]) ⟨Or.inr rfl, trivial⟩
example := (C32_copy_independent [.new 2 3] [.set 1 1 2 DATA_V1] shows0 (o := 0) (o' := 1) rfl rfl).2
  (fun e he j => by simp at he; subst he; simp [Op.event]) ⟨Or.inr rfl, trivial⟩
example := C32_refines [.new 2 3] shows0 1 2 DATA_V1
/-- A row and a column of a square matrix are taken, then the matrix is written to. -/
theorem shows1 : Shows (history empty [.new 3 3]) 0 (newMatrix 3 3) := ⟨_, rfl, by decide⟩
example : Reads (history empty ([.new 3 3] ++ .row 0 2 :: [.set 0 1 2 DATA_V1])) 0 (some [INIT_V0, INIT_V0, INIT_V0]) :=
  C87_row_snapshot [.new 3 3] [.set 0 1 2 DATA_V1] shows1 (cur := 2) (by decide) (by simp)
example : Shows (history empty ([.new 3 3] ++ .row 0 2 :: [.set 0 1 2 DATA_V1] ++ [.write 0 0 DATA_V1])) 0
    ((newMatrix 3 3).set 1 2 DATA_V1) :=
  C87_row_write [.new 3 3] [.set 0 1 2 DATA_V1] shows1 2 (k := 0) ⟨_, rfl, by decide⟩ 0 DATA_V1
example := C87_col_window [.new 3 3] [.set 0 1 2 DATA_V1] shows1 1 (fun e he j => by simp at he; subst he; simp [Op.event])
/-- A writer that copies the matrix it got and writes into a column of the copy. -/
example : Shows (history empty ([.new 2 3] ++ .pass 0 :: [.copy 1, .col 2 0, .write 0 1 DATA_V1])) 0 (newMatrix 2 3) :=
  C33_writer_partial [.new 2 3] [.copy 1, .col 2 0, .write 0 1 DATA_V1] shows0 (o := 0) rfl
    (by simp [External, copyVar, objects, Op.event, Objects.after, Objects.step])
    (by
      intro a e b h
      rcases a with _ | ⟨x, _ | ⟨y, _ | ⟨z, a⟩⟩⟩ <;> simp [Op.event] at h
      · obtain ⟨rfl, rfl⟩ := h; decide
      · obtain ⟨rfl, rfl, rfl⟩ := h; decide
      · obtain ⟨rfl, rfl, rfl, rfl⟩ := h; decide)
example := C33_counterexample [.new 2 3] shows0 (by decide) (by decide)
end

/-! ## C34 -/

/-- A writer whose `Write` fails after the first call and whose `Close` always fails; and one whose `Write` panics. -/
abbrev flaky : Writer Nat := ⟨fun n _ => (n + 1, if n = 0 then .ok else .error 7), fun n => (n + 10, .error 9)⟩
abbrev bad : Writer Nat := ⟨fun n _ => (n, .panics 3), fun n => (n, .ok)⟩
example := C34_result flaky 0 (newMatrix 1 1) (fun p h => by cases h)
example := C34_result flaky 5 (newMatrix 1 1) (fun p h => by cases h)
example := (C34_panics bad 0 (newMatrix 1 1)).2 3 rfl
example := (C34_panics (⟨fun n _ => (n, .ok), fun n => (n, .panics 4)⟩ : Writer Nat) 0 (newMatrix 1 1)).1 4 rfl
example := C34_made_by_new q7_ok (some flaky) 0
example := (C34_zero_code flaky 0).2.2 (fun p h => by cases h)

/-! ## C35 -/

/-- Two columns of three modules. -/
abbrev small : Matrix := ⟨2, 3, [[DATA_V1, DATA_V0, DATA_V1], [DATA_V0, DATA_V1, DATA_V0]]⟩
example := FileWriter.C35_picture small (fun _ => none) (fun _ => rfl)
example := FileWriter.C35_picture q7.mat (fun _ => none) (fun _ => rfl)
example := FileWriter.C35_prefix q7.mat (fun i => if i = 100 then some (2, 5) else none)

/-! ## C36 -/

/-- A symbol of 45 modules with a padding of 30 and blocks of 5 pixels. -/
theorem q7_mat : q7.mat.width = 45 ∧ q7.mat.height = 45 := by
  obtain ⟨hs, _⟩ := demo_penalty demo_ok fresh_reachable inOrder_arrival q7_ok
  have h := q7_dim
  have h1 := hs.w
  have h2 := hs.h
  omega
example := Compressed.C36_pixels q7.mat (by rw [q7_mat.1, q7_mat.2]) 30 5
example := Compressed.C36_pixels (newMatrix 3 2) (by decide) 0 1
example := Compressed.C36_injective (a := q7.mat) (b := q7.mat) (by rw [q7_mat.1, q7_mat.2]) (by rw [q7_mat.1, q7_mat.2]) (padding := 30) (blockSize := 5) (by decide) rfl

/-! ## C37 -/

abbrev disk : Files.FS := fun p => if p = "qr.png" then some [1, 2, 3, 4] else none
example := Files.C37_standard disk "qr.png" [[9], [8]] (stat := .otherErr) (by decide)
/-- A file longer than the new image keeps its tail; a shorter one does not. -/
example : ∃ fs', Files.compressedSave false disk "qr.png" [[9], [8]] = some fs' ∧ fs' "qr.png" = some [9, 8, 3, 4] ∧ fs' "qr.png" ≠ some [9, 8] := by
  obtain ⟨fs', h1, h2, h3, _⟩ := Files.C37_compressed_partial disk "qr.png" [[9], [8]]
  exact ⟨fs', h1, h2, by rw [h2]; decide⟩
example : ∃ fs', Files.compressedSave false disk "qr.png" [[9, 8], [7, 6, 5]] = some fs' ∧ fs' "qr.png" = some [9, 8, 7, 6, 5] := by
  obtain ⟨fs', h1, h2, h3, _⟩ := Files.C37_compressed_partial disk "qr.png" [[9, 8], [7, 6, 5]]
  exact ⟨fs', h1, h3.2 (fun old h => by cases h; decide)⟩

/-! ## C38 -/

section
open QR.Terminal
abbrev screen : Screen := ⟨80, 25, fun _ => none⟩
abbrev tiny : Matrix := ⟨1, 2, [[DATA_V0, DATA_V1]]⟩
example := C38_cells (m := tiny) (by decide) (by decide) screen (fun _ => 1) (fun _ => false) 3 2 (by decide) (by decide) (by decide) (by decide)
example := C38_rest (m := tiny) (by decide) (by decide) screen (fun _ => 1) (fun _ => false) 70 2 (by decide) (by decide) (by decide) (by decide)
example := C38_tip (m := tiny) (by decide) (by decide) screen (fun _ => 1) (fun _ => false) (fun _ _ _ => rfl) 4 (by decide) (by decide) (by decide)
example := (C38_hold none [.mouse, .mouse, .key, .mouse]).2.1 rfl [.mouse, .mouse] [.mouse] rfl (by decide)
end

end QR.Instances
