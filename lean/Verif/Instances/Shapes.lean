import Verif.Instances.Images
import Verif.Props.ShapeJoins
import Verif.Props.Imgkit
import Verif.Props.Debug
import Verif.Props.SharedCold
import Verif.Props.Fd
/-!
# Instances of C59 to C67, C73 and C74: shapes, image helpers, debugging pictures, concurrent calls, files
-/
namespace QR.Instances
open QR QR.Standard Plane

/-- The functions of the shapes that a program has assembled. -/
abbrev liquid : Nat → DrawFn × DrawFn := fun _ => (.roundedFinder, .liquidBlock)
abbrev dots : Opts := { defaultOpts with shape := some .circle }
abbrev drops : Opts := { defaultOpts with shape := some (.custom 0) }
example := C59_centres_partial grey dots q7.mat rfl rfl liquid (fun _ => by decide)
example := C59_centres_partial grey drops q7.mat rfl rfl liquid (fun h => by cases h)
example := C59_counterexample grey { dots with qrWidth := 1 } q7.mat rfl rfl liquid rfl rfl
example := C60_quiet_zone grey drops q7.mat rfl rfl liquid (fun h => by cases h)
/-- A block of 20 pixels with all neighbours dark. -/
abbrev block : Ctx := ⟨40, 60, 20, 20, ⟨0, 0, 0, 255⟩, 0x1ff⟩
example := C60_block .liquidBlock block rfl (by decide)
example : ∃ ops o', draw grey drops demoM = some (ops, o') ∧
    colourAt (drawing (meaning liquid) (shapeCalls ops)) ⟨(centre drops 0 1).x + 1 / 2 * 20, (centre drops 0 1).y⟩ = some ⟨0, 0, 0, 255⟩ := by
  obtain ⟨ops, o', h, h'⟩ := C61_rows grey drops demoM rfl rfl liquid 0 rfl
  exact ⟨ops, o', h, h' 0 1 (by decide) (by decide) rfl rfl trivial trivial (1 / 2) (by norm_num) (by norm_num)⟩
example : ∃ ops o', draw grey drops demoM = some (ops, o') ∧
    colourAt (drawing (meaning liquid) (shapeCalls ops)) ⟨(centre drops 0 1).x, (centre drops 0 1).y + 1 / 2 * 20⟩ = some ⟨0, 0, 0, 255⟩ := by
  obtain ⟨ops, o', h, h'⟩ := C61_columns grey drops demoM rfl rfl liquid 0 rfl
  exact ⟨ops, o', h, h' 0 1 (by decide) (by decide) rfl rfl trivial trivial (1 / 2) (by norm_num) (by norm_num)⟩
example := C62_v_stripe (7 / 10) block rfl (by decide) rfl rfl rfl ⟨50, 70⟩
example := C62_square (7 / 10) block rfl ⟨50, 70⟩
example := C62_circle (7 / 10) block (by decide) ⟨50, 70⟩
example := C63_h_stripe_partial (7 / 10) block rfl (by decide) rfl rfl rfl ⟨50, 70⟩

/-! ## C64 to C67 -/

abbrev twoPixels : Image := ⟨0, 0, 2, 1, fun x _ => if x = 0 then (65535, 65535, 65535, 65535) else (0, 0, 0, 65535)⟩
example := (Imgkit.C64_partial twoPixels 60).2.2.1 rfl rfl 1 0 (by unfold Imgkit.Within; decide)
/-- An image whose bounds do not start at the origin. -/
example := (Imgkit.C64_partial { twoPixels with minX := 1, maxX := 3 } 60).2.2.2 2 0 (by unfold Imgkit.Within; decide)
abbrev xjpeg : Bytes := [0x78, 0x2e, 0x6a, 0x70, 0x65, 0x67]
example : (Imgkit.save false disk xjpeg "x.jpeg" ⟨[[1], [2]], true⟩ ⟨[[3]], true⟩).2 = true :=
  ((Imgkit.C65_save_partial false disk xjpeg "x.jpeg" ⟨[[1], [2]], true⟩ ⟨[[3]], true⟩).1).2 ⟨rfl, Or.inl ⟨Or.inr (by decide +kernel), rfl⟩⟩
example := (Debug.C66_switch [.ask "yes", .set] "").2 [.ask "0"] "" (by decide +kernel)
example := (Debug.C67_picture q7.mat).2.2 15 25 (by decide) (by rw [q7_mat.1]; decide) (by decide) (by rw [q7_mat.1]; decide)

/-! ## C73 and C74 -/

section
open QR.Shared
/-- Two concurrent calls; three steps of the first and one of the second. -/
abbrev calls : Nat → Call := fun _ => demoCall
theorem shared_exists : ∃ s, run demoExt calls [0] (start fresh) = some s := by
  cases h : step demoExt calls 0 (start fresh) with
  | some s => exact ⟨s, by simp only [run, h]⟩
  | none =>
    obtain ⟨r, hr⟩ := ((C73_wait_free (E := demoExt) (calls := calls) fresh_initial (sched := []) rfl 0).1).2 h
    cases hr
noncomputable def s1' : St := Classical.choose shared_exists
theorem s1'_run : run demoExt calls [0] (start fresh) = some s1' := Classical.choose_spec shared_exists
example := C73_safe fresh_initial s1'_run
example := C73_wait_free fresh_initial s1'_run 1
/-- Both calls complete, and then return what they would have returned alone. -/
example : ∃ sched s q, run demoExt calls sched (start fresh) = some s ∧ s.pc 1 = .returned (.ok q) ∧
    Res.ok q = newWith demoExt fresh (calls 1).arrival (calls 1).t (calls 1).text (calls 1).opts := by
  obtain ⟨q, hq, _⟩ := demoCall_ok fresh_reachable
  obtain ⟨more, s, h1, h2⟩ := C73_completes (E := demoExt) (calls := calls) fresh_initial (sched := []) rfl 2
  have hr : s.pc 1 = .returned (.ok q) := by rw [h2 1 (by decide)]; exact congrArg _ hq
  exact ⟨more, s, q, h1, hr, C73_isolated fresh_initial h1 hr⟩
example : ∃ sched s, run demoExt calls sched (start []) = some s ∧ s.crashed = true := by
  obtain ⟨q, hq, hv⟩ := demoCall_ok fresh_reachable
  exact C73_counterexample (calls := calls) (i := 0) (j := 1) (by decide) hq hv hq hv
example := C73_cold (E := demoExt) (calls := calls) (c := []) (fun v locs h => by cases h) (sched := []) rfl rfl
end

section
open QR.Fd
/-- The third `Write` call fails after one byte; `Close` fails too. -/
abbrev faulty : World := ⟨fun i => if i = 2 then some (1, 4) else none, some 6⟩
abbrev fourChunks : Matrix → Option (List Bytes) := fun _ => some [[1], [2], [3, 4], [5]]
example := C74_first_save faulty fourChunks (Or.inl rfl) (f := ⟨true, [], 0⟩) rfl (m := q7.mat) rfl
example := C74_close_error faulty fourChunks (Or.inr rfl) (f := ⟨true, [], 0⟩) rfl (m := q7.mat) rfl 7
example := C74_second_save faulty fourChunks (f := ⟨false, [1], 3⟩) rfl (m := q7.mat) rfl
example := C74_only_first faulty fourChunks (Or.inl rfl) (f := ⟨true, [], 0⟩) rfl q7.mat [demoM, q7.mat] (fun _ => ⟨_, _, rfl⟩)
example := C74_text_appends (w := ⟨fun _ => none, none⟩) (fun _ => rfl) [q7.mat, demoM] (f := ⟨true, [], 0⟩) rfl
end

end QR.Instances
