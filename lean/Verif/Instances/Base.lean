import Verif.Props.Symbol
import Verif.Props.Ascii
/-!
# Concrete symbols for the instances

The files of this directory apply the theorems of the claims to concrete values, so that their hypotheses are seen to be met.  The symbols used for that are here: they are made with the standard's
Reed-Solomon coder and a Shift JIS table with a few characters (`demoExt`), by a process that has just started, with the workers finishing in order.
-/
namespace QR.Instances
open QR Spec

theorem fresh_exists : ∃ c, initialCache = .ok c := by
  obtain ⟨c, hc, _⟩ := initialCache_ok
  exact ⟨c, hc⟩

/-- The map of alignment positions of a process that has just started. -/
noncomputable def fresh : AlignCache := Classical.choose fresh_exists

theorem fresh_initial : initialCache = .ok fresh := Classical.choose_spec fresh_exists
theorem fresh_reachable : CacheReachable fresh := .start fresh_initial

/-- The text `HELLO`. -/
abbrev hello : Bytes := [72, 69, 76, 76, 79]
/-- Alphanumeric mode, version 7 at least. -/
abbrev opts7 : List EncodeOption := [.withEncodingMode encAlphanumeric, .withMinimumVersion 7]

/-- `NewWith("HELLO", WithEncodingMode(EncModeAlphanumeric), WithMinimumVersion(7))`: version 7, level Q. -/
noncomputable def q7 : QRCode := Classical.choose (demo_symbol fresh_reachable inOrder_arrival)
theorem q7_ok : newWith demoExt fresh inOrder .string hello opts7 = .ok q7 := (Classical.choose_spec (demo_symbol fresh_reachable inOrder_arrival)).1
theorem q7_dim : q7.dimension = 17 + 4 * 7 := (Classical.choose_spec (demo_symbol fresh_reachable inOrder_arrival)).2

/-- The text `Hello`. -/
abbrev greeting : Bytes := [72, 101, 108, 108, 111]
theorem greeting_ascii : AllAscii greeting := by unfold AllAscii; decide

theorem auto_exists : ∃ q, newWith demoExt fresh inOrder .string greeting [] = .ok q :=
  C04_ascii demo_ok fresh_reachable inOrder_arrival rfl (Or.inl rfl) greeting_ascii (by decide)

/-- `New("Hello")`: everything automatic. -/
noncomputable def qa : QRCode := Classical.choose auto_exists
theorem qa_ok : newWith demoExt fresh inOrder .string greeting [] = .ok qa := Classical.choose_spec auto_exists
theorem greeting_plain : ¬ AlnumThenKanji demoExt.sjis (nats greeting) := ascii_not_mixed greeting_ascii

/-- The text `1漢`, for which automatic mode goes wrong. -/
abbrev mixed : Bytes := [0x31, 0xE6, 0xBC, 0xA2]
theorem mixed_exists : ∃ q, newWith demoExt fresh inOrder .string mixed [.withVersion 2] = .ok q :=
  (C06_counterexample demo_ok fresh_reachable inOrder_arrival (t := .string) (by simp) mixed (v := 2) rfl rfl demo_mixed).imp fun _ h => h.1
noncomputable def qm : QRCode := Classical.choose mixed_exists
theorem qm_ok : newWith demoExt fresh inOrder .string mixed [.withVersion 2] = .ok qm := Classical.choose_spec mixed_exists

/-- The text `HALLO`, and version 7 asked for. -/
abbrev hallo : Bytes := [72, 65, 76, 76, 79]
abbrev opts7v : List EncodeOption := [.withEncodingMode encAlphanumeric, .withVersion 7]
theorem hallo_exists : ∃ q, newWith demoExt fresh inOrder .string hallo opts7v = .ok q ∧ q.dimension = 17 + 4 * 7 := by
  obtain ⟨q, hq⟩ := (C09_fails_iff demo_ok fresh_reachable inOrder_arrival (t := .string) (by simp) hallo (opts := opts7v) (m := .alnum) rfl (by decide)).2 (by
    simp only [Spec.Encodable]; decide)
  refine ⟨q, hq, ?_⟩
  obtain ⟨v, hv, hd, _⟩ := C11_dimension demo_ok fresh_reachable inOrder_arrival hq
  rw [hd]
  rcases hv with h | ⟨h, _⟩
  · rw [show versionIn opts7v = some 7 from rfl] at h
    cases h
    rfl
  · cases h

/-- `NewWith("HALLO", WithEncodingMode(EncModeAlphanumeric), WithVersion(7))`. -/
noncomputable def qh : QRCode := Classical.choose hallo_exists
theorem qh_ok : newWith demoExt fresh inOrder .string hallo opts7v = .ok qh := (Classical.choose_spec hallo_exists).1
theorem qh_dim : qh.dimension = 17 + 4 * 7 := (Classical.choose_spec hallo_exists).2

/-- Another order of arrival. -/
abbrev backwards : List Nat := [7, 6, 5, 4, 3, 2, 1, 0]
theorem backwards_arrival : Arrival backwards := by unfold Arrival; decide

end QR.Instances
