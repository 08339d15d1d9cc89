import Verif.Props.Tables
/-!
# C49: alignment positions do not depend on call history
-/
namespace QR
open Spec QR.Matrix

/-- The cache after start-up and any sequence of completed lookups, of any version number, by either lookup function.
(A lookup of a version without an entry in the table panics and does not complete.) -/
inductive History : AlignCache → Prop
  | start {c} : initialCache = .ok c → History c
  | lookup {c c' v locs} : History c → loadAlignmentPatternLocV2 c v = .ok (locs, c') → History c'
  | deprecated {c c' v locs} : History c → loadAlignmentPatternLoc c v = .ok (locs, c') → History c'

theorem history_facts {c : AlignCache} (h : History c) : initialCache = .ok c ∧ CacheOk c ∧
    ∀ v, 2 ≤ v → v ≤ 40 → (c.lookup v).isSome := by
  obtain ⟨c0, i1, i2, i3⟩ := initialCache_ok
  have unchanged : ∀ {v locs c'}, (loadAlignmentPatternLocV2 c0 v = .ok (locs, c') ∨ loadAlignmentPatternLoc c0 v = .ok (locs, c')) → c' = c0 := by
    intro v locs c' h
    by_cases h2 : v < 2
    · unfold loadAlignmentPatternLocV2 loadAlignmentPatternLoc at h
      simp only [h2, if_true, or_self] at h
      cases h; rfl
    · by_cases h40 : v ≤ 40
      · have hs := i3 v (by omega) h40
        cases hl : c0.lookup v with
        | none => rw [hl] at hs; cases hs
        | some l =>
          unfold loadAlignmentPatternLocV2 loadAlignmentPatternLoc at h
          simp only [h2, if_false, hl, or_self] at h
          cases h; rfl
      · have hnone : alignPatternLocation.lookup v = none := by
          rw [List.lookup_eq_none_iff]
          intro p hp
          have : ∀ p ∈ alignPatternLocation, p.1 ≤ 40 := by decide +kernel
          have := this p hp
          simp; omega
        have hcalc : calcAlignPatternLocs v = .panic .noAlign := by
          unfold calcAlignPatternLocs; rw [if_neg h2, hnone]
        have hc : c0.lookup v = none := by
          cases hl : c0.lookup v with
          | none => rfl
          | some l => have := i2 v l hl; rw [hcalc] at this; cases this
        unfold loadAlignmentPatternLocV2 loadAlignmentPatternLoc at h
        simp only [h2, if_false, hc, hcalc, hnone, or_self] at h
        cases h
  suffices hh : initialCache = .ok c by
    rw [i1] at hh; cases hh; exact ⟨i1, i2, i3⟩
  induction h with
  | start h => exact h
  | lookup _ hl ih =>
    rw [i1] at ih; cases ih
    rw [unchanged (Or.inl hl)]; exact i1
  | deprecated _ hl ih =>
    rw [i1] at ih; cases ih
    rw [unchanged (Or.inr hl)]; exact i1

/-- After start-up no completed lookup writes to the shared cache: whatever was looked up, it is the start-up cache. -/
theorem C49_never_written {c : AlignCache} (h : History c) : initialCache = .ok c := (history_facts h).1

/-- After any history a lookup of a legal version, by either function, returns exactly the positions computed for
that version and leaves the cache as it is. -/
theorem C49_history_irrelevant {c : AlignCache} (h : History c) {v : Nat} (h40 : v ≤ 40) :
    ∃ locs, calcAlignPatternLocs v = .ok locs ∧
      loadAlignmentPatternLocV2 c v = .ok (locs, c) ∧ loadAlignmentPatternLoc c v = .ok (locs, c) := by
  obtain ⟨_, hc, hs⟩ := history_facts h
  by_cases h2 : v < 2
  · refine ⟨[], ?_, ?_, ?_⟩
    · unfold calcAlignPatternLocs; rw [if_pos h2]
    · unfold loadAlignmentPatternLocV2; rw [if_pos h2]
    · unfold loadAlignmentPatternLoc; rw [if_pos h2]
  · cases hl : c.lookup v with
    | none => have := hs v (by omega) h40; rw [hl] at this; cases this
    | some locs =>
      refine ⟨locs, hc v locs hl, ?_, ?_⟩
      · unfold loadAlignmentPatternLocV2; rw [if_neg h2, hl]
      · unfold loadAlignmentPatternLoc; rw [if_neg h2, hl]

/-- Even with a cache that has no entry for the version, as before start-up, both functions find the centres of the standard, and store them. -/
theorem C49_cold {c : AlignCache} {v : Nat} (h2 : 2 ≤ v) (h40 : v ≤ 40) (hc : c.lookup v = none) :
    ∃ locs, loadAlignmentPatternLocV2 c v = .ok (locs, (v, locs) :: c) ∧ loadAlignmentPatternLoc c v = .ok (locs, (v, locs) :: c) ∧
      ∀ x y : Int, (x, y) ∈ locs ↔ ∃ j i : Nat, x = j ∧ y = i ∧ isAlignCentre v i j = true := by
  obtain ⟨_, locs, e, _, h⟩ := C24_alignment h2 h40
  refine ⟨locs, ?_, ?_, h⟩
  · unfold loadAlignmentPatternLocV2
    rw [if_neg (by omega), hc, e]
  · unfold calcAlignPatternLocs at e
    unfold loadAlignmentPatternLoc
    rw [if_neg (by omega)] at e ⊢
    rw [hc]
    cases hl : alignPatternLocation.lookup v with
    | none => rw [hl] at e; cases e
    | some positions =>
      rw [hl] at e
      simp only
      rw [Res.ok.inj e]

/-- A symbol's construction therefore sees the same positions whatever was built before: `CacheReachable` caches of
the other theorems are such histories. -/
theorem C49_reachable {c : AlignCache} (h : CacheReachable c) : History c := by
  induction h with
  | start h => exact .start h
  | lookup _ _ h ih => exact .lookup ih h

/-- Start-up succeeds, so histories exist; version 7 has six patterns. -/
theorem demo_align : ∃ c, History c ∧ loadAlignmentPatternLocV2 c 7 =
    .ok ([(6, 22), (22, 6), (22, 22), (22, 38), (38, 22), (38, 38)], c) := by
  obtain ⟨c, h, _, _⟩ := initialCache_ok
  refine ⟨c, .start h, ?_⟩
  obtain ⟨locs, h1, h2, _⟩ := C49_history_irrelevant (.start h) (v := 7) (by omega)
  rw [h2]
  have : calcAlignPatternLocs 7 = .ok [(6, 22), (22, 6), (22, 22), (22, 38), (38, 22), (38, 38)] := by decide +kernel
  rw [this] at h1
  cases h1
  rfl

end QR
