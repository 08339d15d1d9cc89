import Verif.Proof.Prefill
import Verif.Spec.Standard
/-! # The prefilled matrix against the standard's geometry -/
namespace QR
open Matrix Spec

/-! ### alignment coordinates: complete finite tables -/

/-- Versions with alignment patterns. -/
def alignVersions : List Nat := (List.range 39).map (· + 2)

theorem mem_alignVersions (v : Nat) : v ∈ alignVersions ↔ 2 ≤ v ∧ v ≤ 40 := by
  simp [alignVersions]
  constructor
  · rintro ⟨a, h, rfl⟩; omega
  · intro h; exact ⟨v - 2, by omega, by omega⟩

/-- The repository's alignment table is the standard's (all 39 rows). -/
theorem alignTable_eq : ∀ v ∈ alignVersions, alignPatternLocation.lookup v = some (alignCoords v) := by
  decide +kernel

theorem coords_sep : ∀ v ∈ alignVersions, ∀ a ∈ alignCoords v, ∀ b ∈ alignCoords v,
    a = b ∨ a + 5 ≤ b ∨ b + 5 ≤ a := by decide +kernel

theorem centre_facts : ∀ v ∈ alignVersions, ∀ a ∈ alignCoords v, ∀ b ∈ alignCoords v,
    isAlignCentre v a b = true →
    a % 2 = 0 ∧ b % 2 = 0 ∧ a + 7 ≤ side v ∧ b + 7 ≤ side v ∧
    ((a = 6 ∧ 16 ≤ b ∧ b + 14 ≤ side v) ∨ (b = 6 ∧ 16 ≤ a ∧ a + 14 ≤ side v) ∨ (16 ≤ a ∧ 16 ≤ b)) := by
  decide +kernel

/-- The code's collision test selects exactly the standard's centres (all versions, all pairs). -/
theorem validLoc_eq : ∀ v ∈ alignVersions, ∀ a ∈ alignCoords v, ∀ b ∈ alignCoords v,
    validLoc (a : Int) (b : Int) ((v : Int) * 4 + 17) = isAlignCentre v b a := by decide +kernel

/-- Locations computed for a version. -/
def alignLocs (v : Nat) : List Loc :=
  (alignCoords v).flatMap fun (p1 : Nat) => (alignCoords v).filterMap fun (p2 : Nat) =>
    if validLoc p1 p2 (v * 4 + 17) then some ((p1 : Int), (p2 : Int)) else none

theorem calcAlign_eq {v : Nat} (h2 : 2 ≤ v) (h40 : v ≤ 40) :
    calcAlignPatternLocs v = .ok (alignLocs v) := by
  unfold calcAlignPatternLocs
  rw [if_neg (by omega), alignTable_eq v ((mem_alignVersions v).2 ⟨h2, h40⟩)]
  rfl

theorem mem_alignLocs {v : Nat} (hv : v ∈ alignVersions) (l : Loc) :
    l ∈ alignLocs v ↔ ∃ a ∈ alignCoords v, ∃ b ∈ alignCoords v, isAlignCentre v b a = true ∧
      l = ((a : Int), (b : Int)) := by
  unfold alignLocs
  simp only [List.mem_flatMap, List.mem_filterMap]
  constructor
  · rintro ⟨a, ha, b, hb, h⟩
    refine ⟨a, ha, b, hb, ?_⟩
    have e := validLoc_eq v hv a ha b hb
    split at h
    · next h1 => exact ⟨by rw [← e]; exact h1, by simpa using h.symm⟩
    · simp at h
  · rintro ⟨a, ha, b, hb, h, rfl⟩
    refine ⟨a, ha, b, hb, ?_⟩
    rw [if_pos (by rw [validLoc_eq v hv a ha b hb]; exact h)]

theorem find_coord {v : Nat} (hv : v ∈ alignVersions) (i a : Nat) :
    (alignCoords v).find? (fun a => dist i a ≤ 2) = some a ↔ a ∈ alignCoords v ∧ dist i a ≤ 2 := by
  constructor
  · intro h
    exact ⟨List.mem_of_find?_eq_some h, by simpa using List.find?_some h⟩
  · rintro ⟨h1, h2⟩
    cases hf : (alignCoords v).find? (fun a => dist i a ≤ 2) with
    | none =>
      have := List.find?_eq_none.mp hf a h1
      simp [h2] at this
    | some b =>
      have hb : b ∈ alignCoords v := List.mem_of_find?_eq_some hf
      have hd : dist i b ≤ 2 := by simpa using List.find?_some hf
      have := coords_sep v hv a h1 b hb
      unfold dist at *
      have : b = a := by omega
      rw [this]

/-- The alignment pattern covering a module, as the standard and as the code see it. -/
theorem find_near {v : Nat} (hv : v ∈ alignVersions) (i j : Nat) :
    (alignLocs v).reverse.find? (near (j : Int) (i : Int)) =
      (alignAt v i j).map fun p => ((p.2 : Int), (p.1 : Int)) := by
  have hnear : ∀ a b : Nat, near (j : Int) (i : Int) ((a : Int), (b : Int)) = true ↔ dist j a ≤ 2 ∧ dist i b ≤ 2 := by
    intro a b
    simp only [near, decide_eq_true_eq, dist]
    omega
  unfold alignAt
  cases hA : (alignCoords v).find? (fun a => dist i a ≤ 2) with
  | none =>
    simp only [Option.map_none]
    rw [List.find?_eq_none]
    intro l hl
    rw [List.mem_reverse, mem_alignLocs hv] at hl
    obtain ⟨a, ha, b, hb, _, rfl⟩ := hl
    intro hn
    have := ((hnear a b).1 hn).2
    have h2 := List.find?_eq_none.mp hA b hb
    simp [this] at h2
  | some b =>
    cases hB : (alignCoords v).find? (fun a => dist j a ≤ 2) with
    | none =>
      simp only [Option.map_none]
      rw [List.find?_eq_none]
      intro l hl
      rw [List.mem_reverse, mem_alignLocs hv] at hl
      obtain ⟨a, ha, b, hb, _, rfl⟩ := hl
      intro hn
      have := ((hnear a b).1 hn).1
      have h2 := List.find?_eq_none.mp hB a ha
      simp [this] at h2
    | some a =>
      have fa := (find_coord hv j a).1 hB
      have fb := (find_coord hv i b).1 hA
      -- any near location is this one
      have uniq : ∀ l ∈ alignLocs v, near (j : Int) (i : Int) l = true → l = ((a : Int), (b : Int)) := by
        intro l hl hn
        obtain ⟨a', ha', b', hb', _, rfl⟩ := (mem_alignLocs hv l).1 hl
        have h3 := (hnear a' b').1 hn
        have e1 := (find_coord hv j a').2 ⟨ha', h3.1⟩
        have e2 := (find_coord hv i b').2 ⟨hb', h3.2⟩
        rw [hB] at e1; rw [hA] at e2
        simp only [Option.some.injEq] at e1 e2
        rw [e1, e2]
      by_cases hc : isAlignCentre v b a = true
      · simp only [hc, if_true, Option.map_some]
        cases hf : (alignLocs v).reverse.find? (near (j : Int) (i : Int)) with
        | none =>
          have := List.find?_eq_none.mp hf ((a : Int), (b : Int))
            (by rw [List.mem_reverse, mem_alignLocs hv]; exact ⟨a, fa.1, b, fb.1, hc, rfl⟩)
          exact absurd ((hnear a b).2 ⟨fa.2, fb.2⟩) this
        | some l =>
          have h1 := List.mem_of_find?_eq_some hf
          rw [List.mem_reverse] at h1
          rw [uniq l h1 (by simpa using List.find?_some hf)]
      · simp only [hc, Bool.false_eq_true, if_false, Option.map_none]
        rw [List.find?_eq_none]
        intro l hl hn
        rw [List.mem_reverse] at hl
        have e := uniq l hl hn
        subst e
        obtain ⟨a', _, b', _, h3, h4⟩ := (mem_alignLocs hv _).1 hl
        simp only [Prod.mk.injEq, Int.natCast_inj] at h4
        rw [h4.1, h4.2] at hc
        exact hc h3

theorem alignAt_facts {v i j a b : Nat} (hv : v ∈ alignVersions) (h : alignAt v i j = some (a, b)) :
    dist i a ≤ 2 ∧ dist j b ≤ 2 ∧ a % 2 = 0 ∧ b % 2 = 0 ∧ a + 7 ≤ side v ∧ b + 7 ≤ side v ∧
    ((a = 6 ∧ 16 ≤ b ∧ b + 14 ≤ side v) ∨ (b = 6 ∧ 16 ≤ a ∧ a + 14 ≤ side v) ∨ (16 ≤ a ∧ 16 ≤ b)) := by
  unfold alignAt at h
  split at h
  · next a' b' h1 h2 =>
    split at h
    · next hc =>
      simp only [Option.some.injEq, Prod.mk.injEq] at h
      obtain ⟨rfl, rfl⟩ := h
      have f1 := (find_coord hv i a').1 h1
      have f2 := (find_coord hv j b').1 h2
      exact ⟨f1.2, f2.2, centre_facts v hv a' f1.1 b' f2.1 hc⟩
    · simp at h
  · simp at h

theorem alignAt_one (i j : Nat) : alignAt 1 i j = none := by
  simp [alignAt, alignCoords]

/-- What the code finds, for every version 1..40. -/
theorem find_near_all {v : Nat} (h1 : 1 ≤ v) (h40 : v ≤ 40) (i j : Nat) :
    (if v > 1 then (alignLocs v).reverse.find? (near (j : Int) (i : Int)) else none) =
      (alignAt v i j).map fun p => ((p.2 : Int), (p.1 : Int)) := by
  split
  · exact find_near ((mem_alignVersions v).2 ⟨by omega, h40⟩) i j
  · have : v = 1 := by omega
    subst this
    rw [alignAt_one]; rfl

theorem alignAt_facts' {v i j a b : Nat} (h1 : 1 ≤ v) (h40 : v ≤ 40) (h : alignAt v i j = some (a, b)) :
    dist i a ≤ 2 ∧ dist j b ≤ 2 ∧ a % 2 = 0 ∧ b % 2 = 0 ∧ a + 7 ≤ side v ∧ b + 7 ≤ side v ∧
    ((a = 6 ∧ 16 ≤ b ∧ b + 14 ≤ side v) ∨ (b = 6 ∧ 16 ≤ a ∧ a + 14 ≤ side v) ∨ (16 ≤ a ∧ 16 ≤ b)) := by
  by_cases hv : v = 1
  · subst hv; rw [alignAt_one] at h; simp at h
  · exact alignAt_facts ((mem_alignVersions v).2 ⟨by omega, h40⟩) h

/-! ### finder stage -/

theorem inFinderArea_iff (v i j : Nat) : inFinderArea v i j = true ↔
    (i ≤ 7 ∧ j ≤ 7) ∨ (i ≤ 7 ∧ side v - 8 ≤ j) ∨ (side v - 8 ≤ i ∧ j ≤ 7) := by
  simp [inFinderArea]; omega

/-- The 8x8 pattern of a finder with its separator, as a function of the distances from the symbol's
edges. -/
def localV (x y : Int) : QRValue :=
  if x = 7 ∨ y = 7 then SPLITTER_V0
  else if 2 ≤ x ∧ x ≤ 4 ∧ 2 ≤ y ∧ y ≤ 4 then FINDER_V1
  else if OnRing 4 1 1 x y then FINDER_V0
  else FINDER_V1

theorem finderStage_TL {d x y : Int} (hd : 21 ≤ d) (hx : 0 ≤ x ∧ x ≤ 7) (hy : 0 ≤ y ∧ y ≤ 7) :
    finderStage d x y = localV x y := by
  unfold finderStage localV
  rw [if_neg (by omega), if_neg (by omega), if_neg (by omega), if_neg (by omega), if_neg (by omega),
    if_neg (by omega), if_neg (by omega), if_neg (by omega)]
  by_cases h1 : x = 7 ∨ y = 7
  · rw [if_pos (by omega), if_pos h1]
  · rw [if_neg (by omega), if_neg h1]
    by_cases h2 : 2 ≤ x ∧ x ≤ 4 ∧ 2 ≤ y ∧ y ≤ 4
    · rw [if_pos h2, if_pos h2]
    · rw [if_neg h2, if_neg h2]
      by_cases h3 : OnRing 4 1 1 x y
      · rw [if_pos h3, if_pos h3]
      · rw [if_neg h3, if_neg h3, if_pos (by omega)]

theorem finderStage_TR {d x y : Int} (hd : 21 ≤ d) (hx : d - 8 ≤ x ∧ x ≤ d - 1) (hy : 0 ≤ y ∧ y ≤ 7) :
    finderStage d x y = localV (d - 1 - x) y := by
  unfold finderStage localV
  rw [if_neg (by omega)]
  by_cases h2 : d - 5 ≤ x ∧ x ≤ d - 3 ∧ 2 ≤ y ∧ y ≤ 4
  · rw [if_pos h2, if_neg (by omega), if_pos (by omega)]
  · rw [if_neg h2, if_neg (by omega), if_neg (by omega)]
    by_cases h1 : d - 1 - x = 7 ∨ y = 7
    · rw [if_pos (by omega), if_pos h1]
    · rw [if_neg (by omega), if_neg h1, if_neg (by omega)]
      by_cases h3 : OnRing 4 (d - 6) 1 x y
      · rw [if_pos h3, if_neg (by omega), if_pos (by omega)]
      · rw [if_neg h3, if_pos (by omega), if_neg (by omega), if_neg (by omega)]

theorem finderStage_BL {d x y : Int} (hd : 21 ≤ d) (hx : 0 ≤ x ∧ x ≤ 7) (hy : d - 8 ≤ y ∧ y ≤ d - 1) :
    finderStage d x y = localV x (d - 1 - y) := by
  unfold finderStage localV
  by_cases h1 : x = 7 ∨ d - 1 - y = 7
  · rw [if_pos (by omega), if_pos h1]
  · rw [if_neg (by omega), if_neg h1, if_neg (by omega)]
    by_cases h3 : OnRing 4 1 (d - 6) x y
    · rw [if_pos h3, if_neg (by omega), if_pos (by omega)]
    · rw [if_neg h3]
      by_cases h4 : OnRing 6 0 (d - 7) x y
      · rw [if_pos h4, if_neg (by omega), if_neg (by omega)]
      · rw [if_neg h4, if_neg (by omega), if_pos (by omega), if_pos (by omega)]

theorem finderStage_out {d x y : Int} (hd : 21 ≤ d) (hx : 0 ≤ x ∧ x < d) (hy : 0 ≤ y ∧ y < d)
    (h1 : ¬ (x ≤ 7 ∧ y ≤ 7)) (h2 : ¬ (d - 8 ≤ x ∧ y ≤ 7)) (h3 : ¬ (x ≤ 7 ∧ d - 8 ≤ y)) :
    finderStage d x y = INIT_V0 := by
  unfold finderStage
  rw [if_neg (by omega), if_neg (by omega), if_neg (by omega), if_neg (by omega), if_neg (by omega),
    if_neg (by omega), if_neg (by omega), if_neg (by omega), if_neg (by omega),
    if_neg (by omega), if_neg (by omega), if_neg (by omega)]

/-- The local pattern against the distance rule (all 64 modules). -/
theorem localV_spec : ∀ i < 8, ∀ j < 8,
    ((localV (j : Nat) (i : Nat)).ty = .finder ∨ (localV (j : Nat) (i : Nat)).ty = .splitter) ∧
    (localV (j : Nat) (i : Nat)).bit = (decide (cheb i j 3 3 ≤ 1) || cheb i j 3 3 == 3) := by
  decide

/-- Value of the finder stage in a finder area: type and colour. -/
theorem finderStage_in {v i j : Nat} (h1 : 1 ≤ v) (hi : i < side v) (hj : j < side v)
    (ha : inFinderArea v i j = true) :
    ((finderStage ((v * 4 + 17 : Nat) : Int) j i).ty = .finder ∨
      (finderStage ((v * 4 + 17 : Nat) : Int) j i).ty = .splitter) ∧
    (finderStage ((v * 4 + 17 : Nat) : Int) j i).bit = finderColour v i j := by
  rw [inFinderArea_iff] at ha
  unfold finderColour
  simp only
  have hn : side v = 17 + 4 * v := rfl
  rcases ha with ha | ha | ha
  · have e1 : cheb i j 3 3 ≤ 4 := by unfold cheb dist; omega
    have e2 : 5 ≤ cheb i j 3 (side v - 4) := by unfold cheb dist; omega
    have e3 : 5 ≤ cheb i j (side v - 4) 3 := by unfold cheb dist; omega
    have e : min (cheb i j 3 3) (min (cheb i j 3 (side v - 4)) (cheb i j (side v - 4) 3)) = cheb i j 3 3 := by
      omega
    rw [e, finderStage_TL (by omega) (by omega) (by omega)]
    exact localV_spec i (by omega) j (by omega)
  · have e4 : cheb i j 3 (side v - 4) = cheb i (side v - 1 - j) 3 3 := by unfold cheb dist; omega
    have e1 : cheb i (side v - 1 - j) 3 3 ≤ 4 := by unfold cheb dist; omega
    have e2 : 5 ≤ cheb i j 3 3 := by unfold cheb dist; omega
    have e3 : 5 ≤ cheb i j (side v - 4) 3 := by unfold cheb dist; omega
    have e : min (cheb i j 3 3) (min (cheb i j 3 (side v - 4)) (cheb i j (side v - 4) 3)) =
        cheb i (side v - 1 - j) 3 3 := by omega
    rw [e, finderStage_TR (by omega) (by omega) (by omega)]
    have := localV_spec i (by omega) (side v - 1 - j) (by omega)
    have c : ((side v - 1 - j : Nat) : Int) = ((v * 4 + 17 : Nat) : Int) - 1 - j := by omega
    rw [c] at this
    exact this
  · have e4 : cheb i j (side v - 4) 3 = cheb (side v - 1 - i) j 3 3 := by unfold cheb dist; omega
    have e1 : cheb (side v - 1 - i) j 3 3 ≤ 4 := by unfold cheb dist; omega
    have e2 : 5 ≤ cheb i j 3 3 := by unfold cheb dist; omega
    have e3 : 5 ≤ cheb i j 3 (side v - 4) := by unfold cheb dist; omega
    have e : min (cheb i j 3 3) (min (cheb i j 3 (side v - 4)) (cheb i j (side v - 4) 3)) =
        cheb (side v - 1 - i) j 3 3 := by omega
    rw [e, finderStage_BL (by omega) (by omega) (by omega)]
    have := localV_spec (side v - 1 - i) (by omega) j (by omega)
    have c : ((side v - 1 - i : Nat) : Int) = ((v * 4 + 17 : Nat) : Int) - 1 - i := by omega
    rw [c] at this
    exact this

theorem finderStage_notin {v i j : Nat} (h1 : 1 ≤ v) (hi : i < side v) (hj : j < side v)
    (ha : inFinderArea v i j = false) : finderStage ((v * 4 + 17 : Nat) : Int) j i = INIT_V0 := by
  have hn : side v = 17 + 4 * v := rfl
  have h : ¬ (inFinderArea v i j = true) := by simp [ha]
  rw [inFinderArea_iff] at h
  exact finderStage_out (by omega) (by omega) (by omega) (by omega) (by omega) (by omega)

/-! ### classification of all modules -/

theorem inFormatArea_iff (v i j : Nat) : inFormatArea v i j = true ↔
    (i = 8 ∧ (j ≤ 8 ∨ side v - 8 ≤ j)) ∨ (j = 8 ∧ (i ≤ 8 ∨ side v - 8 ≤ i)) := by
  simp [inFormatArea]

theorem inVersionArea_iff (v i j : Nat) : inVersionArea v i j = true ↔
    7 ≤ v ∧ ((i < 6 ∧ side v - 11 ≤ j ∧ j < side v - 8) ∨ (j < 6 ∧ side v - 11 ≤ i ∧ i < side v - 8)) := by
  simp [inVersionArea]; omega

theorem inTiming_iff (v i j : Nat) : inTiming v i j = true ↔
    (i = 6 ∧ 8 ≤ j ∧ j + 9 ≤ side v) ∨ (j = 6 ∧ 8 ≤ i ∧ i + 9 ≤ side v) := by
  simp [inTiming]; omega

theorem isDarkModule_iff (v i j : Nat) : isDarkModule v i j = true ↔ i = side v - 8 ∧ j = 8 := by
  simp [isDarkModule]

theorem isFunction_iff (v i j : Nat) : isFunction v i j = true ↔
    inFinderArea v i j = true ∨ inFormatArea v i j = true ∨ i = 6 ∨ j = 6 ∨ inVersionArea v i j = true ∨
      (alignAt v i j).isSome = true := by
  simp [isFunction, or_assoc]

/-- Cells reserved for format information, in the standard's coordinates. -/
theorem inFmt_iff {v i j : Nat} (h1 : 1 ≤ v) (hi : i < side v) (hj : j < side v) :
    InFmt ((v * 4 + 17 : Nat) : Int) j i ↔
      (inFormatArea v i j = true ∧ isDarkModule v i j = false ∧ i ≠ 6 ∧ j ≠ 6) := by
  have e : isDarkModule v i j = false ↔ ¬ (isDarkModule v i j = true) := by simp
  have hn : side v = 17 + 4 * v := rfl
  rw [e, isDarkModule_iff, inFormatArea_iff, hn]
  constructor
  · rintro (h | h | h | h) <;> omega
  · rintro ⟨h, h2⟩
    rcases h with ⟨rfl, h | h⟩ | ⟨rfl, h | h⟩ <;> omega

theorem inVer_iff {v i j : Nat} (h1 : 1 ≤ v) (hi : i < side v) (hj : j < side v) :
    (7 ≤ v ∧ InVer ((v * 4 + 17 : Nat) : Int) j i) ↔ inVersionArea v i j = true := by
  have hn : side v = 17 + 4 * v := rfl
  rw [inVersionArea_iff, hn]
  constructor
  · rintro ⟨h, h | h⟩ <;> omega
  · rintro ⟨h, h | h⟩ <;> omega

/-- Value of the prefilled matrix with the standard's predicates. -/
theorem prefillV_spec {v i j : Nat} (h1 : 1 ≤ v) (h40 : v ≤ 40) (hi : i < side v) (hj : j < side v) :
    prefillV v (alignLocs v) j i =
      if inVersionArea v i j then VERSION_V0
      else if inFormatArea v i j = true ∧ isDarkModule v i j = false ∧ i ≠ 6 ∧ j ≠ 6 then FORMAT_V0
      else if isDarkModule v i j then DARK_V1
      else if inTiming v i j then (if timingColour i j then TIMING_V1 else TIMING_V0)
      else match alignAt v i j with
        | some (a, b) => if cheb i j a b = 1 then DATA_V0 else DATA_V1
        | none => finderStage ((v * 4 + 17 : Nat) : Int) j i := by
  have hn : side v = 17 + 4 * v := rfl
  unfold prefillV
  simp only [inVer_iff h1 hi hj, inFmt_iff h1 hi hj]
  rw [find_near_all h1 h40]
  by_cases hV : inVersionArea v i j = true
  · rw [if_pos hV, if_pos hV]
  rw [if_neg hV, if_neg hV]
  by_cases hF : inFormatArea v i j = true ∧ isDarkModule v i j = false ∧ i ≠ 6 ∧ j ≠ 6
  · rw [if_pos hF, if_pos hF]
  rw [if_neg hF, if_neg hF]
  have eD : ((j : Int) = 8 ∧ (i : Int) = ((v * 4 + 17 : Nat) : Int) - 8) ↔ isDarkModule v i j = true := by
    rw [isDarkModule_iff]; omega
  by_cases hD : isDarkModule v i j = true
  · rw [if_pos (eD.2 hD), if_pos hD]
  rw [if_neg (fun h => hD (eD.1 h)), if_neg hD]
  have eT : timingColour i j = true ↔ (i + j) % 2 = 0 := by simp [timingColour]
  by_cases hT : inTiming v i j = true
  · rw [if_pos hT]
    rw [inTiming_iff] at hT
    rcases hT with hT | hT
    · rw [if_neg (by omega), if_pos (by omega)]
      by_cases h2 : (j : Int) % 2 = 0
      · rw [if_pos h2, if_pos (by rw [eT]; omega)]
      · rw [if_neg h2, if_neg (by rw [eT]; omega)]
    · rw [if_pos (by omega)]
      by_cases h2 : (i : Int) % 2 = 0
      · rw [if_pos h2, if_pos (by rw [eT]; omega)]
      · rw [if_neg h2, if_neg (by rw [eT]; omega)]
  · rw [if_neg hT]
    rw [inTiming_iff] at hT
    rw [if_neg (by omega), if_neg (by omega)]
    cases hA : alignAt v i j with
    | none => rfl
    | some p =>
      obtain ⟨a, b⟩ := p
      have f := alignAt_facts' h1 h40 hA
      simp only [Option.map_some, alignV]
      have e : OnRing 2 ((b : Int) - 1) ((a : Int) - 1) j i ↔ cheb i j a b = 1 := by
        have f1 := f.1; have f2 := f.2.1
        clear f hT hF hV hD eT eD hA
        unfold cheb dist at *
        constructor
        · rintro ⟨h1, h2, h3, h4, h5⟩; omega
        · intro h; omega
      by_cases h : cheb i j a b = 1
      · rw [if_pos h, if_pos (e.2 h)]
      · rw [if_neg h, if_neg (fun h' => h (e.1 h'))]

/-- A module is left for data exactly when it is not a function module; otherwise it has another type. -/
theorem prefillV_init {v i j : Nat} (h1 : 1 ≤ v) (h40 : v ≤ 40) (hi : i < side v) (hj : j < side v) :
    (isFunction v i j = false → prefillV v (alignLocs v) j i = INIT_V0) ∧
    (isFunction v i j = true → (prefillV v (alignLocs v) j i).ty ≠ .init) := by
  have hn : side v = 17 + 4 * v := rfl
  rw [prefillV_spec h1 h40 hi hj]
  constructor
  · intro hf
    have hf' : ¬ (isFunction v i j = true) := by simp [hf]
    rw [isFunction_iff] at hf'
    simp only [not_or] at hf'
    obtain ⟨a1, a2, a3, a4, a5, a6⟩ := hf'
    have hD : ¬ isDarkModule v i j = true := by
      rw [isDarkModule_iff]; intro h; apply a2; rw [inFormatArea_iff]; omega
    have hT : ¬ inTiming v i j = true := by rw [inTiming_iff]; omega
    have hA : alignAt v i j = none := by simpa using a6
    rw [if_neg a5, if_neg (fun h => a2 h.1), if_neg hD, if_neg hT, hA]
    exact finderStage_notin h1 hi hj (by simpa using a1)
  · intro hf
    rw [isFunction_iff] at hf
    by_cases hV : inVersionArea v i j = true
    · rw [if_pos hV]; simp [VERSION_V0]
    rw [if_neg hV]
    by_cases hF : inFormatArea v i j = true ∧ isDarkModule v i j = false ∧ i ≠ 6 ∧ j ≠ 6
    · rw [if_pos hF]; simp [FORMAT_V0]
    rw [if_neg hF]
    by_cases hD : isDarkModule v i j = true
    · rw [if_pos hD]; simp [DARK_V1]
    rw [if_neg hD]
    by_cases hT : inTiming v i j = true
    · rw [if_pos hT]; split <;> simp [TIMING_V0, TIMING_V1]
    rw [if_neg hT]
    cases hA : alignAt v i j with
    | some p => obtain ⟨a, b⟩ := p; simp only; split <;> simp [DATA_V0, DATA_V1]
    | none =>
      simp only
      have hfin : inFinderArea v i j = true := by
        rw [inTiming_iff] at hT
        have hD' : isDarkModule v i j = false := by simpa using hD
        simp only [hD', true_and, not_and, ne_eq, Decidable.not_not] at hF
        rw [inFinderArea_iff]
        rcases hf with h | h | h | h | h | h
        · rw [inFinderArea_iff] at h; exact h
        · have h5 := hF h
          have h6 := (inFormatArea_iff v i j).1 h
          by_cases h7 : i = 6
          · omega
          · have := h5 h7; omega
        · omega
        · omega
        · exact absurd h hV
        · rw [hA] at h; simp at h
      rcases (finderStage_in h1 hi hj hfin).1 with h | h <;> rw [h] <;> simp

/-- Pattern modules have the prescribed colour and lie outside the format and version areas. -/
theorem prefillV_pattern {v i j : Nat} (h1 : 1 ≤ v) (h40 : v ≤ 40) (hi : i < side v) (hj : j < side v)
    {c : Bool} (hc : patternColour v i j = some c) :
    (prefillV v (alignLocs v) j i).bit = c ∧ isFunction v i j = true ∧ inVersionArea v i j = false ∧
    ¬ (inFormatArea v i j = true ∧ isDarkModule v i j = false ∧ i ≠ 6 ∧ j ≠ 6) := by
  have hn : side v = 17 + 4 * v := rfl
  rw [prefillV_spec h1 h40 hi hj]
  have bV : inVersionArea v i j = false ↔ ¬ inVersionArea v i j = true := by simp
  rw [bV]
  unfold patternColour at hc
  by_cases hfin : inFinderArea v i j = true
  · rw [if_pos hfin] at hc
    simp only [Option.some.injEq] at hc
    have hfin' := (inFinderArea_iff v i j).1 hfin
    have hV : ¬ inVersionArea v i j = true := by rw [inVersionArea_iff]; omega
    have hF0 : ¬ inFormatArea v i j = true := by rw [inFormatArea_iff]; omega
    have hD : ¬ isDarkModule v i j = true := by rw [isDarkModule_iff]; omega
    have hT : ¬ inTiming v i j = true := by rw [inTiming_iff]; omega
    have hA : alignAt v i j = none := by
      cases hA : alignAt v i j with
      | none => rfl
      | some p =>
        obtain ⟨a, b⟩ := p
        have f := alignAt_facts' h1 h40 hA
        unfold dist at f
        omega
    refine ⟨?_, ?_, hV, fun h => hF0 h.1⟩
    · rw [if_neg hV, if_neg (fun h => hF0 h.1), if_neg hD, if_neg hT, hA, ← hc]
      exact (finderStage_in h1 hi hj hfin).2
    · rw [isFunction_iff]; exact Or.inl hfin
  · rw [if_neg hfin] at hc
    cases hA : alignAt v i j with
    | some p =>
      obtain ⟨a, b⟩ := p
      rw [hA] at hc
      simp only [Option.some.injEq] at hc
      have f := alignAt_facts' h1 h40 hA
      have hV : ¬ inVersionArea v i j = true := by
        rw [inVersionArea_iff]; unfold dist at f; omega
      have hF : ¬ (inFormatArea v i j = true ∧ isDarkModule v i j = false ∧ i ≠ 6 ∧ j ≠ 6) := by
        rintro ⟨h, -, h2, h3⟩
        rw [inFormatArea_iff] at h; unfold dist at f; omega
      have hD : ¬ isDarkModule v i j = true := by
        rw [isDarkModule_iff]; unfold dist at f; omega
      refine ⟨?_, ?_, hV, hF⟩
      · rw [if_neg hV, if_neg hF, if_neg hD, ← hc]
        by_cases hT : inTiming v i j = true
        · rw [if_pos hT]
          rw [inTiming_iff] at hT
          have hch : (timingColour i j = true) ↔ ¬ (cheb i j a b = 1) := by
            simp only [timingColour, beq_iff_eq]
            rcases hT with hT | hT
            · have hb : a = 6 := by unfold dist at f; omega
              have : cheb i j a b = dist j b := by unfold cheb dist; omega
              rw [this]; unfold dist at *; omega
            · have hb : b = 6 := by unfold dist at f; omega
              have : cheb i j a b = dist i a := by unfold cheb dist; omega
              rw [this]; unfold dist at *; omega
          by_cases h : cheb i j a b = 1
          · rw [if_neg (fun h' => (hch.1 h') h)]; simp [h, TIMING_V0]
          · rw [if_pos (hch.2 h)]; simp [h, TIMING_V1]
        · rw [if_neg hT]
          by_cases h : cheb i j a b = 1
          · simp [h, DATA_V0]
          · simp [h, DATA_V1]
      · rw [isFunction_iff, hA]; simp
    | none =>
      rw [hA] at hc
      simp only at hc
      by_cases hT : inTiming v i j = true
      · rw [if_pos hT] at hc
        simp only [Option.some.injEq] at hc
        have hT' := (inTiming_iff v i j).1 hT
        have hV : ¬ inVersionArea v i j = true := by rw [inVersionArea_iff]; omega
        have hF : ¬ (inFormatArea v i j = true ∧ isDarkModule v i j = false ∧ i ≠ 6 ∧ j ≠ 6) := by
          rintro ⟨h, -, h2, h3⟩; omega
        have hD : ¬ isDarkModule v i j = true := by rw [isDarkModule_iff]; omega
        refine ⟨?_, ?_, hV, hF⟩
        · rw [if_neg hV, if_neg hF, if_neg hD, if_pos hT, ← hc]
          cases timingColour i j <;> rfl
        · rw [isFunction_iff]; omega
      · rw [if_neg hT] at hc
        by_cases hD : isDarkModule v i j = true
        · rw [if_pos hD] at hc
          simp only [Option.some.injEq] at hc
          have hD' := (isDarkModule_iff v i j).1 hD
          have hV : ¬ inVersionArea v i j = true := by rw [inVersionArea_iff]; omega
          have hF : ¬ (inFormatArea v i j = true ∧ isDarkModule v i j = false ∧ i ≠ 6 ∧ j ≠ 6) := by
            rintro ⟨h, h2, -⟩; rw [hD] at h2; simp at h2
          refine ⟨?_, ?_, hV, hF⟩
          · rw [if_neg hV, if_neg hF, if_pos hD, ← hc]; rfl
          · rw [isFunction_iff, inFormatArea_iff]; omega
        · rw [if_neg hD] at hc; simp at hc

end QR
