import Verif.Props.Tables
/-!
# C48: binary search over the version table

`binarySearchVersion low high compare fuel` is the Go function stopped after `fuel` rounds of its loop;
`Search.running` means that the loop has not ended after that many rounds.
-/
namespace QR
open Spec QR.Matrix

/-- The entry is the one for the key. -/
def IsKey (ver ec : Int) (V : Version) : Prop := ver = V.ver ∧ ec = V.ecLevel

/-- The entry comes after the key (larger version, or same version and larger level). -/
def After (ver ec : Int) (V : Version) : Prop := ver < V.ver ∨ (ver = V.ver ∧ ec < V.ecLevel)

theorem compare_zero {ver ec : Int} {V : Version} : defaultBinaryCompare ver ec V = 0 ↔ IsKey ver ec V := by
  unfold defaultBinaryCompare IsKey
  by_cases h : ver - V.ver = 0
  · simp only [h, if_true]; omega
  · simp only [h, if_false, false_iff]; omega

theorem compare_neg {ver ec : Int} {V : Version} : defaultBinaryCompare ver ec V < 0 ↔ After ver ec V := by
  unfold defaultBinaryCompare After
  by_cases h : ver - V.ver = 0
  · simp only [h, if_true]; omega
  · simp only [h, if_false]; omega

/-- The table is sorted: whatever follows an entry that is not before the key comes after the key. -/
theorem table_sorted {ver ec : Int} {i j : Nat} {V W : Version} (hij : i < j)
    (hV : versions[i]? = some V) (hW : versions[j]? = some W) (h : defaultBinaryCompare ver ec V ≤ 0) :
    defaultBinaryCompare ver ec W < 0 := by
  have hj : j < 160 := by
    rw [← versions_length]; exact (List.getElem?_eq_some_iff.1 hW).1
  obtain ⟨V', hV', rV⟩ := table_check i (by omega)
  obtain ⟨W', hW', rW⟩ := table_check j hj
  rw [hV] at hV'; cases hV'
  rw [hW] at hW'; cases hW'
  have rV := RowOk.of rV
  have rW := RowOk.of rW
  rw [compare_neg]
  have h : IsKey ver ec V ∨ After ver ec V := by
    rw [← compare_zero, ← compare_neg]; omega
  unfold IsKey After at *
  rw [rV.ver, rV.level] at h
  rw [rW.ver, rW.level]
  omega

theorem table_get {i : Nat} (h : i < 160) : ∃ V, versions[i]? = some V := by
  obtain ⟨V, hV, _⟩ := table_check i h
  exact ⟨V, hV⟩

theorem loop_step (cmp : Version → Int) (fuel : Nat) (low high : Int) (mid : Nat) (V : Version)
    (hlh : low ≤ high) (hm : (mid : Int) = (low + high) / 2) (hV : versions[mid]? = some V) :
    binarySearchLoop versions cmp (fuel + 1) low high =
      if cmp V = 0 then .hit V else if cmp V > 0 then binarySearchLoop versions cmp fuel ((mid : Int) + 1) high
      else binarySearchLoop versions cmp fuel low mid := by
  conv => lhs; unfold binarySearchLoop
  simp only [hlh, if_true, ← hm, Int.toNat_natCast, hV]

theorem loop_hit {ver ec : Int} : ∀ (fuel : Nat) (low high : Int), 0 ≤ low → high < 160 → high - low < fuel →
    ∀ (i : Nat) (V : Version), low ≤ i → (i : Int) ≤ high → versions[i]? = some V → defaultBinaryCompare ver ec V = 0 →
    binarySearchLoop versions (defaultBinaryCompare ver ec) fuel low high = .hit V := by
  intro fuel
  induction fuel with
  | zero => intro low high h0 h1 hf i V hi hi' _ _; omega
  | succ fuel ih =>
    intro low high h0 h1 hf i V hi hi' hV hc
    obtain ⟨mid, hm⟩ : ∃ mid : Nat, (mid : Int) = (low + high) / 2 := ⟨((low + high) / 2).toNat, by omega⟩
    obtain ⟨W, hW⟩ := table_get (i := mid) (by omega)
    rw [loop_step _ _ _ _ mid W (by omega) hm hW]
    by_cases hz : defaultBinaryCompare ver ec W = 0
    · rw [if_pos hz]
      rcases Nat.lt_trichotomy i mid with h | h | h
      · have := table_sorted (ver := ver) (ec := ec) h hV hW (by omega); omega
      · subst h; rw [hV] at hW; cases hW; rfl
      · have := table_sorted (ver := ver) (ec := ec) h hW hV (by omega); omega
    · rw [if_neg hz]
      by_cases hp : defaultBinaryCompare ver ec W > 0
      · rw [if_pos hp]
        have : mid < i := by
          rcases Nat.lt_trichotomy i mid with h | h | h
          · have := table_sorted (ver := ver) (ec := ec) h hV hW (by omega); omega
          · subst h; rw [hV] at hW; cases hW; omega
          · exact h
        exact ih _ _ (by omega) h1 (by omega) i V (by omega) hi' hV hc
      · rw [if_neg hp]
        have : i < mid := by
          rcases Nat.lt_trichotomy i mid with h | h | h
          · exact h
          · subst h; rw [hV] at hW; cases hW; omega
          · have := table_sorted (ver := ver) (ec := ec) h hW hV (by omega); omega
        exact ih _ _ h0 (by omega) (by omega) i V hi (by omega) hV hc

theorem loop_notFound {ver ec : Int} : ∀ (fuel : Nat) (low high : Int), 0 ≤ low → high < 160 → high - low + 1 < fuel → 0 < fuel →
    (∀ (i : Nat) (V : Version), low ≤ i → (i : Int) ≤ high → versions[i]? = some V → 0 < defaultBinaryCompare ver ec V) →
    binarySearchLoop versions (defaultBinaryCompare ver ec) fuel low high = .notFound := by
  intro fuel
  induction fuel with
  | zero =>
    intro low high h0 h1 hf h
    omega
  | succ fuel ih =>
    intro low high h0 h1 hf _ h
    by_cases hlh : low ≤ high
    · obtain ⟨mid, hm⟩ : ∃ mid : Nat, (mid : Int) = (low + high) / 2 := ⟨((low + high) / 2).toNat, by omega⟩
      obtain ⟨W, hW⟩ := table_get (i := mid) (by omega)
      have hp := h mid W (by omega) (by omega) hW
      rw [loop_step _ _ _ _ mid W hlh hm hW, if_neg (by omega), if_pos hp]
      exact ih _ _ (by omega) h1 (by omega) (by omega) (fun i V hi hi' hV => h i V (by omega) hi' hV)
    · unfold binarySearchLoop; rw [if_neg hlh]

theorem loop_running {ver ec : Int} : ∀ (fuel : Nat) (low high : Int), 0 ≤ low → high < 160 →
    (∀ (i : Nat) (V : Version), low ≤ i → (i : Int) ≤ high → versions[i]? = some V → defaultBinaryCompare ver ec V ≠ 0) →
    (∃ (i : Nat) (V : Version), low ≤ i ∧ (i : Int) ≤ high ∧ versions[i]? = some V ∧ defaultBinaryCompare ver ec V < 0) →
    binarySearchLoop versions (defaultBinaryCompare ver ec) fuel low high = .running := by
  intro fuel
  induction fuel with
  | zero => intros; rfl
  | succ fuel ih =>
    intro low high h0 h1 h ⟨i, V, hi, hi', hV, hc⟩
    obtain ⟨mid, hm⟩ : ∃ mid : Nat, (mid : Int) = (low + high) / 2 := ⟨((low + high) / 2).toNat, by omega⟩
    obtain ⟨W, hW⟩ := table_get (i := mid) (by omega)
    have hnz := h mid W (by omega) (by omega) hW
    rw [loop_step _ _ _ _ mid W (by omega) hm hW, if_neg hnz]
    by_cases hp : defaultBinaryCompare ver ec W > 0
    · rw [if_pos hp]
      have : mid < i := by
        rcases Nat.lt_trichotomy i mid with h | h | h
        · have := table_sorted (ver := ver) (ec := ec) h hV hW (by omega); omega
        · subst h; rw [hV] at hW; cases hW; omega
        · exact h
      exact ih _ _ (by omega) h1 (fun k U a b => h k U (by omega) b) ⟨i, V, by omega, hi', hV, hc⟩
    · rw [if_neg hp]
      exact ih _ _ h0 (by omega) (fun k U a b => h k U a (by omega)) ⟨mid, W, by omega, by omega, hW, by omega⟩

/-- Entry `i` lies in the range that is searched. -/
def InRange (low high : Int) (i : Nat) : Prop := low ≤ i ∧ (i : Int) ≤ high

theorem search_unfold (low high ver ec : Int) (fuel : Nat) (h : low ≤ high) (h0 : 0 ≤ high) (h160 : low ≤ 160) :
    binarySearchVersion low high (defaultBinaryCompare ver ec) fuel =
    binarySearchLoop versions (defaultBinaryCompare ver ec) fuel (if low < 0 then 0 else low) (if high ≥ 160 then 159 else high) := by
  unfold binarySearchVersion
  rw [if_neg (by omega), versions_length]
  rfl

/-- What the search does, for every range and every key (also keys that no version has): it finds the entry of
the key if the range contains it; else it never ends if some entry of the range comes after the key; else it
reports "not found".  161 rounds are enough for the two ends. -/
theorem C48_search_partial (low high ver ec : Int) :
    (∀ (i : Nat) (V : Version), InRange low high i → versions[i]? = some V → IsKey ver ec V →
      ∀ fuel, 161 < fuel → binarySearchVersion low high (defaultBinaryCompare ver ec) fuel = .hit V) ∧
    ((∀ (i : Nat) (V : Version), InRange low high i → versions[i]? = some V → ¬ IsKey ver ec V) →
      (∃ (i : Nat) (V : Version), InRange low high i ∧ versions[i]? = some V ∧ After ver ec V) →
      ∀ fuel, binarySearchVersion low high (defaultBinaryCompare ver ec) fuel = .running) ∧
    ((∀ (i : Nat) (V : Version), InRange low high i → versions[i]? = some V → ¬ IsKey ver ec V ∧ ¬ After ver ec V) →
      ∀ fuel, 161 < fuel → binarySearchVersion low high (defaultBinaryCompare ver ec) fuel = .notFound) := by
  have lt : ∀ {i : Nat} {V : Version}, versions[i]? = some V → i < 160 := by
    intro i V h; rw [← versions_length]; exact (List.getElem?_eq_some_iff.1 h).1
  unfold InRange
  refine ⟨?_, ?_, ?_⟩
  · intro i V hi hV hk fuel hf
    have := lt hV
    rw [search_unfold _ _ _ _ _ (by omega) (by omega) (by omega)]
    exact loop_hit fuel _ _ (by split <;> omega) (by split <;> omega) (by split <;> split <;> omega) i V
      (by split <;> omega) (by split <;> omega) hV (compare_zero.2 hk)
  · rintro hn ⟨i, V, hi, hV, ha⟩ fuel
    have := lt hV
    rw [search_unfold _ _ _ _ _ (by omega) (by omega) (by omega)]
    refine loop_running fuel _ _ (by split <;> omega) (by split <;> omega) ?_ ⟨i, V, by split <;> omega, by split <;> omega, hV, compare_neg.2 ha⟩
    intro k W h1 h2 hW hz
    have := lt hW
    exact hn k W ⟨by split at h1 <;> omega, by split at h2 <;> omega⟩ hW (compare_zero.1 hz)
  · intro hn fuel hf
    by_cases hg : low > high ∨ low > 160 ∨ high < 0
    · unfold binarySearchVersion; rw [if_pos hg]
    · rw [search_unfold _ _ _ _ _ (by omega) (by omega) (by omega)]
      refine loop_notFound fuel _ _ (by split <;> omega) (by split <;> omega) (by split <;> split <;> omega) (by omega) ?_
      intro k W h1 h2 hW
      have hk := hn k W ⟨by split at h1 <;> omega, by split at h2 <;> omega⟩ hW
      rw [← compare_zero, ← compare_neg] at hk
      omega

/-- Every entry of the table is found by searching the whole table. -/
theorem C48_found (v ec : Nat) (h1 : 1 ≤ v) (h40 : v ≤ 40) (h3 : 1 ≤ ec) (h4 : ec ≤ 4) : ∃ V, loadVersion v ec = .ok V ∧
    ∀ fuel, 161 < fuel → binarySearchVersion 0 160 (defaultBinaryCompare v ec) fuel = .hit V := by
  obtain ⟨V, hV, hl, hv, he⟩ := C24_entries.2 v ec h1 h40 h3 h4
  refine ⟨V, hl, ?_⟩
  refine (C48_search_partial 0 160 v ec).1 _ V ?_ hV ⟨by rw [hv], by rw [he]⟩
  unfold InRange; omega

/-- C48 is false: the search for version 0 (any level) never ends. -/
theorem C48_counterexample (ec : Int) : (∀ V ∈ versions, ¬ IsKey 0 ec V) ∧
    ∀ fuel, binarySearchVersion 0 160 (defaultBinaryCompare 0 ec) fuel = .running := by
  have hn : ∀ V ∈ versions, ¬ IsKey 0 ec V := by
    intro V hV
    obtain ⟨i, hi, rfl⟩ := List.getElem_of_mem hV
    obtain ⟨W, hW, r⟩ := table_check i (by rw [← versions_length]; exact hi)
    have := (List.getElem?_eq_some_iff.1 hW).2
    rw [this]
    unfold IsKey
    rw [(RowOk.of r).ver]
    omega
  refine ⟨hn, ?_⟩
  refine (C48_search_partial 0 160 0 ec).2.1 ?_ ?_
  · intro i V _ hV
    exact hn V (List.mem_of_getElem? hV)
  · obtain ⟨V, hV, r⟩ := table_check 0 (by omega)
    refine ⟨0, V, by unfold InRange; omega, hV, ?_⟩
    unfold After
    rw [(RowOk.of r).ver]
    omega

/-- Versions above 40 are reported as not found. -/
theorem C48_above (v : Nat) (ec : Int) (h : 40 < v) (fuel : Nat) (hf : 161 < fuel) :
    binarySearchVersion 0 160 (defaultBinaryCompare v ec) fuel = .notFound := by
  refine (C48_search_partial 0 160 v ec).2.2 ?_ fuel hf
  intro i V _ hV
  have hi : i < 160 := by rw [← versions_length]; exact (List.getElem?_eq_some_iff.1 hV).1
  obtain ⟨W, hW, r⟩ := table_check i hi
  rw [hV] at hW; cases hW
  unfold IsKey After
  rw [(RowOk.of r).ver]
  omega

end QR
