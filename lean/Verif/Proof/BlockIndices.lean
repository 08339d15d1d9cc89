import Verif.Proof.Damage
import Mathlib.Data.List.Nodup
import Mathlib.Data.List.Perm.Subperm
/-!
# Codewords and blocks: every codeword belongs to one block
-/
namespace QR
open Spec

/-- The block of the codeword at position `i`. -/
def blockOf (v : Nat) (lv : Level) (i : Nat) : Nat :=
  if i < shortLen v lv * numBlocks v lv then i % numBlocks v lv
  else if i < dataCodewords v lv then i - shortLen v lv * numBlocks v lv + numShort v lv
  else (i - dataCodewords v lv) % numBlocks v lv

theorem dataIndex_lt {v : Nat} (h1 : 1 ≤ v) (h40 : v ≤ 40) (lv : Level) {b t : Nat} (hb : b < numBlocks v lv) (ht : t < blockLen v lv b) :
    dataIndex v lv b t < dataCodewords v lv := by
  obtain ⟨a1, a2, a3, a4, _, a6⟩ := block_arith h1 h40 lv
  unfold blockLen at ht
  unfold dataIndex
  split
  · rename_i h
    have : (t + 1) * numBlocks v lv ≤ shortLen v lv * numBlocks v lv := Nat.mul_le_mul_right _ h
    rw [Nat.add_mul] at this
    omega
  · split at ht <;> omega

theorem blockOf_data {v : Nat} (h1 : 1 ≤ v) (h40 : v ≤ 40) (lv : Level) {b t : Nat} (hb : b < numBlocks v lv) (ht : t < blockLen v lv b) :
    blockOf v lv (dataIndex v lv b t) = b := by
  have hl := dataIndex_lt h1 h40 lv hb ht
  obtain ⟨a1, a2, a3, a4, _, a6⟩ := block_arith h1 h40 lv
  unfold blockLen at ht
  unfold blockOf
  unfold dataIndex at hl ⊢
  by_cases h : t < shortLen v lv
  · rw [if_pos h] at hl ⊢
    have : (t + 1) * numBlocks v lv ≤ shortLen v lv * numBlocks v lv := Nat.mul_le_mul_right _ h
    rw [Nat.add_mul] at this
    rw [if_pos (by omega), Nat.mul_add_mod_of_lt' hb]
  · rw [if_neg h] at hl ⊢
    rw [if_neg (by omega), if_pos hl]
    split at ht <;> omega
where
  Nat.mul_add_mod_of_lt' {t n b : Nat} (hb : b < n) : (t * n + b) % n = b := by
    rw [Nat.mul_comm, Nat.mul_add_mod, Nat.mod_eq_of_lt hb]

theorem blockOf_ec {v : Nat} (h1 : 1 ≤ v) (h40 : v ≤ 40) (lv : Level) {b t : Nat} (hb : b < numBlocks v lv) :
    blockOf v lv (ecIndex v lv b t) = b := by
  obtain ⟨a1, a2, a3, a4, _, a6⟩ := block_arith h1 h40 lv
  unfold blockOf ecIndex
  have e : dataCodewords v lv + t * numBlocks v lv + b - dataCodewords v lv = t * numBlocks v lv + b := by omega
  rw [if_neg (by omega), if_neg (by omega), e, Nat.mul_comm, Nat.mul_add_mod, Nat.mod_eq_of_lt hb]

/-- Every codeword of a block belongs to it and is a codeword of the symbol. -/
theorem blockIndices_mem {v : Nat} (h1 : 1 ≤ v) (h40 : v ≤ 40) (lv : Level) {b i : Nat} (hb : b < numBlocks v lv) (h : i ∈ blockIndices v lv b) :
    blockOf v lv i = b ∧ i < totalCodewords v := by
  obtain ⟨a1, a2, a3, a4, _, a6⟩ := block_arith h1 h40 lv
  unfold blockIndices at h
  rcases List.mem_append.1 h with h | h
  · obtain ⟨t, ht, rfl⟩ := List.mem_map.1 h
    have ht := List.mem_range.1 ht
    exact ⟨blockOf_data h1 h40 lv hb ht, by have := dataIndex_lt h1 h40 lv hb ht; omega⟩
  · obtain ⟨t, ht, rfl⟩ := List.mem_map.1 h
    have ht := List.mem_range.1 ht
    refine ⟨blockOf_ec h1 h40 lv hb, ?_⟩
    unfold ecIndex
    have : (t + 1) * numBlocks v lv ≤ ecPerBlock v lv * numBlocks v lv := Nat.mul_le_mul_right _ ht
    rw [Nat.add_mul] at this
    omega

theorem blockIndices_nodup {v : Nat} (h1 : 1 ≤ v) (h40 : v ≤ 40) (lv : Level) {b : Nat} (hb : b < numBlocks v lv) :
    (blockIndices v lv b).Nodup := by
  obtain ⟨a1, a2, a3, a4, _, a6⟩ := block_arith h1 h40 lv
  unfold blockIndices
  rw [List.nodup_append]
  refine ⟨?_, ?_, ?_⟩
  · refine List.Nodup.map_on ?_ List.nodup_range
    intro s hs t ht e
    have hs := List.mem_range.1 hs
    have ht := List.mem_range.1 ht
    unfold blockLen at hs ht
    unfold dataIndex at e
    have key : ∀ u, u < shortLen v lv → u * numBlocks v lv + b < shortLen v lv * numBlocks v lv := by
      intro u hu
      have : (u + 1) * numBlocks v lv ≤ shortLen v lv * numBlocks v lv := Nat.mul_le_mul_right _ hu
      rw [Nat.add_mul] at this
      omega
    by_cases h : s < shortLen v lv
    · rw [if_pos h] at e
      have := key s h
      by_cases h' : t < shortLen v lv
      · rw [if_pos h'] at e
        exact Nat.eq_of_mul_eq_mul_right a1 (by omega)
      · rw [if_neg h'] at e; omega
    · rw [if_neg h] at e
      by_cases h' : t < shortLen v lv
      · have := key t h'
        rw [if_pos h'] at e; omega
      · by_cases hb' : b < numShort v lv <;> simp only [hb', if_true, if_false] at hs ht <;> omega
  · refine List.Nodup.map_on ?_ List.nodup_range
    intro s _ t _ e
    unfold ecIndex at e
    exact Nat.eq_of_mul_eq_mul_right a1 (by omega)
  · intro i hi j hj
    obtain ⟨t, ht, rfl⟩ := List.mem_map.1 hi
    obtain ⟨u, _, rfl⟩ := List.mem_map.1 hj
    have := dataIndex_lt h1 h40 lv hb (List.mem_range.1 ht)
    unfold ecIndex
    omega

/-- If the damaged codewords are among `T`, a block has at most as many damaged codewords as `T` has codewords of that block. -/
theorem wrongCodewords_le {v : Nat} (h1 : 1 ≤ v) (h40 : v ≤ 40) (lv : Level) {b : Nat} (hb : b < numBlocks v lv) {a c : List (List Bool)} {T : List Nat}
    (hT : ∀ i < totalCodewords v, wrongAt a c (codewordCells v i) ≠ 0 → i ∈ T) :
    wrongCodewords v lv a c b ≤ T.countP fun i => blockOf v lv i == b := by
  unfold wrongCodewords
  rw [List.countP_eq_length_filter, List.countP_eq_length_filter]
  refine List.Subperm.length_le (List.Nodup.subperm ((blockIndices_nodup h1 h40 lv hb).filter _) ?_)
  intro i hi
  obtain ⟨hm, hw⟩ := List.mem_filter.1 hi
  obtain ⟨g1, g2⟩ := blockIndices_mem h1 h40 lv hb hm
  rw [List.mem_filter]
  exact ⟨hT i g2 (by simpa using hw), by simp [g1]⟩

/-! ## Counting wrong modules -/

theorem wrongAt_le {a c : List (List Bool)} {cells all : List (Nat × Nat)} (hn : cells.Nodup) (hs : ∀ p ∈ cells, p ∈ all) :
    wrongAt a c cells ≤ wrongAt a c all := by
  unfold wrongAt
  rw [List.countP_eq_length_filter, List.countP_eq_length_filter]
  refine List.Subperm.length_le (List.Nodup.subperm (hn.filter _) ?_)
  intro p hp
  obtain ⟨h1, h2⟩ := List.mem_filter.1 hp
  exact List.mem_filter.2 ⟨hs p h1, h2⟩

theorem mem_allCells {v i j : Nat} : (i, j) ∈ allCells v ↔ i < side v ∧ j < side v := by
  unfold allCells
  simp only [List.mem_flatMap, List.mem_map, List.mem_range, Prod.mk.injEq]
  constructor
  · rintro ⟨x, hx, y, hy, rfl, rfl⟩; exact ⟨hx, hy⟩
  · rintro ⟨hi, hj⟩; exact ⟨i, hi, j, hj, rfl, rfl⟩

/-- The codewords with a wrong module, one entry per wrong module. -/
def wrongList (v : Nat) (a c : List (List Bool)) : List Nat :=
  ((dataModules v).zipIdx.filter fun x => pixel a x.1.1 x.1.2 != pixel c x.1.1 x.1.2).map fun x => x.2 / 8

theorem wrongList_length (v : Nat) (a c : List (List Bool)) : (wrongList v a c).length = wrongAt a c (dataModules v) := by
  unfold wrongList wrongAt
  rw [List.length_map, ← List.countP_eq_length_filter]
  have : (dataModules v).countP (fun p => pixel a p.1 p.2 != pixel c p.1 p.2) =
      ((dataModules v).zipIdx.map Prod.fst).countP (fun p => pixel a p.1 p.2 != pixel c p.1 p.2) := by rw [List.zipIdx_map_fst]
  rw [this, List.countP_map]
  rfl

theorem wrongList_mem {v i : Nat} {a c : List (List Bool)} (h : wrongAt a c (codewordCells v i) ≠ 0) : i ∈ wrongList v a c := by
  unfold wrongAt at h
  have h := List.countP_pos_iff.1 (Nat.pos_of_ne_zero h)
  obtain ⟨p, hp, hw⟩ := h
  unfold codewordCells at hp
  obtain ⟨r, hr⟩ := List.mem_iff_getElem?.1 hp
  rw [List.getElem?_take] at hr
  split at hr
  · rename_i h8
    rw [List.getElem?_drop] at hr
    unfold wrongList
    refine List.mem_map.2 ⟨(p, 8 * i + r), List.mem_filter.2 ⟨?_, hw⟩, by simp only; omega⟩
    rw [List.mem_zipIdx_iff_getElem?]
    exact hr
  · cases hr

theorem dataModules_cells {v : Nat} (h1 : 1 ≤ v) : (dataModules v).Nodup ∧ ∀ p ∈ dataModules v, p ∈ allCells v := by
  refine ⟨(zigzag_nodup h1).filter _, ?_⟩
  rintro ⟨i, j⟩ hp
  exact mem_allCells.2 (mem_zigzag h1 i j (List.mem_filter.1 hp).1)

theorem wrongCodewords_le_wrong {v : Nat} (h1 : 1 ≤ v) (h40 : v ≤ 40) (lv : Level) {b : Nat} (hb : b < numBlocks v lv) (a c : List (List Bool)) :
    wrongCodewords v lv a c b ≤ wrongAt a c (allCells v) := by
  refine Nat.le_trans (wrongCodewords_le h1 h40 lv hb (T := wrongList v a c) (fun i _ h => wrongList_mem h)) ?_
  refine Nat.le_trans List.countP_le_length ?_
  rw [wrongList_length]
  obtain ⟨hn, hs⟩ := dataModules_cells h1
  exact wrongAt_le hn hs

theorem formatCells_table : ∀ v ∈ List.range 41, 1 ≤ v → (formatCells1 ++ formatCells2 v).Nodup ∧
    ∀ p ∈ formatCells1 ++ formatCells2 v, p.1 < side v ∧ p.2 < side v := by
  decide +kernel

theorem wrongFormat_le {v : Nat} (h1 : 1 ≤ v) (h40 : v ≤ 40) (a c : List (List Bool)) :
    wrongAt a c formatCells1 + wrongAt a c (formatCells2 v) ≤ wrongAt a c (allCells v) := by
  obtain ⟨hn, hs⟩ := formatCells_table v (List.mem_range.2 (by omega)) h1
  have e : wrongAt a c formatCells1 + wrongAt a c (formatCells2 v) = wrongAt a c (formatCells1 ++ formatCells2 v) := by
    unfold wrongAt; rw [List.countP_append]
  rw [e]
  refine wrongAt_le hn ?_
  rintro ⟨i, j⟩ hp
  exact mem_allCells.2 (hs (i, j) hp)

end QR
