import Verif.Props.Total
/-!
# The symbol is fully determined; the stream it carries
-/
namespace QR
open Spec QR.Matrix

theorem isStream_of {E : Ext} (hE : E.Systematic) {v : Nat} (h1 : 1 ≤ v) (h40 : v ≤ 40) (lv : Level) {bs : Bits}
    (hbs : bs.length = 8 * dataCodewords v lv) : IsStream E.rs v lv bs (finalStream E v lv bs) := by
  have blk : ∀ b (hb : b < numBlocks v lv),
      (dataBlock v lv (toCodewords (totalCodewords v) (finalStream E v lv bs)) b).flatMap byteToBits =
      ((dataBlks v lv bs)[b]'(by rw [dataBlks_length]; exact hb)).data :=
    fun b hb => deinterleave_block hE h1 h40 lv hbs b hb
  constructor
  · exact finalStream_length hE h1 h40 lv hbs
  · have := deinterleave_eq hE h1 h40 lv hbs
    unfold deinterleave at this
    rw [List.flatMap_assoc] at this
    exact this
  · intro b hb
    have hb' : b < (dataBlks v lv bs).length := by rw [dataBlks_length]; exact hb
    rw [blk b hb, ecBlock_eq hE h1 h40 lv hbs b hb]
    obtain ⟨a1, a2, a3⟩ := dataBlks_get h1 h40 lv hbs b hb'
    rw [← rs_eq hE (by rw [a1]; omega), a3]
  · have ha := block_arith h1 h40 lv
    have e1 := flatten_len8 (dataCW_len8 h1 h40 lv hbs)
    have e2 := flatten_len8 (ecCW_len8 hE h1 h40 lv hbs)
    have e3 := dataCW_length h1 h40 lv (bs := bs)
    have e4 : (ecCW E v lv bs).length = _ := ecCW_length lv
    have e5 := ha.2.2.2.1
    unfold finalStream
    rw [List.drop_append_of_le_length (by rw [List.length_append, e1, e2, e3, e4]; omega),
      List.drop_of_length_le (by rw [List.length_append, e1, e2, e3, e4]; omega)]
    rfl

theorem mem_formatCells1 {i j : Nat} (h : (i = 8 ∧ j ≤ 8 ∧ j ≠ 6) ∨ (j = 8 ∧ i ≤ 8 ∧ i ≠ 6)) : (i, j) ∈ formatCells1 := by
  have key : ∀ x < 9, x ≠ 6 → (8, x) ∈ formatCells1 ∧ (x, 8) ∈ formatCells1 := by decide
  rcases h with ⟨rfl, h1, h2⟩ | ⟨rfl, h1, h2⟩
  · exact (key j (by omega) h2).1
  · exact (key i (by omega) h2).2

theorem mem_formatCells2_col {v i : Nat} (h : side v - 7 ≤ i) (h' : i < side v) (h1 : 1 ≤ v) : (i, 8) ∈ formatCells2 v := by
  have hn : side v = 17 + 4 * v := rfl
  obtain ⟨t, ht, rfl⟩ : ∃ t, (t = 1 ∨ t = 2 ∨ t = 3 ∨ t = 4 ∨ t = 5 ∨ t = 6 ∨ t = 7) ∧ i = side v - t := ⟨side v - i, by omega, by omega⟩
  unfold formatCells2
  rcases ht with rfl | rfl | rfl | rfl | rfl | rfl | rfl <;> simp only [List.mem_cons, true_or, or_true]

theorem mem_formatCells2_row {v j : Nat} (h : side v - 8 ≤ j) (h' : j < side v) (h1 : 1 ≤ v) : (8, j) ∈ formatCells2 v := by
  have hn : side v = 17 + 4 * v := rfl
  obtain ⟨t, ht, rfl⟩ : ∃ t, (t = 1 ∨ t = 2 ∨ t = 3 ∨ t = 4 ∨ t = 5 ∨ t = 6 ∨ t = 7 ∨ t = 8) ∧ j = side v - t := ⟨side v - j, by omega, by omega⟩
  unfold formatCells2
  rcases ht with rfl | rfl | rfl | rfl | rfl | rfl | rfl | rfl <;> simp only [List.mem_cons, true_or, or_true]

/-- Every function module is a pattern module, a format module or a version module. -/
theorem function_covered {v i j : Nat} (h1 : 1 ≤ v) (hi : i < side v) (hj : j < side v) (hf : isFunction v i j = true) :
    (∃ c, patternColour v i j = some c) ∨ (i, j) ∈ formatCells1 ∨ (i, j) ∈ formatCells2 v ∨
    (7 ≤ v ∧ ((i, j) ∈ versionCells1 v ∨ (i, j) ∈ versionCells2 v)) := by
  have hn : side v = 17 + 4 * v := rfl
  by_cases hp : ∃ c, patternColour v i j = some c
  · exact Or.inl hp
  · right
    have hnone : patternColour v i j = none := by
      cases h : patternColour v i j with
      | none => rfl
      | some c => exact absurd ⟨c, h⟩ hp
    unfold patternColour at hnone
    have hfin : ¬ inFinderArea v i j = true := by intro h; rw [if_pos h] at hnone; cases hnone
    rw [if_neg hfin] at hnone
    have hal : alignAt v i j = none := by
      cases h : alignAt v i j with
      | none => rfl
      | some p => rw [h] at hnone; cases hnone
    rw [hal] at hnone
    simp only at hnone
    have htim : ¬ inTiming v i j = true := by intro h; rw [if_pos h] at hnone; cases hnone
    rw [if_neg htim] at hnone
    have hdark : ¬ isDarkModule v i j = true := by intro h; rw [if_pos h] at hnone; cases hnone
    rw [isFunction_iff] at hf
    rw [hal] at hf
    rw [inFinderArea_iff] at hfin
    rw [inTiming_iff] at htim
    rw [isDarkModule_iff] at hdark
    rw [inFinderArea_iff, inFormatArea_iff, inVersionArea_iff] at hf
    by_cases h8 : (i = 8 ∧ j ≤ 8) ∨ (j = 8 ∧ i ≤ 8)
    · left
      apply mem_formatCells1
      clear hf hal
      omega
    · by_cases h9 : (i = 8 ∧ side v - 8 ≤ j) ∨ (j = 8 ∧ side v - 8 ≤ i)
      · right; left
        clear hf hal
        rcases h9 with ⟨rfl, h9⟩ | ⟨rfl, h9⟩
        · exact mem_formatCells2_row h9 hj h1
        · exact mem_formatCells2_col (by omega) hi h1
      · right; right
        have hv : 7 ≤ v ∧ ((i < 6 ∧ side v - 11 ≤ j ∧ j < side v - 8) ∨ (j < 6 ∧ side v - 11 ≤ i ∧ i < side v - 8)) := by
          rcases hf with h | h | h | h | h | h
          · omega
          · omega
          · omega
          · omega
          · omega
          · simp at h
        refine ⟨hv.1, ?_⟩
        simp only [versionCells1, versionCells2, List.mem_map, List.mem_range, Prod.mk.injEq]
        rcases hv.2 with h | h
        · left; exact ⟨17 - (3 * i + (j - (side v - 11))), by omega, by omega, by omega⟩
        · right; exact ⟨17 - (3 * j + (i - (side v - 11))), by omega, by omega, by omega⟩

theorem map_eq_mem {α β : Type} {l : List α} {f g : α → β} (h : l.map f = l.map g) : ∀ a ∈ l, f a = g a := by
  induction l with
  | nil => simp
  | cons x l ih =>
    simp only [List.map_cons, List.cons.injEq] at h
    intro a ha
    rcases List.mem_cons.1 ha with rfl | ha
    · exact h.1
    · exact ih h.2 a ha

/-- A symbol is determined by version, level, mask and stream. -/
theorem isSymbol_unique {v : Nat} {lv : Level} {k : Nat} {s : List Bool} {bm bm' : List (List Bool)}
    (h : IsSymbol v lv k s bm) (h' : IsSymbol v lv k s bm') : bm = bm' := by
  have hv := h.version
  have px : ∀ i j, i < side v → j < side v → pixel bm i j = pixel bm' i j := by
    intro i j hi hj
    cases hf : isFunction v i j with
    | false =>
      have hm := (mem_dataModules hv.1).2 ⟨hi, hj, hf⟩
      have e := h.data.trans h'.data.symm
      unfold readStream at e
      have := map_eq_mem e _ hm
      simp only at this
      generalize pixel bm i j = a, pixel bm' i j = b, maskBit k i j = c at this
      revert this
      cases a <;> cases b <;> cases c <;> simp
    | true =>
      rcases function_covered hv.1 hi hj hf with ⟨c, hc⟩ | hm | hm | ⟨h7, hm | hm⟩
      · rw [h.pattern i j c hi hj hc, h'.pattern i j c hi hj hc]
      · exact map_eq_mem (h.format1.trans h'.format1.symm) _ hm
      · exact map_eq_mem (h.format2.trans h'.format2.symm) _ hm
      · exact map_eq_mem ((h.version1 h7).trans (h'.version1 h7).symm) _ hm
      · exact map_eq_mem ((h.version2 h7).trans (h'.version2 h7).symm) _ hm
  apply List.ext_getElem (by rw [h.rows, h'.rows])
  intro i hi hi'
  have c1 := h.cols _ (List.getElem_mem hi)
  have c2 := h'.cols _ (List.getElem_mem hi')
  apply List.ext_getElem (by rw [c1, c2])
  intro j hj hj'
  have := px i j (by rw [← h.rows]; exact hi) (by rw [← c1]; exact hj)
  unfold pixel at this
  simpa [List.getD_eq_getElem?_getD, List.getElem?_eq_getElem hi, List.getElem?_eq_getElem hi', hj, hj'] using this

end QR
