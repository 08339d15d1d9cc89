import Verif.Props.Mask
import Verif.Proof.PenaltyWitness
/-!
# C26 - C30: mask evaluation

`m.Sq d`: the matrix has `d` columns of `d` modules (every matrix of the program is of this shape).
`pixel m.bitmap i j` is the colour of the module in row `i`, column `j`.
The rules of the standard, by colour, are in `Spec/Penalty.lean`, occurrences in `Spec/Occurrences.lean`.
-/
namespace QR
open Spec

/-! ## The rules of the standard look at the modules inside the square only -/

theorem rowOf_congr {n : Nat} {c c' : Nat → Nat → Bool} (h : ∀ i j, i < n → j < n → c i j = c' i j) {i : Nat} (hi : i < n) :
    rowOf n c i = rowOf n c' i := by
  unfold rowOf
  apply List.map_congr_left
  intro j hj
  exact h i j hi (List.mem_range.1 hj)

theorem colOf_congr {n : Nat} {c c' : Nat → Nat → Bool} (h : ∀ i j, i < n → j < n → c i j = c' i j) {j : Nat} (hj : j < n) :
    colOf n c j = colOf n c' j := by
  unfold colOf
  apply List.map_congr_left
  intro i hi
  exact h i j (List.mem_range.1 hi) hj

theorem rule1_congr {n : Nat} {c c' : Nat → Nat → Bool} (h : ∀ i j, i < n → j < n → c i j = c' i j) :
    Spec.rule1 n c = Spec.rule1 n c' := by
  unfold Spec.rule1
  congr 1
  apply List.map_congr_left
  intro k hk
  rw [rowOf_congr h (List.mem_range.1 hk), colOf_congr h (List.mem_range.1 hk)]

theorem darkCount_congr {n : Nat} {c c' : Nat → Nat → Bool} (h : ∀ i j, i < n → j < n → c i j = c' i j) :
    darkCount n c = darkCount n c' := by
  unfold darkCount
  congr 1
  apply List.map_congr_left
  intro i hi
  apply List.countP_congr
  intro j hj
  rw [h i j (List.mem_range.1 hi) (List.mem_range.1 hj)]

theorem colour_pixel {m : Matrix} {d : Nat} (s : m.Sq d) : ∀ i j, i < d → j < d → colour m i j = pixel m.bitmap i j :=
  fun _ _ hi hj => (bitmap_at s hi hj).symm

/-! ## C26 -/

/-- **C26.** Rule 1 is the sum over all rows and columns, over the maximal runs of equal colour, of `n - 2` for a run of
`n ≥ 5` modules. -/
theorem C26_rule1 {m : Matrix} {d : Nat} (s : m.Sq d) : rule1 m = .ok (Spec.rule1 d (pixel m.bitmap)) := by
  rw [rule1_eq s, rule1_congr (colour_pixel s)]

theorem C26_runCost (n : Nat) : runCost n = if 5 ≤ n then n - 2 else 0 := by
  unfold runCost; split <;> omega

/-! ## C29 -/

/-- **C29.** The counter returns the number of positions at which a non-empty pattern occurs, overlaps included, whether
or not the failure table is passed in; it terminates (`some`: the loop ended) for every source. -/
theorem C29_counts {α : Type} [DecidableEq α] (src pattern : List α) (hp : pattern ≠ []) :
    kmp src pattern none = some ((List.range src.length).countP fun u => decide ((src.drop u).take pattern.length = pattern)) ∧
    kmp src pattern (kmpGetNext pattern) =
      some ((List.range src.length).countP fun u => decide ((src.drop u).take pattern.length = pattern)) :=
  kmp_ok pattern src hp

example : kmp [1, 1, 1, 1] [1, 1] none = some 3 := by decide

/-! ## C27 -/

/-- All four modules of the square at row `i`, column `j` have the same value (kind and colour). -/
def SameValue (m : Matrix) (i j : Nat) : Prop :=
  m.at' (j : Int) (i : Int) = m.at' ((j : Int) + 1) (i : Int) ∧
  m.at' (j : Int) ((i : Int) + 1) = m.at' ((j : Int) + 1) ((i : Int) + 1) ∧
  m.at' ((j : Int) + 1) (i : Int) = m.at' (j : Int) ((i : Int) + 1)

instance (m : Matrix) (i j : Nat) : Decidable (SameValue m i j) := by unfold SameValue; infer_instance

/-- All four modules of the square have the same colour. -/
def SameColour (c : Nat → Nat → Bool) (i j : Nat) : Bool :=
  c i j == c i (j + 1) && c i j == c (i + 1) j && c i j == c (i + 1) (j + 1)

theorem sum_ite_three (l : List Nat) (p : Nat → Prop) [DecidablePred p] :
    (l.map fun a => if p a then 3 else 0).sum = 3 * l.countP (fun a => decide (p a)) := by
  induction l with
  | nil => rfl
  | cons a l ih =>
    rw [List.map_cons, List.sum_cons, ih, List.countP_cons]
    by_cases h : p a <;> simp [h] <;> omega

theorem sum_mul_three (l : List Nat) (f : Nat → Nat) : (l.map fun a => 3 * f a).sum = 3 * (l.map f).sum := by
  induction l with
  | nil => rfl
  | cons a l ih => simp only [List.map_cons, List.sum_cons, ih]; omega

theorem rule2_values {m : Matrix} {d : Nat} (s : m.Sq d) : rule2 m =
    3 * ((List.range (d - 1)).map fun i => (List.range (d - 1)).countP fun j => decide (SameValue m i j)).sum := by
  have e1 : rule2 m = ((List.range (d - 1)).map fun (x : Nat) => ((List.range (d - 1)).map fun (y : Nat) =>
      if SameValue m y x then 3 else 0).sum).sum := by
    unfold rule2
    rw [s.w, s.h]
    rfl
  rw [e1, sum_swap]
  simp only [sum_ite_three]
  rw [sum_mul_three]

theorem sameValue_colour {m : Matrix} {d : Nat} (s : m.Sq d) {i j : Nat} (hi : i + 1 < d) (hj : j + 1 < d) (h : SameValue m i j) :
    SameColour (pixel m.bitmap) i j = true := by
  obtain ⟨h1, h2, h3⟩ := h
  unfold SameColour
  rw [bitmap_at s (by omega) (by omega), bitmap_at s (by omega) (by omega), bitmap_at s (by omega) (by omega),
    bitmap_at s (by omega) (by omega)]
  have e1 : ((j + 1 : Nat) : Int) = (j : Int) + 1 := by omega
  have e2 : ((i + 1 : Nat) : Int) = (i : Int) + 1 := by omega
  rw [e1, e2, ← h2, ← h3, ← h1]
  simp

/-- **C27**, the part that holds: rule 2 counts 3 for every 2x2 square whose four modules have the same colour *and the same
kind* (data, finder, timing, ...); so it never exceeds the standard's rule 2, and equals it if no square of one colour has
modules of different kinds.  Missing: squares of one colour with different kinds, which the code does not count
(`C27_counterexample`). -/
theorem C27_rule2_partial {m : Matrix} {d : Nat} (s : m.Sq d) :
    rule2 m = 3 * ((List.range (d - 1)).map fun i => (List.range (d - 1)).countP fun j => decide (SameValue m i j)).sum ∧
    rule2 m ≤ Spec.rule2 d (pixel m.bitmap) ∧
    ((∀ i j, i + 1 < d → j + 1 < d → SameColour (pixel m.bitmap) i j = true → SameValue m i j) →
      rule2 m = Spec.rule2 d (pixel m.bitmap)) := by
  refine ⟨rule2_values s, ?_, fun h => ?_⟩
  · rw [rule2_values s]
    unfold Spec.rule2
    refine Nat.mul_le_mul_left 3 ?_
    apply List.sum_le_sum
    intro i hi
    apply List.countP_mono_left
    intro j hj hv
    have hi := List.mem_range.1 hi
    have hj := List.mem_range.1 hj
    exact sameValue_colour s (by omega) (by omega) (of_decide_eq_true hv)
  · rw [rule2_values s]
    unfold Spec.rule2
    congr 2
    apply List.map_congr_left
    intro i hi
    apply List.countP_congr
    intro j hj
    have hi := List.mem_range.1 hi
    have hj := List.mem_range.1 hj
    simp only [decide_eq_true_eq]
    exact ⟨fun hv => sameValue_colour s (by omega) (by omega) hv, fun hv => h i j (by omega) (by omega) hv⟩

/-- **C27 is false in general**: in the symbol of the text `0;` rule 2 of the code is 66, that of the standard 81. -/
theorem C27_counterexample : ∃ c a q, CacheReachable c ∧ Arrival a ∧ newWith demoExt c a .string [48, 59] [] = .ok q ∧
    rule2 q.mat = 66 ∧ Spec.rule2 q.dimension (pixel q.mat.bitmap) = 81 := by
  obtain ⟨c, q, h1, h2, h3, h4, h5, h6, h7, h8, h9⟩ := penaltiesAre_iff penalty_check
  exact ⟨c, _, q, .start h1, by unfold Arrival; decide, h2, h4, by rw [h3]; exact h7⟩

/-! ## C28 -/

/-- The word `w` of colours occurs in a line at `u`, on data modules only. -/
def occursInData (w : List Bool) (line : List QRValue) (u : Nat) : Bool :=
  decide (((line.drop u).take w.length).map (·.bit) = w) && ((line.drop u).take w.length).all fun v => decide (v.ty = .data)

def dataOccurrences (w : List Bool) (line : List QRValue) : Nat := (List.range line.length).countP (occursInData w line)

theorem map_dataV_iff (w : List Bool) (l : List QRValue) :
    l = w.map dataV ↔ l.map (·.bit) = w ∧ ∀ v ∈ l, v.ty = .data := by
  constructor
  · rintro rfl
    refine ⟨?_, ?_⟩
    · rw [List.map_map, show ((fun x : QRValue => x.bit) ∘ dataV) = id from funext fun b => dataV_bit b, List.map_id]
    · intro v hv
      obtain ⟨b, _, rfl⟩ := List.mem_map.1 hv
      exact dataV_ty b
  · rintro ⟨rfl, h⟩
    rw [List.map_map]
    conv_lhs => rw [← List.map_id l]
    apply List.map_congr_left
    intro v hv
    have := h v hv
    obtain ⟨ty, b⟩ := v
    simp only at this
    subst this
    cases b <;> rfl

theorem occurrences_data (w : List Bool) (line : List QRValue) : Spec.occurrences (w.map dataV) line = dataOccurrences w line := by
  unfold Spec.occurrences dataOccurrences
  apply List.countP_congr
  intro u _
  unfold occursAt occursInData
  rw [Bool.and_eq_true, decide_eq_true_eq, decide_eq_true_eq, List.all_eq_true, List.length_map, map_dataV_iff]
  simp only [decide_eq_true_eq]

theorem dataOccurrences_le (w : List Bool) (line : List QRValue) :
    dataOccurrences w line ≤ Spec.occurrences w (line.map (·.bit)) := by
  unfold Spec.occurrences dataOccurrences
  rw [List.length_map]
  apply List.countP_mono_left
  intro u _ h
  unfold occursInData at h
  unfold occursAt
  rw [Bool.and_eq_true, decide_eq_true_eq] at h
  rw [decide_eq_true_eq, ← List.map_drop, ← List.map_take]
  exact h.1

theorem dataOccurrences_eq (w : List Bool) (line : List QRValue) (h : ∀ v ∈ line, v.ty = .data) :
    dataOccurrences w line = Spec.occurrences w (line.map (·.bit)) := by
  unfold Spec.occurrences dataOccurrences
  rw [List.length_map]
  apply List.countP_congr
  intro u _
  unfold occursInData occursAt
  rw [Bool.and_eq_true, decide_eq_true_eq, decide_eq_true_eq, ← List.map_drop, ← List.map_take, List.all_eq_true]
  constructor
  · exact fun h => h.1
  · refine fun h' => ⟨h', fun v hv => ?_⟩
    exact decide_eq_true (h v (List.mem_of_mem_drop (List.mem_of_mem_take hv)))

theorem pattern1_eq : pattern1 = finderLike1.map dataV := by decide
theorem pattern2_eq : pattern2 = finderLike2.map dataV := by decide

/-- Row `i` and column `j` of a matrix, with the kinds of the modules. -/
def lineRow (m : Matrix) (d i : Nat) : List QRValue := (List.range d).map fun j : Nat => m.at' (j : Int) (i : Int)
def lineCol (m : Matrix) (d j : Nat) : List QRValue := (List.range d).map fun i : Nat => m.at' (j : Int) (i : Int)

/-- **C28**, the part that holds: rule 3 counts 40 for every occurrence of the two sequences *all of whose eleven modules
are data modules*; so it never exceeds the standard's rule 3, and equals it on a matrix of data modules only.  Missing:
occurrences that touch function modules, which the code does not count (`C28_counterexample`). -/
theorem C28_rule3_partial {m : Matrix} {d : Nat} (s : m.Sq d) :
    ∃ n, rule3 m = .ok n ∧
      n = 40 * ((List.range d).map fun k =>
        dataOccurrences finderLike1 (lineRow m d k) + dataOccurrences finderLike2 (lineRow m d k) +
        dataOccurrences finderLike1 (lineCol m d k) + dataOccurrences finderLike2 (lineCol m d k)).sum ∧
      n ≤ Spec.rule3 d (pixel m.bitmap) ∧
      ((∀ x y : Nat, x < d → y < d → (m.at' (x : Int) (y : Int)).ty = .data) → n = Spec.rule3 d (pixel m.bitmap)) := by
  have hrow : ∀ k, k < d → (rowL m d k).map (·.bit) = rowOf d (pixel m.bitmap) k := fun k hk => by
    rw [map_bit_row, rowOf_congr (colour_pixel s) hk]
  have hcol : ∀ k, k < d → (colL m d k).map (·.bit) = colOf d (pixel m.bitmap) k := fun k hk => by
    rw [map_bit_col, colOf_congr (colour_pixel s) hk]
  refine ⟨_, rule3_eq s, ?_, ?_, fun h => ?_⟩
  · congr 2
    apply List.map_congr_left
    intro k _
    rw [pattern1_eq, pattern2_eq, occurrences_data, occurrences_data, occurrences_data, occurrences_data]
    rfl
  · unfold Spec.rule3
    refine Nat.mul_le_mul_left 40 ?_
    apply List.sum_le_sum
    intro k hk
    have hk := List.mem_range.1 hk
    rw [pattern1_eq, pattern2_eq, occurrences_data, occurrences_data, occurrences_data, occurrences_data]
    have e1 := dataOccurrences_le finderLike1 (rowL m d k)
    have e2 := dataOccurrences_le finderLike2 (rowL m d k)
    have e3 := dataOccurrences_le finderLike1 (colL m d k)
    have e4 := dataOccurrences_le finderLike2 (colL m d k)
    rw [hrow k hk] at e1 e2
    rw [hcol k hk] at e3 e4
    omega
  · unfold Spec.rule3
    congr 2
    apply List.map_congr_left
    intro k hk
    have hk := List.mem_range.1 hk
    have hr : ∀ v ∈ rowL m d k, v.ty = .data := by
      intro v hv
      obtain ⟨j, hj, rfl⟩ := List.mem_map.1 hv
      exact h j k (List.mem_range.1 hj) hk
    have hc : ∀ v ∈ colL m d k, v.ty = .data := by
      intro v hv
      obtain ⟨i, hi, rfl⟩ := List.mem_map.1 hv
      exact h k i hk (List.mem_range.1 hi)
    rw [pattern1_eq, pattern2_eq, occurrences_data, occurrences_data, occurrences_data, occurrences_data,
      dataOccurrences_eq _ _ hr, dataOccurrences_eq _ _ hr, dataOccurrences_eq _ _ hc, dataOccurrences_eq _ _ hc,
      hrow k hk, hcol k hk]

/-- **C28 is false in general**: in the symbol of the text `0;` rule 3 of the code is 0, that of the standard 80. -/
theorem C28_counterexample : ∃ c a q, CacheReachable c ∧ Arrival a ∧ newWith demoExt c a .string [48, 59] [] = .ok q ∧
    rule3 q.mat = .ok 0 ∧ Spec.rule3 q.dimension (pixel q.mat.bitmap) = 80 := by
  obtain ⟨c, q, h1, h2, h3, h4, h5, h6, h7, h8, h9⟩ := penaltiesAre_iff penalty_check
  exact ⟨c, _, q, .start h1, by unfold Arrival; decide, h2, h5, by rw [h3]; exact h8⟩

/-! ## C30 -/

/-- The step function of the standard against the code's: they agree unless the whole percentage is a multiple of 5
other than 50 and the percentage is not whole. -/
theorem rule4_arith_iff {dark total : Nat} (h0 : 0 < total) (hd : dark ≤ total) :
    Rule4 dark total (rule4Of (dark * 100 / total) / 10) ↔
      (100 * dark % total = 0 ∨ dark * 100 / total % 5 ≠ 0 ∨ dark * 100 / total = 50) := by
  have hmod := Nat.div_add_mod (dark * 100) total
  have hlt := Nat.mod_lt (dark * 100) h0
  have hle : dark * 100 / total ≤ 100 := by
    calc dark * 100 / total ≤ total * 100 / total := Nat.div_le_div_right (Nat.mul_le_mul_right _ hd)
      _ = 100 := by rw [Nat.mul_div_cancel_left _ h0]
  rw [Nat.mul_comm 100 dark]
  unfold Rule4 Rule4.dist rule4Of
  rw [Nat.mul_comm 100 dark]
  generalize hp : dark * 100 / total = p at *
  generalize hr : dark * 100 % total = r at *
  rw [← hmod]
  have e : 10 * (max (50 - p) (p - 51) / 5) / 10 = max (50 - p) (p - 51) / 5 := Nat.mul_div_cancel_left _ (by omega)
  rw [e]
  generalize hk : max (50 - p) (p - 51) / 5 = k
  have c1 : total * p = p * total := Nat.mul_comm _ _
  rw [c1]
  by_cases hp50 : p < 50
  · obtain ⟨g, hg⟩ : ∃ g, p + g = 50 := ⟨50 - p, by omega⟩
    have hgt : 50 * total = p * total + g * total := by rw [← hg, Nat.add_mul]
    have hkg : k = g / 5 := by omega
    have hg1 : total ≤ g * total := Nat.le_mul_of_pos_left _ (by omega)
    obtain ⟨m5, hm5, hm5'⟩ : ∃ b, g = 5 * k + b ∧ b < 5 := ⟨g % 5, by omega, by omega⟩
    have hgm : g * total = 5 * k * total + m5 * total := by rw [hm5, Nat.add_mul]
    have hk1 : 5 * (k + 1) * total = 5 * k * total + 5 * total := by rw [Nat.mul_add, Nat.add_mul]
    rw [hk1, hgt, hgm]
    have hm : m5 = 0 ∨ 1 ≤ m5 := by omega
    rcases hm with rfl | hm
    · have : p % 5 = 0 := by omega
      simp only [Nat.zero_mul]
      constructor
      · intro h; left; omega
      · intro h; omega
    · have h1 : total ≤ m5 * total := Nat.le_mul_of_pos_left _ hm
      have h2 : m5 * total ≤ 5 * total := Nat.mul_le_mul_right _ (by omega)
      constructor
      · intro _; right; left; omega
      · intro _; omega
  · obtain ⟨g, hg⟩ : ∃ g, p = 50 + g := ⟨p - 50, by omega⟩
    have hgt : p * total = 50 * total + g * total := by rw [hg, Nat.add_mul]
    have hkg : k = (g - 1) / 5 := by omega
    by_cases hg0 : g = 0
    · subst hg0
      have : k = 0 := by omega
      subst this
      rw [hgt]
      simp only [Nat.zero_mul, Nat.mul_zero]
      constructor
      · intro _; right; right; omega
      · intro _; omega
    · obtain ⟨b, hb, hb'⟩ : ∃ b, g = 5 * k + b + 1 ∧ b < 5 := ⟨(g - 1) % 5, by omega, by omega⟩
      have hgm : g * total = 5 * k * total + b * total + total := by rw [hb, Nat.add_mul, Nat.add_mul, Nat.one_mul]
      have hk1 : 5 * (k + 1) * total = 5 * k * total + 5 * total := by rw [Nat.mul_add, Nat.add_mul]
      rw [hk1, hgt, hgm]
      have hm : b = 4 ∨ b ≤ 3 := by omega
      rcases hm with rfl | hm
      · have : p % 5 = 0 := by omega
        constructor
        · intro h; left; omega
        · intro h; omega
      · have h2 : b * total ≤ 3 * total := Nat.mul_le_mul_right _ hm
        constructor
        · intro _; right; left; omega
        · intro _; omega

/-- **C30**, the part that holds.  Rule 4 depends on the number of dark modules only; it is ten times a number `k` of steps,
at most 100.  `k` is the standard's number of steps (`5k ≤ |percentage - 50| ≤ 5(k+1)`) exactly if the percentage is a whole
number, or its whole part is not a multiple of 5, or its whole part is 50.  Missing: the remaining percentages (for
example 55.78 %), for which the code is one step off (`C30_counterexample`). -/
theorem C30_rule4_partial {m : Matrix} {d : Nat} (s : m.Sq d) (hd : 0 < d) :
    ∃ k, rule4 m = .ok (10 * k) ∧ 10 * k ≤ 100 ∧
      k = max (50 - darkCount d (pixel m.bitmap) * 100 / (d * d)) (darkCount d (pixel m.bitmap) * 100 / (d * d) - 51) / 5 ∧
      (Rule4 (darkCount d (pixel m.bitmap)) (d * d) k ↔
        (100 * darkCount d (pixel m.bitmap) % (d * d) = 0 ∨ darkCount d (pixel m.bitmap) * 100 / (d * d) % 5 ≠ 0 ∨
          darkCount d (pixel m.bitmap) * 100 / (d * d) = 50)) := by
  rw [rule4_eq s hd, darkCount_congr (colour_pixel s)]
  have hle := darkCount_le d (pixel m.bitmap)
  have h := rule4_arith_iff (Nat.mul_pos hd hd) hle
  have hdd : 0 < d * d := Nat.mul_pos hd hd
  have hp : darkCount d (pixel m.bitmap) * 100 / (d * d) ≤ 100 := by
    calc darkCount d (pixel m.bitmap) * 100 / (d * d) ≤ (d * d) * 100 / (d * d) :=
          Nat.div_le_div_right (Nat.mul_le_mul_right _ hle)
      _ = 100 := by rw [Nat.mul_div_cancel_left _ hdd]
  unfold rule4Of at h ⊢
  rw [Nat.mul_div_cancel_left _ (by omega)] at h
  refine ⟨_, rfl, ?_, rfl, h⟩
  clear h
  generalize darkCount d (pixel m.bitmap) * 100 / (d * d) = p at *
  omega

/-- **C30**, the sentinel: the evaluation of any symbol-sized matrix is a number below `2^31 - 1`. -/
theorem C30_below_sentinel {m : Matrix} {d : Nat} (s : m.Sq d) (h0 : 0 < d) (h1 : d ≤ 177) :
    ∃ n, evaluation m = .ok n ∧ n < 2 ^ 31 - 1 := evaluation_ok s h0 h1

/-- **C30 is false in general**: the symbol of the text `0;` has 246 dark modules of 441 (55.78 %), the standard's rule 4 is
one step (10), the code's 0. -/
theorem C30_counterexample : ∃ c a q, CacheReachable c ∧ Arrival a ∧ newWith demoExt c a .string [48, 59] [] = .ok q ∧
    rule4 q.mat = .ok 0 ∧ ¬ Rule4 (darkCount q.dimension (pixel q.mat.bitmap)) (q.dimension * q.dimension) 0 ∧
    Rule4 (darkCount q.dimension (pixel q.mat.bitmap)) (q.dimension * q.dimension) 1 := by
  obtain ⟨c, q, h1, h2, h3, h4, h5, h6, h7, h8, h9⟩ := penaltiesAre_iff penalty_check
  refine ⟨c, _, q, .start h1, by unfold Arrival; decide, h2, h6, ?_⟩
  rw [h3, h9]
  unfold Rule4 Rule4.dist
  decide

/-- Every candidate symbol satisfies the hypothesis `Sq` of these theorems. -/
theorem demo_penalty {E : Ext} {unsjis : Nat → Option Nat} (hE : E.Ok unsjis) {c : AlignCache} (hc : CacheReachable c)
    {arrival : List Nat} (ha : Arrival arrival) {t : TextType} {text : Bytes} {opts : List EncodeOption} {q : QRCode}
    (h : newWith E c arrival t text opts = .ok q) : q.mat.Sq q.dimension ∧ 0 < q.dimension ∧ q.dimension ≤ 177 := by
  obtain ⟨m, v, k, p, bs, hm, hv, hp, hf, hb⟩ := ok_facts hE hc ha h
  rw [hb.dimension]
  have h1 := hb.v1
  have h40 := hb.v40
  exact ⟨hb.sym.sq, by unfold side; omega, by unfold side; omega⟩

end QR
