import Verif.Model.Evaluation
import Verif.Proof.MatrixLemmas
import Verif.Proof.Kmp
import Verif.Spec.Penalty
import Mathlib.Tactic.SplitIfs
/-!
# Mask evaluation
-/
namespace QR
open Matrix

/-- Colour of row `i`, column `j`. -/
def colour (m : Matrix) (i j : Nat) : Bool := (m.at' (j : Int) (i : Int)).bit

def rowL (m : Matrix) (d i : Nat) : List QRValue := (List.range d).map fun j : Nat => m.at' (j : Int) (i : Int)
def colL (m : Matrix) (d j : Nat) : List QRValue := (List.range d).map fun i : Nat => m.at' (j : Int) (i : Int)

theorem row_eq {m : Matrix} {d i : Nat} (s : m.Sq d) (hi : i < d) : m.row i = .ok (some (rowL m d i)) := by
  unfold row rowL
  rw [s.w, s.h, if_neg (by omega), if_neg (by omega)]
  simp only [Nat.sub_self, List.replicate_zero, List.append_nil, Int.toNat_natCast]
  congr 2
  apply List.map_congr_left
  intro j hj
  rw [at_nat s (by simpa using hj) hi]

theorem col_eq {m : Matrix} {d j : Nat} (s : m.Sq d) (hj : j < d) : m.col j = some (colL m d j) := by
  unfold col colL
  rw [s.w, if_neg (by omega)]
  simp only [Int.toNat_natCast]
  have h1 : j < m.mat.length := by rw [s.len]; exact hj
  rw [List.getElem?_eq_getElem h1]
  congr 1
  apply List.ext_getElem
  · simp [s.cols j h1]
  · intro i h2 h3
    simp only [List.length_map, List.length_range] at h3
    simp only [List.getElem_map, List.getElem_range]
    rw [at_nat s hj h3, raw_eq s hj h3]

theorem sumRes_eq {α} (f : α → Res Nat) (g : α → Nat) (l : List α) (h : ∀ a ∈ l, f a = .ok (g a)) :
    sumRes f l = .ok (l.map g).sum := by
  induction l with
  | nil => rfl
  | cons a l ih =>
    rw [sumRes, h a (by simp), ih (fun b hb => h b (by simp [hb]))]
    simp

/-! ## Rule 1 -/

/-- What one more module adds to a run that now has length `n`. -/
def bump (n : Nat) : Nat := if n = 5 then 3 else if n > 5 then 1 else 0

theorem runCost_succ (n : Nat) : Spec.runCost (n + 1) = Spec.runCost n + bump (n + 1) := by
  unfold Spec.runCost bump
  split_ifs <;> omega

theorem scoreLine_fold (l : List QRValue) : ∀ (s cnt : Nat) (cur : QRValue),
    (l.foldl scoreLineStep (s, cnt, cur)).1 + Spec.runCost cnt =
      s + Spec.runCost (cnt + ((l.map (·.bit)).takeWhile (· == cur.bit)).length) +
        Spec.lineCost ((l.map (·.bit)).dropWhile (· == cur.bit)) := by
  induction l with
  | nil => intro s cnt cur; simp [Spec.lineCost, Spec.runLengths]
  | cons a l ih =>
    intro s cnt cur
    rw [List.foldl_cons]
    simp only [List.map_cons]
    by_cases hb : a.bit = cur.bit
    · have e : (a.bit == cur.bit) = true := by simp [hb]
      rw [List.takeWhile_cons_of_pos (by simpa using hb), List.dropWhile_cons_of_pos (by simpa using hb)]
      have hst : scoreLineStep (s, cnt, cur) a = if cnt + 1 = 5 then (s + 3, cnt + 1, cur)
          else if cnt + 1 > 5 then (s + 1, cnt + 1, cur) else (s, cnt + 1, cur) := by
        simp [scoreLineStep, samestate, QRValue.qrbool, hb]
      rw [hst]
      have hr := runCost_succ cnt
      have key : ∀ s', s' = s + bump (cnt + 1) →
          (l.foldl scoreLineStep (s', cnt + 1, cur)).1 + Spec.runCost cnt =
          s + Spec.runCost (cnt + ((a.bit :: (l.map (·.bit)).takeWhile (· == cur.bit))).length) +
            Spec.lineCost ((l.map (·.bit)).dropWhile (· == cur.bit)) := by
        intro s' hs'
        have := ih s' (cnt + 1) cur
        rw [List.length_cons, show cnt + (((l.map (·.bit)).takeWhile (· == cur.bit)).length + 1) =
          cnt + 1 + ((l.map (·.bit)).takeWhile (· == cur.bit)).length by omega]
        omega
      unfold bump at key
      split
      · next h => exact key _ (by rw [if_pos h])
      · next h =>
        split
        · next h2 => exact key _ (by rw [if_neg h, if_pos h2])
        · next h2 => exact key _ (by rw [if_neg h, if_neg h2]; rfl)
    · have e : (a.bit == cur.bit) = false := by simpa using hb
      rw [List.takeWhile_cons_of_neg (by simpa using hb), List.dropWhile_cons_of_neg (by simpa using hb)]
      have hst : scoreLineStep (s, cnt, cur) a = (s, 1, a) := by
        simp [scoreLineStep, samestate, QRValue.qrbool, hb]
      rw [hst]
      have := ih s 1 a
      have r1 : Spec.runCost 1 = 0 := rfl
      rw [r1] at this
      rw [Spec.lineCost, Spec.runLengths, List.map_cons, List.sum_cons]
      unfold Spec.lineCost at this
      rw [Nat.add_zero] at this
      rw [this]
      rw [Nat.add_comm (List.length _) 1]
      simp only [List.length_nil, Nat.add_zero]
      omega

theorem scoreLine_eq (l : List QRValue) : scoreLine l = Spec.lineCost (l.map (·.bit)) := by
  have h := scoreLine_fold l 0 0 INIT_V0
  unfold scoreLine
  have r0 : Spec.runCost 0 = 0 := rfl
  rw [r0, Nat.zero_add, Nat.zero_add, Nat.add_zero] at h
  rw [h]
  cases hl : l.map (·.bit) with
  | nil => simp [r0]
  | cons a t =>
    cases a with
    | true =>
      rw [List.takeWhile_cons_of_neg (by decide), List.dropWhile_cons_of_neg (by decide)]
      simp [r0]
    | false =>
      rw [List.takeWhile_cons_of_pos (by decide), List.dropWhile_cons_of_pos (by decide)]
      conv_rhs => rw [Spec.lineCost, Spec.runLengths, List.map_cons, List.sum_cons]
      rw [List.length_cons]; rfl

theorem map_bit_row (m : Matrix) (d i : Nat) : (rowL m d i).map (·.bit) = Spec.rowOf d (colour m) i := by
  unfold rowL Spec.rowOf colour
  rw [List.map_map]; rfl

theorem map_bit_col (m : Matrix) (d j : Nat) : (colL m d j).map (·.bit) = Spec.colOf d (colour m) j := by
  unfold colL Spec.colOf colour
  rw [List.map_map]; rfl

theorem rule1_eq {m : Matrix} {d : Nat} (s : m.Sq d) : rule1 m = .ok (Spec.rule1 d (colour m)) := by
  unfold rule1
  rw [s.w, s.h, if_neg (by simp)]
  apply sumRes_eq
  intro k hk
  have hk : k < d := by simpa using hk
  rw [row_eq s hk, col_eq s hk]
  simp only [Res.bind_ok, nilSlice, Option.getD_some, scoreLine_eq, map_bit_row, map_bit_col]

/-! ## Rule 3 -/

theorem kmpRes_eq (p s : List QRValue) (hp : p ≠ []) : kmpRes s p (kmpGetNext p) = .ok (Spec.occurrences p s) := by
  unfold kmpRes
  rw [(kmp_ok p s hp).2]

theorem rule3_eq {m : Matrix} {d : Nat} (s : m.Sq d) : rule3 m = .ok (40 * ((List.range d).map fun k =>
    Spec.occurrences pattern1 (rowL m d k) + Spec.occurrences pattern2 (rowL m d k) +
    Spec.occurrences pattern1 (colL m d k) + Spec.occurrences pattern2 (colL m d k)).sum) := by
  have hp1 : pattern1 ≠ [] := by decide
  have hp2 : pattern2 ≠ [] := by decide
  unfold rule3
  rw [s.w, s.h, if_neg (by simp)]
  rw [sumRes_eq _ (fun k => 40 * (Spec.occurrences pattern1 (rowL m d k) + Spec.occurrences pattern2 (rowL m d k) +
    Spec.occurrences pattern1 (colL m d k) + Spec.occurrences pattern2 (colL m d k)))]
  · congr 1
    generalize List.range d = l
    induction l with
    | nil => rfl
    | cons a l ih => simp only [List.map_cons, List.sum_cons, ih]; ring
  · intro k hk
    have hk : k < d := by simpa using hk
    rw [row_eq s hk, col_eq s hk]
    simp only [Res.bind_ok, nilSlice, Option.getD_some, kmpRes_eq _ _ hp1, kmpRes_eq _ _ hp2]
    congr 1
    ring

/-! ## Rule 4 -/

theorem sum_swap {f : Nat → Nat → Nat} (a b : Nat) :
    ((List.range a).map fun i => ((List.range b).map fun j => f i j).sum).sum =
    ((List.range b).map fun j => ((List.range a).map fun i => f i j).sum).sum := by
  induction a with
  | zero =>
    generalize List.range b = l
    induction l with
    | nil => rfl
    | cons c l ih => simp only [List.map_cons, List.sum_cons]; simpa using ih
  | succ a ih =>
    rw [List.range_succ, List.map_append, List.sum_append, ih]
    simp only [List.map_cons, List.map_nil, List.sum_cons, List.sum_nil, Nat.add_zero, List.map_append, List.sum_append]
    generalize List.range b = l
    induction l with
    | nil => rfl
    | cons c l ih => simp only [List.map_cons, List.sum_cons]; omega

theorem countP_sum (p : Nat → Bool) (l : List Nat) : l.countP p = (l.map fun j => if p j = true then 1 else 0).sum := by
  induction l with
  | nil => rfl
  | cons a l ih => rw [List.countP_cons, ih, List.map_cons, List.sum_cons]; omega

theorem dark_eq {m : Matrix} {d : Nat} (s : m.Sq d) :
    ((List.range d).map fun i : Nat => ((List.range d).map fun j =>
        if samestate ((nilSlice (m.col (i : Nat))).getD j INIT_V0) DATA_V1 then 1 else 0).sum).sum =
      Spec.darkCount d (colour m) := by
  unfold Spec.darkCount
  simp only [countP_sum]
  rw [sum_swap (f := fun i j => if colour m i j = true then 1 else 0)]
  congr 1
  apply List.map_congr_left
  intro j hj
  have hj : j < d := by simpa using hj
  congr 1
  apply List.map_congr_left
  intro i hi
  have hi : i < d := by simpa using hi
  rw [col_eq s hj]
  simp only [nilSlice, Option.getD_some, colL, List.getD_eq_getElem?_getD, List.getElem?_map,
    List.getElem?_range hi, Option.map_some]
  unfold samestate QRValue.qrbool colour DATA_V1
  simp

theorem darkCount_le (d : Nat) (c : Nat → Nat → Bool) : Spec.darkCount d c ≤ d * d := by
  unfold Spec.darkCount
  have : ∀ l : List Nat, (l.map fun i => (List.range d).countP fun j => c i j).sum ≤ l.length * d := by
    intro l
    induction l with
    | nil => simp
    | cons a l ih =>
      rw [List.map_cons, List.sum_cons, List.length_cons, Nat.add_mul, Nat.one_mul, Nat.add_comm]
      have := List.countP_le_length (p := fun j => c a j) (l := List.range d)
      rw [List.length_range] at this
      omega
  simpa using this (List.range d)

/-- Ten times the number of whole 5 % steps between the integer percentage and 50 (a percentage above 50
counts from 51). -/
def rule4Of (pct : Nat) : Nat := 10 * (max (50 - pct) (pct - 51) / 5)

theorem rule4_arith (r : Nat) (hr : r ≤ 100) :
    ((if (((r / 5 : Nat) - (if r % 5 = 0 then 1 else 0 : Int)) * 5 - 50 : Int).natAbs <
        (((r / 5 : Nat) + 1 - (if r % 5 = 0 then 1 else 0 : Int)) * 5 - 50 : Int).natAbs
      then (((r / 5 : Nat) - (if r % 5 = 0 then 1 else 0 : Int)) * 5 - 50 : Int).natAbs
      else (((r / 5 : Nat) + 1 - (if r % 5 = 0 then 1 else 0 : Int)) * 5 - 50 : Int).natAbs) / 5 * 10) = rule4Of r := by
  unfold rule4Of
  split <;> split <;> omega

theorem rule4_eq {m : Matrix} {d : Nat} (s : m.Sq d) (hd : 0 < d) :
    rule4 m = .ok (rule4Of (Spec.darkCount d (colour m) * 100 / (d * d))) := by
  unfold rule4
  rw [s.w, s.h, if_neg (by simp), if_neg (by omega)]
  simp only [dark_eq s]
  rw [rule4_arith]
  have h := darkCount_le d (colour m)
  have hdd : 0 < d * d := Nat.mul_pos hd hd
  calc Spec.darkCount d (colour m) * 100 / (d * d) ≤ (d * d) * 100 / (d * d) :=
        Nat.div_le_div_right (Nat.mul_le_mul_right _ h)
    _ = 100 := by rw [Nat.mul_div_cancel_left _ hdd]

/-! ## Bounds -/

theorem lineCost_le (l : List Bool) : Spec.lineCost l ≤ l.length := by
  unfold Spec.lineCost
  induction l using Spec.runLengths.induct with
  | case1 => simp [Spec.runLengths]
  | case2 a l ih =>
    rw [Spec.runLengths, List.map_cons, List.sum_cons]
    have h := congrArg List.length (List.takeWhile_append_dropWhile (p := fun x => x == a) (l := l))
    rw [List.length_append] at h
    have : Spec.runCost ((l.takeWhile (· == a)).length + 1) ≤ (l.takeWhile (· == a)).length + 1 := by
      unfold Spec.runCost; split <;> omega
    rw [List.length_cons]
    omega

theorem sum_le_mul (l : List Nat) (f : Nat → Nat) (c : Nat) (h : ∀ a ∈ l, f a ≤ c) : (l.map f).sum ≤ l.length * c := by
  induction l with
  | nil => simp
  | cons a l ih =>
    rw [List.map_cons, List.sum_cons, List.length_cons, Nat.add_mul, Nat.one_mul]
    have := h a (by simp)
    have := ih (fun b hb => h b (by simp [hb]))
    omega

theorem rule1_le (d : Nat) (c : Nat → Nat → Bool) : Spec.rule1 d c ≤ d * (2 * d) := by
  unfold Spec.rule1
  have := sum_le_mul (List.range d) (fun k => Spec.lineCost (Spec.rowOf d c k) + Spec.lineCost (Spec.colOf d c k)) (2 * d)
    (fun k _ => by
      have h1 := lineCost_le (Spec.rowOf d c k)
      have h2 := lineCost_le (Spec.colOf d c k)
      simp only [Spec.rowOf, Spec.colOf, List.length_map, List.length_range] at h1 h2 ⊢
      omega)
  simpa using this

theorem rule2_le (m : Matrix) {d : Nat} (s : m.Sq d) : rule2 m ≤ d * (d * 3) := by
  unfold rule2
  rw [s.w, s.h]
  have := sum_le_mul (List.range (d - 1)) (fun x : Nat => ((List.range (d - 1)).map fun (y : Nat) =>
      if m.at' (x : Int) (y : Int) = m.at' ((x : Int) + 1) (y : Int) ∧
         m.at' (x : Int) ((y : Int) + 1) = m.at' ((x : Int) + 1) ((y : Int) + 1) ∧
         m.at' ((x : Int) + 1) (y : Int) = m.at' (x : Int) ((y : Int) + 1) then 3 else 0).sum) (d * 3)
    (fun x _ => by
      have := sum_le_mul (List.range (d - 1)) (fun y : Nat => if m.at' (x : Int) (y : Int) = m.at' ((x : Int) + 1) (y : Int) ∧
         m.at' (x : Int) ((y : Int) + 1) = m.at' ((x : Int) + 1) ((y : Int) + 1) ∧
         m.at' ((x : Int) + 1) (y : Int) = m.at' (x : Int) ((y : Int) + 1) then 3 else 0) 3 (fun y _ => by split <;> omega)
      simp only [List.length_range] at this
      have h3 : (d - 1) * 3 ≤ d * 3 := by omega
      omega)
  simp only [List.length_range] at this
  have h3 : (d - 1) * (d * 3) ≤ d * (d * 3) := Nat.mul_le_mul_right _ (by omega)
  exact Nat.le_trans this h3

theorem occurrences_le {α} [DecidableEq α] (p s : List α) : Spec.occurrences p s ≤ s.length := by
  unfold Spec.occurrences
  have := List.countP_le_length (p := Spec.occursAt p s) (l := List.range s.length)
  simpa using this

/-- The evaluation never panics and stays below the sentinel used by the selection. -/
theorem evaluation_ok {m : Matrix} {d : Nat} (s : m.Sq d) (h0 : 0 < d) (h1 : d ≤ 177) :
    ∃ n, evaluation m = .ok n ∧ n < maxInt32 := by
  have h3 := rule3_eq s
  unfold evaluation
  rw [rule1_eq s, h3, rule4_eq s h0]
  refine ⟨_, rfl, ?_⟩
  have b1 := rule1_le d (colour m)
  have b2 := rule2_le m s
  have b3 := sum_le_mul (List.range d) (fun k =>
    Spec.occurrences pattern1 (rowL m d k) + Spec.occurrences pattern2 (rowL m d k) +
    Spec.occurrences pattern1 (colL m d k) + Spec.occurrences pattern2 (colL m d k)) (4 * d) (fun k _ => by
      have e1 := occurrences_le pattern1 (rowL m d k)
      have e2 := occurrences_le pattern2 (rowL m d k)
      have e3 := occurrences_le pattern1 (colL m d k)
      have e4 := occurrences_le pattern2 (colL m d k)
      simp only [rowL, colL, List.length_map, List.length_range] at e1 e2 e3 e4 ⊢
      omega)
  simp only [List.length_range] at b3
  have hdd : d * d ≤ 177 * 177 := Nat.mul_le_mul h1 h1
  have r1 : d * (2 * d) = 2 * (d * d) := by ring
  have r2 : d * (d * 3) = 3 * (d * d) := by ring
  have r3 : d * (4 * d) = 4 * (d * d) := by ring
  have b4 : rule4Of (Spec.darkCount d (colour m) * 100 / (d * d)) ≤ 100 := by
    unfold rule4Of
    have h := darkCount_le d (colour m)
    have hp : 0 < d * d := Nat.mul_pos h0 h0
    have : Spec.darkCount d (colour m) * 100 / (d * d) ≤ 100 := by
      calc Spec.darkCount d (colour m) * 100 / (d * d) ≤ (d * d) * 100 / (d * d) :=
            Nat.div_le_div_right (Nat.mul_le_mul_right _ h)
        _ = 100 := by rw [Nat.mul_div_cancel_left _ hp]
    generalize Spec.darkCount d (colour m) * 100 / (d * d) = r at *
    omega
  unfold maxInt32
  rw [r1] at b1
  rw [r2] at b2
  rw [r3] at b3
  omega

end QR
