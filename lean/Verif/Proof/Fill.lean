import Verif.Proof.PrefillSpec
import Mathlib.Tactic.Ring
/-!
# `fillDataBinary` places the bits on the free cells of the standard's zig-zag
-/
namespace QR
open Matrix Spec

/-- The module value of a data bit. -/
def dataV (b : Bool) : QRValue := if b then DATA_V1 else DATA_V0

/-- Cells visited by the loop of `fillDataBinary` in `n` rounds. -/
def vis (d : Nat) : Nat → Int → Int → Bool → Nat → List (Int × Int)
  | 0, _, _, _, _ => []
  | n + 1, x, y, up, i =>
    if 0 ≤ x ∧ x < d then
      let turn : Prop := ¬ (0 ≤ y ∧ y < d)
      let x1 := if turn then (let x' := x - 2; if x' = 7 ∨ x' = 6 then x' - 1 else x') else x
      let y1 := if turn then (if up then y + 1 else y - 1) else y
      let up1 := if turn then !up else up
      let x2 := if i % 2 = 0 then x1 - 1 else x1 + 1
      let y2 := if i % 2 = 0 then y1 else if up1 then y1 - 1 else y1 + 1
      (x1, y1) :: vis d n x2 y2 up1 (i + 1)
    else []

/-- Put the bits, in order, on the cells that are still free. -/
def place (m : Matrix) : List (Int × Int) → Bits → Matrix
  | [], _ => m
  | _ :: _, [] => m
  | p :: ps, b :: bs =>
    if (m.at' p.1 p.2).ty = .init then place (m.set p.1 p.2 (dataV b)) ps bs
    else place m ps (b :: bs)

/-- A cell is free. -/
def free (m : Matrix) (p : Int × Int) : Bool := decide ((m.at' p.1 p.2).ty = .init)

theorem place_nil (m : Matrix) (cells) : place m cells [] = m := by
  cases cells <;> rfl

theorem place_sq {m : Matrix} {d} (s : m.Sq d) (cells bits) : (place m cells bits).Sq d := by
  induction cells generalizing m bits with
  | nil => exact s
  | cons p ps ih =>
    cases bits with
    | nil => exact s
    | cons b bs =>
      unfold place
      split
      · exact ih (set_sq s _ _ _) _
      · exact ih s _

theorem free_set {m : Matrix} {d} (s : m.Sq d) {p q : Int × Int} (h : p ≠ q) (v) :
    free (m.set p.1 p.2 v) q = free m q := by
  unfold free
  rw [at_set s, if_neg]
  rintro ⟨h1, h2, _⟩
  exact h (Prod.ext h1 h2)

theorem fillLoop_place {d : Nat} : ∀ (n : Nat) (m : Matrix) (_ : m.Sq d) (bits : Bits) (x y : Int)
    (up : Bool) (i fuel : Nat),
    (vis d n x y up i).Nodup → (∀ p ∈ vis d n x y up i, In d p.1 p.2) →
    bits.length ≤ (vis d n x y up i).countP (free m) → n ≤ fuel →
    fillLoop fuel m bits x y up i = some (place m (vis d n x y up i) bits) := by
  intro n
  induction n with
  | zero =>
    intro m s bits x y up i fuel hn hin hc hf
    simp [vis] at hc
    subst hc
    unfold fillLoop
    simp [place_nil]
  | succ n ih =>
    intro m s bits x y up i fuel hn hin hc hf
    cases bits with
    | nil => unfold fillLoop; simp [place_nil]
    | cons b rest =>
      obtain ⟨fuel, rfl⟩ : ∃ f, fuel = f + 1 := ⟨fuel - 1, by omega⟩
      by_cases hx : ¬ (0 ≤ x ∧ x < (d : Int))
      · simp [vis, hx] at hc
      rw [Decidable.not_not] at hx
      unfold fillLoop
      have he := atE_err s x y
      rw [if_pos hx] at he
      have hturn : ((m.atE x y).2 = some MErr.outRangeOfH) ↔ ¬ (0 ≤ y ∧ y < (d : Int)) := by
        rw [he]; split <;> simp_all
      have hnw : (m.atE x y).2 ≠ some MErr.outRangeOfW := by
        rw [he]; split <;> simp
      simp only [if_neg hnw]
      unfold vis at hn hin hc ⊢
      simp only [if_pos hx] at hn hin hc ⊢
      simp only [hturn]
      generalize hx1 : (if ¬ (0 ≤ y ∧ y < (d:Int)) then (if x - 2 = 7 ∨ x - 2 = 6 then x - 2 - 1 else x - 2) else x) = x1 at *
      generalize hy1 : (if ¬ (0 ≤ y ∧ y < (d:Int)) then (if up = true then y + 1 else y - 1) else y) = y1 at *
      generalize hup : (if ¬ (0 ≤ y ∧ y < (d:Int)) then !up else up) = up1 at *
      have hst : (if ¬ (0 ≤ y ∧ y < (d:Int)) then m.at' x1 y1 else (m.atE x y).1) = m.at' x1 y1 := by
        split
        · rfl
        · next h => rw [if_neg h] at hx1 hy1; subst hx1 hy1; rfl
      rw [hst]
      rw [List.nodup_cons] at hn
      rw [List.countP_cons] at hc
      have hin1 := hin (x1, y1) (by simp)
      have hin2 : ∀ p ∈ vis d n (if i % 2 = 0 then x1 - 1 else x1 + 1)
          (if i % 2 = 0 then y1 else if up1 = true then y1 - 1 else y1 + 1) up1 (i + 1), In d p.1 p.2 :=
        fun p hp => hin p (by simp [hp])
      by_cases hfree : (m.at' x1 y1).ty = .init
      · have hfr : free m (x1, y1) = true := by simp [free, hfree]
        rw [hfr] at hc
        simp only [QRValue.qrtype, hfree, if_true]
        simp only [place, hfree, if_true]
        apply ih _ (set_sq s _ _ _) _ _ _ _ _ _ hn.2 hin2 _ (by omega)
        simp only [List.length_cons, if_true] at hc
        have : List.countP (free (m.set x1 y1 (if b = true then DATA_V1 else DATA_V0)))
            (vis d n (if i % 2 = 0 then x1 - 1 else x1 + 1)
              (if i % 2 = 0 then y1 else if up1 = true then y1 - 1 else y1 + 1) up1 (i + 1)) =
            List.countP (free m) (vis d n (if i % 2 = 0 then x1 - 1 else x1 + 1)
              (if i % 2 = 0 then y1 else if up1 = true then y1 - 1 else y1 + 1) up1 (i + 1)) := by
          apply List.countP_congr
          intro p hp
          rw [free_set s (p := (x1, y1)) (q := p) (by rintro rfl; exact hn.1 hp)]
        rw [this]
        omega
      · have hfr : free m (x1, y1) = false := by simp [free, hfree]
        rw [hfr] at hc
        simp only [QRValue.qrtype, hfree, if_false]
        simp only [place, hfree, if_false]
        apply ih _ s _ _ _ _ _ _ hn.2 hin2 _ (by omega)
        simpa using hc

/-! ## The visited cells -/

/-- Rows of a two-module wide column, starting at row `y`, `n` rows, upwards or downwards. -/
def colCells (c : Int) (y : Int) (up : Bool) : Nat → List (Int × Int)
  | 0 => []
  | n + 1 => (c, y) :: (c - 1, y) :: colCells c (if up then y - 1 else y + 1) up n

theorem vis_col {d : Nat} (c : Int) (hc : 1 ≤ c ∧ c < d) (up : Bool) : ∀ (n : Nat) (y : Int) (k i : Nat),
    i % 2 = 0 → (n = 0 ∨ (0 ≤ y ∧ y < d ∧ (if up then y - n + 1 ≥ 0 else y + n - 1 < (d : Int)))) →
    vis d (2 * n + k) c y up i =
      colCells c y up n ++ vis d k c (if up then y - n else y + n) up (i + 2 * n) := by
  intro n
  induction n with
  | zero => intro y k i hi hy; simp [colCells]
  | succ n ih =>
    intro y k i hi hy
    have hy' : 0 ≤ y ∧ y < d ∧ (if up then y - (n + 1 : Nat) + 1 ≥ 0 else y + (n + 1 : Nat) - 1 < (d : Int)) := by
      rcases hy with h | h
      · omega
      · exact h
    rw [show 2 * (n + 1) + k = (2 * n + k + 1) + 1 by omega]
    have hcd : 0 ≤ c ∧ c < (d : Int) := by omega
    have hyd : 0 ≤ y ∧ y < (d : Int) := by omega
    have hc1 : 0 ≤ c - 1 ∧ c - 1 < (d : Int) := by omega
    have hi1 : ¬ ((i + 1) % 2 = 0) := by omega
    rw [vis]
    simp only [if_pos hcd, hyd, and_self, not_true_eq_false, if_false, hi, if_true]
    rw [vis]
    simp only [if_pos hc1, hyd, and_self, not_true_eq_false, if_false, hi1]
    rw [show c - 1 + 1 = c by omega]
    rw [ih _ k (i + 1 + 1) (by omega)]
    · simp only [colCells, List.cons_append]
      congr 2
      cases up
      · simp; congr 1 <;> omega
      · simp; congr 1 <;> omega
    · cases up
      · simp at hy' ⊢; omega
      · simp at hy' ⊢; omega

/-- Turning around: the step at a row outside the matrix is the step at the neighbouring column pair. -/
theorem vis_turn {d : Nat} (c c' : Int) (hc : 0 ≤ c ∧ c < d) (up : Bool) (k i : Nat) (y : Int)
    (hc' : c' = (if c - 2 = 7 ∨ c - 2 = 6 then c - 3 else c - 2)) (hc0 : 0 ≤ c')
    (hy : ¬ (0 ≤ y ∧ y < d)) (hy' : 0 ≤ (if up then y + 1 else y - 1) ∧ (if up then y + 1 else y - 1) < (d : Int)) :
    vis d k c y up i = vis d k c' (if up then y + 1 else y - 1) (!up) i := by
  cases k with
  | zero => simp [vis]
  | succ k =>
    have hcd' : 0 ≤ c' ∧ c' < (d : Int) := by
      refine ⟨hc0, ?_⟩
      rw [hc']; split <;> omega
    rw [vis, vis]
    rw [if_pos hc, if_pos hcd']
    simp only [hy, not_false_eq_true, if_true, hy', and_self, not_true_eq_false, if_false]
    rw [hc']
    simp only [show c - 2 - 1 = c - 3 by omega]

/-- All the column pairs of a list, alternating direction. -/
def colsCells (d : Nat) : List Int → Bool → List (Int × Int)
  | [], _ => []
  | c :: cs, up => colCells c (if up then (d : Int) - 1 else 0) up d ++ colsCells d cs (!up)

/-- `c'` is the column pair that follows `c`. -/
def Next (c c' : Int) : Prop := c' = (if c - 2 = 7 ∨ c - 2 = 6 then c - 3 else c - 2)

def Chain : List Int → Prop
  | c :: c' :: cs => Next c c' ∧ Chain (c' :: cs)
  | _ => True

theorem vis_cols {d : Nat} (hd : 0 < d) : ∀ (cs : List Int) (c : Int) (up : Bool) (i : Nat),
    Chain (c :: cs) → (∀ x ∈ c :: cs, 1 ≤ x ∧ x < (d : Int)) → i % 2 = 0 →
    vis d (2 * d * (c :: cs).length) c (if up then (d : Int) - 1 else 0) up i = colsCells d (c :: cs) up := by
  intro cs
  induction cs with
  | nil =>
    intro c up i hch hr hi
    have h := vis_col c (hr c (by simp)) up d (if up then (d : Int) - 1 else 0) 0 i hi (by
      right; cases up <;> simp <;> omega)
    simp only [List.length_cons, List.length_nil, Nat.zero_add, Nat.mul_one]
    simpa [colsCells, vis] using h
  | cons c' cs ih =>
    intro c up i hch hr hi
    have h := vis_col c (hr c (by simp)) up d (if up then (d : Int) - 1 else 0)
      (2 * d * (c' :: cs).length) i hi (by right; cases up <;> simp <;> omega)
    have e : 2 * d * (c :: c' :: cs).length = 2 * d + 2 * d * (c' :: cs).length := by
      simp only [List.length_cons]; ring
    rw [e, h, colsCells]
    congr 1
    have hc0 := hr c' (by simp)
    have hcc := hr c (by simp)
    rw [vis_turn c c' (by omega) up _ _ _ hch.1 (by omega) (by cases up <;> simp) (by
      cases up <;> simp <;> omega)]
    have := ih c' (!up) (i + 2 * d) hch.2 (fun x hx => hr x (by simp [hx])) (by omega)
    rw [← this]
    congr 1
    cases up <;> simp

end QR
