import Mathlib.Algebra.Field.Defs
import Mathlib.Logic.Function.Iterate
import Mathlib.Tactic.Tauto
/-!
# GF(256) with the polynomial x^8 + x^4 + x^3 + x^2 + 1 (ISO/IEC 18004, 7.5.2)

Elements are bytes; addition is exclusive or; `α = 2` (the residue of `x`) generates the multiplicative group;
a product is computed by adding exponents of `α`.  The tables of powers are checked against multiplication by
`x`, and the field laws are proved.
-/
namespace Spec

structure GF where
  val : Nat
  lt : val < 256
  deriving DecidableEq

namespace GF

theorem ext' {a b : GF} (h : a.val = b.val) : a = b := by cases a; cases b; cases h; rfl

/-- Multiplication by `x` modulo the polynomial. -/
def xtime (n : Nat) : Nat := if n < 128 then 2 * n else (2 * n) ^^^ 0x11D

/-- `α^0 .. α^254` -/
def expTable : List Nat :=
  [1, 2, 4, 8, 16, 32, 64, 128, 29, 58, 116, 232, 205, 135, 19, 38, 76, 152, 45, 90, 180, 117, 234, 201, 143,
   3, 6, 12, 24, 48, 96, 192, 157, 39, 78, 156, 37, 74, 148, 53, 106, 212, 181, 119, 238, 193, 159, 35, 70,
   140, 5, 10, 20, 40, 80, 160, 93, 186, 105, 210, 185, 111, 222, 161, 95, 190, 97, 194, 153, 47, 94, 188, 101,
   202, 137, 15, 30, 60, 120, 240, 253, 231, 211, 187, 107, 214, 177, 127, 254, 225, 223, 163, 91, 182, 113,
   226, 217, 175, 67, 134, 17, 34, 68, 136, 13, 26, 52, 104, 208, 189, 103, 206, 129, 31, 62, 124, 248, 237,
   199, 147, 59, 118, 236, 197, 151, 51, 102, 204, 133, 23, 46, 92, 184, 109, 218, 169, 79, 158, 33, 66, 132,
   21, 42, 84, 168, 77, 154, 41, 82, 164, 85, 170, 73, 146, 57, 114, 228, 213, 183, 115, 230, 209, 191, 99,
   198, 145, 63, 126, 252, 229, 215, 179, 123, 246, 241, 255, 227, 219, 171, 75, 150, 49, 98, 196, 149, 55,
   110, 220, 165, 87, 174, 65, 130, 25, 50, 100, 200, 141, 7, 14, 28, 56, 112, 224, 221, 167, 83, 166, 81, 162,
   89, 178, 121, 242, 249, 239, 195, 155, 43, 86, 172, 69, 138, 9, 18, 36, 72, 144, 61, 122, 244, 245, 247,
   243, 251, 235, 203, 139, 11, 22, 44, 88, 176, 125, 250, 233, 207, 131, 27, 54, 108, 216, 173, 71, 142]

/-- Exponents of the bytes 1..255 (entry 0 is not used). -/
def logTable : List Nat :=
  [0, 0, 1, 25, 2, 50, 26, 198, 3, 223, 51, 238, 27, 104, 199, 75, 4, 100, 224, 14, 52, 141, 239, 129, 28, 193,
   105, 248, 200, 8, 76, 113, 5, 138, 101, 47, 225, 36, 15, 33, 53, 147, 142, 218, 240, 18, 130, 69, 29, 181,
   194, 125, 106, 39, 249, 185, 201, 154, 9, 120, 77, 228, 114, 166, 6, 191, 139, 98, 102, 221, 48, 253, 226,
   152, 37, 179, 16, 145, 34, 136, 54, 208, 148, 206, 143, 150, 219, 189, 241, 210, 19, 92, 131, 56, 70, 64,
   30, 66, 182, 163, 195, 72, 126, 110, 107, 58, 40, 84, 250, 133, 186, 61, 202, 94, 155, 159, 10, 21, 121, 43,
   78, 212, 229, 172, 115, 243, 167, 87, 7, 112, 192, 247, 140, 128, 99, 13, 103, 74, 222, 237, 49, 197, 254,
   24, 227, 165, 153, 119, 38, 184, 180, 124, 17, 68, 146, 217, 35, 32, 137, 46, 55, 63, 209, 91, 149, 188,
   207, 205, 144, 135, 151, 178, 220, 252, 190, 97, 242, 86, 211, 171, 20, 42, 93, 158, 132, 60, 57, 83, 71,
   109, 65, 162, 31, 45, 67, 216, 183, 123, 164, 118, 196, 23, 73, 236, 127, 12, 111, 246, 108, 161, 59, 82,
   41, 157, 85, 170, 251, 96, 134, 177, 187, 204, 62, 90, 203, 89, 95, 176, 156, 169, 160, 81, 11, 245, 22,
   235, 122, 117, 44, 215, 79, 174, 213, 233, 230, 231, 173, 232, 116, 214, 244, 234, 168, 80, 88, 175]

def exp (k : Nat) : Nat := expTable.getD (k % 255) 0
def log (a : Nat) : Nat := logTable.getD a 0

def mulN (a b : Nat) : Nat := if a = 0 ∨ b = 0 then 0 else exp (log a + log b)
def invN (a : Nat) : Nat := if a = 0 then 0 else exp (255 - log a)

/-! ## The tables -/

theorem exp_facts : ∀ k < 255, exp k < 256 ∧ exp k ≠ 0 ∧ log (exp k) = k ∧ exp (k + 1) = xtime (exp k) := by
  have h : ((List.range 255).all fun k => decide (exp k < 256) && decide (exp k ≠ 0) && decide (log (exp k) = k) &&
    decide (exp (k + 1) = xtime (exp k))) = true := by decide +kernel
  intro k hk
  have := List.all_eq_true.1 h k (List.mem_range.2 hk)
  simp only [Bool.and_eq_true, decide_eq_true_eq] at this
  exact ⟨this.1.1.1, this.1.1.2, this.1.2, this.2⟩

theorem log_facts : ∀ a < 256, a ≠ 0 → exp (log a) = a ∧ log a < 255 := by
  have h : ((List.range 256).all fun a => decide (a ≠ 0 → exp (log a) = a ∧ log a < 255)) = true := by decide +kernel
  intro a ha
  have := List.all_eq_true.1 h a (List.mem_range.2 ha)
  exact of_decide_eq_true this

theorem xtime_bits {a : Nat} (ha : a < 256) : xtime a = (a <<< 1) ^^^ (if a.testBit 7 then 0x11D else 0) := by
  have h : ((List.range 256).all fun a => decide (xtime a = (a <<< 1) ^^^ (if a.testBit 7 then 0x11D else 0))) = true := by
    decide +kernel
  exact of_decide_eq_true (List.all_eq_true.1 h a (List.mem_range.2 ha))

theorem xor_lt {a b : Nat} (ha : a < 256) (hb : b < 256) : a ^^^ b < 256 := Nat.xor_lt_two_pow (n := 8) ha hb

theorem xtime_xor {a b : Nat} (ha : a < 256) (hb : b < 256) : xtime (a ^^^ b) = xtime a ^^^ xtime b := by
  rw [xtime_bits ha, xtime_bits hb, xtime_bits (xor_lt ha hb), Nat.shiftLeft_xor_distrib, Nat.testBit_xor]
  have key : ∀ p q : Nat, p ^^^ q ^^^ 285 = (p ^^^ 285) ^^^ q := by
    intro p q; rw [Nat.xor_assoc, Nat.xor_assoc, Nat.xor_comm q]
  cases a.testBit 7 <;> cases b.testBit 7 <;> simp only [Bool.xor_false, Bool.xor_true, Bool.not_true, Bool.not_false, if_true, if_false, Nat.xor_zero, Bool.false_eq_true]
  · rw [Nat.xor_assoc]
  · rw [key]
  · rw [← Nat.xor_assoc, ← key, Nat.xor_assoc _ 285 285, Nat.xor_self, Nat.xor_zero]

theorem xtime_lt {a : Nat} (ha : a < 256) : xtime a < 256 := by
  have h : ((List.range 256).all fun a => decide (xtime a < 256)) = true := by decide +kernel
  exact of_decide_eq_true (List.all_eq_true.1 h a (List.mem_range.2 ha))

theorem exp_mod (k : Nat) : exp (k % 255) = exp k := by unfold exp; rw [Nat.mod_mod]

theorem exp_congr {a b : Nat} (h : a % 255 = b % 255) : exp a = exp b := by unfold exp; rw [h]

theorem exp_lt (k : Nat) : exp k < 256 := by rw [← exp_mod]; exact (exp_facts _ (Nat.mod_lt _ (by omega))).1
theorem exp_ne (k : Nat) : exp k ≠ 0 := by rw [← exp_mod]; exact (exp_facts _ (Nat.mod_lt _ (by omega))).2.1
theorem log_exp (k : Nat) : log (exp k) = k % 255 := by
  rw [← exp_mod]; exact (exp_facts _ (Nat.mod_lt _ (by omega))).2.2.1
theorem exp_succ (k : Nat) : exp (k + 1) = xtime (exp k) := by
  rw [← exp_mod k, ← (exp_facts _ (Nat.mod_lt k (by omega))).2.2.2]
  exact exp_congr (by omega)

theorem iter_lt (k : Nat) {b : Nat} (hb : b < 256) : xtime^[k] b < 256 := by
  induction k generalizing b with
  | zero => exact hb
  | succ k ih => exact ih (xtime_lt hb)

theorem iter_xor (k : Nat) {a b : Nat} (ha : a < 256) (hb : b < 256) :
    xtime^[k] (a ^^^ b) = xtime^[k] a ^^^ xtime^[k] b := by
  induction k generalizing a b with
  | zero => rfl
  | succ k ih =>
    simp only [Function.iterate_succ, Function.comp_apply]
    rw [xtime_xor ha hb, ih (xtime_lt ha) (xtime_lt hb)]

theorem mul_exp (k : Nat) {b : Nat} (hb : b < 256) : mulN (exp k) b = xtime^[k] b := by
  by_cases h0 : b = 0
  · subst h0
    have : ∀ k, xtime^[k] 0 = 0 := by
      intro k
      induction k with
      | zero => rfl
      | succ k ih => rw [Function.iterate_succ, Function.comp_apply]; exact ih
    rw [this]
    unfold mulN; simp
  · have hm : ∀ k, mulN (exp k) b = exp (k + log b) := by
      intro k
      unfold mulN
      rw [if_neg (by simp [exp_ne, h0]), log_exp]
      exact exp_congr (by omega)
    rw [hm]
    induction k with
    | zero => rw [Nat.zero_add, (log_facts b hb h0).1]; rfl
    | succ k ih =>
      rw [Function.iterate_succ_apply', ← ih, ← exp_succ]
      exact exp_congr (by omega)

theorem mulN_lt (a b : Nat) : mulN a b < 256 := by
  unfold mulN
  split
  · omega
  · exact exp_lt _

theorem mulN_comm (a b : Nat) : mulN a b = mulN b a := by
  unfold mulN
  rw [Nat.add_comm]
  simp only [or_comm]

theorem mulN_eq_zero {a b : Nat} : mulN a b = 0 ↔ a = 0 ∨ b = 0 := by
  unfold mulN
  split
  · simp [*]
  · simp [*, exp_ne]

theorem mulN_assoc (a b c : Nat) : mulN (mulN a b) c = mulN a (mulN b c) := by
  by_cases h : a = 0 ∨ b = 0 ∨ c = 0
  · have l : mulN (mulN a b) c = 0 := by rw [mulN_eq_zero, mulN_eq_zero]; tauto
    have r : mulN a (mulN b c) = 0 := by rw [mulN_eq_zero, mulN_eq_zero]; tauto
    rw [l, r]
  · have h1 : mulN a b = exp (log a + log b) := by unfold mulN; rw [if_neg (by tauto)]
    have h2 : mulN b c = exp (log b + log c) := by unfold mulN; rw [if_neg (by tauto)]
    rw [h1, h2]
    unfold mulN
    have := exp_ne (log a + log b)
    have := exp_ne (log b + log c)
    rw [if_neg (by tauto), if_neg (by tauto), log_exp, log_exp]
    exact exp_congr (by omega)

theorem mulN_xor {a b c : Nat} (ha : a < 256) (hb : b < 256) (hc : c < 256) :
    mulN a (b ^^^ c) = mulN a b ^^^ mulN a c := by
  by_cases h0 : a = 0
  · subst h0; unfold mulN; simp
  · rw [← (log_facts a ha h0).1, mul_exp _ (xor_lt hb hc), mul_exp _ hb, mul_exp _ hc, iter_xor _ hb hc]

theorem one_mulN {a : Nat} (ha : a < 256) : mulN 1 a = a := by
  have : (1 : Nat) = exp 0 := by decide
  rw [this, mul_exp 0 ha]; rfl

theorem mulN_inv {a : Nat} (ha : a < 256) (h0 : a ≠ 0) : mulN a (invN a) = 1 := by
  unfold mulN invN
  rw [if_neg h0, if_neg (by simp [h0, exp_ne]), log_exp]
  have := (log_facts a ha h0).2
  have : (1 : Nat) = exp 0 := by decide
  rw [this]
  exact exp_congr (by omega)

/-! ## The field -/

instance : Zero GF := ⟨⟨0, by decide⟩⟩
instance : One GF := ⟨⟨1, by decide⟩⟩
instance : Add GF := ⟨fun a b => ⟨a.val ^^^ b.val, xor_lt a.lt b.lt⟩⟩
instance : Neg GF := ⟨fun a => a⟩
instance : Mul GF := ⟨fun a b => ⟨mulN a.val b.val, mulN_lt _ _⟩⟩
instance : Inv GF := ⟨fun a => ⟨invN a.val, by unfold invN; split; decide; exact exp_lt _⟩⟩

theorem add_val (a b : GF) : (a + b).val = a.val ^^^ b.val := rfl
theorem mul_val (a b : GF) : (a * b).val = mulN a.val b.val := rfl
theorem zero_val : (0 : GF).val = 0 := rfl
theorem one_val : (1 : GF).val = 1 := rfl

instance : CommRing GF where
  add_assoc a b c := ext' (Nat.xor_assoc _ _ _)
  zero_add a := ext' (Nat.zero_xor _)
  add_zero a := ext' (Nat.xor_zero _)
  add_comm a b := ext' (Nat.xor_comm _ _)
  neg_add_cancel a := ext' (Nat.xor_self _)
  left_distrib a b c := ext' (mulN_xor a.lt b.lt c.lt)
  right_distrib a b c := ext' (by
    show mulN (a.val ^^^ b.val) c.val = mulN a.val c.val ^^^ mulN b.val c.val
    rw [mulN_comm, mulN_xor c.lt a.lt b.lt, mulN_comm a.val, mulN_comm b.val])
  zero_mul a := ext' (by show mulN 0 a.val = 0; unfold mulN; simp)
  mul_zero a := ext' (by show mulN a.val 0 = 0; unfold mulN; simp)
  mul_assoc a b c := ext' (mulN_assoc _ _ _)
  one_mul a := ext' (one_mulN a.lt)
  mul_one a := ext' (by show mulN a.val 1 = a.val; rw [mulN_comm, one_mulN a.lt])
  mul_comm a b := ext' (mulN_comm _ _)
  nsmul := nsmulRec
  zsmul := zsmulRec

instance : Field GF where
  exists_pair_ne := ⟨0, 1, fun h => absurd (congrArg GF.val h) (by decide)⟩
  mul_inv_cancel a ha := ext' (mulN_inv a.lt (fun h => ha (ext' h)))
  inv_zero := ext' (by decide)
  nnqsmul := _
  nnqsmul_def := fun _ _ => rfl
  qsmul := _
  qsmul_def := fun _ _ => rfl

/-- The primitive element. -/
def alpha : GF := ⟨2, by decide⟩

theorem alpha_pow (k : Nat) : (alpha ^ k).val = exp k := by
  induction k with
  | zero => decide
  | succ k ih =>
    rw [pow_succ, mul_val, ih, mulN_comm]
    have : alpha.val = exp 1 := by decide
    rw [this, mul_exp 1 (exp_lt k), exp_succ]; rfl

theorem alpha_pow_inj {i j : Nat} (hi : i < 255) (hj : j < 255) (h : alpha ^ i = alpha ^ j) : i = j := by
  have := congrArg (fun x : GF => log x.val) h
  simp only [alpha_pow, log_exp] at this
  omega

theorem add_self (a : GF) : a + a = 0 := ext' (Nat.xor_self _)
theorem neg_eq (a : GF) : -a = a := rfl

def ofNat' (n : Nat) : GF := ⟨n % 256, Nat.mod_lt _ (by decide)⟩

end GF
end Spec
