import Verif.Model.Float64
import Mathlib.Data.Rat.Floor
import Mathlib.Algebra.Order.Field.Power
import Mathlib.Tactic.Linarith
import Mathlib.Tactic.FieldSimp
import Mathlib.Tactic.Ring
import Mathlib.Tactic.Positivity
import Mathlib.Tactic.NormNum
/-!
# `float64Round` is a rounding
-/
namespace QR

/-- What the gradient theorems use of a rounding. -/
structure Rounding (rnd : Rat → Rat) : Prop where
  mono : ∀ {x y}, x ≤ y → rnd x ≤ rnd y
  zero : rnd 0 = 0
  one : rnd 1 = 1
  half : rnd (1/2) = 1/2
  neg : ∀ x, rnd (-x) = -rnd x
  idem : ∀ x, rnd (rnd x) = rnd x
  err : ∀ x, -512 ≤ x → x ≤ 512 → x - 1/1000000000 ≤ rnd x ∧ rnd x ≤ x + 1/1000000000
  sub : ∀ {x y}, rnd x = x → rnd y = y → rnd (x - y) = 0 → x = y

/-- Exact arithmetic. -/
theorem Rounding.exact : Rounding id where
  mono := fun h => h
  zero := rfl
  one := rfl
  half := rfl
  neg := fun _ => rfl
  idem := fun _ => rfl
  err := fun x _ _ => ⟨by simp only [id]; linarith, by simp only [id]; linarith⟩
  sub := fun _ _ h => by simp only [id] at h; linarith

theorem floor_spec (q : Rat) : (q.floor : Rat) ≤ q ∧ q < q.floor + 1 := by
  constructor
  · exact Rat.le_floor_iff.1 (le_refl _)
  · have : q.floor < q.floor + 1 := by omega
    have := Rat.floor_lt_iff.1 this
    push_cast at this
    exact this

theorem roundEven_near (q : Rat) : (q - 1/2 ≤ roundEven q) ∧ (roundEven q : Rat) ≤ q + 1/2 := by
  obtain ⟨h1, h2⟩ := floor_spec q
  unfold roundEven
  simp only
  split
  · constructor <;> linarith
  · split
    · push_cast; constructor <;> linarith
    · split
      · constructor <;> linarith
      · push_cast; constructor <;> linarith

theorem roundEven_int (n : Int) : roundEven (n : Rat) = n := by
  obtain ⟨h1, h2⟩ := roundEven_near (n : Rat)
  have a : (roundEven (n : Rat) : Rat) < ((n + 1 : Int) : Rat) := by push_cast; linarith
  have b : ((n - 1 : Int) : Rat) < (roundEven (n : Rat) : Rat) := by push_cast; linarith
  have := Int.cast_lt.1 a
  have := Int.cast_lt.1 b
  omega

theorem roundEven_mono {x y : Rat} (h : x ≤ y) : roundEven x ≤ roundEven y := by
  obtain ⟨x1, x2⟩ := floor_spec x
  obtain ⟨y1, y2⟩ := floor_spec y
  have hf : x.floor ≤ y.floor := Rat.le_floor_iff.2 (le_trans x1 h)
  rcases eq_or_lt_of_le hf with e | e
  · unfold roundEven
    simp only
    rw [← e] at y1 y2 ⊢
    split <;> split <;> (try split) <;> (try split) <;> (try split) <;> (try omega) <;> (exfalso; linarith)
  · have e' : ((x.floor + 1 : Int) : Rat) ≤ y.floor := by exact_mod_cast e
    have hx : roundEven x ≤ x.floor + 1 := by
      unfold roundEven; simp only; split <;> (try split) <;> (try split) <;> omega
    have hy : y.floor ≤ roundEven y := by
      unfold roundEven; simp only; split <;> (try split) <;> (try split) <;> omega
    omega

theorem binExp_spec {q : Rat} (h : 0 < q) : (2 : Rat) ^ binExp q ≤ q ∧ q < (2 : Rat) ^ (binExp q + 1) := by
  have hn : 0 < q.num := Rat.num_pos.2 h
  have hq : q * q.den = q.num.toNat := by
    rw [Rat.mul_den_eq_num]
    have : ((q.num.toNat : Int) : Rat) = q.num := by congr 1; omega
    rw [← this]; push_cast; rfl
  have hn' : q.num.toNat ≠ 0 := by omega
  have hd0 : q.den ≠ 0 := q.den_nz
  have n1 : 2 ^ Nat.log2 q.num.toNat ≤ q.num.toNat := Nat.log2_self_le hn'
  have n2 : q.num.toNat < 2 ^ (Nat.log2 q.num.toNat + 1) := Nat.lt_log2_self
  have d1 : 2 ^ Nat.log2 q.den ≤ q.den := Nat.log2_self_le hd0
  have d2 : q.den < 2 ^ (Nat.log2 q.den + 1) := Nat.lt_log2_self
  generalize ha : Nat.log2 q.num.toNat = a at *
  generalize hb : Nat.log2 q.den = b at *
  have n1' : (2 : Rat) ^ a ≤ q.num.toNat := by exact_mod_cast n1
  have n2' : (q.num.toNat : Rat) < 2 ^ (a + 1) := by exact_mod_cast n2
  have d1' : (2 : Rat) ^ b ≤ q.den := by exact_mod_cast d1
  have d2' : (q.den : Rat) < 2 ^ (b + 1) := by exact_mod_cast d2
  have hz : ∀ k : Int, (2 : Rat) ^ k * 2 ^ b = 2 ^ (k + b) := by
    intro k; rw [zpow_add₀ (by norm_num), zpow_natCast]
  have up : q < (2 : Rat) ^ ((a : Int) - b + 1) := by
    have hb0 : (0 : Rat) < 2 ^ b := by positivity
    have : q * 2 ^ b < (2 : Rat) ^ ((a : Int) - b + 1) * 2 ^ b := by
      rw [hz, show (a : Int) - b + 1 + b = ((a + 1 : Nat) : Int) by push_cast; ring, zpow_natCast]
      have := mul_le_mul_of_nonneg_left d1' (le_of_lt h)
      linarith
    exact lt_of_mul_lt_mul_right this (le_of_lt hb0)
  have lo : (2 : Rat) ^ ((a : Int) - b - 1) < q := by
    have hb0 : (0 : Rat) < 2 ^ (b + 1) := by positivity
    have : (2 : Rat) ^ ((a : Int) - b - 1) * 2 ^ (b + 1) < q * 2 ^ (b + 1) := by
      rw [← zpow_natCast (2 : Rat) (b + 1), ← zpow_add₀ (by norm_num), show (a : Int) - b - 1 + ((b + 1 : Nat) : Int) = (a : Int) by push_cast; ring,
        zpow_natCast, zpow_natCast]
      have := mul_lt_mul_of_pos_left d2' h
      linarith
    exact lt_of_mul_lt_mul_right this (le_of_lt hb0)
  unfold binExp
  simp only
  rw [ha, hb]
  split
  · exact ⟨by assumption, up⟩
  · refine ⟨le_of_lt lo, ?_⟩
    rw [sub_add_cancel]
    exact lt_of_not_ge (by assumption)

theorem two_zpow_pos (k : Int) : (0 : Rat) < 2 ^ k := by positivity

theorem two_zpow_le {a b : Int} : (2 : Rat) ^ a ≤ 2 ^ b ↔ a ≤ b := zpow_le_zpow_iff_right₀ (by norm_num)
theorem two_zpow_lt {a b : Int} : (2 : Rat) ^ a < 2 ^ b ↔ a < b := zpow_lt_zpow_iff_right₀ (by norm_num)

/-- The exponent of the distance of neighbours. -/
def ulpExp (q : Rat) : Int := max (binExp q) (-1022) - 52

theorem ulp_eq (q : Rat) : float64Ulp q = 2 ^ ulpExp q := rfl

theorem binExp_mono {x y : Rat} (hx : 0 < x) (h : x ≤ y) : binExp x ≤ binExp y := by
  have a := (binExp_spec hx).1
  have b := (binExp_spec (lt_of_lt_of_le hx h)).2
  have := two_zpow_lt.1 (lt_of_le_of_lt (le_trans a h) b)
  omega

theorem round_pos {x : Rat} (h : 0 < x) : float64Round x = (roundEven (x / 2 ^ ulpExp x) : Rat) * 2 ^ ulpExp x := by
  unfold float64Round
  rw [if_neg (ne_of_gt h), if_pos h, ulp_eq]

theorem round_neg (x : Rat) : float64Round (-x) = -float64Round x := by
  unfold float64Round
  rcases lt_trichotomy x 0 with h | h | h
  · rw [if_neg (by linarith), if_pos (by linarith), if_neg (by linarith), if_neg (by linarith), neg_neg]
  · subst h; simp
  · rw [if_neg (by linarith), if_neg (by linarith), if_neg (by linarith), if_pos h, neg_neg]

/-- A multiple of the distance is kept. -/
theorem round_le_grid {x : Rat} (h : 0 < x) {n : Int} (hn : x ≤ n * 2 ^ ulpExp x) : float64Round x ≤ n * 2 ^ ulpExp x := by
  rw [round_pos h]
  have hu := two_zpow_pos (ulpExp x)
  have : x / 2 ^ ulpExp x ≤ n := by rw [div_le_iff₀ hu]; exact hn
  have := roundEven_mono this
  rw [roundEven_int] at this
  have : (roundEven (x / 2 ^ ulpExp x) : Rat) ≤ n := by exact_mod_cast this
  exact mul_le_mul_of_nonneg_right this (le_of_lt hu)

theorem grid_le_round {x : Rat} (h : 0 < x) {n : Int} (hn : n * 2 ^ ulpExp x ≤ x) : n * 2 ^ ulpExp x ≤ float64Round x := by
  rw [round_pos h]
  have hu := two_zpow_pos (ulpExp x)
  have : (n : Rat) ≤ x / 2 ^ ulpExp x := by rw [le_div_iff₀ hu]; exact hn
  have := roundEven_mono this
  rw [roundEven_int] at this
  have : (n : Rat) ≤ (roundEven (x / 2 ^ ulpExp x) : Rat) := by exact_mod_cast this
  exact mul_le_mul_of_nonneg_right this (le_of_lt hu)

theorem round_grid {x : Rat} (h : 0 < x) {n : Int} (hn : x = n * 2 ^ ulpExp x) : float64Round x = x := by
  rw [hn]
  apply le_antisymm
  · have := round_le_grid h (le_of_eq hn); rwa [← hn] at this ⊢
  · have := grid_le_round h (ge_of_eq hn); rwa [← hn] at this ⊢

theorem pow_grid {j u : Int} (h : u ≤ j) : ∃ n : Int, (2 : Rat) ^ j = n * 2 ^ u := by
  refine ⟨2 ^ (j - u).toNat, ?_⟩
  push_cast
  rw [← zpow_natCast, ← zpow_add₀ (by norm_num)]
  congr 1
  omega

theorem round_nonneg {x : Rat} (h : 0 < x) : 0 ≤ float64Round x := by
  have := grid_le_round h (n := 0) (by push_cast; linarith)
  push_cast at this
  linarith

theorem round_mono_pos {x y : Rat} (hx : 0 < x) (h : x ≤ y) : float64Round x ≤ float64Round y := by
  have hy : 0 < y := lt_of_lt_of_le hx h
  have hb := binExp_mono hx h
  by_cases e : ulpExp x = ulpExp y
  · rw [round_pos hx, round_pos hy, ← e]
    have hu := two_zpow_pos (ulpExp x)
    have : x / 2 ^ ulpExp x ≤ y / 2 ^ ulpExp x := div_le_div_of_nonneg_right h (le_of_lt hu)
    have := roundEven_mono this
    have : (roundEven (x / 2 ^ ulpExp x) : Rat) ≤ roundEven (y / 2 ^ ulpExp x) := by exact_mod_cast this
    exact mul_le_mul_of_nonneg_right this (le_of_lt hu)
  · have h1 : -1022 < binExp y ∧ binExp x < binExp y := by unfold ulpExp at e; omega
    obtain ⟨n, hn⟩ := pow_grid (j := binExp y) (u := ulpExp x) (by unfold ulpExp; omega)
    obtain ⟨k, hk⟩ := pow_grid (j := binExp y) (u := ulpExp y) (by unfold ulpExp; omega)
    have a : float64Round x ≤ 2 ^ binExp y := by
      rw [hn]
      apply round_le_grid hx
      rw [← hn]
      exact le_trans (le_of_lt (binExp_spec hx).2) (two_zpow_le.2 (by omega))
    have b : 2 ^ binExp y ≤ float64Round y := by
      rw [hk]
      apply grid_le_round hy
      rw [← hk]
      exact (binExp_spec hy).1
    exact le_trans a b

theorem round_zero : float64Round 0 = 0 := by unfold float64Round; rw [if_pos rfl]

theorem round_mono {x y : Rat} (h : x ≤ y) : float64Round x ≤ float64Round y := by
  have np : ∀ {z : Rat}, z ≤ 0 → float64Round z ≤ 0 := by
    intro z hz
    rcases eq_or_lt_of_le hz with e | e
    · rw [e, round_zero]
    · have := round_nonneg (x := -z) (by linarith)
      rw [round_neg] at this
      linarith
  have nn : ∀ {z : Rat}, 0 ≤ z → 0 ≤ float64Round z := by
    intro z hz
    rcases eq_or_lt_of_le hz with e | e
    · rw [← e, round_zero]
    · exact round_nonneg e
  rcases lt_or_ge 0 x with hx | hx
  · exact round_mono_pos hx h
  · rcases lt_or_ge y 0 with hy | hy
    · have := round_mono_pos (x := -y) (y := -x) (by linarith) (by linarith)
      rw [round_neg, round_neg] at this
      linarith
    · exact le_trans (np hx) (nn hy)

/-- Which numbers are kept. -/
theorem round_rep {k j : Int} (hk : 0 ≤ k) (hk2 : k ≤ 2 ^ 53) (hj : -1074 ≤ j) : float64Round ((k : Rat) * 2 ^ j) = k * 2 ^ j := by
  rcases eq_or_lt_of_le hk with e | e
  · rw [← e]; push_cast; rw [zero_mul, round_zero]
  · have hx : (0 : Rat) < k * 2 ^ j := mul_pos (by exact_mod_cast e) (two_zpow_pos j)
    by_cases hu : ulpExp (k * 2 ^ j) ≤ j
    · obtain ⟨n, hn⟩ := pow_grid hu
      apply round_grid hx (n := k * n)
      conv => lhs; rw [hn]
      push_cast; ring
    · have hb := binExp_spec hx
      have hlt : j + 53 ≤ binExp ((k : Rat) * 2 ^ j) := by unfold ulpExp at hu; omega
      have h53 : ((2 : Int) ^ 53 : Rat) * 2 ^ j = 2 ^ (j + 53) := by
        rw [zpow_add₀ (by norm_num)]; norm_num; ring
      have h1 : ((2 : Int) ^ 53 : Rat) * 2 ^ j ≤ k * 2 ^ j := by
        rw [h53]; exact le_trans (two_zpow_le.2 hlt) hb.1
      have h2 : ((2 : Int) ^ 53 : Rat) ≤ k := le_of_mul_le_mul_right h1 (two_zpow_pos j)
      have h3 : (2 : Int) ^ 53 ≤ k := by exact_mod_cast h2
      have hk' : k = 2 ^ 53 := by omega
      have hx2 : (k : Rat) * 2 ^ j = 2 ^ (j + 53) := by rw [hk']; exact_mod_cast h53
      have hb2 : binExp ((k : Rat) * 2 ^ j) = j + 53 := by
        have := hb.1
        rw [hx2] at this ⊢
        have h5 := two_zpow_le.1 this
        rw [← hx2] at h5 ⊢
        omega
      obtain ⟨n, hn⟩ := pow_grid (j := j + 53) (u := ulpExp ((k : Rat) * 2 ^ j)) (by unfold ulpExp; omega)
      apply round_grid hx (n := n)
      rw [← hn, hx2]

theorem round_form {x : Rat} (h : 0 < x) : ∃ k j : Int, 0 ≤ k ∧ k ≤ 2 ^ 53 ∧ -1074 ≤ j ∧ float64Round x = k * 2 ^ j := by
  refine ⟨roundEven (x / 2 ^ ulpExp x), ulpExp x, ?_, ?_, by unfold ulpExp; omega, round_pos h⟩
  · have : ((0 : Int) : Rat) ≤ x / 2 ^ ulpExp x := by push_cast; exact le_of_lt (div_pos h (two_zpow_pos _))
    have := roundEven_mono this
    rwa [roundEven_int] at this
  · have : x / 2 ^ ulpExp x ≤ ((2 ^ 53 : Int) : Rat) := by
      rw [div_le_iff₀ (two_zpow_pos _)]
      have h2 := (binExp_spec h).2
      have : ((2 ^ 53 : Int) : Rat) * 2 ^ ulpExp x = 2 ^ (ulpExp x + 53) := by
        rw [zpow_add₀ (by norm_num)]; norm_num; ring
      rw [this]
      exact le_trans (le_of_lt h2) (two_zpow_le.2 (by unfold ulpExp; omega))
    have := roundEven_mono this
    rwa [roundEven_int] at this

theorem round_idem (x : Rat) : float64Round (float64Round x) = float64Round x := by
  have pos : ∀ {z : Rat}, 0 < z → float64Round (float64Round z) = float64Round z := by
    intro z hz
    obtain ⟨k, j, h1, h2, h3, e⟩ := round_form hz
    rw [e, round_rep h1 h2 h3]
  rcases lt_trichotomy x 0 with h | h | h
  · have := pos (z := -x) (by linarith)
    rw [round_neg, round_neg] at this
    linarith
  · rw [h, round_zero, round_zero]
  · exact pos h

theorem round_err {x : Rat} (h : 0 < x) (h2 : x ≤ 512) : x - 1/1000000000 ≤ float64Round x ∧ float64Round x ≤ x + 1/1000000000 := by
  obtain ⟨a, b⟩ := roundEven_near (x / 2 ^ ulpExp x)
  have hu := two_zpow_pos (ulpExp x)
  have hs : (2 : Rat) ^ ulpExp x ≤ 1/1000000000 := by
    have : ulpExp x ≤ -43 := by
      have : (2 : Rat) ^ binExp x ≤ 2 ^ (9 : Int) := le_trans (binExp_spec h).1 (by norm_num; exact h2)
      have := two_zpow_le.1 this
      unfold ulpExp; omega
    refine le_trans (two_zpow_le.2 this) ?_
    norm_num
  have e : x / 2 ^ ulpExp x * 2 ^ ulpExp x = x := div_mul_cancel₀ x (ne_of_gt hu)
  rw [round_pos h]
  have a' := mul_le_mul_of_nonneg_right a (le_of_lt hu)
  have b' := mul_le_mul_of_nonneg_right b (le_of_lt hu)
  rw [sub_mul, e] at a'
  rw [add_mul, e] at b'
  constructor <;> linarith

/-- A representable number is a multiple of the least one. -/
theorem rep_multiple {x : Rat} (h : float64Round x = x) : ∃ n : Int, x = n * 2 ^ (-1074 : Int) := by
  have pos : ∀ {z : Rat}, 0 < z → float64Round z = z → ∃ n : Int, z = n * 2 ^ (-1074 : Int) := by
    intro z hz e
    obtain ⟨k, j, _, _, h3, e2⟩ := round_form hz
    obtain ⟨n, hn⟩ := pow_grid h3
    exact ⟨k * n, by rw [← e, e2, hn]; push_cast; ring⟩
  rcases lt_trichotomy x 0 with h1 | h1 | h1
  · obtain ⟨n, hn⟩ := pos (z := -x) (by linarith) (by rw [round_neg, h])
    exact ⟨-n, by push_cast; linarith⟩
  · exact ⟨0, by rw [h1]; simp⟩
  · exact pos h1 h

theorem Rounding.float64 : Rounding float64Round where
  mono := round_mono
  zero := round_zero
  one := by have := round_rep (k := 1) (j := 0) (by omega) (by omega) (by omega); norm_num at this; exact this
  half := by have := round_rep (k := 1) (j := -1) (by omega) (by omega) (by omega); norm_num at this; norm_num; exact this
  neg := round_neg
  idem := round_idem
  err := by
    intro x h1 h2
    rcases lt_trichotomy x 0 with h | h | h
    · have := round_err (x := -x) (by linarith) (by linarith)
      rw [round_neg] at this
      constructor <;> linarith
    · rw [h, round_zero]; norm_num
    · exact round_err h h2
  sub := by
    intro x y hx hy h
    have key : ∀ {z : Rat} {n : Int}, z = n * 2 ^ (-1074 : Int) → 0 < z → 0 < float64Round z := by
      intro z n e hz
      have hn : 0 < n := by
        have : (0 : Rat) < n := by
          by_contra hc
          have := mul_nonpos_of_nonpos_of_nonneg (le_of_not_gt hc) (le_of_lt (two_zpow_pos (-1074)))
          linarith
        exact_mod_cast this
      have h1 : (2 : Rat) ^ (-1074 : Int) ≤ z := by
        rw [e]
        have : (1 : Rat) ≤ n := by exact_mod_cast hn
        have := mul_le_mul_of_nonneg_right this (le_of_lt (two_zpow_pos (-1074)))
        linarith
      have h2 := round_mono h1
      have h3 := round_rep (k := 1) (j := -1074) (by omega) (by omega) (by omega)
      push_cast at h3
      rw [one_mul] at h3
      rw [h3] at h2
      exact lt_of_lt_of_le (two_zpow_pos _) h2
    obtain ⟨n, hn⟩ := rep_multiple hx
    obtain ⟨k, hk⟩ := rep_multiple hy
    by_contra hc
    rcases lt_or_gt_of_ne hc with hl | hl
    · have := key (z := y - x) (n := k - n) (by rw [hn, hk]; push_cast; ring) (by linarith)
      have e := round_neg (x - y)
      rw [neg_sub, h] at e
      linarith
    · have := key (z := x - y) (n := n - k) (by rw [hn, hk]; push_cast; ring) (by linarith)
      linarith

end QR
