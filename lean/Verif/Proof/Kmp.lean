import Verif.Model.Kmp
import Verif.Spec.Occurrences
import Mathlib.Tactic.Ring
import Mathlib.Tactic.Linarith
/-!
# KMP: the failure table is the table of longest borders, the search counts all occurrences
-/
namespace QR
open Spec

set_option linter.unusedSectionVars false

variable {α : Type} [DecidableEq α]

/-- `b` is the length of a proper border of the prefix of length `j`. -/
def Border (p : List α) (j b : Nat) : Prop := b < j ∧ ∀ t, t < b → p[t]? = p[j - b + t]?

theorem border_zero (p : List α) {j : Nat} (h : 0 < j) : Border p j 0 := ⟨h, fun t ht => by omega⟩

theorem border_succ {p : List α} {j b : Nat} : Border p (j + 1) (b + 1) ↔
    b < j ∧ (∀ t, t < b → p[t]? = p[j - b + t]?) ∧ p[b]? = p[j]? := by
  unfold Border
  constructor
  · rintro ⟨h1, h2⟩
    refine ⟨by omega, fun t ht => ?_, ?_⟩
    · rw [h2 t (by omega)]; congr 1; omega
    · rw [h2 b (by omega)]; congr 1; omega
  · rintro ⟨h1, h2, h3⟩
    refine ⟨by omega, fun t ht => ?_⟩
    by_cases htb : t = b
    · subst htb; rw [h3]; congr 1; omega
    · rw [h2 t (by omega)]; congr 1; omega

/-- A border of a border is a border. -/
theorem border_trans {p : List α} {j k b : Nat} (h1 : Border p j k) (h2 : Border p k b) : Border p j b := by
  refine ⟨by have := h1.1; have := h2.1; omega, fun t ht => ?_⟩
  have := h1.1; have := h2.1
  rw [h2.2 t ht, h1.2 (k - b + t) (by omega)]
  congr 1; omega

/-- Of two borders the shorter is a border of the longer. -/
theorem border_of_lt {p : List α} {j k b : Nat} (h1 : Border p j k) (h2 : Border p j b) (h : b < k) :
    Border p k b := by
  refine ⟨h, fun t ht => ?_⟩
  have := h1.1; have := h2.1
  rw [h2.2 t ht, h1.2 (k - b + t) (by omega)]
  congr 1; omega

/-- Correctness of one table entry. -/
def EntryOk (p : List α) (j : Nat) (x : Int) : Prop :=
  (j = 0 ∧ x = -1) ∨ (0 < j ∧ ∃ b : Nat, x = b ∧ Border p j b ∧ ∀ b', Border p j b' → b' ≤ b)

def TableOk (p : List α) (fail : List Int) (J : Nat) : Prop :=
  ∀ j, j ≤ J → ∃ x, fail[j]? = some x ∧ EntryOk p j x

/-- Loop invariant for `k`. -/
def KOk (p : List α) (j : Nat) (k : Int) : Prop :=
  (k = -1 ∨ ∃ b : Nat, k = b ∧ Border p j b) ∧ ∀ b', Border p (j + 1) (b' + 1) → (b' : Int) ≤ k

theorem nextLoop_ok (p : List α) : ∀ (fuel : Nat) (fail : List Int) (j : Nat) (k : Int),
    fail.length = p.length → j < p.length → TableOk p fail j → KOk p j k →
    2 * (p.length - 1 - j) + (k + 1).toNat < fuel →
    ∃ nx, kmpNextLoop p fuel fail j k = some nx ∧ nx.length = p.length ∧ TableOk p nx (p.length - 1) := by
  intro fuel
  induction fuel with
  | zero => intro fail j k _ _ _ _ h; omega
  | succ fuel ih =>
    intro fail j k hlen hj ht hk hfuel
    unfold kmpNextLoop
    by_cases hj1 : j < p.length - 1
    · rw [if_pos hj1]
      by_cases hm : k = -1 ∨ p[j]? = p[k.toNat]?
      · rw [if_pos hm]
        -- the new entry
        have hb : ∃ b : Nat, k + 1 = b ∧ Border p (j + 1) b := by
          rcases hk.1 with rfl | ⟨b, rfl, hb⟩
          · exact ⟨0, rfl, border_zero p (by omega)⟩
          · refine ⟨b + 1, by omega, border_succ.2 ⟨hb.1, hb.2, ?_⟩⟩
            rcases hm with hm | hm
            · omega
            · simpa using hm.symm
        obtain ⟨b, hbk, hb⟩ := hb
        have hmax : ∀ b', Border p (j + 1) b' → b' ≤ b := by
          intro b' hb'
          cases b' with
          | zero => omega
          | succ b' => have := hk.2 b' hb'; omega
        apply ih
        · simp [hlen]
        · omega
        · intro j' hj'
          by_cases hjj : j' = j + 1
          · subst hjj
            refine ⟨k + 1, ?_, Or.inr ⟨by omega, b, hbk, hb, hmax⟩⟩
            rw [List.getElem?_set_self (by omega)]
          · obtain ⟨x, hx, hx'⟩ := ht j' (by omega)
            refine ⟨x, ?_, hx'⟩
            rw [List.getElem?_set_ne (by omega)]; exact hx
        · refine ⟨Or.inr ⟨b, hbk, hb⟩, fun b' hb' => ?_⟩
          have := hmax b' ?_
          · omega
          · obtain ⟨h1, h2, _⟩ := border_succ.1 hb'
            exact ⟨h1, h2⟩
        · have : -1 ≤ k := by rcases hk.1 with rfl | ⟨b, rfl, _⟩ <;> omega
          omega
      · rw [if_neg hm]
        have hm1 : k ≠ -1 := fun h => hm (Or.inl h)
        have hm2 : ¬ p[j]? = p[k.toNat]? := fun h => hm (Or.inr h)
        obtain ⟨b, rfl, hb⟩ : ∃ b : Nat, k = b ∧ Border p j b := by
          rcases hk.1 with h | h
          · exact absurd h hm1
          · exact h
        obtain ⟨x, hx, hx'⟩ := ht b (by have := hb.1; omega)
        simp only [Int.toNat_natCast] at hm2 ⊢
        rw [hx]
        simp only
        have hless : ∀ b', Border p (j + 1) (b' + 1) → b' < b := by
          intro b' hb'
          have h1 := hk.2 b' hb'
          rcases Nat.lt_or_ge b' b with h | h
          · exact h
          · have : b' = b := by omega
            subst this
            exact absurd (border_succ.1 hb').2.2.symm hm2
        apply ih fail j x hlen hj ht
        · rcases hx' with ⟨h0, rfl⟩ | ⟨h0, c, rfl, hc, hcm⟩
          · subst h0
            exact ⟨Or.inl rfl, fun b' hb' => by have := hless b' hb'; omega⟩
          · refine ⟨Or.inr ⟨c, rfl, border_trans hb hc⟩, fun b' hb' => ?_⟩
            have h1 := hless b' hb'
            obtain ⟨h2, h3, _⟩ := border_succ.1 hb'
            have := hcm b' (border_of_lt hb ⟨h2, h3⟩ h1)
            omega
        · rcases hx' with ⟨h0, rfl⟩ | ⟨h0, c, rfl, hc, hcm⟩
          · omega
          · have := hc.1; omega
    · rw [if_neg hj1]
      refine ⟨fail, rfl, hlen, ?_⟩
      have : p.length - 1 = j := by omega
      rw [this]; exact ht

/-- The failure table is computed and correct for every non-empty pattern. -/
theorem getNext_ok (p : List α) (hp : p ≠ []) :
    ∃ nx, kmpGetNext p = some nx ∧ nx.length = p.length ∧ TableOk p nx (p.length - 1) := by
  have hlen : 0 < p.length := List.length_pos_iff.2 hp
  unfold kmpGetNext
  rw [if_neg hp]
  apply nextLoop_ok
  · simp
  · exact hlen
  · intro j hj
    have : j = 0 := by omega
    subst this
    refine ⟨-1, ?_, Or.inl ⟨rfl, rfl⟩⟩
    rw [List.getElem?_set_self (by simpa using hlen)]
  · refine ⟨Or.inl rfl, fun b' hb' => ?_⟩
    have := (border_succ.1 hb').1
    omega
  · simp; omega

/-- `p` occurs at `u`, by characters. -/
theorem occursAt_iff (p s : List α) (u : Nat) :
    occursAt p s u = true ↔ ∀ t, t < p.length → s[u + t]? = p[t]? := by
  unfold occursAt
  rw [decide_eq_true_iff]
  constructor
  · intro h t ht
    have : p[t]? = ((s.drop u).take p.length)[t]? := by rw [h]
    rw [this, List.getElem?_take_of_lt ht, List.getElem?_drop]
  · intro h
    apply List.ext_getElem?
    intro t
    by_cases ht : t < p.length
    · rw [List.getElem?_take_of_lt ht, List.getElem?_drop, h t ht]
    · rw [List.getElem?_eq_none (l := p) (by omega), List.getElem?_take_eq_none (by omega)]

theorem no_occ_late (p s : List α) (hp : p ≠ []) (u : Nat) (h : s.length < u + p.length) :
    occursAt p s u = false := by
  have hlen : 0 < p.length := List.length_pos_iff.2 hp
  rw [Bool.eq_false_iff]
  intro ho
  have := (occursAt_iff p s u).1 ho (p.length - 1) (by omega)
  rw [List.getElem?_eq_none (by omega), List.getElem?_eq_getElem (by omega)] at this
  simp at this

theorem countP_range_step (f : Nat → Bool) (a b : Nat) (hab : a ≤ b) (h : ∀ u, a ≤ u → u < b → f u = false) :
    (List.range b).countP f = (List.range a).countP f := by
  induction b with
  | zero => have : a = 0 := by omega
            subst this; rfl
  | succ b ih =>
    by_cases hb : a = b + 1
    · subst hb; rfl
    · rw [List.range_succ, List.countP_append, ih (by omega) (fun u h1 h2 => h u h1 (by omega))]
      simp [h b (by omega) (by omega)]

/-- Loop invariant of the search. -/
structure SearchInv (p s : List α) (i : Nat) (j : Int) (count : Nat) : Prop where
  jlo : -1 ≤ j
  jhi : j ≤ p.length
  ihi : i ≤ s.length
  start : j ≤ i
  matched : ∀ t : Nat, (t : Int) < j → s[((i : Int) - j).toNat + t]? = p[t]?
  counted : count = (List.range ((i : Int) - j).toNat).countP (occursAt p s)

theorem kmpLoop_ok (p s : List α) (hp : p ≠ []) (nx : List Int) (hnx : TableOk p nx (p.length - 1)) :
    ∀ (fuel i : Nat) (j : Int) (count : Nat), SearchInv p s i j count →
    (s.length + 2 - ((i : Int) - j)) * (p.length + 2) - j < fuel →
    kmpLoop s p nx fuel i j count = some (occurrences p s) := by
  have hlen : 0 < p.length := List.length_pos_iff.2 hp
  intro fuel
  induction fuel with
  | zero =>
    intro i j count inv h
    exfalso
    have h1 := inv.jlo; have h2 := inv.jhi; have h3 := inv.ihi
    have : (1 : Int) * (p.length + 2) ≤ (s.length + 2 - ((i : Int) - j)) * (p.length + 2) := by
      apply Int.mul_le_mul_of_nonneg_right <;> omega
    simp at h
    omega
  | succ fuel ih =>
    intro i j count inv hfuel
    have h1 := inv.jlo; have h2 := inv.jhi; have h3 := inv.ihi; have h4 := inv.start
    unfold kmpLoop
    by_cases hc : i < s.length ∧ j < (p.length : Int)
    · rw [if_pos hc]
      by_cases hm : j = -1 ∨ s[i]? = p[j.toNat]?
      · rw [if_pos hm]
        have hstart : ((i + 1 : Nat) : Int) - (j + 1) = (i : Int) - j := by omega
        apply ih
        · refine ⟨by omega, by omega, by omega, by omega, ?_, ?_⟩
          · intro t ht
            rw [hstart]
            by_cases htj : (t : Int) < j
            · exact inv.matched t htj
            · have htj' : (t : Int) = j := by omega
              rcases hm with hm | hm
              · omega
              · rw [show ((i : Int) - j).toNat + t = i by omega, hm]
                congr 1; omega
          · rw [hstart]; exact inv.counted
        · rw [hstart]
          push_cast at hfuel ⊢
          linarith
      · rw [if_neg hm]
        have hm1 : j ≠ -1 := fun h => hm (Or.inl h)
        have hm2 : ¬ s[i]? = p[j.toNat]? := fun h => hm (Or.inr h)
        obtain ⟨J, rfl⟩ : ∃ J : Nat, j = J := ⟨j.toNat, by omega⟩
        simp only [Int.toNat_natCast] at hm2 ⊢
        obtain ⟨x, hx, hx'⟩ := hnx J (by omega)
        rw [hx]
        simp only
        have hxJ : -1 ≤ x ∧ x < J := by
          rcases hx' with ⟨h0, rfl⟩ | ⟨h0, b, rfl, hb, _⟩
          · omega
          · have := hb.1; omega
        have hs : ((i : Int) - (J : Int)).toNat = i - J := by omega
        -- no occurrence is skipped
        have hskip : ∀ u : Nat, i - J ≤ u → (u : Int) < (i : Int) - x → occursAt p s u = false := by
          intro u hu1 hu2
          rw [Bool.eq_false_iff]
          intro ho
          rw [occursAt_iff] at ho
          by_cases hu : u = i - J
          · subst hu
            have := ho J (by omega)
            rw [show i - J + J = i by omega] at this
            exact hm2 this
          · rcases hx' with ⟨h0, rfl⟩ | ⟨h0, b, rfl, hb, hmax⟩
            · omega
            · have hui : u ≤ i := by omega
              have : Border p J (i - u) := by
                refine ⟨by omega, fun t ht => ?_⟩
                rw [← ho t (by omega)]
                have hmt := inv.matched (J - (i - u) + t) (by omega)
                rw [hs] at hmt
                rw [← hmt]
                congr 1; omega
              have := hmax _ this
              omega
        apply ih
        · refine ⟨by omega, by omega, by omega, by omega, ?_, ?_⟩
          · intro t ht
            rcases hx' with ⟨h0, rfl⟩ | ⟨h0, b, rfl, hb, hmax⟩
            · omega
            · rw [hb.2 t (by omega)]
              have hmt := inv.matched (J - b + t) (by have := hb.1; omega)
              rw [hs] at hmt
              rw [← hmt]
              congr 1
              have := hb.1
              omega
          · rw [inv.counted]
            symm
            apply countP_range_step _ _ _ (by omega)
            intro u hu1 hu2
            exact hskip u (by omega) (by omega)
        · have hprod : (s.length + 2 - ((i : Int) - x)) * (p.length + 2) + 1 * ((J - x - 1 + 1) * (p.length + 2)) =
              (s.length + 2 - ((i : Int) - J)) * (p.length + 2) := by ring
          have hge : (1 : Int) * (p.length + 2) ≤ (J - x - 1 + 1) * (p.length + 2) := by
            apply Int.mul_le_mul_of_nonneg_right <;> omega
          push_cast at hfuel
          omega
    · rw [if_neg hc]
      by_cases hj : j = (p.length : Int)
      · rw [if_pos hj]
        have hst : (i : Int) - j ≥ 0 := by omega
        simp only [hst, if_true]
        have hocc : occursAt p s ((i : Int) - j).toNat = true := by
          rw [occursAt_iff]
          intro t ht
          exact inv.matched t (by omega)
        apply ih
        · refine ⟨by omega, by omega, by omega, by omega, fun t ht => by omega, ?_⟩
          rw [inv.counted]
          rw [show ((((i - (p.length - 1)) : Nat) : Int) - 0).toNat = ((i : Int) - j).toNat + 1 by omega]
          rw [List.range_succ, List.countP_append]
          simp [hocc]
        · have e : (((i - (p.length - 1)) : Nat) : Int) - 0 = (i : Int) - j + 1 := by omega
          rw [e]
          have hprod : (s.length + 2 - ((i : Int) - j + 1)) * (p.length + 2) =
              (s.length + 2 - ((i : Int) - j)) * (p.length + 2) - (p.length + 2) := by ring
          push_cast at hfuel
          omega
      · rw [if_neg hj]
        have hi : i = s.length := by omega
        rw [inv.counted]
        unfold occurrences
        congr 1
        rcases (by omega : j < 0 ∨ 0 ≤ j) with hneg | hpos
        · have : ((i : Int) - j).toNat = s.length + 1 := by omega
          rw [this, List.range_succ, List.countP_append]
          simp [no_occ_late p s hp s.length (by omega)]
        · symm
          apply countP_range_step _ _ _ (by omega)
          intro u hu1 hu2
          exact no_occ_late p s hp u (by omega)

theorem kmp_fuel (a b : Nat) : (((a : Int) + 2 - 0) * (b + 2) - 0) < ((kmpFuel a b : Nat) : Int) := by
  unfold kmpFuel
  push_cast
  nlinarith

/-- The counter returns the number of occurrences, whether the table is passed or computed. -/
theorem kmp_ok (p s : List α) (hp : p ≠ []) : kmp s p none = some (occurrences p s) ∧
    kmp s p (kmpGetNext p) = some (occurrences p s) := by
  obtain ⟨nx, h1, h2, h3⟩ := getNext_ok p hp
  have h := kmpLoop_ok p s hp nx h3 (kmpFuel s.length p.length) 0 0 0
    ⟨by omega, by omega, by omega, by omega, fun t ht => by omega, by simp⟩ (by
      have := kmp_fuel s.length p.length
      simpa using this)
  unfold kmp
  rw [h1]
  exact ⟨h, h⟩

end QR
