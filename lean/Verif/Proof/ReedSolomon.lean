import Verif.Spec.ReedSolomon
import Mathlib.LinearAlgebra.Vandermonde
import Mathlib.Data.Finset.Sort
import Mathlib.Tactic.Ring
import Mathlib.Tactic.LinearCombination
/-!
# Distance of the Reed-Solomon code; the coder produces codewords
-/
namespace Spec
open GF

theorem polyEval_foldl (c : List GF) (x a : GF) : c.foldl (fun a b => a * x + b) a = a * x ^ c.length + polyEval c x := by
  induction c generalizing a with
  | nil => simp [polyEval]
  | cons b c ih =>
    have e : polyEval (b :: c) x = (0 * x + b) * x ^ c.length + polyEval c x := by
      conv => lhs; unfold polyEval
      rw [List.foldl_cons, ih]
    rw [List.foldl_cons, ih, e, List.length_cons]
    ring

theorem polyEval_append (a b : List GF) (x : GF) : polyEval (a ++ b) x = polyEval a x * x ^ b.length + polyEval b x := by
  unfold polyEval
  rw [List.foldl_append]
  exact polyEval_foldl b x _

theorem polyEval_cons (b : GF) (c : List GF) (x : GF) : polyEval (b :: c) x = b * x ^ c.length + polyEval c x := by
  have := polyEval_append [b] c x
  simpa [polyEval] using this

theorem polyEval_zipAdd (x : GF) : ∀ (a b : List GF), a.length = b.length →
    polyEval (List.zipWith (· + ·) a b) x = polyEval a x + polyEval b x := by
  intro a
  induction a with
  | nil => intro b h; cases b <;> simp_all [polyEval]
  | cons p a ih =>
    intro b h
    cases b with
    | nil => simp at h
    | cons q b =>
      simp only [List.length_cons, Nat.add_right_cancel_iff] at h
      rw [List.zipWith_cons_cons, polyEval_cons, polyEval_cons, polyEval_cons, ih b h, List.length_zipWith, h, Nat.min_self]
      ring

theorem polyEval_smul (x k : GF) (a : List GF) : polyEval (a.map (k * ·)) x = k * polyEval a x := by
  induction a with
  | nil => simp [polyEval]
  | cons p a ih => rw [List.map_cons, polyEval_cons, polyEval_cons, ih, List.length_map]; ring

theorem mulLin_length (g : List GF) (β : GF) : (mulLin g β).length = g.length + 1 := by simp [mulLin]

theorem polyEval_zero_cons (a : List GF) (x : GF) : polyEval (0 :: a) x = polyEval a x := by
  rw [polyEval_cons]; ring

theorem polyEval_snoc (a : List GF) (b x : GF) : polyEval (a ++ [b]) x = polyEval a x * x + b := by
  rw [polyEval_append]; simp [polyEval]

theorem polyEval_mulLin (g : List GF) (β x : GF) : polyEval (mulLin g β) x = polyEval g x * (x + β) := by
  unfold mulLin
  rw [polyEval_zipAdd _ _ _ (by simp), polyEval_snoc, polyEval_zero_cons, polyEval_smul]
  ring

theorem genPoly_length (n : Nat) : (genPoly n).length = n + 1 := by
  induction n with
  | zero => rfl
  | succ n ih => rw [genPoly, mulLin_length, ih]

theorem genPoly_root (n i : Nat) (h : i < n) : polyEval (genPoly n) (alpha ^ i) = 0 := by
  induction n with
  | zero => omega
  | succ n ih =>
    rw [genPoly, polyEval_mulLin]
    by_cases hi : i = n
    · subst hi; rw [add_self]; ring
    · rw [ih (by omega)]; ring

theorem genPoly_head (n : Nat) : ∃ t, genPoly n = 1 :: t := by
  induction n with
  | zero => exact ⟨[], rfl⟩
  | succ n ih =>
    obtain ⟨t, ht⟩ := ih
    rw [genPoly, mulLin, ht]
    simp

theorem rsStep_length {n : Nat} {r : List GF} (hr : r.length = n) (hn : 0 < n) (d : GF) :
    (rsStep (genPoly n) r d).length = n := by
  unfold rsStep
  simp [genPoly_length, hr]; omega

/-- One step of the division circuit multiplies by `x` and adds the new byte, modulo the generator. -/
theorem rsStep_eval {n : Nat} {r : List GF} (hr : r.length = n) (hn : 0 < n) (d : GF) {i : Nat} (hi : i < n) :
    polyEval (rsStep (genPoly n) r d) (alpha ^ i) = polyEval r (alpha ^ i) * alpha ^ i + d * (alpha ^ i) ^ n := by
  obtain ⟨h, t, rfl⟩ : ∃ h t, r = h :: t := by cases r <;> simp_all
  obtain ⟨g, hg⟩ := genPoly_head n
  have hroot := genPoly_root n i hi
  have hgl := genPoly_length n
  rw [hg, polyEval_cons] at hroot
  rw [hg, List.length_cons] at hgl
  have hgl' : g.length = n := by omega
  rw [List.length_cons] at hr
  unfold rsStep
  rw [hg]
  simp only [List.tail_cons, List.headD_cons]
  rw [polyEval_zipAdd _ _ _ (by simp; omega), polyEval_snoc, polyEval_smul, polyEval_cons]
  have hp : polyEval g (alpha ^ i) = (alpha ^ i) ^ n := by
    rw [hgl'] at hroot
    have : polyEval g (alpha ^ i) = -((alpha ^ i) ^ n) := by linear_combination hroot
    rw [this, neg_eq]
  rw [hp]
  have hl : (alpha ^ i) ^ n = (alpha ^ i) ^ t.length * alpha ^ i := by rw [← hr, pow_succ]
  rw [hl]
  ring

theorem rsParity_length (data : List GF) (n : Nat) (hn : 0 < n) : (rsParity data n).length = n := by
  unfold rsParity
  have : ∀ (data : List GF) (r : List GF), r.length = n → (data.foldl (rsStep (genPoly n)) r).length = n := by
    intro data
    induction data with
    | nil => intro r h; exact h
    | cons d data ih => intro r h; exact ih _ (rsStep_length h hn d)
  exact this data _ (by simp)

theorem polyEval_zeros (n : Nat) (x : GF) : polyEval (List.replicate n 0) x = 0 := by
  induction n with
  | zero => rfl
  | succ n ih => rw [List.replicate_succ, polyEval_zero_cons, ih]

/-- The coder produces codewords. -/
theorem rs_codeword (data : List GF) (n : Nat) : IsCodeword n (data ++ rsParity data n) := by
  intro i hi
  have hn : 0 < n := by omega
  rw [polyEval_append, rsParity_length data n hn]
  have key : ∀ (data : List GF) (r : List GF), r.length = n →
      polyEval (data.foldl (rsStep (genPoly n)) r) (alpha ^ i) =
        polyEval r (alpha ^ i) * (alpha ^ i) ^ data.length + polyEval data (alpha ^ i) * (alpha ^ i) ^ n := by
    intro data
    induction data with
    | nil => intro r h; simp [polyEval]
    | cons d data ih =>
      intro r h
      rw [List.foldl_cons, ih _ (rsStep_length h hn d), rsStep_eval h hn d hi, polyEval_cons, List.length_cons, pow_succ]
      ring
  unfold rsParity
  rw [key data _ (by simp), polyEval_zeros]
  have := add_self (polyEval data (alpha ^ i) * (alpha ^ i) ^ n)
  linear_combination this

/-! ## Distance -/

theorem polyEval_sum (c : List GF) (x : GF) :
    polyEval c x = ∑ j : Fin c.length, c[j] * x ^ (c.length - 1 - j) := by
  induction c with
  | nil => simp [polyEval]
  | cons b c ih =>
    rw [polyEval_cons, ih]
    simp only [List.length_cons]
    rw [Fin.sum_univ_succ]
    congr 1
    apply Finset.sum_congr rfl
    intro j _
    simp only [Fin.val_succ]
    rw [show c.length + 1 - 1 - (j.val + 1) = c.length - 1 - j.val by omega]
    rfl

/-- A codeword of length at most 255 with at most `n` nonzero bytes is zero. -/
theorem codeword_weight {n : Nat} {c : List GF} (hl : c.length ≤ 255) (hc : IsCodeword n c)
    (hw : c.countP (fun a => decide (a ≠ 0)) ≤ n) : ∀ a ∈ c, a = 0 := by
  classical
  let S : Finset (Fin c.length) := Finset.univ.filter fun j => c[j] ≠ 0
  have hS : S.card = c.countP (fun a => decide (a ≠ 0)) := by
    have h1 : S.card = (List.finRange c.length).countP (fun j => decide (c[j] ≠ 0)) := by
      rw [List.countP_eq_length_filter]
      rw [← List.toFinset_card_of_nodup ((List.nodup_finRange _).filter _)]
      congr 1
      ext j
      simp [S]
    rw [h1]
    have h2 : c = (List.finRange c.length).map (fun j => c[j]) := by
      apply List.ext_getElem <;> simp
    conv => rhs; rw [h2, List.countP_map]
    rfl
  have hz : S = ∅ := by
    have hwn : S.card ≤ n := by omega
    let e := S.orderEmbOfFin rfl
    let f : Fin S.card → GF := fun k => alpha ^ (c.length - 1 - (e k).val)
    let w : Fin S.card → GF := fun k => c[e k]
    have hf : Function.Injective f := by
      intro a b hab
      have h1 := (e a).isLt
      have h2 := (e b).isLt
      have := alpha_pow_inj (by omega) (by omega) hab
      exact e.injective (Fin.ext (by omega))
    have hv : w = 0 := by
      refine Matrix.eq_zero_of_forall_pow_sum_mul_pow_eq_zero hf ?_
      intro i
      have hi := hc i (by omega)
      rw [polyEval_sum] at hi
      rw [← hi]
      have : ∑ j : Fin c.length, c[j] * (alpha ^ (i : Nat)) ^ (c.length - 1 - j) =
          ∑ j ∈ S, c[j] * (alpha ^ (i : Nat)) ^ (c.length - 1 - j) := by
        symm
        apply Finset.sum_subset (Finset.subset_univ _)
        intro j _ hj
        have : c[j] = 0 := by simpa [S] using hj
        rw [this]; ring
      rw [this]
      have himg : S = Finset.univ.map e.toEmbedding := by
        ext j
        have := Finset.range_orderEmbOfFin S rfl
        have h3 : j ∈ S ↔ j ∈ Set.range e := by rw [this]; rfl
        rw [h3]
        simp
      have hsum : ∀ g : Fin c.length → GF, ∑ j ∈ S, g j = ∑ k : Fin S.card, g (e k) := by
        intro g
        refine Eq.trans (congrArg (fun T : Finset (Fin c.length) => ∑ j ∈ T, g j) himg) ?_
        exact Finset.sum_map _ _ _
      rw [hsum]
      apply Finset.sum_congr rfl
      intro k _
      show c[e k] * (alpha ^ (c.length - 1 - (e k).val)) ^ (i : Nat) = c[e k] * (alpha ^ (i : Nat)) ^ (c.length - 1 - (e k).val)
      rw [← pow_mul, ← pow_mul, Nat.mul_comm]
    by_contra hne
    obtain ⟨j, hj⟩ := Finset.nonempty_iff_ne_empty.2 hne
    have : j ∈ Set.range e := by rw [Finset.range_orderEmbOfFin]; exact hj
    obtain ⟨k, rfl⟩ := this
    have h1 : w k = 0 := by rw [hv]; rfl
    have h2 : c[e k] ≠ 0 := by simpa [S] using hj
    exact h2 h1
  intro a ha
  obtain ⟨j, hj, rfl⟩ := List.getElem_of_mem ha
  by_contra hne
  have : (⟨j, hj⟩ : Fin c.length) ∈ S := by simp [S]; exact hne
  rw [hz] at this
  simp at this

theorem hamming_add {a b : List GF} : hamming a b = (List.zipWith (· + ·) a b).countP (fun x => decide (x ≠ 0)) := by
  unfold hamming
  induction a generalizing b with
  | nil => simp
  | cons p a ih =>
    cases b with
    | nil => simp
    | cons q b =>
      rw [List.zip_cons_cons, List.zipWith_cons_cons, List.countP_cons, List.countP_cons, ih]
      congr 1
      have : p + q = 0 ↔ p = q := by
        constructor
        · intro h
          have : p = -q := by linear_combination h
          rw [this, neg_eq]
        · rintro rfl; exact add_self p
      simp [this]

/-- Two different codewords of the same length (at most 255) differ in more than `n` places. -/
theorem codeword_distance {n : Nat} {a b : List GF} (hab : a.length = b.length) (hl : a.length ≤ 255)
    (ha : IsCodeword n a) (hb : IsCodeword n b) (hne : a ≠ b) : n < hamming a b := by
  by_contra hle
  apply hne
  rw [hamming_add] at hle
  have hz := codeword_weight (c := List.zipWith (· + ·) a b) (n := n) (by simp; omega)
    (fun i hi => by rw [polyEval_zipAdd _ _ _ hab, ha i hi, hb i hi]; ring) (by omega)
  apply List.ext_getElem hab
  intro i h1 h2
  have hi : i < (List.zipWith (· + ·) a b).length := by simp; omega
  have := hz _ (List.getElem_mem hi)
  rw [List.getElem_zipWith] at this
  have : a[i] = -b[i] := by linear_combination this
  rw [this, neg_eq]

theorem hamming_comm (a b : List GF) : hamming a b = hamming b a := by
  unfold hamming
  induction a generalizing b with
  | nil => simp
  | cons p a ih =>
    cases b with
    | nil => simp
    | cons q b =>
      rw [List.zip_cons_cons, List.zip_cons_cons, List.countP_cons, List.countP_cons, ih]
      simp only [ne_comm]

theorem hamming_triangle : ∀ (a b c : List GF), a.length = b.length → b.length = c.length →
    hamming a c ≤ hamming a b + hamming b c := by
  unfold hamming
  intro a
  induction a with
  | nil => intro b c _ _; simp
  | cons p a ih =>
    intro b c h1 h2
    cases b with
    | nil => simp at h1
    | cons q b =>
      cases c with
      | nil => simp at h2
      | cons r c =>
        simp only [List.zip_cons_cons, List.countP_cons]
        have := ih b c (by simpa using h1) (by simpa using h2)
        have key : (if decide (p ≠ r) = true then 1 else 0) ≤
            (if decide (p ≠ q) = true then 1 else 0) + (if decide (q ≠ r) = true then 1 else 0) := by
          by_cases h3 : p = q
          · subst h3; omega
          · rw [if_pos (decide_eq_true h3)]
            split <;> omega
        omega

/-- At most `n / 2` wrong bytes are uniquely correctable. -/
theorem unique_correction {n : Nat} {a b r : List GF} (h1 : a.length = r.length) (h2 : b.length = r.length)
    (hl : r.length ≤ 255) (ha : IsCodeword n a) (hb : IsCodeword n b)
    (da : 2 * hamming a r ≤ n) (db : 2 * hamming b r ≤ n) : a = b := by
  by_contra hne
  have := codeword_distance (h1.trans h2.symm) (by omega) ha hb hne
  have := hamming_triangle a r b h1 h2.symm
  rw [hamming_comm r b] at this
  omega

end Spec
