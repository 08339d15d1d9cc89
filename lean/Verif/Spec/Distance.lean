/-!
# Distance of bit strings
-/
namespace Spec

/-- Number of positions at which two bit strings of equal length differ. -/
def bitDist : List Bool → List Bool → Nat
  | a :: as, b :: bs => (if a = b then 0 else 1) + bitDist as bs
  | _, _ => 0

theorem bitDist_comm : ∀ a b, bitDist a b = bitDist b a
  | [], [] => rfl
  | [], _ :: _ => rfl
  | _ :: _, [] => rfl
  | a :: as, b :: bs => by simp only [bitDist]; rw [bitDist_comm as bs]; simp only [eq_comm]

theorem bitDist_triangle : ∀ a b c : List Bool, a.length = b.length → b.length = c.length →
    bitDist a c ≤ bitDist a b + bitDist b c
  | [], [], [], _, _ => Nat.le_refl _
  | x :: a, y :: b, z :: c, h1, h2 => by
    have := bitDist_triangle a b c (by simpa using h1) (by simpa using h2)
    simp only [bitDist]
    by_cases e1 : x = y
    · subst e1; simp only [if_true]; omega
    · by_cases e2 : y = z
      · subst e2; simp only [if_true]; omega
      · simp only [e1, e2, if_false]; split <;> omega

theorem bitDist_self : ∀ a, bitDist a a = 0
  | [] => rfl
  | _ :: a => by simp [bitDist, bitDist_self a]

theorem bitDist_eq_zero : ∀ a b, a.length = b.length → bitDist a b = 0 → a = b
  | [], [], _, _ => rfl
  | x :: a, y :: b, h, h0 => by
    simp only [bitDist] at h0
    have hxy : x = y := Classical.byContradiction fun hc => by simp [hc] at h0
    subst hxy
    rw [bitDist_eq_zero a b (by simpa using h) (by simpa using h0)]

end Spec
