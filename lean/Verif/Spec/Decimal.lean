/-!
# Decimal numbers
-/
namespace QR.Spec

/-- The value of a string of decimal digits, most significant first. -/
def decimalValue (ds : List Nat) : Nat := ds.foldl (fun v d => 10 * v + (d - 48)) 0

/-- The string consists of at least one of the characters `0`-`9` (ASCII 48-57) and denotes `n`. -/
def IsDecimal (s : List Nat) (n : Nat) : Prop := s ≠ [] ∧ (∀ d ∈ s, 48 ≤ d ∧ d ≤ 57) ∧ decimalValue s = n

end QR.Spec
