import Verif.Spec.Reader
/-!
# Capacity of a symbol (7.4, table 7)
-/
namespace Spec

/-- Bits needed by `n` characters (7.4.3 - 7.4.6). -/
def payloadBits : Mode → Nat → Nat
  | .numeric, n => 10 * (n / 3) + (if n % 3 = 0 then 0 else if n % 3 = 1 then 4 else 7)
  | .alnum, n => 11 * (n / 2) + 6 * (n % 2)
  | .byte, n => 8 * n
  | .kanji, n => 13 * n

/-- `n` characters in the given mode fit into a symbol of version `v` and level `lv`: mode indicator,
character count and payload are not longer than the data codewords. -/
def fits (v : Nat) (lv : Level) (m : Mode) (n : Nat) : Prop :=
  4 + countWidth v m + payloadBits m n ≤ 8 * dataCodewords v lv

instance (v lv m n) : Decidable (fits v lv m n) := by unfold fits; infer_instance

theorem payloadBits_mono (m : Mode) {a b : Nat} (h : a ≤ b) : payloadBits m a ≤ payloadBits m b := by
  cases m <;> simp only [payloadBits] <;> (try split) <;> (try split) <;> (try split) <;> (try split) <;> omega

end Spec
