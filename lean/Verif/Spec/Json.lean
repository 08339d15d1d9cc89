/-!
# The characters of a JSON text, and the characters the program of issue 69 puts for them
-/
namespace Spec

/-- The characters of the text of issue 69: ASCII letters and digits, space and newline, the signs of JSON, and the other signs of alphanumeric mode. -/
def jsonChars : List Char :=
  "ABCDEFGHIJKLMNOPQRSTUVWXYZabcdefghijklmnopqrstuvwxyz0123456789 \n{}[],:\"$%*+-./".toList

/-- A byte that is one of these. -/
def isJson (b : Nat) : Prop := ∃ c ∈ jsonChars, c.toNat = b

/-- What is put for a character: capitals for small letters, and `$`, `%`, space, `*`, `/` for what alphanumeric mode does not have. -/
def simplify (b : Nat) : Nat :=
  if b = '{'.toNat then '$'.toNat
  else if b = '}'.toNat then '%'.toNat
  else if b = '\n'.toNat then ' '.toNat
  else if b = '"'.toNat then '*'.toNat
  else if b = ','.toNat ∨ b = '['.toNat ∨ b = ']'.toNat then '/'.toNat
  else if 'a'.toNat ≤ b ∧ b ≤ 'z'.toNat then b - 'a'.toNat + 'A'.toNat
  else b

end Spec
