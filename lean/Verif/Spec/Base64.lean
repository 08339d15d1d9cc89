/-!
# Reading base64 (RFC 4648, section 4)

A reader for padded base64, written independently of the model: characters are turned into groups of six bits, the bits are
cut into bytes, and what is left over (fewer than eight bits) is dropped.
-/
namespace QR.Spec

/-- The value of a character of the alphabet (ASCII codes). -/
def sextet (c : Nat) : Option Nat :=
  if 65 ≤ c ∧ c ≤ 90 then some (c - 65)
  else if 97 ≤ c ∧ c ≤ 122 then some (c - 97 + 26)
  else if 48 ≤ c ∧ c ≤ 57 then some (c - 48 + 52)
  else if c = 43 then some 62
  else if c = 47 then some 63
  else none

/-- Four characters to one, two or three bytes. -/
def quad (w x y z : Nat) : Option (List Nat) :=
  match sextet w, sextet x, sextet y, sextet z with
  | some w, some x, some y, some z => some [4 * w + x / 16, 16 * (x % 16) + y / 4, 64 * (y % 4) + z]
  | some w, some x, some y, none => if z = 61 then some [4 * w + x / 16, 16 * (x % 16) + y / 4] else none
  | some w, some x, none, none => if y = 61 ∧ z = 61 then some [4 * w + x / 16] else none
  | _, _, _, _ => none

/-- The bytes a base64 text stands for: the padding may only be at the end. -/
def unbase64 : List Nat → Option (List Nat)
  | [] => some []
  | w :: x :: y :: z :: rest => do
    let g ← quad w x y z
    if rest = [] then some g
    else if g.length = 3 then do
      let r ← unbase64 rest
      some (g ++ r)
    else none
  | _ => none

end QR.Spec
