/-!
# Hexadecimal colours

The value of a hexadecimal digit and the colour a string `#rrggbb` or `#rgb` denotes, independent of the model.
-/
namespace QR.Spec

/-- The ASCII codes of `0`-`9`, `a`-`f`, `A`-`F` and their values. -/
def hexVal (b : Nat) : Option Nat :=
  match b with
  | 48 => some 0 | 49 => some 1 | 50 => some 2 | 51 => some 3 | 52 => some 4
  | 53 => some 5 | 54 => some 6 | 55 => some 7 | 56 => some 8 | 57 => some 9
  | 97 => some 10 | 98 => some 11 | 99 => some 12 | 100 => some 13 | 101 => some 14 | 102 => some 15
  | 65 => some 10 | 66 => some 11 | 67 => some 12 | 68 => some 13 | 69 => some 14 | 70 => some 15
  | _ => none

/-- The red, green and blue a well-formed colour string denotes: `#rrggbb`, or `#rgb` with every digit doubled. -/
def hexColor (s : List Nat) : Option (Nat × Nat × Nat) :=
  match s with
  | [35, a, b, c, d, e, f] => do
    let a ← hexVal a; let b ← hexVal b; let c ← hexVal c; let d ← hexVal d; let e ← hexVal e; let f ← hexVal f
    some (16 * a + b, 16 * c + d, 16 * e + f)
  | [35, a, b, c] => do
    let a ← hexVal a; let b ← hexVal b; let c ← hexVal c
    some (16 * a + a, 16 * b + b, 16 * c + c)
  | _ => none

/-- The characters Unicode calls white space: tab to carriage return, space, next line, no-break space, Ogham space, en quad to hair space, line and paragraph separator, narrow no-break space,
medium mathematical space, ideographic space. -/
def whiteSpace : List Nat :=
  [0x09, 0x0a, 0x0b, 0x0c, 0x0d, 0x20, 0x85, 0xa0, 0x1680, 0x2000, 0x2001, 0x2002, 0x2003, 0x2004, 0x2005, 0x2006, 0x2007, 0x2008, 0x2009, 0x200a, 0x2028, 0x2029, 0x202f, 0x205f, 0x3000]

end QR.Spec
