import Verif.Spec.Reader
/-!
# How much a symbol can hold: the last row of table 7 of ISO/IEC 18004 (version 40)
-/
namespace Spec

/-- Characters a symbol of version 40 holds. -/
def maxChars : Level → Mode → Nat
  | .L, .numeric => 7089
  | .L, .alnum => 4296
  | .L, .byte => 2953
  | .L, .kanji => 1817
  | .M, .numeric => 5596
  | .M, .alnum => 3391
  | .M, .byte => 2331
  | .M, .kanji => 1435
  | .Q, .numeric => 3993
  | .Q, .alnum => 2420
  | .Q, .byte => 1663
  | .Q, .kanji => 1024
  | .H, .numeric => 3057
  | .H, .alnum => 1852
  | .H, .byte => 1273
  | .H, .kanji => 784

/-- The levels in the order of the damage they can correct. -/
def Level.strength : Level → Nat
  | .L => 0
  | .M => 1
  | .Q => 2
  | .H => 3

end Spec
