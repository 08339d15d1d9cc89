import Verif.Spec.Turn
import Verif.Spec.Damage
/-!
# A reader that is not told which way up the picture is, and corrects errors
-/
namespace Spec

/-- Right way up, as far as can be seen if a format module may be wrong: finder patterns in the upper left, upper right and lower left corner, and along the first of them one of the
32 format words with at most one wrong bit. -/
def uprightNear (bm : List (List Bool)) : Bool :=
  finderAt bm 0 0 && finderAt bm 0 (bm.length - 7) && finderAt bm (bm.length - 7) 0 &&
    formats.any fun f => decide (bitDist (numBits 15 (formatWord f.1 f.2)) (bitsAt bm formatCells1) ≤ 1)

/-- The reader: turn and mirror the picture until it is right way up, then correct the errors and read it. -/
noncomputable def decodeDamagedAnyWay (unsjis : Nat → Option Nat) (s : List (List Bool)) : Option (List Nat) := do
  let b ← (views s).find? uprightNear
  decodeDamaged unsjis b

end Spec
