import Verif.Spec.Photo
import Verif.Spec.TurnDamage
/-!
# A reader that is told nothing and corrects errors
-/
namespace Spec

/-- The size of a module, if the picture has finder patterns in both upper corners: their upper edges, seven modules each, have the same length. -/
def moduleSize (p : List (List Bool)) : Option Nat :=
  let l := ((p.headD []).takeWhile id).length
  let r := ((p.headD []).reverse.takeWhile id).length
  if 0 < l ∧ l = r ∧ l % 7 = 0 then some (l / 7) else none

/-- The reader gets the pixels of a picture (dark or not) and nothing else: it cuts out what is dark, finds out the size of a module, looks at one pixel in the middle of each module,
turns and mirrors the result until it is right way up, corrects the errors and reads it. -/
noncomputable def decodePhotoDamaged (unsjis : Nat → Option Nat) (p : List (List Bool)) : Option (List Nat) := do
  let b ← (views (crop p)).findSome? moduleSize
  decodeDamagedAnyWay unsjis (picture ((crop p).length / b) fun i j => pixel (crop p) (b * i + b / 2) (b * j + b / 2))

end Spec
