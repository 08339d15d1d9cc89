/-!
# A scanner

A scanner looks at one pixel of the block of every module and decides whether it is dark.
-/
namespace Spec

/-- What a scanner sees of `dim` × `dim` modules: rows from the top, in each row columns from the left. It looks at the pixel `pt x y` for the
module in column `x`, row `y`. -/
def scan (dim : Nat) (dark : Int → Int → Bool) (pt : Nat → Nat → Int × Int) : List (List Bool) :=
  (List.range dim).map fun y => (List.range dim).map fun x => dark (pt x y).1 (pt x y).2

end Spec
