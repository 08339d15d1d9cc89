import Verif.Spec.Turn
/-!
# A reader that is told nothing

`decodePhoto` gets the pixels of a picture (dark or not) and nothing else: it finds the symbol, its direction, whether it
is mirrored, the size of a module and the version on its own.
-/
namespace Spec

/-- The rows, and the columns, that contain something dark. -/
def inkedRows (p : List (List Bool)) : List Nat := (List.range p.length).filter fun y => (List.range (width p)).any fun x => pixel p y x
def inkedColumns (p : List (List Bool)) : List Nat := (List.range (width p)).filter fun x => (List.range p.length).any fun y => pixel p y x

/-- The smallest rectangle that contains all that is dark. -/
def crop (p : List (List Bool)) : List (List Bool) :=
  let top := (inkedRows p).headD 0
  let left := (inkedColumns p).headD 0
  let bottom := (inkedRows p).getLastD 0
  let right := (inkedColumns p).getLastD 0
  sheet (bottom + 1 - top) (right + 1 - left) fun i j => pixel p (top + i) (left + j)

/-- Every module becomes a square of `b` by `b` pixels. -/
def inflate (b : Nat) (bm : List (List Bool)) : List (List Bool) :=
  picture (b * bm.length) fun i j => pixel bm (i / b) (j / b)

/-- Pixels to modules: the upper edge of a finder pattern, seven modules, gives the size of a module; the picture has to consist
of squares of that size. -/
def shrink (p : List (List Bool)) : Option (List (List Bool)) :=
  let edge := ((p.headD []).takeWhile id).length
  let b := edge / 7
  let bm := picture (p.length / b) fun i j => pixel p (b * i) (b * j)
  if 0 < b ∧ edge = 7 * b ∧ inflate b bm = p then some bm else none

/-- The reader. -/
def decodePhoto (unsjis : Nat → Option Nat) (p : List (List Bool)) : Option (List Nat) := do
  let bm ← ((views (crop p)).filterMap shrink).find? upright
  decode unsjis bm

/-- The picture of `w` by `h` pixels in which the pixel in column `x`, row `y` is dark if `dark x y`. -/
def photo (w h : Nat) (dark : Nat → Nat → Bool) : List (List Bool) := sheet h w fun y x => dark x y

/-- `Shows p left top x`: the dark pixels of the picture `p` are those of the picture `x`, whose upper left corner is `left`
pixels from the left and `top` pixels from the top. -/
structure Shows (p : List (List Bool)) (left top : Nat) (x : List (List Bool)) : Prop where
  rows : ∀ r ∈ p, r.length = width p
  room : left + width x ≤ width p ∧ top + x.length ≤ p.length
  dark : ∀ i j, i < p.length → j < width p → (pixel p i j = true ↔
    top ≤ i ∧ i < top + x.length ∧ left ≤ j ∧ j < left + width x ∧ pixel x (i - top) (j - left) = true)

end Spec
