import Verif.Spec.Reader
/-!
# Turned and mirrored pictures

A camera sees a symbol in any orientation, and through glass or from behind it sees the mirror image.
`decodeAnyWay` is a reader that is not told which way up the picture is.
-/
namespace Spec

/-- The picture of `h` rows of `w` modules (or pixels) with the colours `f row column`. -/
def sheet (h w : Nat) (f : Nat → Nat → Bool) : List (List Bool) :=
  (List.range h).map fun i => (List.range w).map fun j => f i j

/-- The square picture of `n` by `n` modules with the colours `f row column`. -/
def picture (n : Nat) (f : Nat → Nat → Bool) : List (List Bool) := sheet n n f

/-- Length of the rows. -/
def width (bm : List (List Bool)) : Nat := (bm.headD []).length

/-- A quarter turn clockwise: the left column, from the bottom up, becomes the top row. -/
def turn (bm : List (List Bool)) : List (List Bool) :=
  sheet (width bm) bm.length fun i j => pixel bm (bm.length - 1 - j) i

/-- The mirror image: left and right exchanged. -/
def mirror (bm : List (List Bool)) : List (List Bool) :=
  sheet bm.length (width bm) fun i j => pixel bm i (width bm - 1 - j)

/-- `Seen bm s`: `s` is what `bm` looks like after any number of quarter turns and mirrorings, in any order. -/
inductive Seen (bm : List (List Bool)) : List (List Bool) → Prop
  | straight : Seen bm bm
  | turned {s} : Seen bm s → Seen bm (turn s)
  | mirrored {s} : Seen bm s → Seen bm (mirror s)

/-- The seven by seven modules with upper left corner in row `a`, column `b` show a finder pattern: a dark frame, a light
frame inside it and a dark centre of three by three. -/
def finderAt (bm : List (List Bool)) (a b : Nat) : Bool :=
  (List.range 7).all fun i => (List.range 7).all fun j => pixel bm (a + i) (b + j) == (cheb i j 3 3 != 2)

/-- Right way up: finder patterns in the upper left, upper right and lower left corner, and one of the 32 format words. -/
def upright (bm : List (List Bool)) : Bool :=
  finderAt bm 0 0 && finderAt bm 0 (bm.length - 7) && finderAt bm (bm.length - 7) 0 && (readFormat bm).isSome

/-- The picture turned by 0, 1, 2, 3 quarters. -/
def quarters (s : List (List Bool)) : List (List (List Bool)) := [s, turn s, turn (turn s), turn (turn (turn s))]

/-- The eight ways to look at a picture: four directions, and the same of the mirror image. -/
def views (s : List (List Bool)) : List (List (List Bool)) := quarters s ++ quarters (mirror s)

/-- The reader: turn and mirror the picture until it is right way up, then read it. -/
def decodeAnyWay (unsjis : Nat → Option Nat) (s : List (List Bool)) : Option (List Nat) := do
  let b ← (views s).find? upright
  decode unsjis b

end Spec
