import Verif.Spec.Photo
/-!
# A reader that is not told which colour is dark

Foreground and background may have any colours: the symbol may be light on a dark ground.
-/
namespace Spec

/-- Dark and light exchanged. -/
def negative (p : List (List Bool)) : List (List Bool) := p.map fun r => r.map fun x => !x

/-- The reader of `Spec/Photo.lean`; if that finds nothing it looks at the negative. -/
def decodeEither (unsjis : Nat → Option Nat) (p : List (List Bool)) : Option (List Nat) :=
  match decodePhoto unsjis p with
  | some t => some t
  | none => decodePhoto unsjis (negative p)

/-- What is seen by someone who takes the colour `c` for dark and every other colour for light. -/
def inColour {α : Type} [DecidableEq α] (c : α) (p : List (List α)) : List (List Bool) := p.map fun r => r.map fun x => decide (x = c)

/-- The reader tries every colour of the picture as the dark one: all texts it finds. -/
def readings {α : Type} [DecidableEq α] (unsjis : Nat → Option Nat) (p : List (List α)) : List (List Nat) :=
  p.flatten.eraseDups.filterMap fun c => decodePhoto unsjis (inColour c p)

/-- The picture of `w` by `h` pixels with the colour `f x y` in column `x`, row `y`. -/
def coloured {α : Type} (w h : Nat) (f : Nat → Nat → α) : List (List α) :=
  (List.range h).map fun y => (List.range w).map fun x => f x y

end Spec
