import Verif.Spec.Negative
import Mathlib.Data.List.Forall2
/-!
# A reader of grey pictures

Pictures that have been printed, photographed or stored with losses: every pixel has some brightness near the one it had.
-/
namespace Spec

/-- The smallest and the largest number of a picture. -/
def darkest (p : List (List Nat)) : Nat := p.flatten.foldl min (p.flatten.headD 0)
def lightest (p : List (List Nat)) : Nat := p.flatten.foldl max 0

/-- Dark is what is below the middle between the darkest and the lightest pixel. -/
def darkHalf (p : List (List Nat)) : List (List Bool) := p.map fun r => r.map fun g => decide (2 * g < darkest p + lightest p)

/-- The reader is told nothing: it finds dark and light on its own, and looks at the negative if it finds nothing. -/
def decodeGrey (unsjis : Nat → Option Nat) (p : List (List Nat)) : Option (List Nat) := decodeEither unsjis (darkHalf p)

/-- The picture `g` has the size of `p`, and every pixel differs by `e` at most. -/
def Near (e : Nat) (p g : List (List Nat)) : Prop := List.Forall₂ (List.Forall₂ fun a b => a ≤ b + e ∧ b ≤ a + e) p g

/-- The picture with the brightness `d` for dark and `l` for light pixels. -/
def greys (d l : Nat) (s : List (List Bool)) : List (List Nat) := s.map fun r => r.map fun x => if x then d else l

/-! ## A reader that knows where the blocks are

It has one number for every module. Nothing is known about colours: the module in the top left corner of the first finder is dark and its neighbour on the diagonal is light, so dark is what
is on the corner's side of the middle between them. -/

/-- The number in a row and a column. -/
def level (g : List (List Nat)) (i j : Nat) : Nat := (g.getD i []).getD j 0

def onSide (dark light v : Nat) : Bool := if dark < light then decide (2 * v < dark + light) else decide (dark + light < 2 * v)

def finderHalf (g : List (List Nat)) : List (List Bool) := g.map fun r => r.map fun v => onSide (level g 0 0) (level g 1 1) v

end Spec
