/-!
# Reading a picture made of half-block characters

`▀` U+2580 upper half, `▄` U+2584 lower half, `█` U+2588 both, space neither.
-/
namespace Spec

def upperInk (c : Nat) : Bool := c == 0x2580 || c == 0x2588
def lowerInk (c : Nat) : Bool := c == 0x2584 || c == 0x2588

def isBlockChar (c : Nat) : Bool := c == 0x20 || c == 0x2580 || c == 0x2584 || c == 0x2588

/-- The colour at column `x`, row `y` of the picture `lines`. -/
def inkAt (lines : List (List Nat)) (x y : Nat) : Option Bool := do
  let line ← lines[y / 2]?
  let c ← line[x]?
  if isBlockChar c then some (if y % 2 = 0 then upperInk c else lowerInk c) else none

end Spec
