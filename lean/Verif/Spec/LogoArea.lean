/-!
# Where a logo lies

A logo of `lw` × `lh` pixels is put in the middle of a picture of `w` × `h` pixels: its left edge is at half of `w - lw`, its upper edge at half of `h - lh`, both rounded towards zero.
-/
namespace Spec

/-- Does the block of the module in column `x`, row `y` (blocks of `block` pixels, the first at `left`, `top`) meet the rectangle of the logo? -/
def underLogo (w h lw lh block left top : Int) (x y : Nat) : Bool :=
  let blockLeft := left + x * block
  let blockTop := top + y * block
  let logoLeft := Int.tdiv (w - lw) 2
  let logoTop := Int.tdiv (h - lh) 2
  decide (blockLeft < logoLeft + lw ∧ logoLeft < blockLeft + block ∧ blockTop < logoTop + lh ∧ logoTop < blockTop + block)

end Spec
