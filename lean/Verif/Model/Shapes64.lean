import Verif.Model.CanvasShapes
import Verif.Model.Float64
/-!
# Shapes computed with `float64` (writer/standard/image_qr_shape.go, writer/standard/shapes)

The functions of `Model/Shapes.lean` once more, with a rounding `rnd` after every operation; for Go's `float64` it is `float64Round`
(`Model/Float64.lean`).  The constants 0.9, 0.85, 0.6, 0.2, 0.1 and the factor given by the caller are `float64` numbers too, that is, `rnd` of the
decimal number written.  Where a product is subtracted (in the chain shapes) it may or may not be rounded first: Go allows fused operations (`fuse`).  (The other subtractions and additions are of halves, whose product
with 0.5 is exact.)  NaN, infinities and overflow are in `Model/Special64.lean`; what `gg` computes from the coordinates is part of `Rasters`
(`Model/CanvasShapes.lean`).
-/
namespace QR.Standard
open QR Plane

section
variable (rnd : Rat → Rat)

local infixl:65 " +. " => fun a b => rnd (a + b)
local infixl:65 " -. " => fun a b => rnd (a - b)
local infixl:70 " *. " => fun a b => rnd (a * b)
local infixl:70 " /. " => fun a b => rnd (a / b)

/-- `c - r*k`, fused or not -/
def minusMul (fused : Bool) (c r k : Rat) : Rat := if fused then rnd (c - r * k) else c -. r *. k

/-- writer/standard/image_qr_shape.go:83 the rectangle shape: no arithmetic. -/
def drawRectangle64 (c : Ctx) : List Cmd := [.add (.rect c.x c.y (rnd c.w) (rnd c.h)), .fill]

/-- writer/standard/image_qr_shape.go:92 the circle shape -/
def drawCircle64 (c : Ctx) : List Cmd :=
  let radius := Int.tdiv c.w 2
  let r2 := Int.tdiv c.h 2
  let radius := if r2 ≤ radius then r2 else radius
  [.add (.disc (c.x +. rnd c.w /. 2) (c.y +. rnd c.h /. 2) (rnd radius)), .fill]

/-- writer/standard/shapes/blocks.go:9 `LiquidBlock` -/
def liquidBlock64 (c : Ctx) : List Cmd :=
  let fw : Rat := rnd c.w
  let fh : Rat := rnd c.h
  let x := c.x
  let y := c.y
  let cx := x +. fw /. 2
  let cy := y +. fh /. 2
  let r := fw /. 2
  let l := fw /. 2
  let angTopRight := Figure.outline ⟨cx, cy +. r⟩ [.line ⟨cx -. r, cy⟩, .line ⟨cx -. r, y⟩, .line ⟨cx +. r, y -. l⟩,
    .quad ⟨cx +. r, cy -. r⟩ ⟨x +. fw +. l, cy -. r⟩, .line ⟨x +. fw, cy +. r⟩]
  let angTopLeft := Figure.outline ⟨cx, cy +. r⟩ [.line ⟨cx +. r, cy⟩, .line ⟨cx +. r, y -. l⟩, .line ⟨cx -. r, y -. l⟩,
    .quad ⟨cx -. r, cy -. r⟩ ⟨x -. l, cy -. r⟩, .line ⟨x -. l, cy +. r⟩]
  let angBotLeft := Figure.outline ⟨cx, cy -. r⟩ [.line ⟨cx +. r, cy⟩, .line ⟨cx +. r, y +. fh +. l⟩, .line ⟨cx -. r, y +. fh +. l⟩,
    .quad ⟨cx -. r, cy +. r⟩ ⟨x -. l, cy +. r⟩, .line ⟨x -. l, cy -. r⟩]
  let angBotRight := Figure.outline ⟨cx, cy -. r⟩ [.line ⟨cx -. r, cy⟩, .line ⟨cx -. r, y +. fh +. l⟩, .line ⟨cx +. r, y +. fh +. l⟩,
    .quad ⟨cx +. r, cy +. r⟩ ⟨x +. fw +. l, cy +. r⟩, .line ⟨x +. fw, cy -. r⟩]
  let mask := c.neighbours
  (if mask = NRight ||| NSelf then drawRect cx (cy -. r) (fw /. 2) (2 *. r)
   else if mask = NTop ||| NSelf then drawRect (cx -. r) y (2 *. r) (fh /. 2)
   else if mask = NLeft ||| NSelf then drawRect x (cy -. r) (fw /. 2) (2 *. r)
   else if mask = NBot ||| NSelf then drawRect (cx -. r) (y +. fh /. 2) (2 *. r) (fh /. 2)
   else if mask = NLeft ||| NSelf ||| NRight then drawRect (x -. fw /. 2) (cy -. r) (2 *. fw) (2 *. r)
   else []) ++
  when (has mask (NLeft ||| NSelf ||| NRight)) (drawRect (x -. fw /. 2) (cy -. r) (2 *. fw) (2 *. r)) ++
  when (has mask (NTop ||| NSelf ||| NBot)) (drawRect (cx -. r) (y -. fh /. 2) (2 *. r) (2 *. fh)) ++
  when (has mask (NLeft ||| NSelf)) (drawRect x (cy -. r) (fw /. 2) (2 *. r)) ++
  when (has mask (NSelf ||| NRight)) (drawRect cx (cy -. r) (fw /. 2) (2 *. r)) ++
  when (has mask (NSelf ||| NTop)) (drawRect (cx -. r) y (2 *. r) (fh /. 2)) ++
  when (has mask (NSelf ||| NBot)) (drawRect (cx -. r) (y +. fh /. 2) (2 *. r) (fh /. 2)) ++
  when (has mask (NBot ||| NRight ||| NSelf) && mask &&& NBotRight == 0) [.add angBotRight, .fill] ++
  when (has mask (NBot ||| NLeft ||| NSelf) && mask &&& NBotLeft == 0) [.add angBotLeft, .fill] ++
  when (has mask (NTop ||| NLeft ||| NSelf) && mask &&& NTopLeft == 0) [.add angTopLeft, .fill] ++
  when (has mask (NTop ||| NRight ||| NSelf) && mask &&& NTopRight == 0) [.add angTopRight, .fill] ++
  [.add (.disc cx cy r), .fill]

/-- writer/standard/shapes/blocks.go:125 `HStripeBlock`: the ratio is checked and then not used. -/
def hStripeBlock64 (_stripeRatio : Rat) (c : Ctx) : List Cmd :=
  let fw : Rat := rnd c.w
  let fh : Rat := rnd c.h
  let cx := c.x +. fw /. 2
  let cy := c.y +. fh /. 2
  let r := fw *. rnd (9 / 10) /. 2
  [.add (.disc cx cy r)] ++
  when (has c.neighbours (NLeft ||| NSelf)) (drawRect c.x (cy -. r) (fw /. 2) (2 *. r)) ++
  when (has c.neighbours (NRight ||| NSelf)) (drawRect cx (cy -. r) (fw /. 2) (2 *. r)) ++
  [.fill]

/-- writer/standard/shapes/blocks.go:162 `VStripeBlock` -/
def vStripeBlock64 (stripeRatio : Rat) (c : Ctx) : List Cmd :=
  let stripeRatio := if rnd stripeRatio < rnd (6 / 10) ∨ rnd stripeRatio > 1 then rnd (85 / 100) else rnd stripeRatio
  let fw : Rat := rnd c.w
  let fh : Rat := rnd c.h
  let cx := c.x +. fw /. 2
  let cy := c.y +. fh /. 2
  let r := fw *. stripeRatio /. 2
  [.add (.disc cx cy r)] ++
  when (has c.neighbours (NTop ||| NSelf)) (drawRect (cx -. r) c.y (2 *. r) (fh /. 2)) ++
  when (has c.neighbours (NBot ||| NSelf)) (drawRect (cx -. r) cy (2 *. r) (fh /. 2)) ++
  [.fill]

/-- writer/standard/shapes/blocks.go:199 `ChainBlock` -/
def chainBlock64 (fuse : Nat → Bool) (c : Ctx) : List Cmd :=
  let fw : Rat := rnd c.w
  let fh : Rat := rnd c.h
  let cx := c.x +. fw /. 2
  let cy := c.y +. fh /. 2
  let r := fw *. rnd (9 / 10) /. 2
  let l := r *. rnd (2 / 10)
  let less := fun i c => minusMul rnd (fuse i) c r (rnd (2 / 10))
  [.add (.disc cx cy r)] ++
  when (has c.neighbours (NTop ||| NSelf)) (drawRect (less 0 cx) c.y (2 *. l) (fh /. 2)) ++
  when (has c.neighbours (NBot ||| NSelf)) (drawRect (less 1 cx) cy (2 *. l) (fh /. 2)) ++
  when (has c.neighbours (NLeft ||| NSelf)) (drawRect c.x (less 2 cy) (fw /. 2) (2 *. l)) ++
  when (has c.neighbours (NRight ||| NSelf)) (drawRect cx (less 3 cy) (fw /. 2) (2 *. l)) ++
  [.fill]

/-- writer/standard/shapes/blocks.go:241 `VChainBlock` -/
def vChainBlock64 (fuse : Nat → Bool) (c : Ctx) : List Cmd :=
  let fw : Rat := rnd c.w
  let fh : Rat := rnd c.h
  let cx := c.x +. fw /. 2
  let cy := c.y +. fh /. 2
  let r := fw *. rnd (85 / 100) /. 2
  let l := r *. rnd (2 / 10)
  let less := fun i c => minusMul rnd (fuse i) c r (rnd (2 / 10))
  [.add (.disc cx cy r)] ++
  when (has c.neighbours (NTop ||| NSelf)) (drawRect (less 0 cx) c.y (2 *. l) (fh /. 2)) ++
  when (has c.neighbours (NBot ||| NSelf)) (drawRect (less 1 cx) cy (2 *. l) (fh /. 2)) ++
  [.fill]

/-- writer/standard/shapes/blocks.go:277 `HChainBlock` -/
def hChainBlock64 (fuse : Nat → Bool) (c : Ctx) : List Cmd :=
  let fw : Rat := rnd c.w
  let fh : Rat := rnd c.h
  let cx := c.x +. fw /. 2
  let cy := c.y +. fh /. 2
  let r := fw *. rnd (85 / 100) /. 2
  let l := r *. rnd (2 / 10)
  let less := fun i c => minusMul rnd (fuse i) c r (rnd (2 / 10))
  [.add (.disc cx cy r)] ++
  when (has c.neighbours (NLeft ||| NSelf)) (drawRect c.x (less 0 cy) (fw /. 2) (2 *. l)) ++
  when (has c.neighbours (NRight ||| NSelf)) (drawRect cx (less 1 cy) (fw /. 2) (2 *. l)) ++
  [.fill]

/-- writer/standard/shapes/blocks.go:314-316, 334-336 the size in use -/
def blockScaleRnd (size : Rat) : Rat := if rnd size < rnd (1 / 10) ∨ rnd size > 1 then 1 else rnd size

/-- writer/standard/shapes/blocks.go:313 `SquareBlocks` -/
def squareBlocks64 (size : Rat) (c : Ctx) : List Cmd :=
  let size := blockScaleRnd rnd size
  let fw0 : Rat := rnd c.w
  let fh0 : Rat := rnd c.h
  let cx := c.x +. fw0 /. 2
  let cy := c.y +. fh0 /. 2
  let fw := fw0 *. size
  let fh := fh0 *. size
  [.add (.rect (cx -. fw /. 2) (cy -. fh /. 2) fw fh), .fill]

/-- writer/standard/shapes/blocks.go:333 `CircleBlocks` -/
def circleBlocks64 (size : Rat) (c : Ctx) : List Cmd :=
  let size := blockScaleRnd rnd size
  let fw0 : Rat := rnd c.w
  let fh0 : Rat := rnd c.h
  [.add (.disc (c.x +. fw0 /. 2) (c.y +. fh0 /. 2) (fw0 /. 2 *. size)), .fill]

/-- writer/standard/shapes/finders.go:7 `RoundedFinder` -/
def roundedFinder64 (c : Ctx) : List Cmd :=
  let fw : Rat := rnd c.w
  let fh : Rat := rnd c.h
  let x := c.x
  let y := c.y
  let lw := fw /. 2
  let lh := fh /. 2
  let mask := c.neighbours
  if mask &&& NSelf ≠ NSelf then []
  else
    (if mask = NSelf ||| NBot ||| NLeft then
      [.add (.outline ⟨x, y⟩ [.quad ⟨x +. fw, y⟩ ⟨x +. fw, y +. fh⟩, .line ⟨x, y +. fh +. lh⟩, .quad ⟨x, y +. fh⟩ ⟨x -. lw, y +. fh⟩])]
    else if mask = NSelf ||| NBot ||| NLeft ||| NBotLeft then
      [.add (.outline ⟨x, y⟩ [.quad ⟨x +. fw, y⟩ ⟨x +. fw, y +. fh⟩, .line ⟨x, y +. fh⟩])]
    else if mask = NSelf ||| NBot ||| NRight then
      [.add (.outline ⟨x, y +. fh⟩ [.quad ⟨x, y⟩ ⟨x +. fw, y⟩, .line ⟨x +. fw +. lw, y +. fh⟩, .quad ⟨x +. fw, y +. fh⟩ ⟨x +. fw, y +. fh +. lh⟩])]
    else if mask = NSelf ||| NBot ||| NRight ||| NBotRight then
      [.add (.outline ⟨x, y +. fh⟩ [.quad ⟨x, y⟩ ⟨x +. fw, y⟩, .line ⟨x +. fw, y +. fh⟩])]
    else if mask = NSelf ||| NTop ||| NRight then
      [.add (.outline ⟨x, y⟩ [.quad ⟨x, y +. fh⟩ ⟨x +. fw, y +. fh⟩, .line ⟨x +. fw +. lw, y⟩, .quad ⟨x +. fw, y⟩ ⟨x +. fw, y -. lh⟩])]
    else if mask = NSelf ||| NTop ||| NRight ||| NTopRight then
      [.add (.outline ⟨x, y⟩ [.quad ⟨x, y +. fh⟩ ⟨x +. fw, y +. fh⟩, .line ⟨x +. fw, y⟩])]
    else if mask = NSelf ||| NTop ||| NLeft then
      [.add (.outline ⟨x, y +. fh⟩ [.quad ⟨x +. fw, y +. fh⟩ ⟨x +. fw, y⟩, .line ⟨x, y -. lh⟩, .quad ⟨x, y⟩ ⟨x -. lw, y⟩])]
    else if mask = NSelf ||| NTop ||| NLeft ||| NTopLeft then
      [.add (.outline ⟨x, y +. fh⟩ [.quad ⟨x +. fw, y +. fh⟩ ⟨x +. fw, y⟩, .line ⟨x, y⟩]), .fill]
    else [.add (.rect x y fw fh)]) ++ [.fill]

/-- writer/standard/shapes/finders.go:81 `SquareFinder` -/
def squareFinder64 (c : Ctx) : List Cmd := [.add (.rect c.x c.y (rnd c.w) (rnd c.h)), .fill]

/-- What a drawing function does in a context, computed with the rounding. -/
def DrawFn.cmds64 (fuse : Nat → Bool) : DrawFn → Ctx → List Cmd
  | .liquidBlock => liquidBlock64 rnd
  | .hStripeBlock r => hStripeBlock64 rnd r
  | .vStripeBlock r => vStripeBlock64 rnd r
  | .chainBlock => chainBlock64 rnd fuse
  | .vChainBlock => vChainBlock64 rnd fuse
  | .hChainBlock => hChainBlock64 rnd fuse
  | .squareBlocks s => squareBlocks64 rnd s
  | .circleBlocks s => circleBlocks64 rnd s
  | .roundedFinder => roundedFinder64 rnd
  | .squareFinder => squareFinder64 rnd

/-- `DrawFinder` (`finder`) or `Draw` of a shape, computed with the rounding. -/
def LibShape.cmds64 (fuse : Nat → Bool) : LibShape → Bool → Ctx → List Cmd
  | .rectangle, _, c => drawRectangle64 rnd c
  | .circle, _, c => drawCircle64 rnd c
  | .assembled f _, true, c => f.cmds64 rnd fuse c
  | .assembled _ b, false, c => b.cmds64 rnd fuse c

end

end QR.Standard
