import Verif.Model.Standard
import Verif.Spec.Plane
/-!
# Shapes (writer/standard/image_qr_shape.go, writer/standard/shapes)

A shape draws by adding figures to the path of the `gg` context and filling it.  Coordinates are exact rationals (Go: `float64`; the factors
0.9, 0.85, 0.2 are exact decimals here), circles are exact circles (`gg` approximates them by curves), and there is no anti-aliasing.  The
context is shared by all modules, so what is left in the path by one module would be filled by the next one.
-/
namespace QR.Standard
open QR Plane

/-- A call that matters: a figure is added to the path (`DrawRectangle`, `DrawCircle`, or `MoveTo`, `LineTo`, `QuadraticTo`, `ClosePath`), or the
path is filled with the colour of the module and cleared (`Fill`). -/
inductive Cmd
  | add (f : Figure)
  | fill
  deriving DecidableEq, Repr

/-- The paths filled, in order, from a context whose path is `path`. -/
def fills : List Figure → List Cmd → List (List Figure)
  | _, [] => []
  | path, .add f :: rest => fills (path ++ [f]) rest
  | path, .fill :: rest => path :: fills [] rest

/-- The path left behind. -/
def leftover : List Figure → List Cmd → List Figure
  | path, [] => path
  | path, .add f :: rest => leftover (path ++ [f]) rest
  | _, .fill :: rest => leftover [] rest

/-- Is the point painted?  (The figures of one path all run clockwise in `gg`, so the path covers their union.) -/
def Painted (cmds : List Cmd) (p : Pt) : Prop := ∃ path ∈ fills [] cmds, ∃ f ∈ path, f.covers p

/-- writer/standard/shapes/constructor.go:36 `has` -/
def has (mask bits : UInt16) : Bool := mask &&& bits == bits

/-- The local function `drawRect` of the blocks. -/
def drawRect (x y w h : Rat) : List Cmd := [.add (.rect x y w h), .fill]

/-- `if cond { ... }` -/
def when (b : Bool) (l : List Cmd) : List Cmd := if b then l else []

/-- writer/standard/image_qr_shape.go:76, 83 the rectangle shape -/
def drawRectangle (c : Ctx) : List Cmd := [.add (.rect c.x c.y c.w c.h), .fill]

/-- writer/standard/image_qr_shape.go:92 the circle shape: the radius is computed with integers. -/
def drawCircle (c : Ctx) : List Cmd :=
  let radius := Int.tdiv c.w 2
  let r2 := Int.tdiv c.h 2
  let radius := if r2 ≤ radius then r2 else radius
  [.add (.disc (c.x + (c.w : Rat) / 2) (c.y + (c.h : Rat) / 2) radius), .fill]

/-- writer/standard/shapes/blocks.go:9 `LiquidBlock` -/
def liquidBlock (c : Ctx) : List Cmd :=
  let fw : Rat := c.w
  let fh : Rat := c.h
  let x := c.x
  let y := c.y
  let cx := x + fw / 2
  let cy := y + fh / 2
  let r := fw / 2
  let l := fw / 2
  let angTopRight := Figure.outline ⟨cx, cy + r⟩ [.line ⟨cx - r, cy⟩, .line ⟨cx - r, y⟩, .line ⟨cx + r, y - l⟩,
    .quad ⟨cx + r, cy - r⟩ ⟨x + fw + l, cy - r⟩, .line ⟨x + fw, cy + r⟩]
  let angTopLeft := Figure.outline ⟨cx, cy + r⟩ [.line ⟨cx + r, cy⟩, .line ⟨cx + r, y - l⟩, .line ⟨cx - r, y - l⟩,
    .quad ⟨cx - r, cy - r⟩ ⟨x - l, cy - r⟩, .line ⟨x - l, cy + r⟩]
  let angBotLeft := Figure.outline ⟨cx, cy - r⟩ [.line ⟨cx + r, cy⟩, .line ⟨cx + r, y + fh + l⟩, .line ⟨cx - r, y + fh + l⟩,
    .quad ⟨cx - r, cy + r⟩ ⟨x - l, cy + r⟩, .line ⟨x - l, cy - r⟩]
  let angBotRight := Figure.outline ⟨cx, cy - r⟩ [.line ⟨cx - r, cy⟩, .line ⟨cx - r, y + fh + l⟩, .line ⟨cx + r, y + fh + l⟩,
    .quad ⟨cx + r, cy + r⟩ ⟨x + fw + l, cy + r⟩, .line ⟨x + fw, cy - r⟩]
  let mask := c.neighbours
  (if mask = NRight ||| NSelf then drawRect cx (cy - r) (fw / 2) (2 * r)
   else if mask = NTop ||| NSelf then drawRect (cx - r) y (2 * r) (fh / 2)
   else if mask = NLeft ||| NSelf then drawRect x (cy - r) (fw / 2) (2 * r)
   else if mask = NBot ||| NSelf then drawRect (cx - r) (y + fh / 2) (2 * r) (fh / 2)
   else if mask = NLeft ||| NSelf ||| NRight then drawRect (x - fw / 2) (cy - r) (2 * fw) (2 * r)
   else []) ++
  when (has mask (NLeft ||| NSelf ||| NRight)) (drawRect (x - fw / 2) (cy - r) (2 * fw) (2 * r)) ++
  when (has mask (NTop ||| NSelf ||| NBot)) (drawRect (cx - r) (y - fh / 2) (2 * r) (2 * fh)) ++
  when (has mask (NLeft ||| NSelf)) (drawRect x (cy - r) (fw / 2) (2 * r)) ++
  when (has mask (NSelf ||| NRight)) (drawRect cx (cy - r) (fw / 2) (2 * r)) ++
  when (has mask (NSelf ||| NTop)) (drawRect (cx - r) y (2 * r) (fh / 2)) ++
  when (has mask (NSelf ||| NBot)) (drawRect (cx - r) (y + fh / 2) (2 * r) (fh / 2)) ++
  when (has mask (NBot ||| NRight ||| NSelf) && mask &&& NBotRight == 0) [.add angBotRight, .fill] ++
  when (has mask (NBot ||| NLeft ||| NSelf) && mask &&& NBotLeft == 0) [.add angBotLeft, .fill] ++
  when (has mask (NTop ||| NLeft ||| NSelf) && mask &&& NTopLeft == 0) [.add angTopLeft, .fill] ++
  when (has mask (NTop ||| NRight ||| NSelf) && mask &&& NTopRight == 0) [.add angTopRight, .fill] ++
  [.add (.disc cx cy r), .fill]

/-- writer/standard/shapes/blocks.go:125 `HStripeBlock`: the ratio is checked and then not used. -/
def hStripeBlock (_stripeRatio : Rat) (c : Ctx) : List Cmd :=
  let fw : Rat := c.w
  let fh : Rat := c.h
  let cx := c.x + fw / 2
  let cy := c.y + fh / 2
  let r := fw * (9 / 10) / 2
  [.add (.disc cx cy r)] ++
  when (has c.neighbours (NLeft ||| NSelf)) (drawRect c.x (cy - r) (fw / 2) (2 * r)) ++
  when (has c.neighbours (NRight ||| NSelf)) (drawRect cx (cy - r) (fw / 2) (2 * r)) ++
  [.fill]

/-- writer/standard/shapes/blocks.go:162 `VStripeBlock` -/
def vStripeBlock (stripeRatio : Rat) (c : Ctx) : List Cmd :=
  let stripeRatio := if stripeRatio < 6 / 10 ∨ stripeRatio > 1 then 85 / 100 else stripeRatio
  let fw : Rat := c.w
  let fh : Rat := c.h
  let cx := c.x + fw / 2
  let cy := c.y + fh / 2
  let r := fw * stripeRatio / 2
  [.add (.disc cx cy r)] ++
  when (has c.neighbours (NTop ||| NSelf)) (drawRect (cx - r) c.y (2 * r) (fh / 2)) ++
  when (has c.neighbours (NBot ||| NSelf)) (drawRect (cx - r) cy (2 * r) (fh / 2)) ++
  [.fill]

/-- writer/standard/shapes/blocks.go:199 `ChainBlock` -/
def chainBlock (c : Ctx) : List Cmd :=
  let fw : Rat := c.w
  let fh : Rat := c.h
  let cx := c.x + fw / 2
  let cy := c.y + fh / 2
  let r := fw * (9 / 10) / 2
  let l := r * (2 / 10)
  [.add (.disc cx cy r)] ++
  when (has c.neighbours (NTop ||| NSelf)) (drawRect (cx - l) c.y (2 * l) (fh / 2)) ++
  when (has c.neighbours (NBot ||| NSelf)) (drawRect (cx - l) cy (2 * l) (fh / 2)) ++
  when (has c.neighbours (NLeft ||| NSelf)) (drawRect c.x (cy - l) (fw / 2) (2 * l)) ++
  when (has c.neighbours (NRight ||| NSelf)) (drawRect cx (cy - l) (fw / 2) (2 * l)) ++
  [.fill]

/-- writer/standard/shapes/blocks.go:241 `VChainBlock` -/
def vChainBlock (c : Ctx) : List Cmd :=
  let fw : Rat := c.w
  let fh : Rat := c.h
  let cx := c.x + fw / 2
  let cy := c.y + fh / 2
  let r := fw * (85 / 100) / 2
  let l := r * (2 / 10)
  [.add (.disc cx cy r)] ++
  when (has c.neighbours (NTop ||| NSelf)) (drawRect (cx - l) c.y (2 * l) (fh / 2)) ++
  when (has c.neighbours (NBot ||| NSelf)) (drawRect (cx - l) cy (2 * l) (fh / 2)) ++
  [.fill]

/-- writer/standard/shapes/blocks.go:277 `HChainBlock` -/
def hChainBlock (c : Ctx) : List Cmd :=
  let fw : Rat := c.w
  let fh : Rat := c.h
  let cx := c.x + fw / 2
  let cy := c.y + fh / 2
  let r := fw * (85 / 100) / 2
  let l := r * (2 / 10)
  [.add (.disc cx cy r)] ++
  when (has c.neighbours (NLeft ||| NSelf)) (drawRect c.x (cy - l) (fw / 2) (2 * l)) ++
  when (has c.neighbours (NRight ||| NSelf)) (drawRect cx (cy - l) (fw / 2) (2 * l)) ++
  [.fill]

/-- writer/standard/shapes/blocks.go:314-316, 334-336 the size in use -/
def blockScale (size : Rat) : Rat := if size < 1 / 10 ∨ size > 1 then 1 else size

/-- writer/standard/shapes/blocks.go:313 `SquareBlocks` -/
def squareBlocks (size : Rat) (c : Ctx) : List Cmd :=
  let size := blockScale size
  let fw0 : Rat := c.w
  let fh0 : Rat := c.h
  let cx := c.x + fw0 / 2
  let cy := c.y + fh0 / 2
  let fw := fw0 * size
  let fh := fh0 * size
  [.add (.rect (cx - fw / 2) (cy - fh / 2) fw fh), .fill]

/-- writer/standard/shapes/blocks.go:333 `CircleBlocks` -/
def circleBlocks (size : Rat) (c : Ctx) : List Cmd :=
  let size := blockScale size
  let fw0 : Rat := c.w
  let fh0 : Rat := c.h
  [.add (.disc (c.x + fw0 / 2) (c.y + fh0 / 2) (fw0 / 2 * size)), .fill]

/-- writer/standard/shapes/finders.go:7 `RoundedFinder` -/
def roundedFinder (c : Ctx) : List Cmd :=
  let fw : Rat := c.w
  let fh : Rat := c.h
  let x := c.x
  let y := c.y
  let lw := fw / 2
  let lh := fh / 2
  let mask := c.neighbours
  if mask &&& NSelf ≠ NSelf then []
  else
    (if mask = NSelf ||| NBot ||| NLeft then
      [.add (.outline ⟨x, y⟩ [.quad ⟨x + fw, y⟩ ⟨x + fw, y + fh⟩, .line ⟨x, y + fh + lh⟩, .quad ⟨x, y + fh⟩ ⟨x - lw, y + fh⟩])]
    else if mask = NSelf ||| NBot ||| NLeft ||| NBotLeft then
      [.add (.outline ⟨x, y⟩ [.quad ⟨x + fw, y⟩ ⟨x + fw, y + fh⟩, .line ⟨x, y + fh⟩])]
    else if mask = NSelf ||| NBot ||| NRight then
      [.add (.outline ⟨x, y + fh⟩ [.quad ⟨x, y⟩ ⟨x + fw, y⟩, .line ⟨x + fw + lw, y + fh⟩, .quad ⟨x + fw, y + fh⟩ ⟨x + fw, y + fh + lh⟩])]
    else if mask = NSelf ||| NBot ||| NRight ||| NBotRight then
      [.add (.outline ⟨x, y + fh⟩ [.quad ⟨x, y⟩ ⟨x + fw, y⟩, .line ⟨x + fw, y + fh⟩])]
    else if mask = NSelf ||| NTop ||| NRight then
      [.add (.outline ⟨x, y⟩ [.quad ⟨x, y + fh⟩ ⟨x + fw, y + fh⟩, .line ⟨x + fw + lw, y⟩, .quad ⟨x + fw, y⟩ ⟨x + fw, y - lh⟩])]
    else if mask = NSelf ||| NTop ||| NRight ||| NTopRight then
      [.add (.outline ⟨x, y⟩ [.quad ⟨x, y + fh⟩ ⟨x + fw, y + fh⟩, .line ⟨x + fw, y⟩])]
    else if mask = NSelf ||| NTop ||| NLeft then
      [.add (.outline ⟨x, y + fh⟩ [.quad ⟨x + fw, y + fh⟩ ⟨x + fw, y⟩, .line ⟨x, y - lh⟩, .quad ⟨x, y⟩ ⟨x - lw, y⟩])]
    else if mask = NSelf ||| NTop ||| NLeft ||| NTopLeft then
      [.add (.outline ⟨x, y + fh⟩ [.quad ⟨x + fw, y + fh⟩ ⟨x + fw, y⟩, .line ⟨x, y⟩]), .fill]
    else [.add (.rect x y fw fh)]) ++ [.fill]

/-- writer/standard/shapes/finders.go:81 `SquareFinder` -/
def squareFinder (c : Ctx) : List Cmd := [.add (.rect c.x c.y c.w c.h), .fill]

/-- The drawing functions of the package `shapes`. -/
inductive DrawFn
  | liquidBlock
  | hStripeBlock (ratio : Rat)
  | vStripeBlock (ratio : Rat)
  | chainBlock
  | vChainBlock
  | hChainBlock
  | squareBlocks (size : Rat)
  | circleBlocks (size : Rat)
  | roundedFinder
  | squareFinder
  deriving DecidableEq, Repr

/-- What a drawing function does in a context. -/
def DrawFn.cmds : DrawFn → Ctx → List Cmd
  | .liquidBlock => Standard.liquidBlock
  | .hStripeBlock r => Standard.hStripeBlock r
  | .vStripeBlock r => Standard.vStripeBlock r
  | .chainBlock => Standard.chainBlock
  | .vChainBlock => Standard.vChainBlock
  | .hChainBlock => Standard.hChainBlock
  | .squareBlocks s => Standard.squareBlocks s
  | .circleBlocks s => Standard.circleBlocks s
  | .roundedFinder => Standard.roundedFinder
  | .squareFinder => Standard.squareFinder

/-- writer/standard/shapes/constructor.go:10-31 `Assemble`: the shape made of two functions, and the two built-in shapes. -/
inductive LibShape
  | rectangle
  | circle
  | assembled (drawFinder drawBlock : DrawFn)
  deriving DecidableEq, Repr

/-- `DrawFinder` (`finder`) or `Draw` of a shape. -/
def LibShape.cmds : LibShape → Bool → Ctx → List Cmd
  | .rectangle, _, c => drawRectangle c
  | .circle, _, c => drawCircle c
  | .assembled f _, true, c => f.cmds c
  | .assembled _ b, false, c => b.cmds c

/-! ## A drawing made of shapes -/

/-- The paths filled, each with the colour of its call, from a context whose path is `path`. -/
def colourFills : List Figure → List (RGBA × Cmd) → List (RGBA × List Figure)
  | _, [] => []
  | path, (_, .add f) :: rest => colourFills (path ++ [f]) rest
  | path, (k, .fill) :: rest => (k, path) :: colourFills [] rest

/-- What the calls of a drawing do, on the one context they share; every function sets the colour of its call before it fills. -/
def drawing (lib : Shape → LibShape) (calls : List (Bool × Shape × Ctx)) : List (RGBA × Cmd) :=
  calls.flatMap fun a => ((lib a.2.1).cmds a.1 a.2.2).map fun k => (a.2.2.color, k)

/-- The colour given last to a point; `none`: the background is still seen. -/
def colourAt (cmds : List (RGBA × Cmd)) (p : Pt) : Option RGBA :=
  (((colourFills [] cmds).filter fun kp => kp.2.any fun f => decide (f.covers p)).getLast?).map (·.1)

end QR.Standard
