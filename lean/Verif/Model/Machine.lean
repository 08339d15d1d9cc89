import Verif.Model.DrawArch
import Verif.Model.Shapes64
import Verif.Model.Fma
/-!
# Pictures as a machine computes them

`draw` and the shapes again, with `int` of the machine's width (`Model/DrawArch.lean`), `float64` coordinates, shapes that compute with `float64` (`Model/Shapes64.lean`), and sums of products
that may be fused (`Model/Fma.lean`).
-/
namespace QR.Standard
open QR

/-- A machine: the width of its `int` and its largest slice, and which sums of products it fuses: in the coordinates of the sub-block `(i, j)` of the module `(x, y)`, in the shapes, in gradients. -/
structure Machine where
  arch : Arch
  sub : (x y i j : Nat) → Bool × Bool
  shape : Shape → Bool → Ctx → Nat → Bool
  gradient : Platform

/-- `c + k*h`, fused or not -/
def plusMul (rnd : Rat → Rat) (fused : Bool) (c k h : Rat) : Rat := if fused then rnd (c + k * h) else rnd (c + rnd (k * h))

/-- writer/standard/writer.go:169-217, as `drawModuleOn`, with `float64` coordinates: `float64(x*bw+left)` (:182), `float64(bw) / 3.0` (:130), `int(halftoneW)` (:197, not negative),
`ctx.x+float64(i)*halftoneW` (:203) -/
def drawModuleM (M : Machine) (rnd : Rat → Rat) (scale : Image → Nat → Int → Int → UInt32 × UInt32 × UInt32 × UInt32) (w h : Int) (dim : Nat) (bitMap : List (List Bool))
    (safe : Bool) (lw lh : Int) (shape : Shape) (o : Opts) (x y : Nat) (v : QRValue) : List DrawOp × Opts :=
  let A := M.arch
  let bw := o.qrBlockWidth
  if safe && blockOverlapsLogoOn A x y bw o.borders.left o.borders.top w h lw lh && v.qrbool then ([], o)
  else
    let (color, o) := o.translateToRGBA v
    let ctx : Ctx := {
      x := rnd (A.add (A.mul x bw) o.borders.left), y := rnd (A.add (A.mul y bw) o.borders.top), w := bw,
      h := bw, color := color, neighbours := getNeighbours bitMap x y }
    match v.qrtype with
    | .finder => ([.shape true shape ctx], o)
    | .data =>
      match o.halftone with
      | none => ([.shape false shape ctx], o)
      | some img =>
        let halftoneW : Rat := rnd (rnd bw / 3)
        ((List.range 3).flatMap fun (i : Nat) => (List.range 3).map fun (j : Nat) =>
          DrawOp.shape false shape
            {
              x := plusMul rnd (M.sub x y i j).1 ctx.x (rnd i) halftoneW, y := plusMul rnd (M.sub x y i j).2 ctx.y (rnd j) halftoneW,
              w := halftoneW.floor, h := halftoneW.floor,
              color := if i = 1 ∧ j = 1 then ctx.color
                else halftoneColor scale img (dim * 3) o.bgTransparent (x * 3 + i) (y * 3 + j),
              neighbours := 0 }, o)
    | _ => ([.shape false shape ctx], o)

/-- writer/standard/writer.go:109 `draw`, as `drawOn`; `none` is a panic. -/
def drawM (M : Machine) (rnd : Rat → Rat) (scale : Image → Nat → Int → Int → UInt32 × UInt32 × UInt32 × UInt32) (o : Opts) (m : Matrix) : Option (List DrawOp × Opts) :=
  let A := M.arch
  let w := A.add (A.add (A.mul m.width o.qrBlockWidth) o.borders.left) o.borders.right
  let h := A.add (A.add (A.mul m.height o.qrBlockWidth) o.borders.top) o.borders.bottom
  if A.allocates w h then
    let (bg, o) := o.backgroundColor
    let shape := o.getShape
    let (logoValid, lw, lh) := logoSizeOn A o w h
    let safe := logoValid && o.logoSafeZone
    (clearedBitmapOn A o m w h safe lw lh).map fun bitMap =>
      let (ops, o) := (m.iterate .row).foldl (fun (st : List DrawOp × Opts) (x, y, v) =>
        let (ops, o) := drawModuleM M rnd scale w h m.width bitMap safe lw lh shape st.2 x y v
        (st.1 ++ ops, o)) ([.newContext w h, .fillRect bg 0 0 w h], o)
      let ops := match o.qrGradient with
        | none => ops
        | some g => ops ++ [.gradient g o.qrColor]
      let ops := match o.logo with
        | none => ops
        | some img => if logoValid then ops ++ [.image img (Int.tdiv (A.sub w lw) 2) (Int.tdiv (A.sub h lh) 2)] else ops
      (ops, o)
  else none

/-- The shapes of this library: what is in a custom shape, and what it computes on the machine. -/
def Machine.run (M : Machine) (lib : Shape → LibShape) : Shape → Bool → Ctx → List Cmd := fun sh fin c => (lib sh).cmds64 float64Round (M.shape sh fin c) fin c

/-- writer/standard/writer.go:222-223 the gradient on the machine -/
def Machine.grad (M : Machine) (put : Put) (direction : Rat → Rat × Rat) : GradientPainter := fun cv g fg => cv.applyGradientF M.gradient put direction g fg

/-- The picture after all calls. -/
def Machine.paint (M : Machine) (cov : Coverage) (lib : Shape → LibShape) (blend : Blend) (put : Put) (direction : Rat → Rat × Rat) (ops : List DrawOp) : Option Canvas :=
  paintAllRun cov (M.run lib) blend (M.grad put direction) ops

end QR.Standard
