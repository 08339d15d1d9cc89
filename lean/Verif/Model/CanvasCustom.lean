import Verif.Model.CanvasShapes
import Verif.Model.Float64
/-!
# Shapes written by the user

`WithCustomShape` takes any value with the methods `Draw` and `DrawFinder` (writer/standard/image_qr_shape.go:13 `IShape`).  Here such a shape is any function on pictures: it is given the
`DrawContext` (position and size of the block, colour, neighbours) and may change the picture and a state of its own - its fields, and whatever it leaves in the `gg` context, such as a path that
is not filled yet.  Shapes that panic are not included.
-/
namespace QR.Standard
open QR Plane

/-- writer/standard/image_qr_shape.go:13-20 `IShape`: `DrawFinder(ctx)` (first argument `true`) and `Draw(ctx)`. -/
abbrev UserShape (σ : Type) := Bool → Ctx → σ → Canvas → σ × Canvas

/-- The user's shape in its current state, and the picture. -/
structure Desk (σ : Type) where
  st : σ
  cv : Canvas

/-- The meaning of a call of `draw` with a shape of the user's; the other calls as before (`Model/CanvasGradient.lean`). -/
def Desk.op {σ : Type} (shape : UserShape σ) (blend : Blend) (put : Put) (direction : Rat → Rat × Rat) (d : Desk σ) : DrawOp → Option (Desk σ)
  | .shape fin _ ctx => let r := shape fin ctx d.st d.cv; some ⟨r.1, r.2⟩
  | op => (d.cv.paintGradient blend put direction op).map fun cv => ⟨d.st, cv⟩

/-- The picture after all calls. -/
def paintAllUser {σ : Type} (shape : UserShape σ) (s : σ) (blend : Blend) (put : Put) (direction : Rat → Rat × Rat) (ops : List DrawOp) : Option Canvas :=
  (ops.foldlM (Desk.op shape blend put direction) ⟨s, ⟨0, 0, fun _ _ => ⟨0, 0, 0, 0⟩⟩⟩).map (·.cv)

/-! ## The shape of example/with-custom-shape -/

/-- example/with-custom-shape/main.go:31-39 the radius; `int(...)` truncates towards zero. -/
def smallerRadius (percent : Rat) (w h : Int) : Int :=
  let radius := Int.tdiv w 2
  let r2 := Int.tdiv h 2
  let radius := if r2 ≤ radius then r2 else radius
  let r := float64Round (radius * percent)
  if 0 ≤ r then r.floor else -((-r).floor)

/-- example/with-custom-shape/main.go:12 `DrawFinder` and 23 `Draw`: the state is the field `smallerPercent` (a `float64` that is a number) and the path of the `gg` context.  `DrawFinder` sets the
field to 1, draws and puts the old value back.  The centre of the circle is computed exactly (as in `Model/Shapes.lean`); `Fill` as in `Model/CanvasShapes.lean`. -/
def smallerCircle (cov : Coverage) : UserShape (Rat × List Figure) := fun fin ctx s cv =>
  let percent := if fin then 1 else s.1
  let f := Figure.disc (ctx.x + (ctx.w : Rat) / 2) (ctx.y + (ctx.h : Rat) / 2) (smallerRadius percent ctx.w ctx.h)
  ((s.1, []), cv.fillPath cov ctx.color (s.2 ++ [f]))

end QR.Standard
