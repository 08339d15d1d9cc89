import Verif.Model.CanvasGradient
import Verif.Model.Shapes
/-!
# What the calls of `draw` mean in pixels, for all shapes

Assumed of the drawing library (`fogleman/gg` on `golang/freetype`): a new context is fully transparent and has an empty path; filling a path gives every
pixel a coverage between 0 and 0xffff and mixes it with the colour as freetype's `RGBAPainter` does.  The coverage is left open (`Coverage`); what is assumed of it
(`Rasters`) is that a pixel is covered fully if it lies well inside one of the figures of the path, and not at all if it lies well outside all of them.
"Well" is a quarter of a pixel, which leaves room for the curves that stand for circles and for coordinates rounded to 1/64 of a pixel.
(`Rasters` is stated for all paths, but only used for those of this library's shapes, whose overlapping figures run in the same direction.)
-/
namespace QR.Standard
open QR Plane

/-- How much of a pixel a path covers, as freetype computes it. -/
abbrev Coverage := List Figure → Int → Int → UInt32

/-- freetype's `RGBAPainter.Paint` for one channel with coverage `ma`, on 32-bit words: `d` is the old value of the channel, `c` the channel and `alpha` the alpha of the colour. -/
def coverChan (ma : UInt32) (d c alpha : UInt8) : UInt8 :=
  let m : UInt32 := 0xffff
  let ca : UInt32 := alpha.toUInt32 * 0x101
  let cr : UInt32 := c.toUInt32 * 0x101
  let a : UInt32 := (m - ca * ma / m) * 0x101
  (((d.toUInt32 * a + cr * ma) / m) >>> 8).toUInt8

/-- All four channels. -/
def cover (ma : UInt32) (c p : RGBA) : RGBA :=
  ⟨coverChan ma p.r c.r c.a, coverChan ma p.g c.g c.a, coverChan ma p.b c.b c.a, coverChan ma p.a c.a c.a⟩

/-- `dc.Fill()` with colour `k`: all pixels of the picture. -/
def Canvas.fillPath (cov : Coverage) (cv : Canvas) (k : RGBA) (path : List Figure) : Canvas :=
  { cv with pix := fun px py =>
      if 0 ≤ px ∧ px < cv.w ∧ 0 ≤ py ∧ py < cv.h then cover (cov path px py) k (cv.pix px py) else cv.pix px py }

/-- At most a quarter of a pixel away from pixel `(px, py)`. -/
def CloseTo (px py : Int) (p : Pt) : Prop := (px : Rat) - 1 / 4 ≤ p.x ∧ p.x ≤ px + 5 / 4 ∧ (py : Rat) - 1 / 4 ≤ p.y ∧ p.y ≤ py + 5 / 4

/-- What is assumed of the coverage. -/
structure Rasters (cov : Coverage) : Prop where
  most : ∀ path px py, cov path px py ≤ 0xffff
  inside : ∀ path px py, (∃ f ∈ path, ∀ p, CloseTo px py p → f.covers p) → cov path px py = 0xffff
  outside : ∀ path px py, (∀ f ∈ path, ∀ p, CloseTo px py p → ¬ f.covers p) → cov path px py = 0

/-- The `gg` context: the picture and the path. -/
structure Sheet where
  cv : Canvas
  path : List Figure

/-- One call of a shape with colour `k` on the context. -/
def Sheet.cmd (cov : Coverage) (k : RGBA) (s : Sheet) : Cmd → Sheet
  | .add f => ⟨s.cv, s.path ++ [f]⟩
  | .fill => ⟨s.cv.fillPath cov k s.path, []⟩

/-- Drawing a gradient with a foreground colour on a picture (writer/standard/writer.go:222-223); `none` is a panic. -/
abbrev GradientPainter := Canvas → LinearGradient → RGBA → Option Canvas

/-- The gradient as `Model/CanvasGradient.lean` has it. -/
abbrev plainGradient (put : Put) (direction : Rat → Rat × Rat) : GradientPainter := fun cv g fg => cv.applyGradient put direction g fg

/-- The meaning of a call of `draw`, if a call of a shape (`run shape finder context`) is a list of calls on the context, and drawing a gradient is `grad`; `none` for a panic (a gradient without stops) and for a context of
negative size, which has no meaning here (`gg.NewContext` makes it with the coordinates swapped).
writer/standard/writer.go:114-119 (the context and the background), 169-217 (the modules), 220-223 (the gradient), 238 (the logo). -/
def Sheet.opRun (cov : Coverage) (run : Shape → Bool → Ctx → List Cmd) (blend : Blend) (grad : GradientPainter) (s : Sheet) : DrawOp → Option Sheet
  | .newContext w h => if w < 0 ∨ h < 0 then none else some ⟨⟨w, h, fun _ _ => ⟨0, 0, 0, 0⟩⟩, []⟩
  | .fillRect c x y w h => some ((s.cmd cov c (.add (.rect x y w h))).cmd cov c .fill)
  | .shape fin sh ctx => some ((run sh fin ctx).foldl (Sheet.cmd cov ctx.color) s)
  | .gradient g fg => (grad s.cv g fg).map fun cv => ⟨cv, s.path⟩
  | .image img x y => some ⟨s.cv.drawImage blend img x y, s.path⟩

/-- The same with the shapes of this library, as `Model/Shapes.lean` has them. -/
abbrev Sheet.op (cov : Coverage) (lib : Shape → LibShape) (blend : Blend) (put : Put) (direction : Rat → Rat × Rat) : Sheet → DrawOp → Option Sheet :=
  Sheet.opRun cov (fun sh => (lib sh).cmds) blend (plainGradient put direction)

/-- The picture after all calls. -/
def paintAllRun (cov : Coverage) (run : Shape → Bool → Ctx → List Cmd) (blend : Blend) (grad : GradientPainter) (ops : List DrawOp) : Option Canvas :=
  (ops.foldlM (Sheet.opRun cov run blend grad) ⟨⟨0, 0, fun _ _ => ⟨0, 0, 0, 0⟩⟩, []⟩).map (·.cv)

/-- The same with the shapes of this library. -/
def paintAllShapes (cov : Coverage) (lib : Shape → LibShape) (blend : Blend) (put : Put) (direction : Rat → Rat × Rat) (ops : List DrawOp) : Option Canvas :=
  (ops.foldlM (Sheet.op cov lib blend put direction) ⟨⟨0, 0, fun _ _ => ⟨0, 0, 0, 0⟩⟩, []⟩).map (·.cv)

end QR.Standard
