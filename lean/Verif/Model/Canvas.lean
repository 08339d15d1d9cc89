import Verif.Model.Standard
/-!
# What the rectangle calls of `draw` mean in pixels

Assumed of the drawing library (`fogleman/gg` on `golang/freetype`): a new context is fully transparent; filling a rectangle
with integer corners paints every pixel inside it at full coverage and no other one, with the Porter-Duff operator "over" as
computed by freetype's `RGBAPainter`.
-/
namespace QR.Standard
open QR

/-- An RGBA image with the origin at the upper left corner. -/
structure Canvas where
  w : Int
  h : Int
  pix : Int → Int → RGBA

/-- freetype's `RGBAPainter.Paint` for one channel at full coverage (`ma = 0xffff`), on 32-bit words: `d` is the old value of the
channel, `c` the channel and `alpha` the alpha of the colour. -/
def overChan (d c alpha : UInt8) : UInt8 :=
  let m : UInt32 := 0xffff
  let ca : UInt32 := alpha.toUInt32 * 0x101
  let cr : UInt32 := c.toUInt32 * 0x101
  let a : UInt32 := (m - ca * m / m) * 0x101
  (((d.toUInt32 * a + cr * m) / m) >>> 8).toUInt8

/-- All four channels. -/
def over (c p : RGBA) : RGBA :=
  ⟨overChan p.r c.r c.a, overChan p.g c.g c.a, overChan p.b c.b c.a, overChan p.a c.a c.a⟩

/-- Filling the rectangle with corner `(x, y)` and size `w` × `h`. -/
def Canvas.paintRect (cv : Canvas) (c : RGBA) (x y w h : Int) : Canvas :=
  { cv with pix := fun px py =>
      if (x ≤ px ∧ px < x + w ∧ y ≤ py ∧ py < y + h) ∧ (0 ≤ px ∧ px < cv.w ∧ 0 ≤ py ∧ py < cv.h) then over c (cv.pix px py)
      else cv.pix px py }

/-- The meaning of a call; `none` for calls without a meaning here (a context of negative size,
which `gg.NewContext` makes with the coordinates swapped, circles, custom shapes, rectangles that do not start at a pixel, gradients, images).
writer/standard/image_qr_shape.go:76-85: the rectangle shape, also for finders. -/
def Canvas.paint (cv : Canvas) : DrawOp → Option Canvas
  | .newContext w h => if w < 0 ∨ h < 0 then none else some ⟨w, h, fun _ _ => ⟨0, 0, 0, 0⟩⟩
  | .fillRect c x y w h => some (cv.paintRect c x y w h)
  | .shape _ .rectangle ctx =>
    if ctx.x.den = 1 ∧ ctx.y.den = 1 then some (cv.paintRect ctx.color ctx.x.num ctx.y.num ctx.w ctx.h) else none
  | _ => none

/-- The image after all calls. -/
def paintAll (ops : List DrawOp) : Option Canvas := ops.foldlM Canvas.paint ⟨0, 0, fun _ _ => ⟨0, 0, 0, 0⟩⟩

end QR.Standard
