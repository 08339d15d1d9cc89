import Verif.Model.Canvas
/-!
# Drawing an image

Assumed of `fogleman/gg`: `DrawImage(img, x, y)` moves the image by `(x, y)` (so its upper left corner, which need not be the origin, comes
to `(x + Min.X, y + Min.Y)`) and changes no pixel outside the moved bounds.  What it makes of the pixels inside is left open (`blend`).
-/
namespace QR.Standard
open QR

/-- What drawing a pixel of an image makes of the old pixel: image, position in the image, old colour. -/
abbrev Blend := Image → Int → Int → RGBA → RGBA

/-- `dc.DrawImage(img, x, y)`, writer/standard/writer.go:238 -/
def Canvas.drawImage (blend : Blend) (cv : Canvas) (img : Image) (x y : Int) : Canvas :=
  { cv with pix := fun px py =>
      if (x + img.minX ≤ px ∧ px < x + img.maxX ∧ y + img.minY ≤ py ∧ py < y + img.maxY) ∧ (0 ≤ px ∧ px < cv.w ∧ 0 ≤ py ∧ py < cv.h) then
        blend img (px - x) (py - y) (cv.pix px py)
      else cv.pix px py }

/-- The meaning of a call, now also for images; the other calls as before (`Model/Canvas.lean`). -/
def Canvas.paintImg (blend : Blend) (cv : Canvas) : DrawOp → Option Canvas
  | .image img x y => some (cv.drawImage blend img x y)
  | op => cv.paint op

/-- The picture after all calls. -/
def paintAllImg (blend : Blend) (ops : List DrawOp) : Option Canvas := ops.foldlM (Canvas.paintImg blend) ⟨0, 0, fun _ _ => ⟨0, 0, 0, 0⟩⟩

end QR.Standard
