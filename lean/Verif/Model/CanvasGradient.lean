import Verif.Model.CanvasImage
import Verif.Model.Float64
/-!
# Drawing a gradient

Assumed of `fogleman/gg`: drawing an image of the size of the picture at (0, 0) makes a pixel of the picture depend on that pixel and the same pixel of the image only.
What it makes of the two is left open (`put`: pixel of the image, old pixel); the theorems say what they need of it.  The direction of the
gradient (`math.Cos` and `-math.Sin` of the angle) is left open, too.
-/
namespace QR.Standard
open QR

/-- What drawing a pixel (first argument) over the old one makes of it. -/
abbrev Put := RGBA → RGBA → RGBA

/-- writer/standard/writer.go:222-223 `img := opt.qrGradient.applyGradient(dc.Image(), opt.qrColor)`, `dc.DrawImage(img, 0, 0)`; gradient.go:38.
Simplification: a gradient without stops is a panic (in Go only if some pixel has the foreground colour; `WithFgGradient` ignores such gradients). -/
def Canvas.applyGradient (put : Put) (direction : Rat → Rat × Rat) (cv : Canvas) (g : LinearGradient) (fg : RGBA) : Option Canvas :=
  if g.stops = [] then none
  else some ⟨cv.w, cv.h, fun x y =>
    if 0 ≤ x ∧ x < cv.w ∧ 0 ≤ y ∧ y < cv.h then
      match gradientPixel float64Round g (direction g.angle).1 (direction g.angle).2 cv.w cv.h fg x y (cv.pix x y) with
      | some c => put c (cv.pix x y)
      | none => cv.pix x y
    else cv.pix x y⟩

/-- The meaning of a call, now also for gradients; the other calls as before (`Model/CanvasImage.lean`). -/
def Canvas.paintGradient (blend : Blend) (put : Put) (direction : Rat → Rat × Rat) (cv : Canvas) : DrawOp → Option Canvas
  | .gradient g fg => cv.applyGradient put direction g fg
  | op => cv.paintImg blend op

/-- The picture after all calls. -/
def paintAllGradient (blend : Blend) (put : Put) (direction : Rat → Rat × Rat) (ops : List DrawOp) : Option Canvas :=
  ops.foldlM (Canvas.paintGradient blend put direction) ⟨0, 0, fun _ _ => ⟨0, 0, 0, 0⟩⟩

end QR.Standard
