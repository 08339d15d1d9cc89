import Verif.Model.Compressed64
import Verif.Model.DrawArch
/-!
# The arithmetic of the compressed writer on any platform
-/
namespace QR.Compressed
open QR QR.Standard

/-- Go's `(*Paletted).PixOffset` -/
def Paletted.pixOffsetOn (A : Arch) (img : Paletted) (x y : Int) : Int := A.add (A.mul (A.sub y img.minY) img.stride) (A.sub x img.minX)

/-- writer/compressed/writer.go:58-65 `rectangle` -/
def rectangleOn (A : Arch) (x1 y1 x2 y2 : Int) (img : Paletted) (color : Nat) : Option Paletted :=
  (intRange x1 x2).foldlM (fun img x =>
    (intRange y1 y2).foldlM (fun img y => img.setPix (img.pixOffsetOn A x y) color) img) img

/-- writer/compressed/writer.go:45-88 the image `Write` hands to the encoder; `none` is a panic. -/
def imageOn (A : Arch) (opt : Opt) (m : Matrix) : Option Paletted :=
  let padding := opt.padding
  let blockWidth := opt.blockSize
  let width := A.add (A.mul m.width blockWidth) (A.mul 2 padding)
  let height := width
  if width.natAbs * height.natAbs ≤ A.limit then
    let img := newPaletted width height [backgroundColor, foregroundColor]
    let bgColor := paletteIndex backgroundColor img.palette 0 0xFFFFFFFF 0
    let fgColor := paletteIndex foregroundColor img.palette 0 0xFFFFFFFF 0
    (rectangleOn A 0 0 width height img bgColor).bind fun img =>
    (m.iterate .column).foldlM (fun img (x, y, v) =>
      let sx := A.add (A.mul x blockWidth) padding
      let sy := A.add (A.mul y blockWidth) padding
      let es := A.add (A.mul (x + 1) blockWidth) padding
      let ey := A.add (A.mul (y + 1) blockWidth) padding
      if v.qrbool then rectangleOn A sx sy es ey img fgColor else some img) img
  else none

end QR.Compressed
