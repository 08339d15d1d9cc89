import Verif.Model.Compressed
import Verif.Model.Draw64
/-!
# The arithmetic of the compressed writer on 64 bits

`Model/Compressed.lean` again with Go's `int` of 64 bits, and with the panic of `image.NewPaletted` for a picture of more than `maxAlloc` (2^48) bytes, one byte a pixel.
-/
namespace QR.Compressed
open QR QR.Standard

/-- Go's `(*Paletted).PixOffset` -/
def Paletted.pixOffset64 (img : Paletted) (x y : Int) : Int := add64 (mul64 (sub64 y img.minY) img.stride) (sub64 x img.minX)

/-- writer/compressed/writer.go:58-65 `rectangle` (the loop variables stay below their limits, so `x++` does not overflow) -/
def rectangle64 (x1 y1 x2 y2 : Int) (img : Paletted) (color : Nat) : Option Paletted :=
  (intRange x1 x2).foldlM (fun img x =>
    (intRange y1 y2).foldlM (fun img y => img.setPix (img.pixOffset64 x y) color) img) img

/-- writer/compressed/writer.go:45-88 the image `Write` hands to the encoder; `none` is a panic. -/
def image64 (opt : Opt) (m : Matrix) : Option Paletted :=
  let padding := opt.padding
  let blockWidth := opt.blockSize
  let width := add64 (mul64 m.width blockWidth) (mul64 2 padding)
  let height := width
  if width.natAbs * height.natAbs ≤ 2 ^ 48 then
    let img := newPaletted width height [backgroundColor, foregroundColor]
    let bgColor := paletteIndex backgroundColor img.palette 0 0xFFFFFFFF 0
    let fgColor := paletteIndex foregroundColor img.palette 0 0xFFFFFFFF 0
    (rectangle64 0 0 width height img bgColor).bind fun img =>
    (m.iterate .column).foldlM (fun img (x, y, v) =>
      let sx := add64 (mul64 x blockWidth) padding
      let sy := add64 (mul64 y blockWidth) padding
      let es := add64 (mul64 (x + 1) blockWidth) padding
      let ey := add64 (mul64 (y + 1) blockWidth) padding
      if v.qrbool then rectangle64 sx sy es ey img fgColor else some img) img
  else none

end QR.Compressed
