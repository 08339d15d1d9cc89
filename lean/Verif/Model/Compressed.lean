import Verif.Model.Matrix
/-!
# The compressed writer (writer/compressed/writer.go)

Integers are unbounded (Go's `int` is 64 bits; that this makes no difference for pictures of a reasonable size is C94, `Model/Compressed64.lean`).
The PNG encoder at the end of `Write` is not modelled: the model's result is the image handed to it.
-/
namespace QR.Compressed
open QR

/-- writer/compressed/writer.go:13 `Option` -/
structure Opt where
  padding : Int
  blockSize : Int
  deriving DecidableEq, Repr

/-- Go's `image.Paletted`: `Rect`, `Stride`, `Pix` and a palette of grey values. -/
structure Paletted where
  minX : Int
  minY : Int
  maxX : Int
  maxY : Int
  stride : Int
  pix : List Nat
  palette : List Nat
  deriving DecidableEq, Repr

/-- Go's `for x := a; x < b; x++`. -/
def intRange (a b : Int) : List Int := (List.range (b - a).toNat).map fun (i : Nat) => a + (i : Int)

/-- Go's `image.NewPaletted(image.Rect(0, 0, w, h), p)`: `Rect` puts the smaller coordinate first, the pixels start at index
0 of the palette, and the stride is the width. -/
def newPaletted (w h : Int) (palette : List Nat) : Paletted :=
  let minX := min 0 w
  let maxX := max 0 w
  let minY := min 0 h
  let maxY := max 0 h
  { minX, minY, maxX, maxY, stride := maxX - minX,
    pix := List.replicate ((maxX - minX) * (maxY - minY)).toNat 0, palette }

/-- Go's `(*Paletted).PixOffset` -/
def Paletted.pixOffset (img : Paletted) (x y : Int) : Int := (y - img.minY) * img.stride + (x - img.minX)

/-- `img.Pix[pos] = color`; `none` is an index panic. -/
def Paletted.setPix (img : Paletted) (pos : Int) (c : Nat) : Option Paletted :=
  if 0 ≤ pos ∧ pos < img.pix.length then some { img with pix := img.pix.set pos.toNat c } else none

/-- Go's `sqDiff` of `image/color` on 32-bit words. -/
def sqDiff (x y : UInt32) : UInt32 := ((x - y) * (x - y)) >>> 2

/-- A channel of `color.Gray{Y}.RGBA()`. -/
def grayChan (y : Nat) : UInt32 := UInt32.ofNat (y * 257)

/-- Go's `color.Palette.Index` for a grey colour in a palette of grey colours (three equal channels, alpha equal): the first
entry at distance 0, or else the first of the nearest.  `best` is `bestSum`, initially 2^32-1. -/
def paletteIndex (c : Nat) : List Nat → Nat → UInt32 → Nat → Nat
  | [], _, _, ret => ret
  | v :: vs, i, best, ret =>
    let d := sqDiff (grayChan c) (grayChan v)
    let sum := d + d + d
    if sum < best then if sum = 0 then i else paletteIndex c vs (i + 1) sum i
    else paletteIndex c vs (i + 1) best ret

/-- writer/compressed/writer.go:27-30 -/
def backgroundColor : Nat := 0xff
def foregroundColor : Nat := 0x00

/-- writer/compressed/writer.go:58-65 `rectangle` -/
def rectangle (x1 y1 x2 y2 : Int) (img : Paletted) (color : Nat) : Option Paletted :=
  (intRange x1 x2).foldlM (fun img x =>
    (intRange y1 y2).foldlM (fun img y => img.setPix (img.pixOffset x y) color) img) img

/-- writer/compressed/writer.go:45-88 the image `Write` hands to the encoder; `none` is an index panic. -/
def image (opt : Opt) (m : Matrix) : Option Paletted :=
  let padding := opt.padding
  let blockWidth := opt.blockSize
  let width := (m.width : Int) * blockWidth + 2 * padding
  let height := width
  let img := newPaletted width height [backgroundColor, foregroundColor]
  let bgColor := paletteIndex backgroundColor img.palette 0 0xFFFFFFFF 0
  let fgColor := paletteIndex foregroundColor img.palette 0 0xFFFFFFFF 0
  (rectangle 0 0 width height img bgColor).bind fun img =>
  (m.iterate .column).foldlM (fun img (x, y, v) =>
    let sx := (x : Int) * blockWidth + padding
    let sy := (y : Int) * blockWidth + padding
    let es := ((x : Int) + 1) * blockWidth + padding
    let ey := ((y : Int) + 1) * blockWidth + padding
    if v.qrbool then rectangle sx sy es ey img fgColor else some img) img

/-- writer/compressed/writer.go:45 `Write` up to the encoder; a nil option is dereferenced (`none`: panic). -/
def write (opt : Option Opt) (m : Matrix) : Option Paletted := opt.bind fun o => image o m

/-- What `img.At(x, y)` shows, as a grey value; `none` outside the image or for an index outside the palette. -/
def Paletted.at' (img : Paletted) (x y : Int) : Option Nat :=
  if img.minX ≤ x ∧ x < img.maxX ∧ img.minY ≤ y ∧ y < img.maxY then
    (img.pix[(img.pixOffset x y).toNat]?).bind fun i => img.palette[i]?
  else none

end QR.Compressed
