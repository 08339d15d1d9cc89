import Verif.Model.Standard
/-!
# The arithmetic of `draw` on 64 bits

`Model/Standard.lean` computes with unbounded integers.  Here is `draw` again with Go's `int` of 64 bits: every addition, subtraction and multiplication wraps around.  `image.NewRGBA` panics
if the pixels take more than `maxAlloc` bytes (2^48 on amd64 and arm64; with less than that it may still run out of memory, which is not modelled).
-/
namespace QR.Standard
open QR

/-- A Go `int`: the representative between -2^63 and 2^63 - 1. -/
def wrap (x : Int) : Int := Int.bmod x (2 ^ 64)
def add64 (a b : Int) : Int := wrap (a + b)
def sub64 (a b : Int) : Int := wrap (a - b)
def mul64 (a b : Int) : Int := wrap (a * b)

/-- `gg.NewContext`, `image.NewRGBA`: is the panic avoided? `image.Rect` puts the smaller coordinate first, so the sides are the absolute values. -/
def allocates (w h : Int) : Bool := decide (4 * (w.natAbs * h.natAbs) ≤ 2 ^ 48)

/-- writer/standard/writer.go:308 `validLogoImage` -/
def validLogoImage64 (qrWidth qrHeight logoWidth logoHeight logoSizeMultiplier : Int) : Bool :=
  decide (qrWidth ≥ mul64 logoSizeMultiplier logoWidth) && decide (qrHeight ≥ mul64 logoSizeMultiplier logoHeight)

/-- writer/standard/writer.go:312 `blockOverlapsLogo` (halving never overflows) -/
def blockOverlapsLogo64 (x y blockSize left top w h logoWidth logoHeight : Int) : Bool :=
  let blockLeft := add64 (mul64 x blockSize) left
  let blockTop := add64 (mul64 y blockSize) top
  let blockRight := add64 blockLeft blockSize
  let blockBottom := add64 blockTop blockSize
  let logoLeft := Int.tdiv (sub64 w logoWidth) 2
  let logoTop := Int.tdiv (sub64 h logoHeight) 2
  let logoRight := add64 logoLeft logoWidth
  let logoBottom := add64 logoTop logoHeight
  decide (blockRight > logoLeft) && decide (blockLeft < logoRight) && decide (blockBottom > logoTop) && decide (blockTop < logoBottom)

/-- writer/standard/writer.go:147-155 -/
def logoSize64 (o : Opts) (w h : Int) : Bool × Int × Int :=
  match o.logo with
  | none => (false, 0, 0)
  | some img =>
    let lw := sub64 img.maxX img.minX
    let lh := sub64 img.maxY img.minY
    (validLogoImage64 w h lw lh o.logoSizeMultiplier, lw, lh)

/-- writer/standard/writer.go:169-217 (`x*3+i` for a module of the matrix does not overflow) -/
def drawModule64 (scale : Image → Nat → Int → Int → UInt32 × UInt32 × UInt32 × UInt32) (w h : Int) (dim : Nat) (bitMap : List (List Bool))
    (safe : Bool) (lw lh : Int) (shape : Shape) (o : Opts) (x y : Nat) (v : QRValue) : List DrawOp × Opts :=
  let bw := o.qrBlockWidth
  if safe && blockOverlapsLogo64 x y bw o.borders.left o.borders.top w h lw lh && v.qrbool then ([], o)
  else
    let (color, o) := o.translateToRGBA v
    let ctx : Ctx := {
      x := (add64 (mul64 x bw) o.borders.left : Rat), y := (add64 (mul64 y bw) o.borders.top : Rat), w := bw,
      h := bw, color := color, neighbours := getNeighbours bitMap x y }
    match v.qrtype with
    | .finder => ([.shape true shape ctx], o)
    | .data =>
      match o.halftone with
      | none => ([.shape false shape ctx], o)
      | some img =>
        let halftoneW : Rat := (bw : Rat) / 3
        ((List.range 3).flatMap fun (i : Nat) => (List.range 3).map fun (j : Nat) =>
          DrawOp.shape false shape
            {
              x := ctx.x + (i : Rat) * halftoneW, y := ctx.y + (j : Rat) * halftoneW, w := halftoneW.floor, h := halftoneW.floor,
              color := if i = 1 ∧ j = 1 then ctx.color
                else halftoneColor scale img (dim * 3) o.bgTransparent (x * 3 + i) (y * 3 + j),
              neighbours := 0 }, o)
    | _ => ([.shape false shape ctx], o)

/-- writer/standard/writer.go:157-166 -/
def clearedBitmap64 (o : Opts) (m : Matrix) (w h : Int) (safe : Bool) (lw lh : Int) : Option (List (List Bool)) :=
  if safe then
    (m.iterate .row).foldlM (fun bm (x, y, _) =>
      if blockOverlapsLogo64 x y o.qrBlockWidth o.borders.left o.borders.top w h lw lh then clearCell bm x y else some bm) m.bitmap
  else some m.bitmap

/-- writer/standard/writer.go:109 `draw`; `none` is a panic. -/
def draw64 (scale : Image → Nat → Int → Int → UInt32 × UInt32 × UInt32 × UInt32) (o : Opts) (m : Matrix) : Option (List DrawOp × Opts) :=
  let w := add64 (add64 (mul64 m.width o.qrBlockWidth) o.borders.left) o.borders.right
  let h := add64 (add64 (mul64 m.height o.qrBlockWidth) o.borders.top) o.borders.bottom
  if allocates w h then
    let (bg, o) := o.backgroundColor
    let shape := o.getShape
    let (logoValid, lw, lh) := logoSize64 o w h
    let safe := logoValid && o.logoSafeZone
    (clearedBitmap64 o m w h safe lw lh).map fun bitMap =>
      let (ops, o) := (m.iterate .row).foldl (fun (st : List DrawOp × Opts) (x, y, v) =>
        let (ops, o) := drawModule64 scale w h m.width bitMap safe lw lh shape st.2 x y v
        (st.1 ++ ops, o)) ([.newContext w h, .fillRect bg 0 0 w h], o)
      let ops := match o.qrGradient with
        | none => ops
        | some g => ops ++ [.gradient g o.qrColor]
      let ops := match o.logo with
        | none => ops
        | some img => if logoValid then ops ++ [.image img (Int.tdiv (sub64 w lw) 2) (Int.tdiv (sub64 h lh) 2)] else ops
      (ops, o)
  else none

end QR.Standard
