import Verif.Model.Draw64
/-!
# The arithmetic of `draw` on any platform

`Model/Draw64.lean` with the width of `int` and the largest slice as parameters: 32-bit platforms have an `int` of 32 bits, and WebAssembly has 64 bits but addresses 4 GB.
-/
namespace QR.Standard
open QR

/-- A platform: the number of bits of `int`, and the number of bytes of the largest slice of pixels that can be made. -/
structure Arch where
  bits : Nat
  limit : Nat

/-- 64-bit platforms: `maxAlloc` of the Go runtime is 2^48. -/
def amd64 : Arch := ⟨64, 2 ^ 48⟩
/-- WebAssembly: `int` has 64 bits, `maxAlloc` is 2^32. -/
def wasm : Arch := ⟨64, 2 ^ 32⟩
/-- 386 and arm: `int` has 32 bits, and `image.NewRGBA` refuses (with a panic) pixels whose number of bytes is no `int`. -/
def i386 : Arch := ⟨32, 2 ^ 31 - 1⟩

/-- A Go `int`: the representative between `-2^(bits-1)` and `2^(bits-1) - 1`. -/
def Arch.wrap (A : Arch) (x : Int) : Int := Int.bmod x (2 ^ A.bits)
def Arch.add (A : Arch) (a b : Int) : Int := A.wrap (a + b)
def Arch.sub (A : Arch) (a b : Int) : Int := A.wrap (a - b)
def Arch.mul (A : Arch) (a b : Int) : Int := A.wrap (a * b)

/-- `gg.NewContext`, `image.NewRGBA`: is the panic avoided? -/
def Arch.allocates (A : Arch) (w h : Int) : Bool := decide (4 * (w.natAbs * h.natAbs) ≤ A.limit)

/-- writer/standard/writer.go:308 `validLogoImage` -/
def validLogoImageOn (A : Arch) (qrWidth qrHeight logoWidth logoHeight logoSizeMultiplier : Int) : Bool :=
  decide (qrWidth ≥ A.mul logoSizeMultiplier logoWidth) && decide (qrHeight ≥ A.mul logoSizeMultiplier logoHeight)

/-- writer/standard/writer.go:312 `blockOverlapsLogo` (halving never overflows) -/
def blockOverlapsLogoOn (A : Arch) (x y blockSize left top w h logoWidth logoHeight : Int) : Bool :=
  let blockLeft := A.add (A.mul x blockSize) left
  let blockTop := A.add (A.mul y blockSize) top
  let blockRight := A.add blockLeft blockSize
  let blockBottom := A.add blockTop blockSize
  let logoLeft := Int.tdiv (A.sub w logoWidth) 2
  let logoTop := Int.tdiv (A.sub h logoHeight) 2
  let logoRight := A.add logoLeft logoWidth
  let logoBottom := A.add logoTop logoHeight
  decide (blockRight > logoLeft) && decide (blockLeft < logoRight) && decide (blockBottom > logoTop) && decide (blockTop < logoBottom)

/-- writer/standard/writer.go:147-155 -/
def logoSizeOn (A : Arch) (o : Opts) (w h : Int) : Bool × Int × Int :=
  match o.logo with
  | none => (false, 0, 0)
  | some img =>
    let lw := A.sub img.maxX img.minX
    let lh := A.sub img.maxY img.minY
    (validLogoImageOn A w h lw lh o.logoSizeMultiplier, lw, lh)

/-- writer/standard/writer.go:169-217 (`x*3+i` for a module of the matrix does not overflow) -/
def drawModuleOn (A : Arch) (scale : Image → Nat → Int → Int → UInt32 × UInt32 × UInt32 × UInt32) (w h : Int) (dim : Nat) (bitMap : List (List Bool))
    (safe : Bool) (lw lh : Int) (shape : Shape) (o : Opts) (x y : Nat) (v : QRValue) : List DrawOp × Opts :=
  let bw := o.qrBlockWidth
  if safe && blockOverlapsLogoOn A x y bw o.borders.left o.borders.top w h lw lh && v.qrbool then ([], o)
  else
    let (color, o) := o.translateToRGBA v
    let ctx : Ctx := {
      x := (A.add (A.mul x bw) o.borders.left : Rat), y := (A.add (A.mul y bw) o.borders.top : Rat), w := bw,
      h := bw, color := color, neighbours := getNeighbours bitMap x y }
    match v.qrtype with
    | .finder => ([.shape true shape ctx], o)
    | .data =>
      match o.halftone with
      | none => ([.shape false shape ctx], o)
      | some img =>
        let halftoneW : Rat := (bw : Rat) / 3
        ((List.range 3).flatMap fun (i : Nat) => (List.range 3).map fun (j : Nat) =>
          DrawOp.shape false shape
            {
              x := ctx.x + (i : Rat) * halftoneW, y := ctx.y + (j : Rat) * halftoneW, w := halftoneW.floor, h := halftoneW.floor,
              color := if i = 1 ∧ j = 1 then ctx.color
                else halftoneColor scale img (dim * 3) o.bgTransparent (x * 3 + i) (y * 3 + j),
              neighbours := 0 }, o)
    | _ => ([.shape false shape ctx], o)

/-- writer/standard/writer.go:157-166 -/
def clearedBitmapOn (A : Arch) (o : Opts) (m : Matrix) (w h : Int) (safe : Bool) (lw lh : Int) : Option (List (List Bool)) :=
  if safe then
    (m.iterate .row).foldlM (fun bm (x, y, _) =>
      if blockOverlapsLogoOn A x y o.qrBlockWidth o.borders.left o.borders.top w h lw lh then clearCell bm x y else some bm) m.bitmap
  else some m.bitmap

/-- writer/standard/writer.go:109 `draw`; `none` is a panic. -/
def drawOn (A : Arch) (scale : Image → Nat → Int → Int → UInt32 × UInt32 × UInt32 × UInt32) (o : Opts) (m : Matrix) : Option (List DrawOp × Opts) :=
  let w := A.add (A.add (A.mul m.width o.qrBlockWidth) o.borders.left) o.borders.right
  let h := A.add (A.add (A.mul m.height o.qrBlockWidth) o.borders.top) o.borders.bottom
  if A.allocates w h then
    let (bg, o) := o.backgroundColor
    let shape := o.getShape
    let (logoValid, lw, lh) := logoSizeOn A o w h
    let safe := logoValid && o.logoSafeZone
    (clearedBitmapOn A o m w h safe lw lh).map fun bitMap =>
      let (ops, o) := (m.iterate .row).foldl (fun (st : List DrawOp × Opts) (x, y, v) =>
        let (ops, o) := drawModuleOn A scale w h m.width bitMap safe lw lh shape st.2 x y v
        (st.1 ++ ops, o)) ([.newContext w h, .fillRect bg 0 0 w h], o)
      let ops := match o.qrGradient with
        | none => ops
        | some g => ops ++ [.gradient g o.qrColor]
      let ops := match o.logo with
        | none => ops
        | some img => if logoValid then ops ++ [.image img (Int.tdiv (A.sub w lw) 2) (Int.tdiv (A.sub h lh) 2)] else ops
      (ops, o)
  else none

end QR.Standard
