import Verif.Model.Matrix
import Verif.Model.Gradient
/-!
# The standard writer (writer/standard/writer.go, image_option.go, image_option_api.go, image_qr_shape.go)

Drawing is modelled by the list of calls made to the drawing library (`fogleman/gg`) and to the shape; `Model/Canvas.lean` gives
the rectangle calls a meaning in pixels.  Integers are unbounded, `float64` coordinates are exact rationals (they are integers,
except for halftone sub-blocks, which sit at multiples of a third).
-/
namespace QR.Standard
open QR

/-- An `image.Image`: its bounds, and the 16-bit channels of the colour at a point. -/
structure Image where
  minX : Int
  minY : Int
  maxX : Int
  maxY : Int
  chan : Int → Int → UInt32 × UInt32 × UInt32 × UInt32

/-- writer/standard/image_qr_shape.go:9-12, 14 an `IShape`. -/
inductive Shape
  | rectangle
  | circle
  | custom (k : Nat)
  deriving DecidableEq, Repr

/-- writer/standard/image_format.go:20 an `ImageEncoder`. -/
inductive Encoder
  | jpeg
  | png
  | custom (k : Nat)
  deriving DecidableEq, Repr

/-- Border widths in the order top, right, bottom, left. -/
structure Borders where
  top : Int
  right : Int
  bottom : Int
  left : Int
  deriving DecidableEq, Repr

/-- writer/standard/image_option.go:31 `outputImageOptions`; `none` is nil. -/
structure Opts where
  bgColor : RGBA
  bgTransparent : Bool
  qrColor : RGBA
  qrGradient : Option LinearGradient
  logo : Option Image
  logoSizeMultiplier : Int
  logoSafeZone : Bool
  qrWidth : Int
  shape : Option Shape
  imageEncoder : Encoder
  borders : Borders
  halftone : Option Image

/-- writer/standard/writer.go:65 `_defaultPadding` -/
def defaultPadding : Int := 40

/-- writer/standard/image_option.go:16 `defaultOutputImageOption` -/
def defaultOpts : Opts where
  bgColor := color_WHITE
  bgTransparent := false
  qrColor := color_BLACK
  qrGradient := none
  logo := none
  logoSizeMultiplier := 5
  logoSafeZone := false
  qrWidth := 20
  shape := some .rectangle
  imageEncoder := .jpeg
  borders := ⟨defaultPadding, defaultPadding, defaultPadding, defaultPadding⟩
  halftone := none

/-- The options of writer/standard/image_option_api.go.  The ones that read a file carry what reading and decoding it yielded
(`none`: it failed). -/
inductive ImgOpt
  /-- :30 -/
  | bgTransparent
  /-- :37 -/
  | bgColor (c : Option GoColor)
  /-- :48 -/
  | bgHex (s : Bytes)
  /-- :59 -/
  | fgColor (c : Option GoColor)
  /-- :70 -/
  | fgHex (s : Bytes)
  /-- :77 -/
  | fgGradient (g : Option LinearGradient)
  /-- :88 -/
  | logo (img : Option Image)
  /-- :101, :122 -/
  | logoFile (read : Option Image)
  /-- :142 -/
  | qrWidth (w : UInt8)
  /-- :149 -/
  | circleShape
  /-- :156 -/
  | customShape (s : Option Shape)
  /-- :165 -/
  | builtinEncoder (format : UInt8)
  /-- :183 -/
  | customEncoder (k : Option Nat)
  /-- :197 -/
  | borderWidth (ws : List Int)
  /-- :224 -/
  | halftoneFile (read : Option Image)
  /-- :238 -/
  | halftoneImage (img : Option Image)
  /-- :245 -/
  | logoSizeMultiplier (n : Int)
  /-- :252 -/
  | logoSafeZone

/-- writer/standard/image_option_api.go:197-221 `WithBorderWidth` -/
def bordersOf : List Int → Borders
  | [] => ⟨defaultPadding, defaultPadding, defaultPadding, defaultPadding⟩
  | [a] => ⟨a, a, a, a⟩
  | [a, b] => ⟨a, b, a, b⟩
  | [a, b, _] => ⟨a, b, a, b⟩
  | a :: b :: c :: d :: _ => ⟨a, b, c, d⟩

/-- `opt.apply(dst)`, writer/standard/image_option_api.go; `none` is a panic (a hex colour that does not parse, an unknown
file format). -/
def apply (o : Opts) : ImgOpt → Option Opts
  | .bgTransparent => some { o with bgTransparent := true }
  | .bgColor none => some o
  | .bgColor (some c) => some { o with bgColor := parseFromColor c }
  | .bgHex s => if s = [] then some o else (parseFromHex s).map fun c => { o with bgColor := c }
  | .fgColor none => some o
  | .fgColor (some c) => some { o with qrColor := parseFromColor c }
  | .fgHex s => (parseFromHex s).map fun c => { o with qrColor := c }
  | .fgGradient none => some o
  | .fgGradient (some g) => if g.stops = [] then some o else some { o with qrGradient := some g }
  | .logo none => some o
  | .logo (some img) => some { o with logo := some img }
  | .logoFile none => some o
  | .logoFile (some img) => some { o with logo := some img }
  | .qrWidth w => some { o with qrWidth := w.toNat }
  | .circleShape => some { o with shape := some .circle }
  | .customShape s => some { o with shape := s }
  | .builtinEncoder f =>
    if f = 0 then some { o with imageEncoder := .jpeg }
    else if f = 1 then some { o with imageEncoder := .png }
    else none
  | .customEncoder none => some o
  | .customEncoder (some k) => some { o with imageEncoder := .custom k }
  | .borderWidth ws => some { o with borders := bordersOf ws }
  | .halftoneFile none => some o
  | .halftoneFile (some img) => some { o with halftone := some img }
  | .halftoneImage img => some { o with halftone := img }
  | .logoSizeMultiplier n => some { o with logoSizeMultiplier := n }
  | .logoSafeZone => some { o with logoSafeZone := true }

/-- writer/standard/writer.go:47-60 `NewWithWriter`: the options of the writer; `none` is a panic. -/
def newWithWriter (nilWriter : Bool) (opts : List ImgOpt) : Option Opts :=
  (opts.foldlM apply defaultOpts).bind fun o => if nilWriter then none else some o

/-- writer/standard/image_option.go:70 `backgroundColor`: the colour, and the options it leaves behind (it writes to
`bgColor`). -/
def Opts.backgroundColor (o : Opts) : RGBA × Opts :=
  let o := if o.bgTransparent then { o with bgColor := { o.bgColor with a := 0x00 } } else o
  (o.bgColor, o)

/-- writer/standard/image_option.go:90 `qrBlockWidth` -/
def Opts.qrBlockWidth (o : Opts) : Int := if o.qrWidth ≤ 0 ∨ o.qrWidth > 255 then 20 else o.qrWidth

/-- writer/standard/image_option.go:98 `getShape` -/
def Opts.getShape (o : Opts) : Shape := o.shape.getD .rectangle

/-- writer/standard/image_option.go:142 `translateToRGBA`: the colour, and the options it leaves behind. -/
def Opts.translateToRGBA (o : Opts) (v : QRValue) : RGBA × Opts :=
  if v.qrbool then (o.qrColor, o)
  else
    let o := if o.bgTransparent then { o with bgColor := ⟨0, 0, 0, 0⟩ } else o
    (o.bgColor, o)

/-- writer/standard/writer.go:328 `Attribute` -/
structure Attribute where
  w : Int
  h : Int
  borders : Borders
  blockWidth : Int
  deriving DecidableEq, Repr

/-- writer/standard/image_option.go:107 `preCalculateAttribute`, writer.go:84 `(Writer).Attribute` -/
def Opts.attribute (o : Opts) (dimension : Int) : Attribute where
  w := dimension * o.qrBlockWidth + o.borders.right + o.borders.left
  h := dimension * o.qrBlockWidth + o.borders.top + o.borders.bottom
  borders := o.borders
  blockWidth := o.qrBlockWidth

/-- writer/standard/image_qr_shape.go:23 `DrawContext` without the `gg` context. -/
structure Ctx where
  x : Rat
  y : Rat
  w : Int
  h : Int
  color : RGBA
  neighbours : UInt16
  deriving DecidableEq, Repr

/-- What `draw` does to the outside: calls of the drawing library and of the shape. -/
inductive DrawOp
  /-- `gg.NewContext(w, h)` -/
  | newContext (w h : Int)
  /-- `SetColor(c)`, `DrawRectangle(x, y, w, h)`, `Fill()` -/
  | fillRect (c : RGBA) (x y w h : Int)
  /-- `shape.Draw(ctx)` or `shape.DrawFinder(ctx)` -/
  | shape (finder : Bool) (s : Shape) (ctx : Ctx)
  /-- `dc.DrawImage(g.applyGradient(dc.Image(), fg), 0, 0)` -/
  | gradient (g : LinearGradient) (fg : RGBA)
  /-- `dc.DrawImage(img, x, y)` -/
  | image (img : Image) (x y : Int)

/-- writer/standard/image_qr_shape.go:47-57 -/
def NTopLeft : UInt16 := (1 : UInt16) <<< 0
def NTop : UInt16 := (1 : UInt16) <<< 1
def NTopRight : UInt16 := (1 : UInt16) <<< 2
def NLeft : UInt16 := (1 : UInt16) <<< 3
def NSelf : UInt16 := (1 : UInt16) <<< 4
def NRight : UInt16 := (1 : UInt16) <<< 5
def NBotLeft : UInt16 := (1 : UInt16) <<< 6
def NBot : UInt16 := (1 : UInt16) <<< 7
def NBotRight : UInt16 := (1 : UInt16) <<< 8

/-- writer/standard/writer.go:249-261 -/
def dirs : List (Int × Int × UInt16) :=
  [(-1, -1, NTopLeft), (0, -1, NTop), (1, -1, NTopRight), (-1, 0, NLeft), (1, 0, NRight), (-1, 1, NBotLeft), (0, 1, NBot),
   (1, 1, NBotRight)]

/-- `ny >= 0 && ny < rows && nx >= 0 && nx < cols && mtx[ny][nx]`; the table is rectangular (it comes from `Bitmap`), so the
index is in range where the other conditions hold. -/
def darkCell (mtx : List (List Bool)) (rows cols : Nat) (nx ny : Int) : Bool :=
  decide (ny ≥ 0) && decide (ny < rows) && decide (nx ≥ 0) && decide (nx < cols) && ((mtx[ny.toNat]?).getD []).getD nx.toNat false

/-- writer/standard/writer.go:248 `getNeighbours` -/
def getNeighbours (mtx : List (List Bool)) (x y : Int) : UInt16 :=
  match mtx with
  | [] => 0
  | r0 :: _ =>
    let rows := mtx.length
    let cols := r0.length
    let res : UInt16 := if darkCell mtx rows cols x y then NSelf else 0
    dirs.foldl (fun res d => if darkCell mtx rows cols (x + d.1) (y + d.2.1) then res ||| d.2.2 else res) res

/-- writer/standard/writer.go:308 `validLogoImage` -/
def validLogoImage (qrWidth qrHeight logoWidth logoHeight logoSizeMultiplier : Int) : Bool :=
  decide (qrWidth ≥ logoSizeMultiplier * logoWidth) && decide (qrHeight ≥ logoSizeMultiplier * logoHeight)

/-- writer/standard/writer.go:312 `blockOverlapsLogo`; Go's `/` truncates towards zero. -/
def blockOverlapsLogo (x y blockSize left top w h logoWidth logoHeight : Int) : Bool :=
  let blockLeft := x * blockSize + left
  let blockTop := y * blockSize + top
  let blockRight := blockLeft + blockSize
  let blockBottom := blockTop + blockSize
  let logoLeft := Int.tdiv (w - logoWidth) 2
  let logoTop := Int.tdiv (h - logoHeight) 2
  let logoRight := logoLeft + logoWidth
  let logoBottom := logoTop + logoHeight
  decide (blockRight > logoLeft) && decide (blockLeft < logoRight) && decide (blockBottom > logoTop) && decide (blockTop < logoBottom)

/-- `bitMap[i][j] = false`; `none` is an index panic. -/
def clearCell (bm : List (List Bool)) (i j : Nat) : Option (List (List Bool)) :=
  match bm[i]? with
  | none => none
  | some r => if j < r.length then some (bm.set i (r.set j false)) else none

/-- Go's `color.GrayModel.Convert` on 16-bit channels: the grey value. -/
def grayOf (r g b : UInt32) : Nat := (19595 * r.toNat + 38470 * g.toNat + 7471 * b.toNat + 32768) / 16777216

/-- `imgkit.Binaryzation(imgkit.Scale(img, ...), 60)` and `halftoneColor` (writer/standard/imgkit/process.go:11, 33, 48;
writer.go:289): the colour drawn for point `(x, y)` of the halftone image scaled to `n` × `n` points.  `scale` is the external
scaler (`golang.org/x/image/draw`): the 16-bit channels of its result.  Outside the image `At` returns the zero grey (black). -/
def halftoneColor (scale : Image → Nat → Int → Int → UInt32 × UInt32 × UInt32 × UInt32) (img : Image) (n : Nat)
    (transparent : Bool) (x y : Int) : RGBA :=
  let gray : Nat :=
    if 0 ≤ x ∧ x < n ∧ 0 ≤ y ∧ y < n then
      let (r, g, b, _) := scale img n x y
      if grayOf r g b % 256 > 60 then 255 else 0
    else 0
  if gray = 255 then if transparent then ⟨0, 0, 0, 0⟩ else ⟨255, 255, 255, 255⟩
  else ⟨0, 0, 0, 255⟩

/-- writer/standard/writer.go:147-155: is there a logo of an allowed size, and its width and height. -/
def logoSize (o : Opts) (w h : Int) : Bool × Int × Int :=
  match o.logo with
  | none => (false, 0, 0)
  | some img =>
    let lw := img.maxX - img.minX
    let lh := img.maxY - img.minY
    (validLogoImage w h lw lh o.logoSizeMultiplier, lw, lh)

/-- writer/standard/writer.go:169-217 what is drawn for one module; state: the options (their background colour changes). -/
def drawModule (scale : Image → Nat → Int → Int → UInt32 × UInt32 × UInt32 × UInt32) (w h : Int) (dim : Nat) (bitMap : List (List Bool))
    (safe : Bool) (lw lh : Int) (shape : Shape) (o : Opts) (x y : Nat) (v : QRValue) : List DrawOp × Opts :=
  let bw := o.qrBlockWidth
  if safe && blockOverlapsLogo x y bw o.borders.left o.borders.top w h lw lh && v.qrbool then ([], o)
  else
    let (color, o) := o.translateToRGBA v
    let ctx : Ctx := {
      x := ((x * bw + o.borders.left : Int) : Rat), y := ((y * bw + o.borders.top : Int) : Rat), w := bw,
      h := bw, color := color, neighbours := getNeighbours bitMap x y }
    match v.qrtype with
    | .finder => ([.shape true shape ctx], o)
    | .data =>
      match o.halftone with
      | none => ([.shape false shape ctx], o)
      | some img =>
        let halftoneW : Rat := (bw : Rat) / 3
        ((List.range 3).flatMap fun (i : Nat) => (List.range 3).map fun (j : Nat) =>
          DrawOp.shape false shape
            {
              x := ctx.x + (i : Rat) * halftoneW, y := ctx.y + (j : Rat) * halftoneW, w := halftoneW.floor, h := halftoneW.floor,
              color := if i = 1 ∧ j = 1 then ctx.color
                else halftoneColor scale img (dim * 3) o.bgTransparent (x * 3 + i) (y * 3 + j),
              neighbours := 0 }, o)
    | _ => ([.shape false shape ctx], o)

/-- writer/standard/writer.go:157-166 the bitmap with the safe zone cleared; `none` is an index panic. -/
def clearedBitmap (o : Opts) (m : Matrix) (w h : Int) (safe : Bool) (lw lh : Int) : Option (List (List Bool)) :=
  if safe then
    (m.iterate .row).foldlM (fun bm (x, y, _) =>
      if blockOverlapsLogo x y o.qrBlockWidth o.borders.left o.borders.top w h lw lh then clearCell bm x y else some bm) m.bitmap
  else some m.bitmap

/-- writer/standard/writer.go:109 `draw`: the calls, in order, and the options left behind; `none` is a panic. -/
def draw (scale : Image → Nat → Int → Int → UInt32 × UInt32 × UInt32 × UInt32) (o : Opts) (m : Matrix) : Option (List DrawOp × Opts) :=
  let w := m.width * o.qrBlockWidth + o.borders.left + o.borders.right
  let h := m.height * o.qrBlockWidth + o.borders.top + o.borders.bottom
  let (bg, o) := o.backgroundColor
  let shape := o.getShape
  let (logoValid, lw, lh) := logoSize o w h
  let safe := logoValid && o.logoSafeZone
  (clearedBitmap o m w h safe lw lh).map fun bitMap =>
    let (ops, o) := (m.iterate .row).foldl (fun (st : List DrawOp × Opts) (x, y, v) =>
      let (ops, o) := drawModule scale w h m.width bitMap safe lw lh shape st.2 x y v
      (st.1 ++ ops, o)) ([.newContext w h, .fillRect bg 0 0 w h], o)
    let ops := match o.qrGradient with
      | none => ops
      | some g => ops ++ [.gradient g o.qrColor]
    let ops := match o.logo with
      | none => ops
      | some img => if logoValid then ops ++ [.image img (Int.tdiv (w - lw) 2) (Int.tdiv (h - lh) 2)] else ops
    (ops, o)

end QR.Standard
