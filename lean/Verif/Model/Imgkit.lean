import Verif.Model.Standard
import Verif.Model.Compressed
import Verif.Model.Files
import Verif.Model.Cli
/-!
# Image helpers (writer/standard/imgkit)

`imgkit.Read` only calls `os.Open` and `image.Decode`; `imgkit.Scale` only calls the scaler (`Standard.halftoneColor` has it as a parameter).
-/
namespace QR.Imgkit
open QR Standard
open QR.Compressed (intRange)

/-- Go's `image.Gray`: bounds and grey values; `At` outside the bounds returns the zero grey. -/
structure GrayImg where
  minX : Int
  minY : Int
  maxX : Int
  maxY : Int
  pix : Int → Int → UInt8

/-- `(image.Point{x, y}).In(bounds)` -/
def GrayImg.inside (g : GrayImg) (x y : Int) : Bool := decide (g.minX ≤ x) && decide (x < g.maxX) && decide (g.minY ≤ y) && decide (y < g.maxY)

/-- Go's `(*Gray).At(x, y).(color.Gray).Y` -/
def GrayImg.at (g : GrayImg) (x y : Int) : UInt8 := if g.inside x y then g.pix x y else 0

/-- Go's `(*Gray).SetGray` (`Set` converts first): nothing happens outside the bounds. -/
def GrayImg.set (g : GrayImg) (x y : Int) (v : UInt8) : GrayImg :=
  if g.inside x y then { g with pix := fun a b => if a = x ∧ b = y then v else g.pix a b } else g

/-- Go's `image.NewGray(bounds)` -/
def newGray (src : Image) : GrayImg := ⟨src.minX, src.minY, src.maxX, src.maxY, fun _ _ => 0⟩

/-- Go's `color.GrayModel.Convert`: 16-bit channels to a grey value. -/
def grayValue (c : UInt32 × UInt32 × UInt32 × UInt32) : UInt8 := UInt8.ofNat (grayOf c.1 c.2.1 c.2.2.1)

/-- writer/standard/imgkit/process.go:33 `Gray`; `At` of the source is a parameter of the source. -/
def gray (src : Image) : GrayImg :=
  (intRange 0 (src.maxY - src.minY)).foldl (fun g i =>
    (intRange 0 (src.maxX - src.minX)).foldl (fun g j => g.set j i (grayValue (src.chan j i))) g) (newGray src)

/-- writer/standard/imgkit/process.go:11 `Binaryzation`.  `threshold` is a `uint8`, so the first test never fires; white and black are grey 255
and 0. -/
def binaryzation (src : Image) (threshold : UInt8) : GrayImg :=
  (intRange 0 (src.maxY - src.minY)).foldl (fun g i =>
    (intRange 0 (src.maxX - src.minX)).foldl (fun g j => g.set j i (if g.at j i > threshold then 255 else 0)) g) (gray src)

/-- What an encoder did: the chunks it wrote, and whether it succeeded. -/
structure Encoding where
  chunks : List Files.Content
  ok : Bool

/-- The names `.jpg`, `.jpeg`, `.png`. -/
def dotJpg : Bytes := [0x2e, 0x6a, 0x70, 0x67]
def dotJpeg : Bytes := [0x2e, 0x6a, 0x70, 0x65, 0x67]
def dotPng : Bytes := [0x2e, 0x70, 0x6e, 0x67]

/-- writer/standard/imgkit/io.go:29 `Save`: the file system afterwards and whether the result is nil.  `os.Create` is
`OpenFile(O_RDWR|O_CREATE|O_TRUNC)`; `jpeg` and `png` are what the encoders would do; `path` is the name as the file system sees it. -/
def save (denied : Bool) (fs : Files.FS) (filename : Bytes) (path : String) (jpeg png : Encoding) : Files.FS × Bool :=
  match Files.openFile denied fs path { create := true, trunc := true } with
  | none => (fs, false)
  | some fs =>
    let e := Cli.ext filename
    if e = dotJpg ∨ e = dotJpeg then (Files.writeChunks path fs 0 jpeg.chunks, jpeg.ok)
    else if e = dotPng then (Files.writeChunks path fs 0 png.chunks, png.ok)
    else (fs, false)

end QR.Imgkit
