import Verif.Model.Gradient
import Verif.Model.Standard
import Verif.Model.EncodeOption
/-!
# The programs under example/

Each of them calls `qrcode.New` or `qrcode.NewWith` with a text and options, `standard.New` with image options, and `Save`.  Here are the options; the text is left open (in the programs it is a
literal).  An image file that is read is given by what reading and decoding it yields (`none`: it failed).  Not here: example/with-custom-shape (`Model/CanvasCustom.lean`), and the two programs that
use another writer.
-/
namespace QR.Examples
open QR Standard

/-- The bytes of a literal with ASCII characters only. -/
def ascii (s : String) : Bytes := s.toList.map fun c => UInt8.ofNat c.toNat

/-- `qrcode.New` or `qrcode.NewWith`, and `standard.New`. -/
structure Run where
  encode : List EncodeOption
  image : List ImgOpt

/-- example/example.go:13 `createQRWithQRWidth` -/
def qrWidth : Run := ⟨[], [.qrWidth 8]⟩
/-- example/example.go:35 `createQRWithCircleShape` -/
def circleShape : Run := ⟨[], [.circleShape]⟩
/-- example/example.go:57 `createQRWithBorderWidth` -/
def borderWidth : Run := ⟨[], [.borderWidth [10]]⟩
/-- example/example.go:79 `createQRWithBgTransparent` -/
def bgTransparent : Run := ⟨[], [.builtinEncoder 1, .bgTransparent]⟩
/-- example/example.go:102 `createQRWithBgFgColor` -/
def bgFgColor : Run := ⟨[], [.fgColor (some (.rgba ⟨135, 206, 235, 255⟩)), .bgColor (some (.rgba ⟨124, 252, 0, 255⟩))]⟩
/-- example/example.go:132-138 the gradient -/
def gradient : LinearGradient := newGradient 45 [⟨0, ⟨255, 0, 0, 255⟩⟩, ⟨1 / 2, ⟨0, 255, 0, 255⟩⟩, ⟨1, ⟨0, 0, 255, 255⟩⟩]
/-- example/example.go:125 `createQRWithFgGradient` -/
def fgGradient : Run := ⟨[], [.fgGradient (some gradient)]⟩
/-- example/example.go:155 `createQRWithHalftone`, and example/with-halftone/main.go:14 without its flag -/
def halftone (read : Option Image) : Run := ⟨[], [.halftoneFile read, .qrWidth 21]⟩
/-- example/example.go:185 `createQRWithLogo` -/
def logo (read : Option Image) : Run := ⟨[], [.logoFile read]⟩
/-- example/with-halftone/main.go:14 with the flag `-transparent` -/
def halftoneTransparent (read : Option Image) : Run := ⟨[], [.halftoneFile read, .qrWidth 21, .builtinEncoder 1, .bgTransparent]⟩
/-- example/simple/main.go:13 -/
def simple : Run := ⟨[.withEncodingMode encByte, .withErrorCorrectionLevel ecQuart], [.qrWidth 40]⟩
/-- example/with-minimum-version/main.go:14-24 -/
def minimumVersion : Run := ⟨[.withMinimumVersion 9, .withErrorCorrectionLevel ecQuart], [.qrWidth 20]⟩
/-- example/with-minimum-version/main.go:36-41 -/
def automaticVersion : Run := ⟨[], [.qrWidth 20]⟩
/-- example/with-gradient-color/main.go:11-29 -/
def gradientLow : Run := ⟨[.withErrorCorrectionLevel ecLow], [.fgGradient (some gradient)]⟩
/-- example/assemble-shape/main.go:41-53; the shape is `Assemble(RoundedFinder(), LiquidBlock())`. -/
def assembleShape : Run := ⟨[], [.customShape (some (.custom 0))]⟩
/-- example/migrating-from-v1/main.go:48-62 `v2` -/
def migrating : Run := ⟨[.withErrorCorrectionLevel ecHighest], [.circleShape, .fgHex (ascii "#0000ff"), .bgHex (ascii "#ffffff"), .qrWidth 20, .borderWidth [20]]⟩
/-- example/with-logosize-multiplier/main.go:10-24 -/
def logoSizeMultiplier (read : Option Image) : Run :=
  ⟨[.withEncodingMode encByte, .withErrorCorrectionLevel ecQuart], [.logoFile read, .logoSizeMultiplier 2]⟩

end QR.Examples
