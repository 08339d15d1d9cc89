import Verif.Model.Cli
/-!
# The flags of the command line program (cmd/qrcode/app.go)
-/
namespace QR.Cli
open QR

/-- cmd/qrcode/app.go:169-219 `prepareFlags`: the values the flags have if they are not given, for the source text `text` (`c.Args().First()`, :133): no `--terminal`,
`--output=qrcode.jpg`, `--block=5`, `--borders=0,0,0,0`, no `--circle`, no `--transparent`, no `--halftone`. -/
def defaultFlags (text : Bytes) : Flags where
  text := text
  terminal := false
  output := [0x71, 0x72, 0x63, 0x6F, 0x64, 0x65, 0x2E, 0x6A, 0x70, 0x67]
  block := 5
  borders := [0x30, 0x2C, 0x30, 0x2C, 0x30, 0x2C, 0x30]
  circle := false
  transparent := false
  halftone := []

end QR.Cli
