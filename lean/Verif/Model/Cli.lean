import Verif.Model.QRCode
import Verif.Model.Standard
/-!
# The command line (cmd/qrcode/app.go)

The parsing of the command line itself (`urfave/cli`) is external: the model starts from the values of the flags.
-/
namespace QR.Cli
open QR Standard

/-- The values of the flags (cmd/qrcode/app.go:131-146); `block` is what `c.Uint` returns. -/
structure Flags where
  text : Bytes
  terminal : Bool
  output : Bytes
  block : Nat
  borders : Bytes
  circle : Bool
  transparent : Bool
  halftone : Bytes

/-- `strings.Split(s, sep)` for a separator of one byte. -/
def split (sep : UInt8) : Bytes → List Bytes
  | [] => [[]]
  | b :: rest =>
    if b = sep then [] :: split sep rest
    else match split sep rest with
      | [] => [[b]]
      | x :: xs => (b :: x) :: xs

/-- The loop of `strconv.ParseUint(s, 10, 8)`, with the value so far; `none` is an error (a character that is no digit, or a
value that does not fit). -/
def parseLoop : Nat → Bytes → Option Nat
  | n, [] => some n
  | n, b :: rest =>
    if 0x30 ≤ b.toNat ∧ b.toNat ≤ 0x39 then
      let n1 := n * 10 + (b.toNat - 0x30)
      if n1 > 255 then none else parseLoop n1 rest
    else none

/-- `strconv.ParseUint(s, 10, 8)` -/
def parseUint8 (s : Bytes) : Option Nat := if s = [] then none else parseLoop 0 s

/-- cmd/qrcode/app.go:152-164 the borders; `none` is a panic. -/
def parseBorders (s : Bytes) : Option (List Nat) :=
  let arr := split 0x2c s
  if arr.length ≠ 4 then none else arr.mapM parseUint8

/-- Go's `filepath.Ext` (on Unix), from the reversed path and what has been passed so far. -/
def extLoop : Bytes → Bytes → Bytes
  | [], _ => []
  | b :: rest, acc => if b = 0x2f then [] else if b = 0x2e then 0x2e :: acc else extLoop rest (b :: acc)

/-- Go's `filepath.Ext` -/
def ext (path : Bytes) : Bytes := extLoop path.reverse []

/-- Go's `strings.TrimPrefix(s, ".")` -/
def trimDot : Bytes → Bytes
  | [] => []
  | b :: rest => if b = 0x2e then rest else b :: rest

/-- The bytes of `png`. -/
def png : Bytes := [0x70, 0x6e, 0x67]

/-- cmd/qrcode/app.go:89 `fileOutputOptions` -/
structure FileOutputOptions where
  output : Bytes
  outputSuffix : Bytes
  blockSize : UInt8
  borders : List Nat
  isCircleShape : Bool
  transparent : Bool
  halftoneImage : Bytes

/-- cmd/qrcode/app.go:99 `applyOptions`; `readImage` is the file system and image decoder behind `WithHalftone`. -/
def FileOutputOptions.applyOptions (readImage : Bytes → Option Image) (foo : FileOutputOptions) : List ImgOpt :=
  [.qrWidth foo.blockSize, .borderWidth (foo.borders.map fun (n : Nat) => (n : Int))] ++
  [if foo.outputSuffix = png then .builtinEncoder 1 else .builtinEncoder 0] ++
  (if foo.isCircleShape then [.circleShape] else []) ++
  (if foo.transparent then [.bgTransparent] else []) ++
  (if foo.halftoneImage ≠ [] then [.halftoneFile (readImage foo.halftoneImage)] else [])

/-- cmd/qrcode/app.go:131 `parseGenerateContextFrom`: is the terminal asked for, and the file options; `none` is a panic. -/
def parse (f : Flags) : Option (Bool × FileOutputOptions) :=
  (parseBorders f.borders).map fun bs => (f.terminal, {
    output := f.output
    outputSuffix := trimDot (ext f.output)
    blockSize := UInt8.ofNat f.block
    borders := bs
    isCircleShape := f.circle
    transparent := f.transparent
    halftoneImage := f.halftone })

/-- What the program sets out to do. -/
inductive Run
  /-- a panic -/
  | panic
  /-- cmd/qrcode/app.go:52 `qrcode.New` failed -/
  | failed (e : Err)
  /-- the symbol is shown in the terminal -/
  | terminal (q : QRCode)
  /-- the symbol is drawn with these options and saved to this file -/
  | file (name : Bytes) (o : Opts) (q : QRCode)

/-- cmd/qrcode/app.go:51 `generate` after `parseGenerateContextFrom`, up to `Save`. -/
def run (E : Ext) (cache : AlignCache) (arrival : List Nat) (readImage : Bytes → Option Image) (f : Flags) : Run :=
  match parse f with
  | none => .panic
  | some (term, foo) =>
    match new E cache arrival .string f.text with
    | .panic _ => .panic
    | .err e => .failed e
    | .ok q =>
      if term then .terminal q
      else match newWithWriter false (foo.applyOptions readImage) with
        | none => .panic
        | some o => .file foo.output o q

end QR.Cli
