import Verif.Model.QRCode
import Verif.Model.Standard
import Verif.Model.Base64
/-!
# The WebAssembly function `generateQRCode` (cmd/wasm)

`syscall/js` is external and is modelled by what its methods are documented to do.  Strings are the UTF-8 bytes Go receives.
Reading a property of an object that has a getter that throws is not modelled.
-/
namespace QR.Wasm
open QR Standard

/-- A JavaScript value as `syscall/js` sees it.  `number` carries what `Int()` makes of it (the conversion from `float64` to `int`)
and its decimal text. -/
inductive JS
  | undefined
  | null
  | boolean (b : Bool)
  | number (int : Int) (text : Bytes)
  | string (s : Bytes)
  | symbol
  | object (get : String → JS)
  | function (get : String → JS)

/-- The UTF-8 bytes of a text constant. -/
def lit (s : String) : Bytes := s.toList.map fun c => UInt8.ofNat c.toNat

/-- `js.Value.Int`: panics (`none`) unless the value is a number. -/
def JS.int : JS → Option Int
  | .number i _ => some i
  | _ => none

/-- `js.Value.Bool`: panics (`none`) unless the value is a boolean. -/
def JS.bool : JS → Option Bool
  | .boolean b => some b
  | _ => none

/-- `js.Value.String`: never panics; a value that is no string becomes a description of it. -/
def JS.str : JS → Bytes
  | .string s => s
  | .undefined => lit "<undefined>"
  | .null => lit "<null>"
  | .boolean b => lit (if b then "<boolean: true>" else "<boolean: false>")
  | .number _ t => lit "<number: " ++ t ++ lit ">"
  | .symbol => lit "<symbol>"
  | .object _ => lit "<object>"
  | .function _ => lit "<function>"

/-- cmd/wasm/types.go:34 `genOption` (with :16 `encodeOption` and :23 `outputOption`) -/
structure GenOption where
  version : Int
  mode : UInt8
  ecLevel : Bytes
  bgColor : Bytes
  bgTransparent : Bool
  qrColor : Bytes
  qrWidth : UInt8
  circleShape : Bool
  imageEncoder : Bytes
  margin : Int

/-- cmd/wasm/main.go:40 `new(genOption)` -/
def zeroOption : GenOption := ⟨0, 0, [], [], false, [], 0, false, [], 0⟩

/-- Go's conversion `uint8(i)` of an `int`. -/
def toUint8 (i : Int) : UInt8 := UInt8.ofNat (i % 256).toNat

/-- cmd/wasm/types.go:40 `optionFromJSValue`; the outer `none` is a panic, `some none` is nil. -/
def optionFromJSValue : JS → Option (Option GenOption)
  | .object get => do
    let version ← (get "encodeVersion").int
    let mode ← (get "encodeMode").int
    let bgTransparent ← (get "outputBgTransparent").bool
    let qrWidth ← (get "outputQrWidth").int
    let circleShape ← (get "outputCircleShape").bool
    let margin ← (get "outputMargin").int
    some (some {
      version := version
      mode := toUint8 mode
      ecLevel := (get "encodeECLevel").str
      bgColor := (get "outputBgColor").str
      bgTransparent := bgTransparent
      qrColor := (get "outputQrColor").str
      qrWidth := toUint8 qrWidth
      circleShape := circleShape
      imageEncoder := (get "outputImageEncoder").str
      margin := margin })
  | _ => some none

/-- cmd/wasm/types.go:74 `encodeOptions` -/
def encodeOptions : Option GenOption → List EncodeOption
  | none => []
  | some o =>
    (if o.version ≠ 0 then [.withVersion o.version] else []) ++
    (if o.mode.toNat = encAlphanumeric then [.withEncodingMode encAlphanumeric]
     else if o.mode.toNat = encNumeric then [.withEncodingMode encNumeric]
     else if o.mode.toNat = encByte then [.withEncodingMode encByte]
     else if o.mode.toNat = encKanji then [.withEncodingMode encKanji]
     else []) ++
    (if o.ecLevel = lit "L" then [.withErrorCorrectionLevel ecLow]
     else if o.ecLevel = lit "M" then [.withErrorCorrectionLevel ecMedium]
     else if o.ecLevel = lit "Q" then [.withErrorCorrectionLevel ecQuart]
     else if o.ecLevel = lit "H" then [.withErrorCorrectionLevel ecHighest]
     else [])

/-- cmd/wasm/types.go:110 `outputOptions` -/
def outputOptions : Option GenOption → List ImgOpt
  | none => []
  | some o =>
    (if o.bgColor ≠ [] then [.bgHex o.bgColor] else []) ++
    (if o.bgTransparent then [.bgTransparent] else []) ++
    (if o.qrColor ≠ [] then [.fgHex o.qrColor] else []) ++
    (if o.qrWidth ≠ 0 then [.qrWidth o.qrWidth] else []) ++
    (if o.circleShape then [.circleShape] else []) ++
    [if o.imageEncoder = lit "jpg" ∨ o.imageEncoder = lit "jpeg" then .builtinEncoder 0 else .builtinEncoder 1] ++
    (if o.margin ≠ 0 then [.borderWidth [o.margin]] else [])

/-- What `Save` of the standard writer does with a matrix: the bytes of the picture, an error, or a panic. -/
inductive Saved
  | image (bytes : Bytes)
  | error (e : Nat)
  | panics

/-- The error messages that can end up in the result. -/
inductive GenErr
  | noArgs
  | new (e : Err)
  | save (e : Nat)
  deriving DecidableEq

/-- cmd/wasm/types.go:150 `genResult`; `error = none` is the empty message. -/
structure GenResult where
  success : Bool
  error : Option GenErr
  base64EncodedImage : Bytes
  deriving DecidableEq

/-- What the JavaScript caller gets: an object, or the panic of the Go program (the deferred function of `genqrcode` does not
recover, so the program ends). -/
inductive Outcome
  | panics
  | result (r : GenResult)
  deriving DecidableEq

/-- cmd/wasm/main.go:36 `genqrcode`; `save` is `Save` with a standard writer with these options. -/
def genqrcode (E : Ext) (cache : AlignCache) (arrival : List Nat) (save : Opts → Matrix → Saved) (args : List JS) : Outcome :=
  match args with
  | [] => .result ⟨false, some .noArgs, []⟩
  | content :: rest =>
    let opt : Option (Option GenOption) := match rest with
      | [] => some (some zeroOption)
      | o :: _ => optionFromJSValue o
    match opt with
    | none => .panics
    | some opt =>
      match newWith E cache arrival .string content.str (encodeOptions opt) with
      | .panic _ => .panics
      | .err e => .result ⟨false, some (.new e), []⟩
      | .ok q =>
        match newWithWriter false (outputOptions opt) with
        | none => .panics
        | some o =>
          match save o q.mat with
          | .panics => .panics
          | .error e => .result ⟨false, some (.save e), []⟩
          | .image bytes => .result ⟨true, none, Base64.encode bytes⟩

end QR.Wasm
