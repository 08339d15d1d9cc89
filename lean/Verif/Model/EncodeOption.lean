import Verif.Model.Version
/-!
# Encode options (encoder_option.go)
-/
namespace QR

/-- encoder_option.go:15 `encodingOption` -/
structure EncodingOption where
  version : Int
  minimumVersion : Int
  encMode : Nat
  ecLevel : Int
  deriving DecidableEq, Repr

/-- encoder_option.go:8 `DefaultEncodingOption` -/
def defaultEncodingOption : EncodingOption :=
  { version := 0, minimumVersion := 0, encMode := encAuto, ecLevel := ecQuart }

/-- The four option constructors. -/
inductive EncodeOption
  | withEncodingMode (mode : Nat)
  | withErrorCorrectionLevel (lv : Int)
  | withVersion (v : Int)
  | withMinimumVersion (v : Int)
  deriving DecidableEq, Repr

/-- encoder.go:63 `getEncModeName` -/
def getEncModeName (mode : Nat) : String :=
  if mode = encNone then "none"
  else if mode = encNumeric then "numeric"
  else if mode = encAlphanumeric then "alphanumeric"
  else if mode = encKanji then "kanji"
  else if mode = encByte then "byte"
  else "unknown(" ++ toString mode ++ ")"

/-- encoder_option.go:45-88 the effect of `apply` for each constructor. -/
def EncodeOption.apply (o : EncodingOption) : EncodeOption → EncodingOption
  | .withEncodingMode mode => if getEncModeName mode = "" then o else { o with encMode := mode }
  | .withErrorCorrectionLevel lv => if lv < ecLow ∨ lv > ecHighest then o else { o with ecLevel := lv }
  | .withVersion v => if v < 1 ∨ v > 40 then o else { o with version := v }
  | .withMinimumVersion v => if v < 1 ∨ v > 40 then o else { o with minimumVersion := v }

/-- qrcode.go:22-25 the option loop of `NewWith`. -/
def applyOptions (opts : List EncodeOption) : EncodingOption :=
  opts.foldl EncodeOption.apply defaultEncodingOption

end QR
