/-!
# Module values (matrix_type.go)
-/
namespace QR

/-- matrix_type.go:6-23 `qrtype`.  In Go the type is a `uint8`, `idx << 1`.  `zero` is not a named
constant: it is Go's zero value of the type (only produced by `make`, matrix.go:18,152). -/
inductive QRType
  | zero | init | data | version | format | finder | dark | splitter | timing
  deriving DecidableEq, Repr

/-- matrix_type.go:60 `qrvalue`: 7 bits of type and one bit of value, here as a pair.
The byte-level encoding is `QRValue.toByte`; `Props/MatrixApi.lean` proves that `qrtype`, `qrbool`,
`==` and `xor` computed on bytes as in Go agree with the pair model. -/
structure QRValue where
  ty : QRType
  bit : Bool
  deriving DecidableEq, Repr

/-- matrix_type.go:8-23: the constants `k << 1`, as the index `k`. -/
def QRType.idx : QRType → Nat
  | .zero => 0 | .init => 1 | .data => 2 | .version => 3 | .format => 4
  | .finder => 5 | .dark => 6 | .splitter => 7 | .timing => 8

/-- The byte that represents the value in Go. -/
def QRValue.toByte (v : QRValue) : UInt8 := UInt8.ofNat (v.ty.idx * 2 + (if v.bit then 1 else 0))

/-- matrix_type.go:62-100 -/
def INIT_V0 : QRValue := ⟨.init, false⟩
def DATA_V0 : QRValue := ⟨.data, false⟩
def DATA_V1 : QRValue := ⟨.data, true⟩
def VERSION_V0 : QRValue := ⟨.version, false⟩
def VERSION_V1 : QRValue := ⟨.version, true⟩
def FORMAT_V0 : QRValue := ⟨.format, false⟩
def FORMAT_V1 : QRValue := ⟨.format, true⟩
def FINDER_V0 : QRValue := ⟨.finder, false⟩
def FINDER_V1 : QRValue := ⟨.finder, true⟩
def DARK_V1 : QRValue := ⟨.dark, true⟩
def SPLITTER_V0 : QRValue := ⟨.splitter, false⟩
def TIMING_V0 : QRValue := ⟨.timing, false⟩
def TIMING_V1 : QRValue := ⟨.timing, true⟩
/-- Go's zero value of `qrvalue`. -/
def ZERO_V : QRValue := ⟨.zero, false⟩

/-- matrix_type.go:102 `qrtype` / :50 `Type` -/
def QRValue.qrtype (v : QRValue) : QRType := v.ty
/-- matrix_type.go:106 `qrbool` / :54 `IsSet` -/
def QRValue.qrbool (v : QRValue) : Bool := v.bit

/-- matrix_type.go:119 `xor`: not the exclusive or of the bits but a comparison of the whole values. -/
def QRValue.xor (v v2 : QRValue) : QRValue := if v ≠ v2 then DATA_V1 else DATA_V0

/-! The same operations on bytes, as Go computes them. -/

/-- matrix_type.go:102 `qrtype(v & 0xfe)` -/
def byteType (v : UInt8) : UInt8 := v &&& 0xfe
/-- matrix_type.go:106 `v&0x01 == 1` -/
def byteBool (v : UInt8) : Bool := v &&& 0x01 == 1
/-- matrix_type.go:119 `xor`, with `QRValue_DATA_V1 = 2<<1 | 1` and `QRValue_DATA_V0 = 2<<1`. -/
def byteXor (v v2 : UInt8) : UInt8 := if v ≠ v2 then ((2 : UInt8) <<< 1) ||| 1 else (2 : UInt8) <<< 1
/-- matrix_type.go:8-23 a type constant `k << 1` -/
def QRType.toByte (t : QRType) : UInt8 := UInt8.ofNat t.idx <<< 1

/-- matrix_type.go:25 `qrtype.String` -/
def QRType.string : QRType → String
  | .init => "I" | .data => "d" | .version => "V" | .format => "f" | .finder => "F" | .dark => "D"
  | .splitter => "S" | .timing => "T" | .zero => "?"

/-- matrix_type.go:110 `qrvalue.String` -/
def QRValue.string (v : QRValue) : String := v.ty.string ++ if v.bit then "1" else "0"

/-- utilities.go:5 `samestate` -/
def samestate (s1 s2 : QRValue) : Bool := s1.qrbool == s2.qrbool

/-- utilities.go:25 `binaryToQRValueSlice`: characters other than '0' and '1' are skipped. -/
def binaryToQRValueSlice (s : List Char) : List QRValue :=
  s.filterMap fun c => if c = '1' then some DATA_V1 else if c = '0' then some DATA_V0 else none

end QR
