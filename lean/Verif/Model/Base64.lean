import Verif.Model.Binary
/-!
# `base64.StdEncoding.EncodeToString` (used by cmd/wasm/types.go:163)
-/
namespace QR.Base64
open QR

/-- The alphabet of `base64.StdEncoding`: `A`-`Z`, `a`-`z`, `0`-`9`, `+`, `/`. -/
def char (n : Nat) : UInt8 :=
  UInt8.ofNat (if n < 26 then 0x41 + n else if n < 52 then 0x61 + (n - 26) else if n < 62 then 0x30 + (n - 52) else if n = 62 then 0x2b else 0x2f)

/-- Go's `(*base64.Encoding).EncodeToString` with `StdEncoding`: groups of three bytes become four characters; the rest is padded
with `=`. -/
def encode : List UInt8 → List UInt8
  | [] => []
  | [a] =>
    let v := a.toNat * 65536
    [char (v / 262144 % 64), char (v / 4096 % 64), 0x3d, 0x3d]
  | [a, b] =>
    let v := a.toNat * 65536 + b.toNat * 256
    [char (v / 262144 % 64), char (v / 4096 % 64), char (v / 64 % 64), 0x3d]
  | a :: b :: c :: rest =>
    let v := a.toNat * 65536 + b.toNat * 256 + c.toNat
    char (v / 262144 % 64) :: char (v / 4096 % 64) :: char (v / 64 % 64) :: char (v % 64) :: encode rest

end QR.Base64
