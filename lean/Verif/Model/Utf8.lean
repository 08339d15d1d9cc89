/-!
# Go strings as byte lists; `range` over a string

`for _, r := range s` decodes UTF-8 as `unicode/utf8.DecodeRuneInString` does: a malformed sequence
yields U+FFFD and advances by one byte.  (Go specification, "For statements with range clause";
used in qrcode.go:60, chardet.go:62, and by `utf8.RuneCountInString` in encoder.go:141, version.go:299.)
-/
namespace QR

abbrev Bytes := List UInt8

/-- A continuation byte in `[lo, hi]` (Go's `acceptRange`). -/
def inRange (b : UInt8) (lo hi : Nat) : Bool := decide (lo ≤ b.toNat) && decide (b.toNat ≤ hi)

/-- `utf8.RuneError` -/
def runeError : Nat := 0xFFFD

/-- Smallest/largest admissible second byte for a leading byte of a 3-byte sequence. -/
def second3 (b0 : Nat) : Nat × Nat :=
  if b0 = 0xE0 then (0xA0, 0xBF) else if b0 = 0xED then (0x80, 0x9F) else (0x80, 0xBF)

/-- Smallest/largest admissible second byte for a leading byte of a 4-byte sequence. -/
def second4 (b0 : Nat) : Nat × Nat :=
  if b0 = 0xF0 then (0x90, 0xBF) else if b0 = 0xF4 then (0x80, 0x8F) else (0x80, 0xBF)

/-- The runes produced by `range` over the string, in order. -/
def runes : Bytes → List Nat
  | [] => []
  | b0 :: rest =>
    let n := b0.toNat
    if n < 0x80 then n :: runes rest
    else if n < 0xC2 then runeError :: runes rest
    else if n < 0xE0 then
      match rest with
      | b1 :: rest' =>
        if inRange b1 0x80 0xBF then
          ((n - 0xC0) * 64 + (b1.toNat - 0x80)) :: runes rest'
        else runeError :: runes (b1 :: rest')
      | [] => [runeError]
    else if n < 0xF0 then
      match rest with
      | b1 :: b2 :: rest' =>
        if inRange b1 (second3 n).1 (second3 n).2 && inRange b2 0x80 0xBF then
          ((n - 0xE0) * 4096 + (b1.toNat - 0x80) * 64 + (b2.toNat - 0x80)) :: runes rest'
        else runeError :: runes (b1 :: b2 :: rest')
      | [b1] => runeError :: runes [b1]
      | [] => [runeError]
    else if n < 0xF5 then
      match rest with
      | b1 :: b2 :: b3 :: rest' =>
        if inRange b1 (second4 n).1 (second4 n).2 && inRange b2 0x80 0xBF && inRange b3 0x80 0xBF then
          ((n - 0xF0) * 262144 + (b1.toNat - 0x80) * 4096 + (b2.toNat - 0x80) * 64
            + (b3.toNat - 0x80)) :: runes rest'
        else runeError :: runes (b1 :: b2 :: b3 :: rest')
      | [b1, b2] => runeError :: runes [b1, b2]
      | [b1] => runeError :: runes [b1]
      | [] => [runeError]
    else runeError :: runes rest

/-- `utf8.RuneCountInString` -/
def runeCount (s : Bytes) : Nat := (runes s).length

end QR
