import Verif.Model.Chardet
import Verif.Model.EncodeOption
/-!
# Data encoding (encoder.go)
-/
namespace QR

/-- encoder.go:81 `getEncodeModeIndicator` -/
def getEncodeModeIndicator (mode : Nat) : Res Bits :=
  if mode = encNumeric then .ok [false, false, false, true]
  else if mode = encAlphanumeric then .ok [false, false, true, false]
  else if mode = encByte then .ok [false, true, false, false]
  else if mode = encKanji then .ok [true, false, false, false]
  else .panic .noIndicator

/-- encoder.go:58-59 -/
def paddingByte1 : Bits := [true, true, true, false, true, true, false, false]
def paddingByte2 : Bits := [false, false, false, true, false, false, false, true]

/-- encoder.go:188 `uint32(data[i+j] - 0x30)`: byte subtraction. -/
def digitVal (b : UInt8) : Nat := (b - 0x30).toNat

/-- encoder.go:175 `encodeNumeric`: the bits appended.  The loop `i += 3` is a recursion on the rest of
the data; the inner loop over at most three characters is unrolled (`bitsUsed = 1 + 3 * chars`). -/
def encodeNumeric : Bytes → Bits
  | [] => []
  | [a] => natBits 4 (digitVal a)
  | [a, b] => natBits 7 (digitVal a * 10 + digitVal b)
  | a :: b :: c :: rest =>
    natBits 10 ((digitVal a * 10 + digitVal b) * 10 + digitVal c) ++ encodeNumeric rest

/-- encoder.go:375 `encodeAlphanumericCharacter` -/
def encodeAlphanumericCharacter (v : UInt8) : Res Nat :=
  let c := v.toNat
  if 48 ≤ c ∧ c ≤ 57 then .ok (c - 48)
  else if 65 ≤ c ∧ c ≤ 90 then .ok (c - 65 + 10)
  else if c = 32 then .ok 36
  else if c = 36 then .ok 37
  else if c = 37 then .ok 38
  else if c = 42 then .ok 39
  else if c = 43 then .ok 40
  else if c = 45 then .ok 41
  else if c = 46 then .ok 42
  else if c = 47 then .ok 43
  else if c = 58 then .ok 44
  else .panic .nonAlphanumeric

/-- encoder.go:196 `encodeAlphanumeric`: the bits appended (loop `i += 2`, inner loop unrolled). -/
def encodeAlphanumeric : Bytes → Res Bits
  | [] => .ok []
  | [a] => do
    let va ← encodeAlphanumericCharacter a
    .ok (natBits 6 va)
  | a :: b :: rest => do
    let va ← encodeAlphanumericCharacter a
    let vb ← encodeAlphanumericCharacter b
    let t ← encodeAlphanumeric rest
    .ok (natBits 11 (va * 45 + vb) ++ t)

/-- encoder.go:220 `encodeByte` -/
def encodeByte (data : Bytes) : Bits := data.flatMap byteBits

/-- encoder.go:261 `encodeShiftJIS` (`uint16` arithmetic; no overflow: at most `0x1E * 0xC0 + 0xFF`). -/
def encodeShiftJIS (hi lo : UInt8) : UInt8 × UInt8 :=
  let r := hi.toNat * 256 + lo.toNat
  let go (r : Nat) : UInt8 × UInt8 :=
    let r' := (r / 256) * 0xC0 + r % 256
    (UInt8.ofNat (r' / 256), UInt8.ofNat (r' % 256))
  if 0x8140 ≤ r ∧ r ≤ 0x9FFC then go (r - 0x8140)
  else if 0xE040 ≤ r ∧ r ≤ 0xEBBF then go (r - 0xC140)
  else (0, 0)

/-- encoder.go:248-256 the pair loop of `toShiftJIS`; `none` is the early return of an empty slice. -/
def shiftJISPairs : Bytes → Option Bytes
  | hi :: lo :: rest =>
    let p := encodeShiftJIS hi lo
    if p.1 = 0 ∧ p.2 = 0 then none
    else match shiftJISPairs rest with
      | some t => some (p.1 :: p.2 :: t)
      | none => none
  | _ => some []

/-- `transform.String(enc, raw)`; see `Ext.sjis`. -/
def sjisString (E : Ext) : List Nat → Option Bytes
  | [] => some []
  | r :: rs => match E.sjis r, sjisString E rs with
    | some a, some b => some (a ++ b)
    | _, _ => none

/-- encoder.go:233 `toShiftJIS` -/
def toShiftJIS (E : Ext) (raw : Bytes) : Bytes :=
  match sjisString E (runes raw) with
  | none => []
  | some data =>
    if data.length % 2 ≠ 0 then []
    else (shiftJISPairs data).getD []

/-- encoder.go:295-303 the pair loop of `encodeKanji`. -/
def kanjiPairs : Bytes → Bits
  | a :: b :: rest => natBits 13 (a.toNat * 256 + b.toNat) ++ kanjiPairs rest
  | _ => []

/-- encoder.go:288 `encodeKanji` -/
def encodeKanji (data : Bytes) : Bits := if data.length % 2 ≠ 0 then [] else kanjiPairs data

/-- encoder.go:344-371 `charCountMap` / `charCountBits`; a missing key yields 0. -/
def charCountBits (ver mode : Nat) : Nat :=
  if ver ≤ 9 then
    if mode = encNumeric then 10 else if mode = encAlphanumeric then 9
    else if mode = encByte then 8 else if mode = encKanji then 8 else 0
  else if ver ≤ 26 then
    if mode = encNumeric then 12 else if mode = encAlphanumeric then 11
    else if mode = encByte then 16 else if mode = encKanji then 10 else 0
  else
    if mode = encNumeric then 14 else if mode = encAlphanumeric then 13
    else if mode = encByte then 16 else if mode = encKanji then 12 else 0

/-- encoder.go:332-338 the pad bytes, `i` the loop variable of the next byte. -/
def padBytes : Nat → Nat → Bits
  | 0, _ => []
  | n + 1, i => (if i % 2 = 1 then paddingByte1 else paddingByte2) ++ padBytes n (i + 1)

/-- encoder.go:307 `breakUpInto8bit`: the new contents of `e.dst`. -/
def breakUpInto8bit (v : Version) (dst : Bits) : Res Bits :=
  let maxCap := v.numTotalCodewords * 8
  if maxCap < dst.length then .err (.wrongVersionCap v.ver maxCap dst.length)
  else
    let less := maxCap - dst.length
    let d1 := dst ++ zeroBits (if less < 4 then less else 4)
    let d2 := if d1.length % 8 ≠ 0 then d1 ++ zeroBits (8 - d1.length % 8) else d1
    if maxCap > d2.length then .ok (d2 ++ padBytes ((maxCap - d2.length) / 8) 1) else .ok d2

/-- encoder.go:134-145 the character count. -/
def charCount (mode : Nat) (raw : Bytes) : Nat :=
  if mode = encNumeric ∨ mode = encAlphanumeric ∨ mode = encByte then raw.length
  else if mode = encKanji then runeCount raw else 0

/-- encoder.go:152-164 the payload. -/
def encodePayload (E : Ext) (mode : Nat) (raw : Bytes) : Res Bits :=
  if mode = encNumeric then .ok (encodeNumeric raw)
  else if mode = encAlphanumeric then encodeAlphanumeric raw
  else if mode = encKanji then .ok (encodeKanji (toShiftJIS E raw))
  else if mode = encByte then .ok (encodeByte raw)
  else .ok []

/-- encoder.go:109 `newEncoder`: panics for an unsupported mode. -/
def newEncoder (mode : Nat) : Res Unit :=
  if mode = encNumeric ∨ mode = encAlphanumeric ∨ mode = encByte ∨ mode = encKanji then .ok ()
  else .panic .unsupportedMode

/-- encoder.go:127 `Encode` -/
def encode (E : Ext) (v : Version) (mode : Nat) (raw : Bytes) : Res Bits := do
  let ind ← getEncodeModeIndicator mode
  let payload ← encodePayload E mode raw
  breakUpInto8bit v (ind ++ natBits (charCountBits v.ver mode) (charCount mode raw) ++ payload)

end QR
