/-!
# Bit strings

Model of the part of `github.com/yeqown/reedsolomon/binary` (v1.0.0, not part of `/repo`) that the
code uses.  A `*binary.Binary` is the list of its bits, first bit first.  This is a *trusted reading*
of an external library:

* `binary.New(b...)`, `NewFromBinaryString`  – the given bits
* `Append`, `AppendNumBools`, `AppendByte`   – list append
* `AppendUint32(v, n)`                       – the `n` low-order bits of `v`, most significant first
* `Subset(start, end)`                       – the bits with index in `[start, end)`, or an error
* `At(i)`, `Len()`
-/
namespace QR

abbrev Bits := List Bool

/-- `AppendUint32(value, numBits)`: the bits appended (numBits low-order bits, MSB first). -/
def natBits : Nat → Nat → Bits
  | 0, _ => []
  | n + 1, v => v.testBit n :: natBits n v

/-- `AppendByte(b, 8)`: the eight bits appended. -/
def byteBits (b : UInt8) : Bits := natBits 8 b.toNat

/-- `AppendNumBools(n, false)`: the bits appended. -/
def zeroBits (n : Nat) : Bits := List.replicate n false

/-- `Subset(start, end)`; `none` is the error case. -/
def subset (b : Bits) (start stop : Nat) : Option Bits :=
  if start ≤ stop ∧ stop ≤ b.length then some ((b.drop start).take (stop - start)) else none

/-- `At(i)`; every call site has `i < Len()` (loops bounded by `Len()` or by the constant length). -/
def bitAt (b : Bits) (i : Nat) : Bool := b.getD i false

end QR
