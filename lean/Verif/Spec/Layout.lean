import Verif.Spec.Capacity
/-!
# Layout of the data bit stream (7.4.1, 7.4.9, 7.4.10)
-/
namespace Spec

/-- Mode indicator (table 2). -/
def Mode.indicator : Mode → List Bool
  | .numeric => [false, false, false, true]
  | .alnum => [false, false, true, false]
  | .byte => [false, true, false, false]
  | .kanji => [true, false, false, false]

/-- `n` in `w` bits, most significant first. -/
def numBits (w n : Nat) : List Bool := (List.range w).map fun k => n.testBit (w - 1 - k)

/-- `k` pad codewords: 11101100 and 00010001 alternately. -/
def padPattern (k : Nat) : List Bool :=
  (List.range k).flatMap fun i => byteToBits (if i % 2 = 0 then 0xEC else 0x11)

/-- `bits` is the segment `seg` filled up to `cap` bits: a terminator of four zero bits (fewer if there is no
room), zero bits up to a codeword boundary, pad codewords. -/
def Filled (cap : Nat) (seg bits : List Bool) : Prop :=
  bits.length = cap ∧ ∃ t p k, bits = seg ++ List.replicate t false ++ List.replicate p false ++ padPattern k ∧
    t = min 4 (cap - seg.length) ∧ p < 8 ∧ (seg.length + t + p) % 8 = 0

/-- Read the payload of a segment. -/
def readPayload (unsjis : Nat → Option Nat) (m : Mode) (n : Nat) (bs : List Bool) : Option (List Nat × List Bool) :=
  match m with
  | .numeric => readNumeric n bs
  | .alnum => readAlnum n bs
  | .byte => readBytes n bs
  | .kanji => readKanji unsjis n bs

end Spec
