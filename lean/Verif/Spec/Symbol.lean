import Verif.Spec.Layout
/-!
# What a symbol is

`IsSymbol v lv k stream bm`: the bitmap `bm` (rows of modules, dark = true) is the symbol of version `v` and
level `lv` whose data modules carry `stream` under mask `k`.
-/
namespace Spec

structure IsSymbol (v : Nat) (lv : Level) (k : Nat) (stream : List Bool) (bm : List (List Bool)) : Prop where
  version : 1 ≤ v ∧ v ≤ 40
  mask : k < 8
  rows : bm.length = side v
  cols : ∀ r ∈ bm, r.length = side v
  /-- finder patterns, separators, alignment patterns, timing patterns, dark module -/
  pattern : ∀ i j c, i < side v → j < side v → patternColour v i j = some c → pixel bm i j = c
  format1 : (formatCells1.map fun p => pixel bm p.1 p.2) = numBits 15 (formatWord lv k)
  format2 : ((formatCells2 v).map fun p => pixel bm p.1 p.2) = numBits 15 (formatWord lv k)
  version1 : 7 ≤ v → ((versionCells1 v).map fun p => pixel bm p.1 p.2) = numBits 18 (versionWord v)
  version2 : 7 ≤ v → ((versionCells2 v).map fun p => pixel bm p.1 p.2) = numBits 18 (versionWord v)
  data : readStream bm v k = stream

/-- The data bits read from a bitmap, with version, level and mask. -/
def readData (bm : List (List Bool)) : Option (Nat × Level × Nat × List Bool) := do
  let v ← readVersion bm
  let (lv, mask) ← readFormat bm
  some (v, lv, mask, (deinterleave v lv (toCodewords (totalCodewords v) (readStream bm v mask))).flatMap byteToBits)

/-- The data bit stream of a text: mode indicator, character count, payload, filled up to the capacity. -/
def Segment (v : Nat) (m : Mode) (n : Nat) (payload : List Bool) : List Bool :=
  m.indicator ++ numBits (countWidth v m) n ++ payload

/-- Data codewords of block `b`. -/
def dataBlock (v : Nat) (lv : Level) (cw : List Nat) (b : Nat) : List Nat :=
  (List.range (blockLen v lv b)).map fun t => cw.getD (dataIndex v lv b t) 0

/-- `stream` carries the data bits `bits` in interleaved blocks: the data blocks concatenate to `bits`, the error
correction codewords of each block are those that `rs` appends to its data, and the remainder bits are zero. -/
structure IsStream (rs : List Bool → Nat → List Bool) (v : Nat) (lv : Level) (bits stream : List Bool) : Prop where
  length : stream.length = rawModules v
  data : ((List.range (numBlocks v lv)).flatMap fun b =>
    (dataBlock v lv (toCodewords (totalCodewords v) stream) b).flatMap byteToBits) = bits
  ec : ∀ b < numBlocks v lv,
    (dataBlock v lv (toCodewords (totalCodewords v) stream) b).flatMap byteToBits ++
      (ecBlock v lv (toCodewords (totalCodewords v) stream) b).flatMap byteToBits =
    rs ((dataBlock v lv (toCodewords (totalCodewords v) stream) b).flatMap byteToBits) (ecPerBlock v lv)
  remainder : stream.drop (8 * totalCodewords v) = List.replicate (rawModules v % 8) false

end Spec
