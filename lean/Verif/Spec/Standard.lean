/-!
# The QR code standard, as a reader uses it

This file does not import the model.  It states, in `(row, column)` coordinates with `(0,0)` at the top
left, the parts of ISO/IEC 18004 that fix the meaning of a (model 2) symbol:
geometry, module order, masks, format and version words, block structure.
-/
namespace Spec

/-! ## Geometry -/

/-- Modules per side (ISO/IEC 18004, 5.3.1.1). -/
def side (v : Nat) : Nat := 17 + 4 * v

/-- Row/column coordinates of alignment pattern centres (Annex E, in its well-known closed form). -/
def alignCoords (v : Nat) : List Nat :=
  if v ≤ 1 then []
  else
    let n := v / 7 + 2
    let step := if v = 32 then 26 else (v * 4 + n * 2 + 1) / (n * 2 - 2) * 2
    6 :: (List.range (n - 1)).map fun i => side v - 7 - step * (n - 2 - i)

/-- `(i, j)` is the centre of an alignment pattern: both coordinates are listed, and the pattern is not one
of the three that would collide with a finder pattern. -/
def isAlignCentre (v i j : Nat) : Bool :=
  (alignCoords v).contains i && (alignCoords v).contains j &&
  !(i == 6 && j == 6) && !(i == 6 && j == side v - 7) && !(i == side v - 7 && j == 6)

/-- Distance. -/
def dist (a b : Nat) : Nat := (a - b) + (b - a)

/-- Chebyshev distance of `(i, j)` from `(a, b)`. -/
def cheb (i j a b : Nat) : Nat := max (dist i a) (dist j b)

/-- The centre (if any) of the alignment pattern that covers `(i, j)`. -/
def alignAt (v i j : Nat) : Option (Nat × Nat) :=
  match (alignCoords v).find? (fun a => dist i a ≤ 2), (alignCoords v).find? (fun b => dist j b ≤ 2) with
  | some a, some b => if isAlignCentre v a b then some (a, b) else none
  | _, _ => none

/-- `(i, j)` lies in an area of a finder pattern with its separator (8x8 in three corners). -/
def inFinderArea (v i j : Nat) : Bool :=
  (decide (i ≤ 7) && decide (j ≤ 7)) || (decide (i ≤ 7) && decide (side v - 8 ≤ j)) ||
  (decide (side v - 8 ≤ i) && decide (j ≤ 7))

/-- Colour of a module of a finder pattern or separator: the distance from the nearest of the three centres
`(3,3)`, `(3,n-4)`, `(n-4,3)` is 0,1: dark; 2: light; 3: dark; 4 (separator): light. -/
def finderColour (v i j : Nat) : Bool :=
  let n := side v
  let d := min (cheb i j 3 3) (min (cheb i j 3 (n - 4)) (cheb i j (n - 4) 3))
  decide (d ≤ 1) || d == 3

/-- Timing patterns: row 6 and column 6 between the separators; dark iff the running coordinate is even. -/
def inTiming (v i j : Nat) : Bool :=
  (i == 6 && decide (8 ≤ j) && decide (j + 9 ≤ side v)) ||
  (j == 6 && decide (8 ≤ i) && decide (i + 9 ≤ side v))

def timingColour (i j : Nat) : Bool := (i + j) % 2 == 0

/-- The dark module. -/
def isDarkModule (v i j : Nat) : Bool := i == side v - 8 && j == 8

/-- Format information cells. `formatCells1` runs along the top-left finder, `formatCells2` is split between
the other two; both list the cells of bits 14 (first) to 0 (last). -/
def formatCells1 : List (Nat × Nat) :=
  [(8, 0), (8, 1), (8, 2), (8, 3), (8, 4), (8, 5), (8, 7), (8, 8), (7, 8), (5, 8), (4, 8), (3, 8), (2, 8),
   (1, 8), (0, 8)]

def formatCells2 (v : Nat) : List (Nat × Nat) :=
  let n := side v
  [(n - 1, 8), (n - 2, 8), (n - 3, 8), (n - 4, 8), (n - 5, 8), (n - 6, 8), (n - 7, 8),
   (8, n - 8), (8, n - 7), (8, n - 6), (8, n - 5), (8, n - 4), (8, n - 3), (8, n - 2), (8, n - 1)]

/-- Version information cells, bit 17 first: bit `k` is at row `k/3`, column `n-11+k%3` in the upper right
block, and transposed in the lower left one. -/
def versionCells1 (v : Nat) : List (Nat × Nat) :=
  (List.range 18).map fun t => ((17 - t) / 3, side v - 11 + (17 - t) % 3)

def versionCells2 (v : Nat) : List (Nat × Nat) :=
  (List.range 18).map fun t => (side v - 11 + (17 - t) % 3, (17 - t) / 3)

def inVersionArea (v i j : Nat) : Bool :=
  decide (7 ≤ v) &&
  ((decide (i < 6) && decide (side v - 11 ≤ j) && decide (j < side v - 8)) ||
   (decide (j < 6) && decide (side v - 11 ≤ i) && decide (i < side v - 8)))

/-- Format information area including the dark module. -/
def inFormatArea (v i j : Nat) : Bool :=
  (i == 8 && (decide (j ≤ 8) || decide (side v - 8 ≤ j))) ||
  (j == 8 && (decide (i ≤ 8) || decide (side v - 8 ≤ i)))

/-- Every module that does not carry data. -/
def isFunction (v i j : Nat) : Bool :=
  inFinderArea v i j || inFormatArea v i j || i == 6 || j == 6 || inVersionArea v i j ||
  (alignAt v i j).isSome

/-- The prescribed colour of a pattern module (finder, separator, alignment, timing, dark module);
`none` for data, format and version modules. -/
def patternColour (v i j : Nat) : Option Bool :=
  if inFinderArea v i j then some (finderColour v i j)
  else match alignAt v i j with
    | some (a, b) => some (cheb i j a b != 1)
    | none =>
      if inTiming v i j then some (timingColour i j)
      else if isDarkModule v i j then some true
      else none

/-! ## Order of the data modules (7.7.3) -/

/-- Right-hand columns of the two-module-wide columns, in order; column 6 is skipped. -/
def rightColumns (v : Nat) : List Nat :=
  (List.range ((side v - 7) / 2)).map (fun k => side v - 1 - 2 * k) ++ [5, 3, 1]

/-- All modules outside column 6 in placement order: two-module-wide columns from the right, alternately
upwards and downwards, right module first. -/
def zigzag (v : Nat) : List (Nat × Nat) :=
  (rightColumns v).zipIdx.flatMap fun (c, k) =>
    let rows := if k % 2 = 0 then (List.range (side v)).reverse else List.range (side v)
    rows.flatMap fun i => [(i, c), (i, c - 1)]

/-- Data modules in order. -/
def dataModules (v : Nat) : List (Nat × Nat) := (zigzag v).filter fun (i, j) => !isFunction v i j

/-! ## Masks (7.8.2) -/

/-- Data mask condition in row `i`, column `j`. -/
def maskBit (k i j : Nat) : Bool :=
  match k with
  | 0 => (i + j) % 2 == 0
  | 1 => i % 2 == 0
  | 2 => j % 3 == 0
  | 3 => (i + j) % 3 == 0
  | 4 => (i / 2 + j / 3) % 2 == 0
  | 5 => (i * j) % 2 + (i * j) % 3 == 0
  | 6 => ((i * j) % 2 + (i * j) % 3) % 2 == 0
  | 7 => ((i + j) % 2 + (i * j) % 3) % 2 == 0
  | _ => false

/-! ## Format and version words (Annex C, D) -/

inductive Level | L | M | Q | H
  deriving DecidableEq, Repr

def Level.all : List Level := [.L, .M, .Q, .H]

/-- Two-bit level indicator (7.9.1). -/
def Level.indicator : Level → Nat
  | .L => 1 | .M => 0 | .Q => 3 | .H => 2

/-- Remainder of the GF(2) polynomial `a` (given by its bits) modulo `g` of degree `dg`: cancel the leading
coefficients `dg + n - 1 .. dg` one after the other. -/
def polyRem (g dg : Nat) : Nat → Nat → Nat
  | 0, a => a
  | n + 1, a => polyRem g dg n (if a.testBit (dg + n) then a ^^^ (g <<< n) else a)

/-- 15-bit format word: five data bits, ten BCH bits (generator 10100110111), xor 101010000010010. -/
def formatWord (lv : Level) (mask : Nat) : Nat :=
  let data := lv.indicator * 8 + mask
  (data <<< 10 ^^^ polyRem 0x537 10 5 (data <<< 10)) ^^^ 0x5412

/-- 18-bit version word: six data bits, twelve Golay bits (generator 1111100100101). -/
def versionWord (v : Nat) : Nat := v <<< 12 ^^^ polyRem 0x1F25 12 6 (v <<< 12)

/-! ## Codewords and blocks (7.5, table 9) -/

/-- Number of modules available for data, in closed form. -/
def rawModules (v : Nat) : Nat :=
  let r := (16 * v + 128) * v + 64
  if v ≤ 1 then r
  else
    let n := v / 7 + 2
    r - ((25 * n - 10) * n - 55) - (if v ≥ 7 then 36 else 0)

def totalCodewords (v : Nat) : Nat := rawModules v / 8

/-- Error correction codewords per block, versions 1..40. -/
def ecTable : Level → List Nat
  | .L => [7,10,15,20,26,18,20,24,30,18,20,24,26,30,22,24,28,30,28,28,28,28,30,30,26,28,30,30,30,30,30,30,30,30,30,30,30,30,30,30]
  | .M => [10,16,26,18,24,16,18,22,22,26,30,22,22,24,24,28,28,26,26,26,26,28,28,28,28,28,28,28,28,28,28,28,28,28,28,28,28,28,28,28]
  | .Q => [13,22,18,26,18,24,18,22,20,24,28,26,24,20,30,24,28,28,26,30,28,30,30,30,30,28,30,30,30,30,30,30,30,30,30,30,30,30,30,30]
  | .H => [17,28,22,16,22,28,26,26,24,28,24,28,22,24,24,30,28,28,26,28,30,24,30,30,30,30,30,30,30,30,30,30,30,30,30,30,30,30,30,30]

/-- Number of blocks, versions 1..40. -/
def blockTable : Level → List Nat
  | .L => [1,1,1,1,1,2,2,2,2,4,4,4,4,4,6,6,6,6,7,8,8,9,9,10,12,12,12,13,14,15,16,17,18,19,19,20,21,22,24,25]
  | .M => [1,1,1,2,2,4,4,4,5,5,5,8,9,9,10,10,11,13,14,16,17,17,18,20,21,23,25,26,28,29,31,33,35,37,38,40,43,45,47,49]
  | .Q => [1,1,2,2,4,4,6,6,8,8,8,10,12,16,12,17,16,18,21,20,23,23,25,27,29,34,34,35,38,40,43,45,48,51,53,56,59,62,65,68]
  | .H => [1,1,2,4,4,4,5,6,8,8,11,11,16,16,18,16,19,21,25,25,25,34,30,32,35,37,40,42,45,48,51,54,57,60,63,66,70,74,77,81]

def ecPerBlock (v : Nat) (lv : Level) : Nat := (ecTable lv).getD (v - 1) 0
def numBlocks (v : Nat) (lv : Level) : Nat := (blockTable lv).getD (v - 1) 1

/-- Data codewords in a short block. -/
def shortLen (v : Nat) (lv : Level) : Nat := totalCodewords v / numBlocks v lv - ecPerBlock v lv
/-- Number of short blocks; the remaining blocks have one data codeword more and come last. -/
def numShort (v : Nat) (lv : Level) : Nat := numBlocks v lv - totalCodewords v % numBlocks v lv
/-- Data codewords in the symbol. -/
def dataCodewords (v : Nat) (lv : Level) : Nat :=
  totalCodewords v - numBlocks v lv * ecPerBlock v lv

/-- Data codewords in block `b`. -/
def blockLen (v : Nat) (lv : Level) (b : Nat) : Nat :=
  shortLen v lv + if b < numShort v lv then 0 else 1

/-- Index, in the final codeword sequence, of data codeword `t` of block `b`. -/
def dataIndex (v : Nat) (lv : Level) (b t : Nat) : Nat :=
  if t < shortLen v lv then t * numBlocks v lv + b
  else shortLen v lv * numBlocks v lv + (b - numShort v lv)

/-- Index, in the final codeword sequence, of error correction codeword `t` of block `b`. -/
def ecIndex (v : Nat) (lv : Level) (b t : Nat) : Nat :=
  dataCodewords v lv + t * numBlocks v lv + b

end Spec
