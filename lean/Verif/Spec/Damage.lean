import Verif.Spec.Symbol
import Verif.Spec.ReedSolomon
import Verif.Spec.Distance
/-!
# A reader that corrects errors

`decodeDamaged` sees a bitmap in which modules may have the wrong colour.  It takes the format information whose two copies are nearest
(at most 6 of the 30 modules wrong) and replaces every block by a codeword of the Reed-Solomon code that differs from it in at most half as many
bytes as the block has error correction bytes.  (How such a codeword is computed is the business of the reader's author; here one is chosen.)
-/
namespace Spec

/-- The bits at the given modules. -/
def bitsAt (bm : List (List Bool)) (cells : List (Nat × Nat)) : List Bool := cells.map fun p => pixel bm p.1 p.2

/-- Number of the given modules whose colours differ in two bitmaps. -/
def wrongAt (a b : List (List Bool)) (cells : List (Nat × Nat)) : Nat := cells.countP fun p => pixel a p.1 p.2 != pixel b p.1 p.2

/-- All modules of a symbol. -/
def allCells (v : Nat) : List (Nat × Nat) := (List.range (side v)).flatMap fun i => (List.range (side v)).map fun j => (i, j)

/-- The level and mask whose format word is at most 6 modules away, both copies together. -/
def nearFormat (v : Nat) (bm : List (List Bool)) : Option (Level × Nat) :=
  formats.find? fun f => decide (bitDist (numBits 15 (formatWord f.1 f.2)) (bitsAt bm formatCells1) +
    bitDist (numBits 15 (formatWord f.1 f.2)) (bitsAt bm (formatCells2 v)) ≤ 6)

/-- Positions, in the sequence of all codewords of the symbol, of the codewords of block `b`: data, then error correction. -/
def blockIndices (v : Nat) (lv : Level) (b : Nat) : List Nat :=
  (List.range (blockLen v lv b)).map (dataIndex v lv b) ++ (List.range (ecPerBlock v lv)).map (ecIndex v lv b)

/-- The eight modules of the codeword at position `i`. -/
def codewordCells (v i : Nat) : List (Nat × Nat) := ((dataModules v).drop (8 * i)).take 8

/-- Number of codewords of block `b` with a module of different colour in two bitmaps. -/
def wrongCodewords (v : Nat) (lv : Level) (a c : List (List Bool)) (b : Nat) : Nat :=
  (blockIndices v lv b).countP fun i => decide (wrongAt a c (codewordCells v i) ≠ 0)

/-- `c` corrects `r`: it is a codeword, and at most half as many bytes differ as there are error correction bytes. -/
def Corrects (n : Nat) (r c : List GF) : Prop := c.length = r.length ∧ IsCodeword n c ∧ hamming c r ≤ n / 2

open Classical in
/-- A codeword that corrects `r`, if there is one. -/
noncomputable def correct (n : Nat) (r : List GF) : Option (List GF) :=
  if h : ∃ c, Corrects n r c then some h.choose else none

/-- The corrected data bytes of block `b`. -/
noncomputable def correctedBlock (v : Nat) (lv : Level) (cw : List Nat) (b : Nat) : Option (List Nat) :=
  (correct (ecPerBlock v lv) ((blockIndices v lv b).map fun i => GF.ofNat' (cw.getD i 0))).map fun c => (c.take (blockLen v lv b)).map GF.val

/-- The reader. -/
noncomputable def decodeDamaged (unsjis : Nat → Option Nat) (bm : List (List Bool)) : Option (List Nat) := do
  let v ← readVersion bm
  let (lv, mask) ← nearFormat v bm
  let cw := toCodewords (totalCodewords v) (readStream bm v mask)
  let blocks ← (List.range (numBlocks v lv)).mapM (correctedBlock v lv cw)
  let bits := blocks.flatten.flatMap byteToBits
  readSegments unsjis v (bits.length + 1) bits

end Spec
