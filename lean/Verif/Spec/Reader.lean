import Verif.Spec.Standard
/-!
# A reader

`decode` recovers the text from the dark/light bitmap alone.  It uses no information about how the symbol
was made.  (Errors are not corrected here: that is the subject of `Spec/GF256.lean`.)
-/
namespace Spec

/-- The number written by bits, most significant first. -/
def bitsToNat (bs : List Bool) : Nat := bs.foldl (fun a b => 2 * a + b.toNat) 0

/-- Module `(i, j)` of a bitmap (list of rows). -/
def pixel (bm : List (List Bool)) (i j : Nat) : Bool := (bm.getD i []).getD j false

/-- Version from the number of rows. -/
def readVersion (bm : List (List Bool)) : Option Nat :=
  let n := bm.length
  if 21 ≤ n ∧ n ≤ 177 ∧ n % 4 = 1 then some ((n - 17) / 4) else none

def readCells (bm : List (List Bool)) (cells : List (Nat × Nat)) : Nat :=
  bitsToNat (cells.map fun (i, j) => pixel bm i j)

/-- All (level, mask) pairs. -/
def formats : List (Level × Nat) := Level.all.flatMap fun l => (List.range 8).map fun k => (l, k)

/-- Level and mask from the first copy of the format information. -/
def readFormat (bm : List (List Bool)) : Option (Level × Nat) :=
  let w := readCells bm formatCells1
  formats.find? fun (l, k) => formatWord l k == w

/-- Data modules in placement order with the mask removed. -/
def readStream (bm : List (List Bool)) (v mask : Nat) : List Bool :=
  (dataModules v).map fun (i, j) => pixel bm i j ^^ maskBit mask i j

/-- Cut into bytes (8 bits each, most significant first); an incomplete rest is dropped. -/
def toCodewords : Nat → List Bool → List Nat
  | 0, _ => []
  | n + 1, bs => bitsToNat (bs.take 8) :: toCodewords n (bs.drop 8)

/-- The data codewords in original order. -/
def deinterleave (v : Nat) (lv : Level) (cw : List Nat) : List Nat :=
  (List.range (numBlocks v lv)).flatMap fun b =>
    (List.range (blockLen v lv b)).map fun t => cw.getD (dataIndex v lv b t) 0

/-- Error correction codewords of block `b`. -/
def ecBlock (v : Nat) (lv : Level) (cw : List Nat) (b : Nat) : List Nat :=
  (List.range (ecPerBlock v lv)).map fun t => cw.getD (ecIndex v lv b t) 0

/-- Bits of a byte. -/
def byteToBits (n : Nat) : List Bool := (List.range 8).map fun k => n.testBit (7 - k)

/-! ## The data bit stream (7.4) -/

inductive Mode | numeric | alnum | byte | kanji
  deriving DecidableEq, Repr

def Mode.ofIndicator : Nat → Option Mode
  | 1 => some .numeric | 2 => some .alnum | 4 => some .byte | 8 => some .kanji | _ => none

/-- Width of the character count indicator (table 3). -/
def countWidth (v : Nat) : Mode → Nat
  | .numeric => if v ≤ 9 then 10 else if v ≤ 26 then 12 else 14
  | .alnum => if v ≤ 9 then 9 else if v ≤ 26 then 11 else 13
  | .byte => if v ≤ 9 then 8 else 16
  | .kanji => if v ≤ 9 then 8 else if v ≤ 26 then 10 else 12

/-- Take `n` bits. -/
def takeBits (n : Nat) (bs : List Bool) : Option (Nat × List Bool) :=
  if n ≤ bs.length then some (bitsToNat (bs.take n), bs.drop n) else none

/-- `n` digits: groups of three in 10 bits, a final two in 7, a final one in 4 (ASCII output). -/
def readNumeric : Nat → List Bool → Option (List Nat × List Bool)
  | 0, bs => some ([], bs)
  | 1, bs => do
    let (x, bs) ← takeBits 4 bs
    if x < 10 then some ([48 + x], bs) else none
  | 2, bs => do
    let (x, bs) ← takeBits 7 bs
    if x < 100 then some ([48 + x / 10, 48 + x % 10], bs) else none
  | n + 3, bs => do
    let (x, bs) ← takeBits 10 bs
    if x < 1000 then
      let (t, bs) ← readNumeric n bs
      some ((48 + x / 100) :: (48 + x / 10 % 10) :: (48 + x % 10) :: t, bs)
    else none

/-- Character of an alphanumeric value (table 5). -/
def alnumChars : List Nat := "0123456789ABCDEFGHIJKLMNOPQRSTUVWXYZ $%*+-./:".toList.map Char.toNat

def readAlnum : Nat → List Bool → Option (List Nat × List Bool)
  | 0, bs => some ([], bs)
  | 1, bs => do
    let (x, bs) ← takeBits 6 bs
    let c ← alnumChars[x]?
    some ([c], bs)
  | n + 2, bs => do
    let (x, bs) ← takeBits 11 bs
    let a ← alnumChars[x / 45]?
    let b ← alnumChars[x % 45]?
    let (t, bs) ← readAlnum n bs
    some (a :: b :: t, bs)

def readBytes : Nat → List Bool → Option (List Nat × List Bool)
  | 0, bs => some ([], bs)
  | n + 1, bs => do
    let (x, bs) ← takeBits 8 bs
    let (t, bs) ← readBytes n bs
    some (x :: t, bs)

/-- Shift-JIS code of a 13-bit kanji value (7.4.6 reversed). -/
def kanjiCode (x : Nat) : Nat :=
  let c := x / 0xC0 * 256 + x % 0xC0
  if c + 0x8140 ≤ 0x9FFC then c + 0x8140 else c + 0xC140

/-- UTF-8 bytes of a code point. -/
def utf8 (r : Nat) : List Nat :=
  if r < 0x80 then [r]
  else if r < 0x800 then [0xC0 + r / 64, 0x80 + r % 64]
  else if r < 0x10000 then [0xE0 + r / 4096, 0x80 + r / 64 % 64, 0x80 + r % 64]
  else [0xF0 + r / 262144, 0x80 + r / 4096 % 64, 0x80 + r / 64 % 64, 0x80 + r % 64]

/-- `n` kanji, output as UTF-8; `unsjis` maps a two-byte Shift-JIS code to its code point. -/
def readKanji (unsjis : Nat → Option Nat) : Nat → List Bool → Option (List Nat × List Bool)
  | 0, bs => some ([], bs)
  | n + 1, bs => do
    let (x, bs) ← takeBits 13 bs
    let r ← unsjis (kanjiCode x)
    let (t, bs) ← readKanji unsjis n bs
    some (utf8 r ++ t, bs)

/-- Read segments until the terminator `0000` or until fewer than four bits are left. -/
def readSegments (unsjis : Nat → Option Nat) (v : Nat) : Nat → List Bool → Option (List Nat)
  | 0, _ => none
  | fuel + 1, bs =>
    if bs.length < 4 then some []
    else do
      let (m, bs) ← takeBits 4 bs
      if m = 0 then some []
      else do
        let mode ← Mode.ofIndicator m
        let (n, bs) ← takeBits (countWidth v mode) bs
        let (out, bs) ← (match mode with
          | .numeric => readNumeric n bs
          | .alnum => readAlnum n bs
          | .byte => readBytes n bs
          | .kanji => readKanji unsjis n bs)
        let t ← readSegments unsjis v fuel bs
        some (out ++ t)

/-- The reader: bitmap to text bytes. -/
def decode (unsjis : Nat → Option Nat) (bm : List (List Bool)) : Option (List Nat) := do
  let v ← readVersion bm
  let (lv, mask) ← readFormat bm
  let cw := toCodewords (totalCodewords v) (readStream bm v mask)
  let bits := (deinterleave v lv cw).flatMap byteToBits
  readSegments unsjis v (bits.length + 1) bits

end Spec
