import Verif.Spec.Symbol
import Verif.Spec.ReedSolomon
import Verif.Spec.Repertoire
/-!
# A reference encoder (ISO/IEC 18004, clause 7)

An executable encoder written from the standard: data bits of a text, terminator and pad codewords, error correction
blocks, interleaving, module placement, mask, format and version information.  It knows nothing of the model: the model
works with byte slices, chunk tables, an arranging loop and a matrix filled in several passes; here every module is looked
up on its own.
-/
namespace Spec

/-! ## Data bits of a text (7.4.3 - 7.4.6) -/

/-- Three digits in 10 bits, a final two in 7, a final one in 4. -/
def writeNumeric : List Nat → List Bool
  | [] => []
  | [a] => numBits 4 (a - 48)
  | [a, b] => numBits 7 (10 * (a - 48) + (b - 48))
  | a :: b :: c :: t => numBits 10 (100 * (a - 48) + 10 * (b - 48) + (c - 48)) ++ writeNumeric t

/-- Value of a character (table 5). -/
def alnumValue (c : Nat) : Nat := alnumChars.idxOf c

/-- Two characters in 11 bits, a final one in 6. -/
def writeAlnum : List Nat → List Bool
  | [] => []
  | [a] => numBits 6 (alnumValue a)
  | a :: b :: t => numBits 11 (45 * alnumValue a + alnumValue b) ++ writeAlnum t

/-- Eight bits a byte. -/
def writeBytes (t : List Nat) : List Bool := t.flatMap (numBits 8)

/-- 13-bit value of a two-byte Shift-JIS code (7.4.6): subtract 8140 or C140, then first byte times C0 plus second byte. -/
def kanjiValue (c : Nat) : Nat :=
  let d := if c ≤ 0x9FFC then c - 0x8140 else c - 0xC140
  d / 256 * 0xC0 + d % 256

/-- 13 bits a character; `code` is the Shift-JIS code of a character. -/
def writeKanji (code : Nat → Nat) (rs : List Nat) : List Bool := rs.flatMap fun r => numBits 13 (kanjiValue (code r))

/-- The code as a number. -/
def sjisCode (sjis : Nat → Option (List UInt8)) (r : Nat) : Nat :=
  match sjis r with
  | some [hi, lo] => hi.toNat * 256 + lo.toNat
  | _ => 0

/-- `p` is the payload of the text with bytes `t` in a mode.  (Kanji mode: the text is the UTF-8 form of `rs`.) -/
def Payload (sjis : Nat → Option (List UInt8)) : Mode → List Nat → List Bool → Prop
  | .numeric, t, p => p = writeNumeric t
  | .alnum, t, p => p = writeAlnum t
  | .byte, t, p => p = writeBytes t
  | .kanji, t, p => ∃ rs : List Nat, t = rs.flatMap utf8 ∧ p = writeKanji (sjisCode sjis) rs

/-! ## Terminator and pad codewords (7.4.9, 7.4.10) -/

/-- Zeros up to a codeword boundary. -/
def toBoundary (bs : List Bool) : List Bool := bs ++ List.replicate ((8 - bs.length % 8) % 8) false

/-- The segment filled up to `cap` bits. -/
def fillUp (cap : Nat) (seg : List Bool) : List Bool :=
  let bs := toBoundary (seg ++ List.replicate (min 4 (cap - seg.length)) false)
  bs ++ padPattern ((cap - bs.length) / 8)

/-! ## Error correction (7.5) and final message (7.6) -/

/-- Cut a list into consecutive pieces of the given lengths. -/
def cut {α : Type} : List Nat → List α → List (List α)
  | [], _ => []
  | n :: ns, l => l.take n :: cut ns (l.drop n)

/-- The data codewords of each block. -/
def dataBlocks (v : Nat) (lv : Level) (bits : List Bool) : List (List Nat) :=
  cut ((List.range (numBlocks v lv)).map (blockLen v lv)) (toCodewords (dataCodewords v lv) bits)

/-- The error correction codewords of a block. -/
def parityOf (n : Nat) (block : List Nat) : List Nat := (rsParity (block.map GF.ofNat') n).map GF.val

/-- First codeword of every block, second codeword of every block, ..., `n`-th; exhausted blocks are passed over. -/
def interleave (n : Nat) (blocks : List (List Nat)) : List Nat :=
  (List.range n).flatMap fun t => blocks.filterMap fun b => b[t]?

/-- The message: interleaved data codewords, interleaved error correction codewords, remainder bits. -/
def message (v : Nat) (lv : Level) (bits : List Bool) : List Bool :=
  let blocks := dataBlocks v lv bits
  (interleave (shortLen v lv + 1) blocks ++ interleave (ecPerBlock v lv) (blocks.map (parityOf (ecPerBlock v lv)))).flatMap byteToBits
    ++ List.replicate (rawModules v % 8) false

/-! ## Modules (7.7 - 7.10) -/

/-- The bit written into a cell. -/
def writtenAt (cells : List (Nat × Nat)) (bits : List Bool) (p : Nat × Nat) : Option Bool := (cells.zip bits).lookup p

/-- Colour of the module in row `i`, column `j`: pattern, format information, version information, or a bit of the message
under the mask. -/
def moduleAt (v : Nat) (lv : Level) (k : Nat) (msg : List Bool) (i j : Nat) : Bool :=
  let fmt := numBits 15 (formatWord lv k)
  let ver := if 7 ≤ v then numBits 18 (versionWord v) else []
  ((patternColour v i j) <|> writtenAt formatCells1 fmt (i, j) <|> writtenAt (formatCells2 v) fmt (i, j) <|>
    writtenAt (versionCells1 v) ver (i, j) <|> writtenAt (versionCells2 v) ver (i, j) <|>
    (writtenAt (dataModules v) msg (i, j)).map (· ^^ maskBit k i j)).getD false

/-- The symbol. -/
def symbol (v : Nat) (lv : Level) (k : Nat) (msg : List Bool) : List (List Bool) :=
  (List.range (side v)).map fun i => (List.range (side v)).map fun j => moduleAt v lv k msg i j

/-- The symbol of a payload `p` of `n` characters in mode `m`. -/
def encodeSymbol (v : Nat) (lv : Level) (k : Nat) (m : Mode) (n : Nat) (p : List Bool) : List (List Bool) :=
  symbol v lv k (message v lv (fillUp (8 * dataCodewords v lv) (Segment v m n p)))

end Spec
