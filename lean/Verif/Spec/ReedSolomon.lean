import Verif.Spec.GF256
import Verif.Spec.Reader
/-!
# The Reed-Solomon code of the standard (7.5.2, Annex A)

A codeword with `n` error correction bytes is a sequence of bytes that, read as a polynomial (highest power
first), vanishes at `α^0, ..., α^(n-1)`.
-/
namespace Spec
open GF

/-- Value of the polynomial with coefficients `c`, highest power first. -/
def polyEval (c : List GF) (x : GF) : GF := c.foldl (fun a b => a * x + b) 0

/-- Codewords. -/
def IsCodeword (n : Nat) (c : List GF) : Prop := ∀ i < n, polyEval c (alpha ^ i) = 0

/-- Number of positions in which two sequences differ. -/
def hamming (a b : List GF) : Nat := (a.zip b).countP fun p => decide (p.1 ≠ p.2)

/-! ## A systematic coder -/

/-- Product with `x + β`. -/
def mulLin (g : List GF) (β : GF) : List GF := List.zipWith (· + ·) (g ++ [0]) (0 :: g.map (β * ·))

/-- `(x + α^0) ... (x + α^(n-1))` -/
def genPoly : Nat → List GF
  | 0 => [1]
  | n + 1 => mulLin (genPoly n) (alpha ^ n)

/-- One step of the division circuit. -/
def rsStep (g : List GF) (r : List GF) (d : GF) : List GF :=
  List.zipWith (· + ·) (r.tail ++ [0]) (g.tail.map ((d + r.headD 0) * ·))

/-- Remainder of `data * x^n` modulo the generator polynomial. -/
def rsParity (data : List GF) (n : Nat) : List GF := data.foldl (rsStep (genPoly n)) (List.replicate n 0)

/-- The coder on bits: the data followed by the parity bytes. -/
def rsEncode (bits : List Bool) (n : Nat) : List Bool :=
  bits ++ (rsParity ((toCodewords (bits.length / 8) bits).map GF.ofNat') n).flatMap (fun c => byteToBits c.val)

end Spec
