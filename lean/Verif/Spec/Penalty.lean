import Verif.Spec.Occurrences
/-!
# Penalty rules of the standard (ISO/IEC 18004, 7.8.3), by colour

`c i j` is the colour (dark = true) of the module in row `i`, column `j` of an `n × n` symbol.
-/
namespace Spec

/-- Lengths of the maximal runs of equal elements. -/
def runLengths : List Bool → List Nat
  | [] => []
  | a :: l => ((l.takeWhile (· == a)).length + 1) :: runLengths (l.dropWhile (· == a))
termination_by l => l.length
decreasing_by
  have := (List.dropWhile_suffix (l := l) (· == a)).length_le
  simp; omega

/-- A run of `n ≥ 5` costs `3 + (n - 5)`. -/
def runCost (n : Nat) : Nat := if 5 ≤ n then 3 + (n - 5) else 0

def lineCost (l : List Bool) : Nat := ((runLengths l).map runCost).sum

def rowOf (n : Nat) (c : Nat → Nat → Bool) (i : Nat) : List Bool := (List.range n).map fun j => c i j
def colOf (n : Nat) (c : Nat → Nat → Bool) (j : Nat) : List Bool := (List.range n).map fun i => c i j

/-- Rule 1: runs in rows and columns. -/
def rule1 (n : Nat) (c : Nat → Nat → Bool) : Nat :=
  ((List.range n).map fun k => lineCost (rowOf n c k) + lineCost (colOf n c k)).sum

/-- Rule 2: 3 per 2x2 block of one colour (blocks may overlap). -/
def rule2 (n : Nat) (c : Nat → Nat → Bool) : Nat :=
  3 * ((List.range (n - 1)).map fun i => (List.range (n - 1)).countP fun j =>
    c i j == c i (j + 1) && c i j == c (i + 1) j && c i j == c (i + 1) (j + 1)).sum

def finderLike1 : List Bool := [true, false, true, true, true, false, true, false, false, false, false]
def finderLike2 : List Bool := [false, false, false, false, true, false, true, true, true, false, true]

/-- Rule 3: 40 per occurrence of a finder-like sequence in a row or column. -/
def rule3 (n : Nat) (c : Nat → Nat → Bool) : Nat :=
  40 * ((List.range n).map fun k =>
    occurrences finderLike1 (rowOf n c k) + occurrences finderLike2 (rowOf n c k) +
    occurrences finderLike1 (colOf n c k) + occurrences finderLike2 (colOf n c k)).sum

/-- Number of dark modules. -/
def darkCount (n : Nat) (c : Nat → Nat → Bool) : Nat :=
  ((List.range n).map fun i => (List.range n).countP fun j => c i j).sum

/-- Rule 4 for a proportion `dark / total`: `k` with `50 ± 5k %` to `50 ± 5(k+1) %`, i.e.
`5 k ≤ |100 dark / total - 50| ≤ 5 (k + 1)`. (Both values of `k` are admissible on a boundary.) -/
def Rule4 (dark total k : Nat) : Prop :=
  5 * k * total ≤ dist (100 * dark) (50 * total) ∧ dist (100 * dark) (50 * total) ≤ 5 * (k + 1) * total
where dist (a b : Nat) : Nat := (a - b) + (b - a)

end Spec
