import Verif.Spec.Symbol
import Verif.Spec.Penalty
/-!
# The score by which the library chooses a mask

The four rules of `Spec/Penalty.lean` with the three deviations of C27, C28 and C30, as a function of the version and the
colours alone.  `c i j` is the colour (dark = true) of the module in row `i`, column `j`.
-/
namespace Spec

/-- The kinds of modules that rules 2 and 3 tell apart.  Alignment patterns count as data. -/
inductive Kind | data | finder | separator | timing | dark | format | version
  deriving DecidableEq, Repr

/-- The module belongs to a separator: it is in the 8x8 area of a finder pattern, at distance 4 from its centre. -/
def onSeparator (v i j : Nat) : Bool :=
  let n := side v
  min (cheb i j 3 3) (min (cheb i j 3 (n - 4)) (cheb i j (n - 4) 3)) == 4

def kindAt (v i j : Nat) : Kind :=
  if inVersionArea v i j then .version
  else if isDarkModule v i j then .dark
  else if inTiming v i j then .timing
  else if inFormatArea v i j then .format
  else if inFinderArea v i j then (if onSeparator v i j then .separator else .finder)
  else .data

/-- A module as the rules see it. -/
def cell (v : Nat) (c : Nat → Nat → Bool) (i j : Nat) : Kind × Bool := (kindAt v i j, c i j)

/-- Rule 2: 3 for every 2x2 square of one colour and one kind. -/
def squares (v : Nat) (c : Nat → Nat → Bool) : Nat :=
  3 * ((List.range (side v - 1)).map fun i => (List.range (side v - 1)).countP fun j =>
    decide (cell v c i j = cell v c i (j + 1) ∧ cell v c i j = cell v c (i + 1) j ∧ cell v c i j = cell v c (i + 1) (j + 1))).sum

/-- A word of colours on data modules. -/
def onData (w : List Bool) : List (Kind × Bool) := w.map fun b => (Kind.data, b)

/-- Rule 3: 40 for every occurrence of a finder-like sequence that lies on data modules. -/
def sequences (v : Nat) (c : Nat → Nat → Bool) : Nat :=
  40 * ((List.range (side v)).map fun k =>
    occurrences (onData finderLike1) ((List.range (side v)).map fun j => cell v c k j) +
    occurrences (onData finderLike2) ((List.range (side v)).map fun j => cell v c k j) +
    occurrences (onData finderLike1) ((List.range (side v)).map fun i => cell v c i k) +
    occurrences (onData finderLike2) ((List.range (side v)).map fun i => cell v c i k)).sum

/-- Rule 4: 10 for every full 5 % by which the whole percentage of dark modules is below 50 or above 51. -/
def balance (v : Nat) (c : Nat → Nat → Bool) : Nat :=
  let p := 100 * darkCount (side v) c / (side v * side v)
  10 * ((50 - p + (p - 51)) / 5)

def score (v : Nat) (c : Nat → Nat → Bool) : Nat :=
  rule1 (side v) c + squares v c + sequences v c + balance v c

/-- `k` is the first in the list among those with the lowest score. -/
def FirstLowest (s : Nat → Nat) (l : List Nat) (k : Nat) : Prop :=
  ∃ a b, l = a ++ k :: b ∧ (∀ j ∈ a, s k < s j) ∧ ∀ j ∈ b, s k ≤ s j

end Spec
