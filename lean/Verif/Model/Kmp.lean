/-!
# KMP counting (kmp_variant.go)

The two loops have no syntactic bound; they are modelled with fuel.  `none` = out of fuel or index
out of range; `Props/Kmp.lean` proves it never happens for non-empty patterns.
-/
namespace QR

/-- kmp_variant.go:41 `kmpGetNext`: the loop over `(j, k)`; `fail` is the slice of results. -/
def kmpNextLoop {α : Type} [DecidableEq α] (pattern : List α) :
    Nat → List Int → Nat → Int → Option (List Int)
  | 0, _, _, _ => none
  | fuel + 1, fail, j, k =>
    if j < pattern.length - 1 then
      -- `k == -1 || pattern[j] == pattern[k]`
      if k = -1 ∨ pattern[j]? = pattern[k.toNat]? then
        kmpNextLoop pattern fuel (fail.set (j + 1) (k + 1)) (j + 1) (k + 1)
      else
        match fail[k.toNat]? with
        | some k' => kmpNextLoop pattern fuel fail j k'
        | none => none
    else some fail

/-- kmp_variant.go:41 `kmpGetNext`.  `fail[0] = -1` panics on an empty pattern (`none`). -/
def kmpGetNext {α : Type} [DecidableEq α] (pattern : List α) : Option (List Int) :=
  if pattern = [] then none
  else kmpNextLoop pattern (2 * pattern.length + 1)
    ((List.replicate pattern.length (0 : Int)).set 0 (-1)) 0 (-1)

/-- kmp_variant.go:15-36: the inner `for` and the `goto loop`, one condition test per step. -/
def kmpLoop {α : Type} [DecidableEq α] (src pattern : List α) (next : List Int) :
    Nat → Nat → Int → Nat → Option Nat
  | 0, _, _, _ => none
  | fuel + 1, i, j, count =>
    if i < src.length ∧ j < pattern.length then
      if j = -1 ∨ src[i]? = pattern[j.toNat]? then
        kmpLoop src pattern next fuel (i + 1) (j + 1) count
      else
        match next[j.toNat]? with
        | some j' => kmpLoop src pattern next fuel i j' count
        | none => none
    else if j = pattern.length then
      -- `if i-j >= 0 { count++ }`, `i -= plen - 1; j = 0; goto loop`
      let count' := if (i : Int) - j ≥ 0 then count + 1 else count
      kmpLoop src pattern next fuel (i - (pattern.length - 1)) 0 count'
    else some count

/-- Fuel that is proved sufficient in `Proof/Kmp.lean`. -/
def kmpFuel (slen plen : Nat) : Nat := (2 * slen + 3) * (plen + 2) * 2 + 10

/-- kmp_variant.go:6 `kmp` with `next != nil` or `next == nil`. -/
def kmp {α : Type} [DecidableEq α] (src pattern : List α) (next : Option (List Int)) : Option Nat :=
  match next with
  | some nx => kmpLoop src pattern nx (kmpFuel src.length pattern.length) 0 0 0
  | none => match kmpGetNext pattern with
    | some nx => kmpLoop src pattern nx (kmpFuel src.length pattern.length) 0 0 0
    | none => none

end QR
