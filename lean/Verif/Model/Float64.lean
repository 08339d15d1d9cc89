/-!
# The rounding of Go's `float64`

The result of an arithmetic operation on `float64` is the exact result rounded to the nearest representable number, ties to even
(IEEE 754).  `float64Round` is this function on rationals, with gradual underflow (the least positive number is `2^-1074`), without
overflow (no number near `2^1024` occurs in the modelled code).
-/
namespace QR

/-- Nearest integer, ties to even. -/
def roundEven (q : Rat) : Int :=
  let f := q.floor
  let d := q - f
  if d < 1/2 then f else if d > 1/2 then f + 1 else if f % 2 = 0 then f else f + 1

/-- For positive `q`: an `e` with `2^e ≤ q < 2^(e+1)`. -/
def binExp (q : Rat) : Int :=
  let n := q.num.toNat
  let e : Int := (Nat.log2 n : Int) - (Nat.log2 q.den : Int)
  -- 2^(e-1) < q < 2^(e+1)
  if (2 : Rat) ^ e ≤ q then e else e - 1

/-- The distance of neighbouring `float64` numbers around the positive `q`. -/
def float64Ulp (q : Rat) : Rat := (2 : Rat) ^ (max (binExp q) (-1022) - 52)

/-- The nearest `float64`. -/
def float64Round (q : Rat) : Rat :=
  if q = 0 then 0
  else if 0 < q then (roundEven (q / float64Ulp q) : Rat) * float64Ulp q
  else -((roundEven (-q / float64Ulp (-q)) : Rat) * float64Ulp (-q))

end QR
