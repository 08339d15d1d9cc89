import Verif.Model.CanvasGradient
import Verif.Model.Shapes
/-!
# All `float64` numbers: NaN, infinities, overflow

`Model/Gradient.lean` and `Model/Shapes.lean` compute with rationals.  A `float64` given by a caller (the angle of a gradient, the position of a
stop, the factor of a shape) can also be NaN or an infinity, and an operation can overflow.  Here is the same code on all of `float64`.
Simplification: the two zeros are not told apart (they differ only in the sign of a quotient by zero, and `C95_no_zero_division` shows that no
number but zero is divided by zero).
-/
namespace QR

/-- A `float64`; `fin q` is the finite number `q`. -/
inductive F64
  | nan
  | pinf
  | ninf
  | fin (q : Rat)
  deriving DecidableEq, Repr

namespace F64

/-- `2^n` -/
def pow2 (n : Nat) : Rat := 2 ^ n

/-- The exact result of an operation as a `float64`: rounded to the nearest, ties to even; infinite if the rounded number is too large (IEEE 754). -/
def ofRat (q : Rat) : F64 :=
  let r := float64Round q
  if pow2 1024 ≤ r then .pinf else if r ≤ -pow2 1024 then .ninf else .fin r

/-- `-x` -/
def neg : F64 → F64
  | .nan => .nan | .pinf => .ninf | .ninf => .pinf | .fin q => .fin (-q)

/-- `x + y` -/
def add : F64 → F64 → F64
  | .fin a, .fin b => ofRat (a + b)
  | .nan, _ => .nan
  | _, .nan => .nan
  | .pinf, .ninf => .nan
  | .ninf, .pinf => .nan
  | .pinf, _ => .pinf
  | _, .pinf => .pinf
  | .ninf, _ => .ninf
  | _, .ninf => .ninf

/-- `x - y` -/
def sub (x y : F64) : F64 := add x (neg y)

/-- The infinity with the sign of `q`; NaN for zero. -/
def signed (q : Rat) : F64 := if q = 0 then .nan else if 0 < q then .pinf else .ninf

/-- `x * y` -/
def mul : F64 → F64 → F64
  | .fin a, .fin b => ofRat (a * b)
  | .nan, _ => .nan
  | _, .nan => .nan
  | .pinf, .fin b => signed b
  | .ninf, .fin b => signed (-b)
  | .fin a, .pinf => signed a
  | .fin a, .ninf => signed (-a)
  | .pinf, .pinf => .pinf
  | .ninf, .ninf => .pinf
  | .pinf, .ninf => .ninf
  | .ninf, .pinf => .ninf

/-- `x / y` (a zero divisor counts as positive) -/
def div : F64 → F64 → F64
  | .fin a, .fin b => if b = 0 then signed a else ofRat (a / b)
  | .nan, _ => .nan
  | _, .nan => .nan
  | .fin _, _ => .fin 0
  | .pinf, .fin b => if 0 ≤ b then .pinf else .ninf
  | .ninf, .fin b => if 0 ≤ b then .ninf else .pinf
  | _, _ => .nan

/-- `x <= y`: false if one of them is NaN. -/
def le : F64 → F64 → Bool
  | .nan, _ => false
  | _, .nan => false
  | .ninf, _ => true
  | _, .pinf => true
  | .fin a, .fin b => decide (a ≤ b)
  | _, _ => false

/-- `x < y` -/
def lt : F64 → F64 → Bool
  | .nan, _ => false
  | _, .nan => false
  | .fin a, .fin b => decide (a < b)
  | .ninf, .ninf => false
  | .ninf, _ => true
  | .pinf, _ => false
  | .fin _, .pinf => true
  | .fin _, .ninf => false

end F64

namespace Standard
open F64

/-- writer/standard/gradient.go:14 `ColorStop` -/
structure ColorStop64 where
  t : F64
  color : RGBA
  deriving DecidableEq, Repr

/-- writer/standard/gradient.go:22 `LinearGradient` -/
structure LinearGradient64 where
  stops : List ColorStop64
  angle : F64
  deriving DecidableEq, Repr

/-- writer/standard/gradient.go:111-113 one channel: `uint8(float64(a)*(1-t) + float64(b)*t)`.  `conv` is the conversion `uint8(f)`, which Go leaves to the
implementation for numbers out of range. -/
def blendChan64 (conv : F64 → UInt8) (a b : UInt8) (t : F64) : UInt8 :=
  conv (add (mul (.fin (a.toNat : Rat)) (sub (.fin 1) t)) (mul (.fin (b.toNat : Rat)) t))

/-- writer/standard/gradient.go:109 `blendColors` -/
def blendColors64 (conv : F64 → UInt8) (c1 c2 : RGBA) (t : F64) : RGBA where
  r := blendChan64 conv c1.r c2.r t
  g := blendChan64 conv c1.g c2.g t
  b := blendChan64 conv c1.b c2.b t
  a := 255

/-- writer/standard/gradient.go:105 the colour returned when no case applies -/
def fallbackColor : RGBA := ⟨0, 0, 0, 255⟩

/-- writer/standard/gradient.go:95-105 the loop and the fall-back -/
def interpLoop64 (conv : F64 → UInt8) (t : F64) : List ColorStop64 → RGBA
  | start :: e :: rest =>
    if le start.t t && le t e.t then
      blendColors64 conv start.color e.color (div (sub t start.t) (sub e.t start.t))
    else interpLoop64 conv t (e :: rest)
  | _ => fallbackColor

/-- writer/standard/gradient.go:88 `interpolateColor`; `none` is the index panic -/
def interpolateColor64 (conv : F64 → UInt8) (stops : List ColorStop64) (t : F64) : Option RGBA :=
  match stops with
  | [] => none
  | s0 :: rest =>
    if le t s0.t then some s0.color
    else
      let l := (s0 :: rest).getLast (by simp)
      if le l.t t then some l.color
      else some (interpLoop64 conv t (s0 :: rest))

/-- `float64(n)` -/
def ofInt64 (n : Int) : F64 := ofRat (n : Rat)

/-- writer/standard/gradient.go:59, 77 the projection of a point -/
def proj64 (dx dy : F64) (x y : Int) : F64 := add (mul (ofInt64 x) dx) (mul (ofInt64 y) dy)

/-- writer/standard/gradient.go:49-54 the projections of the corners -/
def cornerProj64 (dx dy : F64) (w h : Int) : List F64 :=
  [proj64 dx dy 0 0, proj64 dx dy 0 h, proj64 dx dy w 0, proj64 dx dy w h]

/-- writer/standard/gradient.go:57-65: `minProj` starts at +∞ -/
def minProj64 (ps : List F64) : F64 := ps.foldl (fun m q => if lt q m then q else m) .pinf

/-- writer/standard/gradient.go:57-65: `maxProj` starts at -∞ -/
def maxProj64 (ps : List F64) : F64 := ps.foldl (fun m q => if lt m q then q else m) .ninf

/-- writer/standard/gradient.go:77-79 the position of a pixel -/
def gradientPos64 (dx dy : F64) (w h x y : Int) : F64 :=
  let ps := cornerProj64 dx dy w h
  div (sub (proj64 dx dy x y) (minProj64 ps)) (sub (maxProj64 ps) (minProj64 ps))

/-- `math.Pi` as a `float64` -/
def pi64 : Rat := 884279719003555 / 2 ^ 48

/-- writer/standard/gradient.go:39 `angleRad` -/
def angleRad (angle : F64) : F64 := div (mul angle (.fin pi64)) (.fin 180)

/-- The functions `math.Cos` and `math.Sin`. -/
structure Trig where
  cos : F64 → F64
  sin : F64 → F64

/-- writer/standard/gradient.go:38 `applyGradient` on an image of `w` × `h` pixels at the origin: the new colour of pixel `(x, y)`, whose colour is `c`;
`none` is the panic. -/
def gradientPixel64 (conv : F64 → UInt8) (tr : Trig) (g : LinearGradient64) (w h : Int) (fg : RGBA) (x y : Int) (c : RGBA) : Option RGBA :=
  if c = fg then
    interpolateColor64 conv g.stops
      (gradientPos64 (tr.cos (angleRad g.angle)) (neg (tr.sin (angleRad g.angle))) w h x y)
  else some c

/-- writer/standard/writer.go:222-223, as `Canvas.applyGradient` (`Model/CanvasGradient.lean`). -/
def Canvas.applyGradient64 (conv : F64 → UInt8) (tr : Trig) (put : Put) (cv : Canvas) (g : LinearGradient64) (fg : RGBA) : Option Canvas :=
  if g.stops = [] then none
  else some ⟨cv.w, cv.h, fun x y =>
    if 0 ≤ x ∧ x < cv.w ∧ 0 ≤ y ∧ y < cv.h then
      match gradientPixel64 conv tr g cv.w cv.h fg x y (cv.pix x y) with
      | some c => put c (cv.pix x y)
      | none => cv.pix x y
    else cv.pix x y⟩

/-- The calls of `draw`, where the gradient of the options (which `draw` only hands on) is `g`. -/
def Canvas.paintGradient64 (conv : F64 → UInt8) (tr : Trig) (blend : Blend) (put : Put) (g : LinearGradient64) (cv : Canvas) : DrawOp → Option Canvas
  | .gradient _ fg => cv.applyGradient64 conv tr put g fg
  | op => cv.paintImg blend op

/-- The picture after all calls. -/
def paintAllGradient64 (conv : F64 → UInt8) (tr : Trig) (blend : Blend) (put : Put) (g : LinearGradient64) (ops : List DrawOp) : Option Canvas :=
  ops.foldlM (Canvas.paintGradient64 conv tr blend put g) ⟨0, 0, fun _ _ => ⟨0, 0, 0, 0⟩⟩

/-- The constants 0.1, 0.6, 0.85 as `float64`. -/
def c01 : F64 := .fin (float64Round (1 / 10))
def c06 : F64 := .fin (float64Round (6 / 10))
def c085 : F64 := .fin (float64Round (85 / 100))

/-- writer/standard/shapes/blocks.go:314-316, 334-336 the size in use (`SquareBlocks`, `CircleBlocks`) -/
def blockScale64 (size : F64) : F64 := if lt size c01 || lt (.fin 1) size then .fin 1 else size

/-- writer/standard/shapes/blocks.go:126-128, 163-165 the ratio in use (`HStripeBlock`, `VStripeBlock`) -/
def stripeScale64 (ratio : F64) : F64 := if lt ratio c06 || lt (.fin 1) ratio then c085 else ratio

end Standard
end QR
