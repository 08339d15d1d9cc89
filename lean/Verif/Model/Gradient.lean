import Verif.Model.Color
/-!
# Gradients (writer/standard/gradient.go)

Go computes in `float64`.  The model computes with rationals and applies `rnd` after every operation: `float64Round`
(`Model/Float64.lean`) is the rounding of `float64`, `id` exact arithmetic.  Infinities and NaN are not modelled: stops have finite
positions, and the theorems show that no division by zero takes place.  (The Go specification allows an implementation to fuse
`x*y + z` into one operation; the model rounds the product and the sum, as amd64 does.)
-/
namespace QR.Standard
open QR

/-- writer/standard/gradient.go:14 `ColorStop` -/
structure ColorStop where
  t : Rat
  color : RGBA
  deriving DecidableEq, Repr

/-- writer/standard/gradient.go:22 `LinearGradient`. -/
structure LinearGradient where
  stops : List ColorStop
  angle : Rat
  deriving DecidableEq, Repr

/-- Go's `uint8(f)` for a float in [0, 256): the integer part. -/
def truncU8 (q : Rat) : UInt8 := UInt8.ofNat q.floor.toNat

/-- writer/standard/gradient.go:111-113 one channel: `uint8(float64(a)*(1-t) + float64(b)*t)` -/
def blendChan (rnd : Rat → Rat) (a b : UInt8) (t : Rat) : UInt8 :=
  truncU8 (rnd (rnd ((a.toNat : Rat) * rnd (1 - t)) + rnd ((b.toNat : Rat) * t)))

/-- writer/standard/gradient.go:109 `blendColors` -/
def blendColors (rnd : Rat → Rat) (c1 c2 : RGBA) (t : Rat) : RGBA where
  r := blendChan rnd c1.r c2.r t
  g := blendChan rnd c1.g c2.g t
  b := blendChan rnd c1.b c2.b t
  a := 255

/-- How the colour at a position came about. -/
inductive Interp
  /-- index panic: no stops -/
  | panic
  /-- gradient.go:90 -/
  | first (c : RGBA)
  /-- gradient.go:93 -/
  | last (c : RGBA)
  /-- gradient.go:99-102 between stop `i` and stop `i + 1`, with divisor `den` and blend factor `factor` -/
  | between (i : Nat) (den factor : Rat) (c : RGBA)
  /-- gradient.go:105 the fall-back -/
  | fallback
  deriving DecidableEq, Repr

/-- writer/standard/gradient.go:95-104 the loop, from index `i` on. -/
def interpLoop (rnd : Rat → Rat) (t : Rat) : Nat → List ColorStop → Interp
  | i, start :: e :: rest =>
    if t ≥ start.t ∧ t ≤ e.t then
      let den := rnd (e.t - start.t)
      let factor := rnd (rnd (t - start.t) / den)
      .between i den factor (blendColors rnd start.color e.color factor)
    else interpLoop rnd t (i + 1) (e :: rest)
  | _, _ => .fallback

/-- writer/standard/gradient.go:88 `interpolateColor` -/
def interpolateColor (rnd : Rat → Rat) (stops : List ColorStop) (t : Rat) : Interp :=
  match stops with
  | [] => .panic
  | s0 :: rest =>
    if t ≤ s0.t then .first s0.color
    else
      let l := (s0 :: rest).getLast (by simp)
      if t ≥ l.t then .last l.color
      else interpLoop rnd t 0 (s0 :: rest)

/-- The colour `interpolateColor` returns; `none` is the panic. -/
def Interp.color : Interp → Option RGBA
  | .panic => none
  | .first c => some c
  | .last c => some c
  | .between _ _ _ c => some c
  | .fallback => some ⟨0, 0, 0, 255⟩

/-- writer/standard/gradient.go:59, 77 the projection of a point on the direction of the gradient. -/
def proj (rnd : Rat → Rat) (dx dy : Rat) (x y : Int) : Rat := rnd (rnd ((x : Rat) * dx) + rnd ((y : Rat) * dy))

/-- writer/standard/gradient.go:49-59: the projections of the four corners. -/
def cornerProj (rnd : Rat → Rat) (dx dy : Rat) (xmin xmax ymin ymax : Int) : List Rat :=
  [proj rnd dx dy xmin ymin, proj rnd dx dy xmin ymax, proj rnd dx dy xmax ymin, proj rnd dx dy xmax ymax]

/-- writer/standard/gradient.go:57-65 the loop that keeps the least; it starts at +∞, so the first value is always taken. -/
def minProj (ps : List Rat) : Rat := match ps with
  | [] => 0
  | p :: ps => ps.foldl (fun m q => if q < m then q else m) p

/-- writer/standard/gradient.go:57-65 the loop that keeps the greatest. -/
def maxProj (ps : List Rat) : Rat := match ps with
  | [] => 0
  | p :: ps => ps.foldl (fun m q => if q > m then q else m) p

/-- writer/standard/gradient.go:79 the divisor: the difference of the extreme projections. -/
def gradientSpan (rnd : Rat → Rat) (dx dy : Rat) (xmin xmax ymin ymax : Int) : Rat :=
  let ps := cornerProj rnd dx dy xmin xmax ymin ymax
  rnd (maxProj ps - minProj ps)

/-- writer/standard/gradient.go:77-79 the position of pixel `(x, y)` along the gradient; `dx`, `dy` are `math.Cos` and
`-math.Sin` of the angle (any numbers here). -/
def gradientPos (rnd : Rat → Rat) (dx dy : Rat) (xmin xmax ymin ymax : Int) (x y : Int) : Rat :=
  let ps := cornerProj rnd dx dy xmin xmax ymin ymax
  rnd (rnd (proj rnd dx dy x y - minProj ps) / gradientSpan rnd dx dy xmin xmax ymin ymax)

/-- writer/standard/gradient.go:38 `applyGradient` on an image of `w` × `h` pixels at the origin: the new colour of pixel
`(x, y)`, whose colour is `c`; `none` is the panic. -/
def gradientPixel (rnd : Rat → Rat) (g : LinearGradient) (dx dy : Rat) (w h : Int) (fg : RGBA) (x y : Int) (c : RGBA) : Option RGBA :=
  if c = fg then (interpolateColor rnd g.stops (gradientPos rnd dx dy 0 w 0 h x y)).color else some c

/-- writer/standard/gradient.go:29 `NewGradient`: `sort.Slice` by position (which stops of equal position come first is not
specified by Go; here they keep their order). -/
def newGradient (angle : Rat) (stops : List ColorStop) : LinearGradient :=
  ⟨stops.mergeSort fun a b => decide (a.t ≤ b.t), angle⟩

end QR.Standard
