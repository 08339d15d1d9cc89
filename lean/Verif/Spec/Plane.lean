/-!
# Plane figures

What it means that a point lies inside a filled figure.  Points have rational coordinates.  An outline consists of straight lines and
quadratic Bézier curves; it is closed by a straight line, and a point is inside if the outline winds around it (the non-zero rule).
-/
namespace QR.Plane

structure Pt where
  x : Rat
  y : Rat
  deriving DecidableEq, Repr

/-- A piece of an outline, from the current point to `p`. -/
inductive Seg
  | line (p : Pt)
  /-- a quadratic Bézier curve with control point `c` -/
  | quad (c p : Pt)
  deriving DecidableEq, Repr

/-- Twice the signed area of the triangle `a b p`: the side of the line from `a` to `b` on which `p` lies. -/
def cross (a b p : Pt) : Rat := (b.x - a.x) * (p.y - a.y) - (p.x - a.x) * (b.y - a.y)

/-- How often the line from `a` to `b` crosses the horizontal ray from `p` to the right: 1 with growing, -1 with falling `y`. -/
def edgeWind (p a b : Pt) : Int :=
  if a.y ≤ p.y then if p.y < b.y ∧ 0 < cross a b p then 1 else 0
  else if b.y ≤ p.y ∧ cross a b p < 0 then -1 else 0

/-- Does `p` lie to the right of the line from `a` to `b`?  A point on the line is given to one side, as in `edgeWind`. -/
def rightOf (a b p : Pt) : Prop := cross a b p < 0 ∨ cross a b p = 0 ∧ (a.y < b.y ∨ a.y = b.y ∧ b.x < a.x)

instance (a b p : Pt) : Decidable (rightOf a b p) :=
  inferInstanceAs (Decidable (cross a b p < 0 ∨ cross a b p = 0 ∧ (a.y < b.y ∨ a.y = b.y ∧ b.x < a.x)))

/-- The winding number around `p` of the loop that follows the curve from `a` to `b` and returns straight.  In coordinates `u a + v c + w b`
(divided by `u + v + w`) the curve is the set of points with `v² = 4 u w`, and the points between it and its chord are those with `v² < 4 u w`
on the side of the chord where `c` lies. -/
def bulgeWind (p a c b : Pt) : Int :=
  let u := cross p c b
  let v := cross a p b
  let w := cross a c p
  if 0 < u ∧ 0 < w ∧ v * v < 4 * u * w ∧ rightOf a b p then 1
  else if u < 0 ∧ w < 0 ∧ v * v < 4 * u * w ∧ ¬rightOf a b p then -1
  else 0

/-- The winding number around `p` of the rest of an outline that began at `start` and has arrived at `cur`. -/
def windFrom (p start : Pt) : Pt → List Seg → Int
  | cur, [] => edgeWind p cur start
  | cur, .line b :: rest => edgeWind p cur b + windFrom p start b rest
  | cur, .quad c b :: rest => edgeWind p cur b + bulgeWind p cur c b + windFrom p start b rest

/-- A figure. -/
inductive Figure
  | rect (x y w h : Rat)
  | disc (cx cy r : Rat)
  | outline (start : Pt) (segs : List Seg)
  deriving DecidableEq, Repr

/-- Does the figure cover the point? -/
def Figure.covers : Figure → Pt → Prop
  | .rect x y w h, p => x ≤ p.x ∧ p.x < x + w ∧ y ≤ p.y ∧ p.y < y + h
  | .disc cx cy r, p => 0 < r ∧ (p.x - cx) * (p.x - cx) + (p.y - cy) * (p.y - cy) < r * r
  | .outline start segs, p => windFrom p start start segs ≠ 0

instance : (f : Figure) → (p : Pt) → Decidable (f.covers p)
  | .rect x y w h, p => inferInstanceAs (Decidable (x ≤ p.x ∧ p.x < x + w ∧ y ≤ p.y ∧ p.y < y + h))
  | .disc cx cy r, p => inferInstanceAs (Decidable (0 < r ∧ (p.x - cx) * (p.x - cx) + (p.y - cy) * (p.y - cy) < r * r))
  | .outline start segs, p => inferInstanceAs (Decidable (windFrom p start start segs ≠ 0))

end QR.Plane
