import Verif.Model.CanvasGradient
/-!
# Gradients on platforms with fused multiply-add

The Go specification allows an implementation to compute `x*y + z` with one rounding ("fused"), and the compiler does so on some platforms (arm64, ppc64, s390x, riscv64).
Here is the code of `Model/Gradient.lean` where every sum of two products may be computed in any of the three ways, independently of the others.
-/
namespace QR.Standard
open QR

/-- How `p*q + r*s` is computed: both products rounded, or one of the two part of a fused operation. -/
inductive Fuse
  | separate
  | left
  | right
  deriving DecidableEq, Repr

/-- `p*q + r*s` -/
def mulAdd (rnd : Rat → Rat) (m : Fuse) (p q r s : Rat) : Rat :=
  match m with
  | .separate => rnd (rnd (p * q) + rnd (r * s))
  | .left => rnd (p * q + rnd (r * s))
  | .right => rnd (rnd (p * q) + r * s)

/-- What a platform does: at each corner of the image, at each pixel and for each channel of the colour of a pixel. -/
structure Platform where
  corner : Nat → Fuse
  pixel : Int → Int → Fuse
  channel : Int → Int → Nat → Fuse

/-- writer/standard/gradient.go:111-113 one channel -/
def blendChanF (rnd : Rat → Rat) (m : Fuse) (a b : UInt8) (t : Rat) : UInt8 := truncU8 (mulAdd rnd m a.toNat (rnd (1 - t)) b.toNat t)

/-- writer/standard/gradient.go:109 `blendColors` -/
def blendColorsF (rnd : Rat → Rat) (ch : Nat → Fuse) (c1 c2 : RGBA) (t : Rat) : RGBA where
  r := blendChanF rnd (ch 0) c1.r c2.r t
  g := blendChanF rnd (ch 1) c1.g c2.g t
  b := blendChanF rnd (ch 2) c1.b c2.b t
  a := 255

/-- writer/standard/gradient.go:95-105 the loop and the fall-back -/
def interpLoopF (rnd : Rat → Rat) (ch : Nat → Fuse) (t : Rat) : List ColorStop → RGBA
  | start :: e :: rest =>
    if t ≥ start.t ∧ t ≤ e.t then blendColorsF rnd ch start.color e.color (rnd (rnd (t - start.t) / rnd (e.t - start.t)))
    else interpLoopF rnd ch t (e :: rest)
  | _ => ⟨0, 0, 0, 255⟩

/-- writer/standard/gradient.go:88 `interpolateColor`; `none` is the index panic -/
def interpolateColorF (rnd : Rat → Rat) (ch : Nat → Fuse) (stops : List ColorStop) (t : Rat) : Option RGBA :=
  match stops with
  | [] => none
  | s0 :: rest =>
    if t ≤ s0.t then some s0.color
    else
      let l := (s0 :: rest).getLast (by simp)
      if t ≥ l.t then some l.color
      else some (interpLoopF rnd ch t (s0 :: rest))

/-- writer/standard/gradient.go:59, 77 the projection of a point -/
def projF (rnd : Rat → Rat) (m : Fuse) (dx dy : Rat) (x y : Int) : Rat := mulAdd rnd m x dx y dy

/-- writer/standard/gradient.go:49-59 the projections of the corners of an image of `w` × `h` pixels at the origin -/
def cornerProjF (rnd : Rat → Rat) (k : Nat → Fuse) (dx dy : Rat) (w h : Int) : List Rat :=
  [projF rnd (k 0) dx dy 0 0, projF rnd (k 1) dx dy 0 h, projF rnd (k 2) dx dy w 0, projF rnd (k 3) dx dy w h]

/-- writer/standard/gradient.go:79 the divisor -/
def gradientSpanF (rnd : Rat → Rat) (k : Nat → Fuse) (dx dy : Rat) (w h : Int) : Rat :=
  rnd (maxProj (cornerProjF rnd k dx dy w h) - minProj (cornerProjF rnd k dx dy w h))

/-- writer/standard/gradient.go:77-79 the position of a pixel -/
def gradientPosF (rnd : Rat → Rat) (k : Nat → Fuse) (m : Fuse) (dx dy : Rat) (w h x y : Int) : Rat :=
  rnd (rnd (projF rnd m dx dy x y - minProj (cornerProjF rnd k dx dy w h)) / gradientSpanF rnd k dx dy w h)

/-- writer/standard/gradient.go:38 `applyGradient` on an image of `w` × `h` pixels at the origin: the new colour of pixel `(x, y)`, whose colour is `c` -/
def gradientPixelF (rnd : Rat → Rat) (P : Platform) (g : LinearGradient) (dx dy : Rat) (w h : Int) (fg : RGBA) (x y : Int) (c : RGBA) : Option RGBA :=
  if c = fg then interpolateColorF rnd (P.channel x y) g.stops (gradientPosF rnd P.corner (P.pixel x y) dx dy w h x y) else some c

/-- writer/standard/writer.go:222-223, as `Canvas.applyGradient` -/
def Canvas.applyGradientF (P : Platform) (put : Put) (direction : Rat → Rat × Rat) (cv : Canvas) (g : LinearGradient) (fg : RGBA) : Option Canvas :=
  if g.stops = [] then none
  else some ⟨cv.w, cv.h, fun x y =>
    if 0 ≤ x ∧ x < cv.w ∧ 0 ≤ y ∧ y < cv.h then
      match gradientPixelF float64Round P g (direction g.angle).1 (direction g.angle).2 cv.w cv.h fg x y (cv.pix x y) with
      | some c => put c (cv.pix x y)
      | none => cv.pix x y
    else cv.pix x y⟩

/-- The calls of `draw`. -/
def Canvas.paintGradientF (P : Platform) (blend : Blend) (put : Put) (direction : Rat → Rat × Rat) (cv : Canvas) : DrawOp → Option Canvas
  | .gradient g fg => cv.applyGradientF P put direction g fg
  | op => cv.paintImg blend op

/-- The picture after all calls. -/
def paintAllGradientF (P : Platform) (blend : Blend) (put : Put) (direction : Rat → Rat × Rat) (ops : List DrawOp) : Option Canvas :=
  ops.foldlM (Canvas.paintGradientF P blend put direction) ⟨0, 0, fun _ _ => ⟨0, 0, 0, 0⟩⟩

end QR.Standard
