import Verif.Model.Standard
/-!
# Writers of pictures used by several goroutines

Any number of goroutines draw symbols at the same time, each with one of any number of standard writers. What `draw` writes to memory that another goroutine may use is the field `bgColor` of the
writer's options; everything else in the options and in the matrix is only read. The field is a `color.RGBA` of four bytes: each of them is stored to and loaded on its own, in any interleaving.

Simplifications: one step is one load or store of a byte, or all the private work up to the next; the options are not changed by others meanwhile (C97), shapes of the user's own have no shared
state, encoding and writing the picture (which may block) is left out.
-/
namespace QR.Painters
open QR QR.Standard

/-- The bytes of a `color.RGBA`. -/
inductive Chan
  | r | g | b | a
  deriving DecidableEq

def byte (c : RGBA) : Chan → UInt8
  | .r => c.r
  | .g => c.g
  | .b => c.b
  | .a => c.a

def setByte (c : RGBA) (ch : Chan) (v : UInt8) : RGBA := match ch with
  | .r => { c with r := v }
  | .g => { c with g := v }
  | .b => { c with b := v }
  | .a => { c with a := v }

/-- What a goroutine does next. -/
inductive Act
  /-- `(&oo.bgColor).X = 0x00` -/
  | clear (c : Chan)
  /-- a byte of `oo.bgColor` is copied -/
  | load (c : Chan)
  /-- writer/standard/writer.go:117-119 the background is filled with the colour copied last -/
  | fill
  /-- writer/standard/writer.go:157-166 `bitMap` is made -/
  | mask
  /-- writer/standard/writer.go:183-217 the module is drawn, in the foreground colour or in the colour copied last -/
  | paint (x y : Nat) (v : QRValue)
  /-- writer/standard/writer.go:221-243 the gradient and the logo -/
  | finish

def loads : List Act := [.load .r, .load .g, .load .b, .load .a]

/-- writer/standard/image_option.go:70 `backgroundColor` -/
def backgroundActs (o : Opts) : List Act := (if o.bgTransparent then [.clear .a] else []) ++ loads ++ [.fill]

/-- writer/standard/writer.go:111-113, 147-155: the picture and the logo. -/
structure Sizes where
  w : Int
  h : Int
  valid : Bool
  lw : Int
  lh : Int

def sizes (o : Opts) (m : Matrix) : Sizes :=
  let w := m.width * o.qrBlockWidth + o.borders.left + o.borders.right
  let h := m.height * o.qrBlockWidth + o.borders.top + o.borders.bottom
  let (valid, lw, lh) := logoSize o w h
  ⟨w, h, valid, lw, lh⟩

/-- writer/standard/writer.go:169-182, image_option.go:142 `translateToRGBA` -/
def moduleActs (o : Opts) (m : Matrix) (x y : Nat) (v : QRValue) : List Act :=
  let z := sizes o m
  if z.valid && o.logoSafeZone && blockOverlapsLogo x y o.qrBlockWidth o.borders.left o.borders.top z.w z.h z.lw z.lh && v.qrbool then []
  else if v.qrbool then [.paint x y v]
  else (if o.bgTransparent then [.clear .a, .clear .r, .clear .g, .clear .b] else []) ++ loads ++ [.paint x y v]

/-- writer/standard/writer.go:109 `draw` -/
def program (o : Opts) (m : Matrix) : List Act :=
  backgroundActs o ++ [.mask] ++ (m.iterate .row).flatMap (fun (x, y, v) => moduleActs o m x y v) ++ [.finish]

/-- What is private to a goroutine. -/
structure Local where
  /-- the colour copied last -/
  reg : RGBA
  bitMap : List (List Bool)
  /-- the calls made -/
  ops : List DrawOp
  panicked : Bool

/-- writer/standard/writer.go:183-217 the calls for one module in this colour. -/
def paintOps (scale : Image → Nat → Int → Int → UInt32 × UInt32 × UInt32 × UInt32) (o : Opts) (dim : Nat) (bitMap : List (List Bool)) (color : RGBA) (x y : Nat) (v : QRValue) : List DrawOp :=
  let bw := o.qrBlockWidth
  let ctx : Ctx := {
    x := ((x * bw + o.borders.left : Int) : Rat), y := ((y * bw + o.borders.top : Int) : Rat), w := bw,
    h := bw, color := color, neighbours := getNeighbours bitMap x y }
  match v.qrtype with
  | .finder => [.shape true o.getShape ctx]
  | .data =>
    match o.halftone with
    | none => [.shape false o.getShape ctx]
    | some img =>
      let halftoneW : Rat := (bw : Rat) / 3
      (List.range 3).flatMap fun (i : Nat) => (List.range 3).map fun (j : Nat) =>
        DrawOp.shape false o.getShape
          {
            x := ctx.x + (i : Rat) * halftoneW, y := ctx.y + (j : Rat) * halftoneW, w := halftoneW.floor, h := halftoneW.floor,
            color := if i = 1 ∧ j = 1 then ctx.color
              else halftoneColor scale img (dim * 3) o.bgTransparent (x * 3 + i) (y * 3 + j),
            neighbours := 0 }
  | _ => [.shape false o.getShape ctx]

/-- writer/standard/writer.go:221-243 -/
def finishOps (o : Opts) (m : Matrix) : List DrawOp :=
  let z := sizes o m
  (match o.qrGradient with
    | none => []
    | some g => [.gradient g o.qrColor]) ++
  match o.logo with
    | none => []
    | some img => if z.valid then [.image img (Int.tdiv (z.w - z.lw) 2) (Int.tdiv (z.h - z.lh) 2)] else []

structure Painter where
  todo : List Act
  own : Local

structure Job where
  writer : Nat
  mat : Matrix

structure St where
  /-- `bgColor` of every writer -/
  bg : Nat → RGBA
  painter : Nat → Painter

/-- The writers have these options (and background colours), every goroutine is about to call `draw`. -/
def start (opts : Nat → Opts) (jobs : Nat → Job) : St where
  bg := fun w => (opts w).bgColor
  painter := fun i =>
    let o := opts (jobs i).writer
    let m := (jobs i).mat
    ⟨program o m, ⟨⟨0, 0, 0, 0⟩, [], [.newContext (sizes o m).w (sizes o m).h], false⟩⟩

/-- The private effect of an action, where `c` is the background colour seen; the rest of the program is dropped after a panic. -/
def effect (scale : Image → Nat → Int → Int → UInt32 × UInt32 × UInt32 × UInt32) (o : Opts) (m : Matrix) (c : RGBA) (l : Local) (rest : List Act) : Act → Painter
  | .clear _ => ⟨rest, l⟩
  | .load ch => ⟨rest, { l with reg := setByte l.reg ch (byte c ch) }⟩
  | .fill => ⟨rest, { l with ops := l.ops ++ [.fillRect l.reg 0 0 (sizes o m).w (sizes o m).h] }⟩
  | .mask => match clearedBitmap o m (sizes o m).w (sizes o m).h ((sizes o m).valid && o.logoSafeZone) (sizes o m).lw (sizes o m).lh with
    | none => ⟨[], { l with panicked := true }⟩
    | some bm => ⟨rest, { l with bitMap := bm }⟩
  | .paint x y v => ⟨rest, { l with ops := l.ops ++ paintOps scale o m.width l.bitMap (if v.qrbool then o.qrColor else l.reg) x y v }⟩
  | .finish => ⟨rest, { l with ops := l.ops ++ finishOps o m }⟩

/-- The effect of an action on the background colour. -/
def store (c : RGBA) : Act → RGBA
  | .clear ch => setByte c ch 0x00
  | _ => c

/-- One step of goroutine `i`; `none` if it has nothing left to do. -/
def step (scale : Image → Nat → Int → Int → UInt32 × UInt32 × UInt32 × UInt32) (opts : Nat → Opts) (jobs : Nat → Job) (i : Nat) (s : St) : Option St :=
  let w := (jobs i).writer
  match (s.painter i).todo with
  | [] => none
  | act :: rest => some {
      bg := fun w' => if w' = w then store (s.bg w) act else s.bg w'
      painter := fun j => if j = i then effect scale (opts w) (jobs i).mat (s.bg w) (s.painter i).own rest act else s.painter j }

/-- A schedule; `none` if some goroutine in it had nothing left to do. -/
def run (scale : Image → Nat → Int → Int → UInt32 × UInt32 × UInt32 × UInt32) (opts : Nat → Opts) (jobs : Nat → Job) : List Nat → St → Option St
  | [], s => some s
  | i :: is, s => match step scale opts jobs i s with
    | some s' => run scale opts jobs is s'
    | none => none

end QR.Painters
