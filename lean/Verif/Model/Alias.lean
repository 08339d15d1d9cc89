import Verif.Model.Gradient
import Verif.Model.Compressed
/-!
# What callers and writers share

A gradient is handed over by pointer (`WithFgGradient`), its stops are a slice, and `NewGradient` keeps the slice it is given; the compressed writer keeps a pointer to its
option.  This is the heap these values live in, and what a program can do with them.
-/
namespace QR.Alias
open QR Standard

/-- A slice of stops: a window of an array. -/
structure Slice where
  arr : Nat
  off : Nat
  len : Nat
  deriving DecidableEq, Repr

/-- writer/standard/gradient.go:22 `LinearGradient` in memory -/
structure Grad where
  stops : Slice
  angle : Rat
  deriving DecidableEq, Repr

/-- A writer, as far as it matters here. -/
inductive Wr
  /-- writer/standard/writer.go:45 with the pointer in `qrGradient` -/
  | standard (gradient : Option Nat)
  /-- writer/compressed/writer.go:22 with the pointer `option` -/
  | compressed (option : Nat)
  deriving DecidableEq, Repr

/-- The heap: arrays of stops, gradients, options of the compressed writer, and the writers made so far.  References are positions in these lists. -/
structure Heap where
  arrs : List (List ColorStop)
  grads : List Grad
  copts : List Compressed.Opt
  writers : List Wr
  deriving DecidableEq, Repr

/-- What a program does. -/
inductive Op
  /-- `s := []ColorStop{...}`: a new array -/
  | makeStops (l : List ColorStop)
  /-- `NewGradient(angle, s...)` -/
  | newGradientOf (angle : Rat) (s : Slice)
  /-- `NewGradient(angle, a, b, c)`: Go makes a new array for the arguments -/
  | newGradientList (angle : Rat) (l : List ColorStop)
  /-- `s[i] = v` -/
  | setStop (s : Slice) (i : Nat) (v : ColorStop)
  /-- `g.Stops = s` -/
  | setStops (g : Nat) (s : Slice)
  /-- `g.Angle = a` -/
  | setAngle (g : Nat) (a : Rat)
  /-- `opt := &compressed.Option{...}` -/
  | makeOption (o : Compressed.Opt)
  /-- `*opt = o` (or an assignment to one of its fields) -/
  | setOption (r : Nat) (o : Compressed.Opt)
  /-- `standard.NewWithWriter(w, WithFgGradient(g))`; `none`: without the option -/
  | newStandard (g : Option Nat)
  /-- `compressed.NewWithWriter(w, opt)` -/
  | newCompressed (r : Nat)
  /-- `w.Write(mat)` -/
  | write (w : Nat)
  deriving DecidableEq, Repr

/-- What `Write` uses. -/
inductive Used
  /-- no gradient -/
  | plain
  | gradient (g : LinearGradient)
  | option (o : Compressed.Opt)
  deriving DecidableEq, Repr

/-- The stops a slice shows. -/
def Heap.read (h : Heap) (s : Slice) : Option (List ColorStop) :=
  (h.arrs[s.arr]?).bind fun a => if s.off + s.len ≤ a.length then some ((a.drop s.off).take s.len) else none

/-- Put stops in the place of those a slice shows. -/
def Heap.put (h : Heap) (s : Slice) (l : List ColorStop) : Heap :=
  { h with arrs := h.arrs.modify s.arr fun a => a.take s.off ++ l ++ a.drop (s.off + s.len) }

/-- writer/standard/writer.go:221-224, writer/compressed/writer.go:46-47: what a writer uses if it writes now. -/
def Heap.uses (h : Heap) (w : Wr) : Option Used :=
  match w with
  | .standard none => some .plain
  | .standard (some g) => (h.grads[g]?).bind fun gr => (h.read gr.stops).map fun l => .gradient ⟨l, gr.angle⟩
  | .compressed r => (h.copts[r]?).map .option

/-- One operation: the heap afterwards and, for `Write`, what it uses; `none`: Go would not run it (there is no such value, or an index is out of range).
`NewGradient` sorts the slice it is given where it is (gradient.go:30) and keeps it (gradient.go:33); `WithFgGradient` ignores a gradient without stops
(image_option_api.go:80). -/
def step (h : Heap) : Op → Option (Heap × Option Used)
  | .makeStops l => some ({ h with arrs := h.arrs ++ [l] }, none)
  | .newGradientOf angle s => (h.read s).map fun l =>
      ({ h.put s (newGradient angle l).stops with grads := h.grads ++ [⟨s, angle⟩] }, none)
  | .newGradientList angle l =>
      some ({ h with arrs := h.arrs ++ [(newGradient angle l).stops], grads := h.grads ++ [⟨⟨h.arrs.length, 0, l.length⟩, angle⟩] }, none)
  | .setStop s i v => (h.read s).bind fun l => if i < l.length then some (h.put s (l.set i v), none) else none
  | .setStops g s => (h.grads[g]?).bind fun gr => (h.read s).map fun _ => ({ h with grads := h.grads.set g { gr with stops := s } }, none)
  | .setAngle g a => (h.grads[g]?).map fun gr => ({ h with grads := h.grads.set g { gr with angle := a } }, none)
  | .makeOption o => some ({ h with copts := h.copts ++ [o] }, none)
  | .setOption r o => (h.copts[r]?).map fun _ => ({ h with copts := h.copts.set r o }, none)
  | .newStandard none => some ({ h with writers := h.writers ++ [.standard none] }, none)
  | .newStandard (some g) => (h.grads[g]?).map fun gr =>
      ({ h with writers := h.writers ++ [.standard (if gr.stops.len = 0 then none else some g)] }, none)
  | .newCompressed r => (h.copts[r]?).map fun _ => ({ h with writers := h.writers ++ [.compressed r] }, none)
  | .write w => (h.writers[w]?).bind fun wr => (h.uses wr).map fun u => (h, some u)

/-- A program: the heap afterwards and what its calls of `Write` used. -/
def run : Heap → List Op → Option (Heap × List Used)
  | h, [] => some (h, [])
  | h, op :: ops => (step h op).bind fun r => (run r.1 ops).map fun t => (t.1, r.2.toList ++ t.2)

/-- The heap at the start. -/
def empty : Heap := ⟨[], [], [], []⟩

end QR.Alias
