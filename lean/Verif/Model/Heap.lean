import Verif.Model.Matrix
/-!
# Matrices and slices in memory (matrix.go), for aliasing

In Go a `Matrix` is a struct with two numbers and a slice of slices.  Copying the struct copies the numbers and the outer
slice header only.  Here arrays live in a heap and are named by their address; variables hold structs or slices.
-/
namespace QR.Heap
open QR

/-- The arrays allocated so far; an address is a position.  Arrays are never freed. -/
structure Heap where
  /-- arrays of the type `[]qrvalue` (one per column) -/
  cols : List (List QRValue)
  /-- arrays of the type `[][]qrvalue`: the addresses of the columns -/
  outers : List (List Nat)

/-- matrix.go:35 the struct `Matrix`: `mat` is the address of the outer array. -/
structure Mat where
  width : Nat
  height : Nat
  mat : Nat

/-- The variables of a program: structs and slices (a slice obtained by `Col` is a whole column; `none` is nil). -/
structure World where
  heap : Heap
  mats : List Mat
  slices : List (Option Nat)

def Heap.col (H : Heap) (a : Nat) : List QRValue := (H.cols[a]?).getD []
def Heap.outer (H : Heap) (a : Nat) : List Nat := (H.outers[a]?).getD []

/-- What a matrix variable shows: its contents as a value of the functional model (`Model/Matrix.lean`). -/
def Heap.view (H : Heap) (m : Mat) : Matrix :=
  { width := m.width, height := m.height, mat := (H.outer m.mat).map H.col }

/-- `make([]T, n)` for one column and `copy` into it (matrix.go:19, 63-65): the rest keeps the zero value. -/
def columnFrom (height : Nat) (src : List QRValue) : List QRValue :=
  src.take height ++ List.replicate (height - src.length) ZERO_V

/-- Allocate an outer array with new columns of the given contents. -/
def Heap.alloc (H : Heap) (contents : List (List QRValue)) : Heap × Nat :=
  ({ cols := H.cols ++ contents
     outers := H.outers ++ [(List.range contents.length).map (· + H.cols.length)] }, H.outers.length)

/-- matrix.go:17 `newMatrix` -/
def Heap.newMatrix (H : Heap) (width height : Nat) : Heap × Mat :=
  let (H', a) := H.alloc (List.replicate width (List.replicate height INIT_V0))
  (H', ⟨width, height, a⟩)

/-- matrix.go:61 `Copy` -/
def Heap.copy (H : Heap) (m : Mat) : Heap × Mat :=
  let (H', a) := H.alloc ((List.range m.width).map fun w =>
    columnFrom m.height (H.col (((H.outer m.mat)[w]?).getD 0)))
  (H', ⟨m.width, m.height, a⟩)

/-- `array[i] = c` on a column. -/
def Heap.store (H : Heap) (a i : Nat) (c : QRValue) : Heap :=
  { H with cols := H.cols.modify a fun l => l.set i c }

/-- matrix.go:88 `set` -/
def Heap.set (H : Heap) (m : Mat) (w h : Int) (c : QRValue) : Heap :=
  if w ≥ m.width ∨ w < 0 then H
  else if h ≥ m.height ∨ h < 0 then H
  else match (H.outer m.mat)[w.toNat]? with
    | some a => H.store a h.toNat c
    | none => H

/-- matrix.go:160 `Col`: the slice of the column itself, not a copy. -/
def Heap.colRef (H : Heap) (m : Mat) (cur : Int) : Option Nat :=
  if cur ≥ m.width ∨ cur < 0 then none else (H.outer m.mat)[cur.toNat]?

/-- matrix.go:147 `Row`: the contents of the new slice; `none` is nil.  (A matrix wider than high makes Go panic,
`Model/Matrix.lean`; here the result is nil too.) -/
def Heap.rowVals (H : Heap) (m : Mat) (cur : Int) : Option (List QRValue) :=
  if cur ≥ m.height ∨ cur < 0 then none
  else if m.width > m.height then none
  else some ((List.range m.width).map (fun w => (H.col (((H.outer m.mat)[w]?).getD 0)).getD cur.toNat INIT_V0)
        ++ List.replicate (m.height - m.width) ZERO_V)

/-- matrix.go:147-157 `Row`: a new array with these contents and the slice of it. -/
def Heap.row (H : Heap) (m : Mat) (cur : Int) : Heap × Option Nat :=
  match H.rowVals m cur with
  | some vs => ((H.alloc [vs]).1, some H.cols.length)
  | none => ((H.alloc []).1, none)

/-- The operations of a program on matrices.  Variables are numbered in the order of their creation; an operation on a
variable that does not exist does nothing.  (`Width`, `Height`, `Iterate`, `Bitmap` only read; `at` too.) -/
inductive Op
  /-- `m := newMatrix(w, h)` -/
  | new (w h : Nat)
  /-- `m := *matsᵢ.Copy()` -/
  | copy (i : Nat)
  /-- `m := matsᵢ`: struct assignment to a new variable, as when a matrix is passed to `Write(mat Matrix)` (qrcode.go:113) -/
  | pass (i : Nat)
  /-- `matsᵢ = matsⱼ` -/
  | assign (i j : Nat)
  /-- `matsᵢ.set(w, h, c)` -/
  | set (i : Nat) (w h : Int) (c : QRValue)
  /-- `s := matsᵢ.Col(cur)` -/
  | col (i : Nat) (cur : Int)
  /-- `s := matsᵢ.Row(cur)` -/
  | row (i : Nat) (cur : Int)
  /-- `slicesⱼ[k] = c`; outside the slice (or on a nil slice) Go panics and nothing is written -/
  | write (j k : Nat) (c : QRValue)

/-- Effect of one operation. -/
def exec (W : World) : Op → World
  | .new w h => let (H, m) := W.heap.newMatrix w h; { W with heap := H, mats := W.mats ++ [m] }
  | .copy i => match W.mats[i]? with
    | some m => let (H, m') := W.heap.copy m; { W with heap := H, mats := W.mats ++ [m'] }
    | none => W
  | .pass i => match W.mats[i]? with
    | some m => { W with mats := W.mats ++ [m] }
    | none => W
  | .assign i j => match W.mats[j]? with
    | some m => { W with mats := W.mats.set i m }
    | none => W
  | .set i w h c => match W.mats[i]? with
    | some m => { W with heap := W.heap.set m w h c }
    | none => W
  | .col i cur => match W.mats[i]? with
    | some m => { W with slices := W.slices ++ [W.heap.colRef m cur] }
    | none => W
  | .row i cur => match W.mats[i]? with
    | some m => let (H, r) := W.heap.row m cur; { W with heap := H, slices := W.slices ++ [r] }
    | none => W
  | .write j k c => match W.slices[j]? with
    | some (some a) => if k < (W.heap.col a).length then { W with heap := W.heap.store a k c } else W
    | _ => W

/-- A program that starts with no variables. -/
def empty : World := ⟨⟨[], []⟩, [], []⟩

/-- A history of operations. -/
def history (W : World) (ops : List Op) : World := ops.foldl exec W

end QR.Heap
