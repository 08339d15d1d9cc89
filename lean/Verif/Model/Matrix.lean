import Verif.Model.MatrixType
import Verif.Model.Res
/-!
# The module matrix (matrix.go)
-/
namespace QR

/-- matrix.go:10, 13 -/
inductive MErr | outRangeOfW | outRangeOfH
  deriving DecidableEq, Repr

/-- matrix.go:35 `Matrix`; `mat[w][h]` is indexed column first. -/
structure Matrix where
  width : Nat
  height : Nat
  mat : List (List QRValue)
  deriving DecidableEq, Repr

/-- matrix.go:17, 42 `newMatrix` (allocation followed by `init`) -/
def newMatrix (width height : Nat) : Matrix :=
  { width, height, mat := List.replicate width (List.replicate height INIT_V0) }

/-- The slots the slices really have agree with `width` and `height`; established by `newMatrix`
and `Copy` and preserved by every method. -/
def Matrix.WF (m : Matrix) : Prop :=
  m.mat.length = m.width ∧ ∀ col ∈ m.mat, col.length = m.height

instance (m : Matrix) : Decidable m.WF := by unfold Matrix.WF; infer_instance

namespace Matrix

/-- `m.mat[w][h]` for indices already known to be in range. -/
def raw (m : Matrix) (w h : Nat) : QRValue := ((m.mat[w]?).getD []).getD h INIT_V0

/-- `m.mat[w][h] = c` for indices already known to be in range. -/
def rawSet (m : Matrix) (w h : Nat) (c : QRValue) : Matrix :=
  { m with mat := m.mat.modify w (fun col => col.set h c) }

/-- matrix.go:88 `set`: new matrix and error. -/
def setE (m : Matrix) (w h : Int) (c : QRValue) : Matrix × Option MErr :=
  if w ≥ m.width ∨ w < 0 then (m, some .outRangeOfW)
  else if h ≥ m.height ∨ h < 0 then (m, some .outRangeOfH)
  else (m.rawSet w.toNat h.toNat c, none)

/-- `_ = m.set(w, h, c)`: every call in the code discards the error. -/
def set (m : Matrix) (w h : Int) (c : QRValue) : Matrix := (m.setE w h c).1

/-- matrix.go:100 `at`: value and error. -/
def atE (m : Matrix) (w h : Int) : QRValue × Option MErr :=
  if w ≥ m.width ∨ w < 0 then (INIT_V0, some .outRangeOfW)
  else if h ≥ m.height ∨ h < 0 then (INIT_V0, some .outRangeOfH)
  else (m.raw w.toNat h.toNat, none)

/-- `v, _ := m.at(w, h)` -/
def at' (m : Matrix) (w h : Int) : QRValue := (m.atE w h).1

/-- matrix.go:61 `Copy`. The element-wise copy of every column slice (aliasing is modelled separately
in `Model/Heap.lean`). -/
def copy (m : Matrix) : Matrix :=
  { width := m.width, height := m.height,
    mat := (List.range m.width).map fun w => (List.range m.height).map fun h => m.raw w h }

/-- matrix.go:111-119 -/
inductive Dir | row | column
  deriving DecidableEq, Repr

/-- matrix.go:111, 127-136: the direction of an `iterDirection` (a `uint8`): 1 is row first, every other value
column first. -/
def Dir.ofByte (d : UInt8) : Dir := if d = 1 then .row else .column

/-- The coordinates visited by `iter`, in order (matrix.go:127-144). -/
def coords (width height : Nat) : Dir → List (Nat × Nat)
  | .row => (List.range height).flatMap fun h => (List.range width).map fun w => (w, h)
  | .column => (List.range width).flatMap fun w => (List.range height).map fun h => (w, h)

/-- matrix.go:123, 127 `Iterate`/`iter` with a callback that does not write to the matrix:
the list of calls `(x, y, value)`. -/
def iterate (m : Matrix) (dir : Dir) : List (Nat × Nat × QRValue) :=
  (coords m.width m.height dir).map fun (w, h) => (w, h, m.raw w h)

/-- matrix.go:147 `Row`. `none` is nil. The result slice has `m.height` elements and is indexed by
`w < m.width`, so a matrix wider than high panics. -/
def row (m : Matrix) (cur : Int) : Res (Option (List QRValue)) :=
  if cur ≥ m.height ∨ cur < 0 then .ok none
  else if m.width > m.height then .panic .index
  else .ok (some ((List.range m.width).map (fun w => m.raw w cur.toNat)
        ++ List.replicate (m.height - m.width) ZERO_V))

/-- matrix.go:160 `Col`. `none` is nil. (It returns the internal slice; see `Model/Heap.lean`.) -/
def col (m : Matrix) (cur : Int) : Option (List QRValue) :=
  if cur ≥ m.width ∨ cur < 0 then none
  else m.mat[cur.toNat]?

/-- matrix.go:169 `Bitmap`: a `height × width` table of `false` filled by a row-major iteration
`table[y][x] = s.qrbool()`. -/
def bitmap (m : Matrix) : List (List Bool) :=
  (m.iterate .row).foldl
    (fun t (x, y, s) => t.modify y (fun r => r.set x s.qrbool))
    (List.replicate m.height (List.replicate m.width false))

end Matrix
end QR
