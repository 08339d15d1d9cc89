import Verif.Model.Matrix
import Verif.Model.Utf8
/-!
# The text file writer (writer/file/writer.go)
-/
namespace QR.FileWriter
open QR

/-- Go's `string(r)` for a rune below U+10000 that is not a surrogate: its UTF-8 encoding. -/
def encodeRune (r : Nat) : Bytes :=
  if r < 0x80 then [UInt8.ofNat r]
  else if r < 0x800 then [UInt8.ofNat (0xC0 + r / 64), UInt8.ofNat (0x80 + r % 64)]
  else [UInt8.ofNat (0xE0 + r / 4096), UInt8.ofNat (0x80 + r / 64 % 64), UInt8.ofNat (0x80 + r % 64)]

/-- writer/file/writer.go:11-14 -/
def upRune : Nat := 9600
def downRune : Nat := 9604
def upDownRune : Nat := 9608
def spaceRune : Nat := 32

/-- `bm[i][j]`; `none` is an index panic. -/
def cell (bm : List (List Bool)) (i j : Nat) : Option Bool := (bm[i]?).bind fun r => r[j]?

/-- writer/file/writer.go:41-57 the character of output line `col`, position `row`. -/
def charAt (bm : List (List Bool)) (col row : Nat) : Option Nat := do
  let up ← cell bm (col * 2) row
  let r := if up then upRune else spaceRune
  if col * 2 + 1 < bm.length then
    let down ← cell bm (col * 2 + 1) row
    let r := if down && !up then downRune else r
    let r := if down && up then upDownRune else r
    some r
  else some r

/-- writer/file/writer.go:34-59 `output`; `none` is an index panic. -/
def output (bm : List (List Bool)) : Option (List (List Nat)) :=
  (List.range (bm.length / 2 + bm.length % 2)).mapM fun col => do
    let first ← bm[0]?
    (List.range first.length).mapM fun row => charAt bm col row

/-- writer/file/writer.go:61-72 the strings passed to `WriteString`, in order. -/
def chunks (out : List (List Nat)) : List Bytes := out.flatMap fun line => line.map encodeRune ++ [[0x0A]]

/-- The behaviour of the file: call `i` of `WriteString` writes everything (`none`), or writes only the first `n` bytes and
returns error `e`. -/
abbrev Sink := Nat → Option (Nat × Nat)

inductive FErr
  /-- writer/file/writer.go:30 -/
  | nilFile
  /-- the error of a failed `WriteString` -/
  | write (e : Nat)
  deriving DecidableEq, Repr

/-- writer/file/writer.go:61-74 write the chunks one by one, stop at the first error; the bytes that reached the file. -/
def writeAll (sink : Sink) : Nat → List Bytes → Bytes × Option FErr
  | _, [] => ([], none)
  | i, c :: cs => match sink i with
    | some (n, e) => (c.take n, some (.write e))
    | none => let (w, r) := writeAll sink (i + 1) cs; (c ++ w, r)

/-- writer/file/writer.go:28 `Write`; `out = none` is a nil file; the result `none` is a panic. -/
def write (out : Option Sink) (m : Matrix) : Option (Bytes × Option FErr) :=
  match out with
  | none => some ([], some .nilFile)
  | some sink => do
    let o ← output m.bitmap
    some (writeAll sink 0 (chunks o))

end QR.FileWriter
