import Verif.Model.Save
import Verif.Model.FileWriter
/-!
# The library's file writers on one open file

`Save` with the writers of writer/standard, writer/compressed and writer/file, whose `Write` turns the symbol into bytes and
sends them to a file (or any `io.WriteCloser`) in several calls, each of which may fail.  What the PNG and JPEG encoders
write is a parameter; of them it is assumed that they stop at the first failed write and return its error.
-/
namespace QR.Fd

/-- An open or closed file: the bytes written to it so far, and how many writes were made. -/
structure Fd where
  isOpen : Bool
  content : Bytes
  calls : Nat

/-- `os.ErrClosed`; the other errors are `e + 1`. -/
def errClosed : Nat := 0

/-- The world's side: write number `i` writes everything (`none`) or only the first `n` bytes and fails with `e`; `close` is the
result of the first `Close`. -/
structure World where
  write : Nat → Option (Nat × Nat)
  close : Option Nat

/-- One `Write` call on the file. -/
def Fd.write (w : World) (f : Fd) (b : Bytes) : Fd × Option Nat :=
  if f.isOpen = false then (f, some errClosed)
  else match w.write f.calls with
    | none => ({ f with content := f.content ++ b, calls := f.calls + 1 }, none)
    | some (n, e) => ({ f with content := f.content ++ b.take n, calls := f.calls + 1 }, some (e + 1))

/-- `Close` of the file; a second one returns `os.ErrClosed`. -/
def Fd.close (w : World) (f : Fd) : Fd × Option Nat :=
  if f.isOpen = false then (f, some errClosed)
  else ({ f with isOpen := false }, w.close.map (· + 1))

/-- An encoder's writes, in order, up to the first error. -/
def encodeTo (w : World) : Fd → List Bytes → Fd × Option Nat
  | f, [] => (f, none)
  | f, c :: cs => match f.write w c with
    | (f', none) => encodeTo w f' cs
    | (f', some e) => (f', some e)

def out : Option Nat → CallOut
  | none => .ok
  | some e => .error e

/-- writer/standard/writer.go:68-82, 88-105 a standard writer on this file; `pic` is what drawing and encoding yields, `none`
a panic.  `Close` turns `os.ErrClosed` into nil. -/
def standard (w : World) (pic : Matrix → Option (List Bytes)) : Writer Fd where
  write := fun f m => match pic m with
    | none => (f, .panics 0)
    | some cs => let (f', e) := encodeTo w f cs; (f', out e)
  close := fun f =>
    let (f', e) := f.close w
    (f', if e = some errClosed then .ok else out e)

/-- writer/standard/writer.go:25, 68-82, 93 the zero value of `standard.Writer`: there is no file. -/
def standardZero (σ : Type) : Writer σ where
  write := fun s _ => (s, .error 1)
  close := fun s => (s, .ok)

/-- writer/compressed/writer.go:45, 93-95 a compressed writer on this file. -/
def compressed (w : World) (pic : Matrix → Option (List Bytes)) : Writer Fd where
  write := fun f m => match pic m with
    | none => (f, .panics 0)
    | some cs => let (f', e) := encodeTo w f cs; (f', out e)
  close := fun f => let (f', e) := f.close w; (f', out e)

/-- writer/file/writer.go:25-76 the text file writer on this file; its `Close` does nothing. -/
def text (w : World) : Writer Fd where
  write := fun f m => match FileWriter.output m.bitmap with
    | none => (f, .panics 0)
    | some o => let (f', e) := encodeTo w f (FileWriter.chunks o); (f', out e)
  close := fun f => (f, .ok)

/-- Several `Save`s with the same writer, one after the other: the file afterwards, and what each returned. -/
def saves (wr : Writer Fd) : List Matrix → Fd → Fd × List SaveOut
  | [], f => (f, [])
  | m :: ms, f =>
    let (f1, o, _) := save (some m) (some wr) f
    let (f2, os) := saves wr ms f1
    (f2, o :: os)

end QR.Fd
