import Verif.Model.Binary
/-!
# Opening and writing image files (writer/compressed/writer.go:32-39, writer/standard/writer.go:32-45)

The operating system: a file is a byte string, a handle has an offset, `Write` replaces bytes at the offset and advances it.
Assumed: nobody else changes the file in between, and writes are not short unless they fail (Go's `os.File.Write`).
-/
namespace QR.Files

/-- A byte string. -/
abbrev Content := List UInt8

/-- The files of the file system. -/
abbrev FS := String → Option Content

def FS.put (fs : FS) (p : String) (c : Content) : FS := fun q => if q = p then some c else fs q

/-- The flags of `os.OpenFile` that matter here. -/
structure Flags where
  create : Bool
  trunc : Bool

/-- `os.OpenFile`: `none` is an error (`ENOENT` without `O_CREATE`, or a refusal by the system, `denied`). The result is the
file system afterwards. -/
def openFile (denied : Bool) (fs : FS) (p : String) (f : Flags) : Option FS :=
  if denied then none
  else match fs p with
    | some c => some (fs.put p (if f.trunc then [] else c))
    | none => if f.create then some (fs.put p []) else none

/-- Bytes `data` written over `old` at offset `off` (a gap is filled with zeros). -/
def overwrite (old : Content) (off : Nat) (data : Content) : Content :=
  old.take off ++ List.replicate (off - old.length) 0 ++ data ++ old.drop (off + data.length)

/-- The writes an encoder makes on a fresh handle, one after the other. -/
def writeChunks (p : String) : FS → Nat → List Content → FS
  | fs, _, [] => fs
  | fs, off, c :: cs => writeChunks p (fs.put p (overwrite ((fs p).getD []) off c)) (off + c.length) cs

/-- writer/compressed/writer.go:33 `os.O_RDWR|os.O_CREATE` -/
def compressedFlags : Flags := { create := true, trunc := false }

/-- writer/standard/writer.go:39 `os.O_CREATE|os.O_WRONLY|os.O_TRUNC` -/
def standardFlags : Flags := { create := true, trunc := true }

/-- writer/standard/writer.go:64 `_defaultFilename` -/
def defaultFilename : String := "default.jpeg"

/-- The outcome of `os.Stat`. -/
inductive Stat
  | ok
  /-- an error for which `os.IsExist` is false (for example: no such file) -/
  | otherErr
  /-- an error for which `os.IsExist` is true -/
  | existErr
  deriving DecidableEq, Repr

/-- writer/standard/writer.go:33-38 the file name `New` really uses. -/
def standardName (stat : Stat) (filename : String) : String :=
  match stat with
  | .existErr => defaultFilename
  | _ => filename

/-- `New(filename, ...)` of the compressed writer, then `Save`, whose encoder writes `chunks`. -/
def compressedSave (denied : Bool) (fs : FS) (filename : String) (chunks : List Content) : Option FS :=
  (openFile denied fs filename compressedFlags).map fun fs => writeChunks filename fs 0 chunks

/-- `New(filename, ...)` of the standard writer, then `Save`, whose encoder writes `chunks`. -/
def standardSave (stat : Stat) (denied : Bool) (fs : FS) (filename : String) (chunks : List Content) : Option FS :=
  let filename := standardName stat filename
  (openFile denied fs filename standardFlags).map fun fs => writeChunks filename fs 0 chunks

/-- debug.go:44-60 `debugDraw` opens with `os.O_CREATE|os.O_WRONLY|os.O_TRUNC`. -/
def debugSave (denied : Bool) (fs : FS) (filename : String) (chunks : List Content) : Option FS :=
  (openFile denied fs filename standardFlags).map fun fs => writeChunks filename fs 0 chunks

end QR.Files
