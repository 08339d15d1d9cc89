import Verif.Model.QRCode
/-!
# `Save` and `Dimension` (qrcode.go:104-124, writer.go)
-/
namespace QR

/-- How a call of user code ends. -/
inductive CallOut
  | ok
  /-- it returns this error -/
  | error (e : Nat)
  /-- it panics with this value -/
  | panics (p : Nat)
  deriving DecidableEq, Repr

/-- writer.go:6 `Writer`: arbitrary user code with a state of its own; what `Write` does may depend on everything that
happened to the writer before. -/
structure Writer (σ : Type) where
  write : σ → Matrix → σ × CallOut
  close : σ → σ × CallOut

/-- What an outside observer sees. -/
inductive SaveEvent
  | writeCall (m : Matrix)
  | closeCall
  /-- qrcode.go:111 the warning -/
  | logWarning (e : Nat)
  deriving DecidableEq, Repr

/-- How `Save` ends. -/
inductive SaveOut
  | returned (e : Option Nat)
  | panicked (p : Nat)
  /-- runtime error: nil pointer dereference of `*q.mat` -/
  | nilDeref
  deriving DecidableEq, Repr

/-- writer.go:18 `nonWriter` -/
def nonWriter (σ : Type) : Writer σ where
  write := fun s _ => (s, .ok)
  close := fun s => (s, .ok)

/-- qrcode.go:109-113 the deferred function: it runs when the body of `Save` returns or panics; a panic of its own replaces
the pending outcome. -/
def deferredClose {σ : Type} (w : Writer σ) (s : σ) (pending : SaveOut) : σ × SaveOut × List SaveEvent :=
  match w.close s with
  | (s', .ok) => (s', pending, [.closeCall])
  | (s', .error e) => (s', pending, [.closeCall, .logWarning e])
  | (s', .panics p) => (s', .panicked p, [.closeCall])

/-- qrcode.go:104 `Save` with a writer that is not nil; `mat` is `q.mat` (nil in a `QRCode` that was not made by `New`). -/
def saveWith {σ : Type} (mat : Option Matrix) (w : Writer σ) (s : σ) : σ × SaveOut × List SaveEvent :=
  match mat with
  | none => deferredClose w s .nilDeref
  | some m =>
    let (s1, out) := w.write s m
    let pending : SaveOut := match out with
      | .ok => .returned none
      | .error e => .returned (some e)
      | .panics p => .panicked p
    let (s2, res, evs) := deferredClose w s1 pending
    (s2, res, .writeCall m :: evs)

/-- qrcode.go:104 `Save`; a nil writer is replaced by a `nonWriter`, whose calls nobody sees. -/
def save {σ : Type} (mat : Option Matrix) (w : Option (Writer σ)) (s : σ) : σ × SaveOut × List SaveEvent :=
  match w with
  | some w => saveWith mat w s
  | none =>
    let r := saveWith mat (nonWriter σ) s
    (r.1, r.2.1, [])

/-- qrcode.go:118 `Dimension` -/
def dimension (mat : Option Matrix) : Nat :=
  match mat with
  | none => 0
  | some m => m.width

end QR
