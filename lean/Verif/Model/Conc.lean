import Verif.Model.QRCode
/-!
# The mask goroutines (qrcode.go:642-717) as a small-step machine

Matrices live in a heap and are shared by address; the main goroutine and the eight workers take steps in any order
(a schedule is a list of actors).  One step is one operation on shared data: one visited module of `xorMask`, the
format information, the version information, the evaluation, the channel send, `wg.Done`; for the main goroutine
`wg.Add`, `go`, `wg.Wait`, `close`, one receive.  (`debugLogf` and `debugDraw` do nothing unless debugging is on and are
not modelled.)
-/
namespace QR.Conc

/-- Update one entry. -/
def upd {α : Type} (f : Nat → α) (i : Nat) (v : α) : Nat → α := fun j => if j = i then v else f j

/-- What a worker does next. -/
inductive Pc
  /-- not started -/
  | unborn
  /-- qrcode.go:677 `xorMask`, with the modules still to visit -/
  | xor (rest : List (Nat × Nat))
  /-- qrcode.go:682 `fillFormatInfo` -/
  | format
  /-- qrcode.go:684 `fillVersionInfo` -/
  | version
  /-- qrcode.go:689 `evaluation` -/
  | eval
  /-- qrcode.go:695 the send on `scoreChan` -/
  | send (score : Nat)
  /-- qrcode.go:702 `wg.Done()` -/
  | wgDone
  | dead
  deriving DecidableEq

/-- What the main goroutine does next. -/
inductive MainPc
  /-- qrcode.go:671 `wg.Add(1)` of round `i` -/
  | add (i : Nat)
  /-- qrcode.go:672 `go func(i int) ...` of round `i` -/
  | go (i : Nat)
  /-- qrcode.go:706 `wg.Wait()` -/
  | wait
  /-- qrcode.go:707 `close(scoreChan)` -/
  | close
  /-- qrcode.go:709 `range scoreChan` with the current `lowScore`, `markMatsIdx` -/
  | drain (low mark : Nat)
  /-- qrcode.go:716, with `markMatsIdx` -/
  | finished (mark : Nat)
  deriving DecidableEq

/-- A fatal end of the program. -/
inductive Crash
  | pan (p : Pan)
  | err (e : Err)
  /-- send on a closed channel -/
  | sendOnClosed
  /-- negative WaitGroup counter -/
  | negativeCounter
  deriving DecidableEq

structure St where
  /-- matrices by address -/
  heap : Nat → Matrix
  pc : Nat → Pc
  main : MainPc
  /-- contents of `scoreChan`: (score, index), oldest first -/
  chan : List (Nat × Nat)
  closed : Bool
  /-- counter of the WaitGroup -/
  wg : Nat
  crash : Option Crash
  /-- history: the workers in the order of their sends (not part of the program's state) -/
  sent : List Nat

/-- qrcode.go:656 capacity of `scoreChan` -/
def chanCap : Nat := 8

/-- qrcode.go:665-668 `mats[i] = cpy.Copy()`: address of worker `i`'s matrix (a fresh one for every copy). -/
def matPtr (i : Nat) : Nat := 2 * i
/-- qrcode.go:666 `masks[i]`: address of worker `i`'s mask matrix. -/
def maskPtr (i : Nat) : Nat := 2 * i + 1

inductive Actor | main | worker (i : Nat)
  deriving DecidableEq

/-- One step of worker `i` (qrcode.go:672-703); `none` if it cannot move. -/
def stepWorker (q : QRCode) (i : Nat) (s : St) : Option St :=
  match s.pc i with
  | .unborn => none
  | .xor [] => some { s with pc := upd s.pc i .format }
  | .xor (p :: ps) => some { s with
      heap := upd s.heap (matPtr i) (xorStep (s.heap (maskPtr i)) (s.heap (matPtr i)) p)
      pc := upd s.pc i (.xor ps) }
  | .format => match formatInfo q.v i with
    | .ok fmt => some { s with
        heap := upd s.heap (matPtr i) (fillFormatInfo (s.heap (matPtr i)) fmt q.v.dimension)
        pc := upd s.pc i .version }
    | .err e => some { s with crash := some (.err e) }
    | .panic p => some { s with crash := some (.pan p) }
  | .version =>
    if q.v.ver ≥ 7 then match verInfo q.v with
      | .ok (some vb) => some { s with
          heap := upd s.heap (matPtr i) (fillVersionInfo (s.heap (matPtr i)) vb q.v.dimension)
          pc := upd s.pc i .eval }
      | .ok none => some { s with crash := some (.pan .index) }
      | .err e => some { s with crash := some (.err e) }
      | .panic p => some { s with crash := some (.pan p) }
    else some { s with pc := upd s.pc i .eval }
  | .eval => match evaluation (s.heap (matPtr i)) with
    | .ok score => some { s with pc := upd s.pc i (.send score) }
    | .err e => some { s with crash := some (.err e) }
    | .panic p => some { s with crash := some (.pan p) }
  | .send score =>
    if s.closed then some { s with crash := some .sendOnClosed }
    else if s.chan.length < chanCap then
      some { s with chan := s.chan ++ [(score, i)], sent := s.sent ++ [i], pc := upd s.pc i .wgDone }
    else none
  | .wgDone =>
    if s.wg = 0 then some { s with crash := some .negativeCounter }
    else some { s with wg := s.wg - 1, pc := upd s.pc i .dead }
  | .dead => none

/-- One step of the main goroutine (qrcode.go:670-716); `none` if it cannot move. -/
def stepMain (s : St) : Option St :=
  match s.main with
  | .add i => some { s with wg := s.wg + 1, main := .go i }
  | .go i => some { s with
      pc := upd s.pc i (.xor (Matrix.coords (s.heap (maskPtr i)).width (s.heap (maskPtr i)).height .column))
      main := if i + 1 < 8 then .add (i + 1) else .wait }
  | .wait => if s.wg = 0 then some { s with main := .close } else none
  | .close => some { s with closed := true, main := .drain maxInt32 0 }
  | .drain low mark => match s.chan with
    | (score, idx) :: rest => some { s with chan := rest, main := if score < low then .drain score idx else .drain low mark }
    | [] => if s.closed then some { s with main := .finished mark } else none
  | .finished _ => none

/-- One step of an actor; after a crash nothing moves. -/
def step (q : QRCode) (s : St) (a : Actor) : Option St :=
  if s.crash.isSome then none
  else match a with
    | .main => stepMain s
    | .worker i => if i < 8 then stepWorker q i s else none

/-- qrcode.go:657-668: the state when the workers are about to be started; `cpy` is the filled matrix, `masks i` the
mask matrices. -/
def initial (cpy : Matrix) (masks : Nat → Matrix) : St where
  heap := fun a => if a % 2 = 0 then cpy.copy else masks (a / 2)
  pc := fun _ => .unborn
  main := .add 0
  chan := []
  closed := false
  wg := 0
  crash := none
  sent := []

/-- Follow a schedule; `none` if some scheduled actor could not move. -/
def run (q : QRCode) (s : St) : List Actor → Option St
  | [] => some s
  | a :: as => match step q s a with
    | some s' => run q s' as
    | none => none

end QR.Conc
