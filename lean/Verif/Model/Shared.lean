import Verif.Model.QRCode
/-!
# Concurrent calls of `NewWith`

Any number of goroutines call `NewWith` at the same time.  What they share is the package-level map
`alignPatternCache` and its mutex (version.go:372-374); everything else a call touches is its own.  Goroutine `i` is
given by the call it makes; a schedule is a list of goroutine numbers, one step each.  One step is one operation on the
shared data (begin or end of a map read, `Lock`, begin or end of a map write, `Unlock`) or all of the call's private work
before or after it.  The runtime kills the process when a map write overlaps another access to the same map.

Simplifications: the mask goroutines of a call (machine of Model/Conc.lean, C20) are represented by the order in which
their scores arrive; debugging is off (debug.go: with it off `_debug` is only read after a `sync.Once`); a panic is the
result of the call that panicked.
-/
namespace QR.Shared

/-- One call `NewWith(text, opts...)`, and the order in which its mask goroutines will report. -/
structure Call where
  t : TextType
  text : Bytes
  opts : List EncodeOption
  arrival : List Nat

/-- qrcode.go:21-28, 70-80, 127-163, 380-384: a call up to the lookup of the alignment positions (the matrix is still
blank). -/
def prepare (E : Ext) (k : Call) : Res QRCode := do
  let opt := applyOptions k.opts
  let raw ← toBytes k.t k.text
  let mode ← chooseMode E raw opt
  let opt := { opt with encMode := mode }
  let n ← calcVersionNumber raw opt
  let opt := { opt with version := n }
  let v ← loadVersion n opt.ecLevel
  let mat := newMatrix v.dimension v.dimension
  let _ ← newEncoder mode
  let dataBlocks ← dataEncoding E v mode raw
  let ecBlocks ← errorCorrectionEncoding E v dataBlocks
  let dataBits ← arrangeBits (dataBlocks.map (Option.map (·.data)))
  let ecBits ← arrangeBits ecBlocks
  let bset := dataBits ++ ecBits ++ zeroBits v.remainderBits
  .ok { sourceText := raw, dataBSet := bset, ecBSet := ecBits, mat, opt, v }

/-- qrcode.go:386-410, 70-80, 642-717: the rest of the call, given the positions the lookup returned. -/
def complete (k : Call) (q : QRCode) (locs : List Loc) : Res QRCode :=
  masking k.arrival { q with mat := prefill q.mat q.v.ver locs }

/-- What a goroutine does next. -/
inductive Pc
  /-- the call is about to be made -/
  | begin
  /-- qrcode.go:386 the lookup is about to be called -/
  | lookup (q : QRCode)
  /-- version.go:422 the map is being read, without the lock -/
  | reading (q : QRCode)
  /-- version.go:427 the positions were not there and have been computed; about to `Lock` -/
  | lock (q : QRCode) (locs : List Loc)
  /-- version.go:429 about to write the map -/
  | write (q : QRCode) (locs : List Loc)
  /-- version.go:429 the map is being written -/
  | writing (q : QRCode) (locs : List Loc)
  /-- version.go:430 about to `Unlock` -/
  | unlock (q : QRCode) (locs : List Loc)
  /-- version.go:423, 432 the lookup has returned these positions -/
  | rest (q : QRCode) (locs : List Loc)
  /-- `NewWith` has returned -/
  | returned (r : Res QRCode)

structure St where
  /-- version.go:372 `alignPatternCache` -/
  cache : AlignCache
  /-- version.go:374 `alignPatternCacheMu`: who holds it -/
  holder : Option Nat
  /-- reads of the map under way -/
  readers : Nat
  /-- writes of the map under way -/
  writers : Nat
  /-- `fatal error: concurrent map read and map write` / `concurrent map writes` -/
  crashed : Bool
  pc : Nat → Pc

/-- Every goroutine about to call, nobody at the cache. -/
def start (c : AlignCache) : St :=
  { cache := c, holder := none, readers := 0, writers := 0, crashed := false, pc := fun _ => .begin }

/-- Goroutine `i` goes on at `p`. -/
def St.goto (s : St) (i : Nat) (p : Pc) : St := { s with pc := fun j => if j = i then p else s.pc j }

/-- version.go:417-433, qrcode.go:380-410: one step of goroutine `i`, which makes call `k`; `none` if it cannot move. -/
def step (E : Ext) (calls : Nat → Call) (i : Nat) (s : St) : Option St :=
  if s.crashed then none else
  match s.pc i with
  | .begin => match prepare E (calls i) with
    | .ok q => if q.v.ver > 1 then some (s.goto i (.lookup q)) else some (s.goto i (.rest q []))
    | .err e => some (s.goto i (.returned (.err e)))
    | .panic p => some (s.goto i (.returned (.panic p)))
  | .lookup q =>
    if s.writers > 0 then some { s with crashed := true }
    else some { s.goto i (.reading q) with readers := s.readers + 1 }
  | .reading q =>
    let s := { s with readers := s.readers - 1 }
    match s.cache.lookup q.v.ver with
    | some locs => some (s.goto i (.rest q locs))
    | none => match calcAlignPatternLocs q.v.ver with
      | .ok locs => some (s.goto i (.lock q locs))
      | .err e => some (s.goto i (.returned (.err e)))
      | .panic p => some (s.goto i (.returned (.panic p)))
  | .lock q locs => match s.holder with
    | none => some { s.goto i (.write q locs) with holder := some i }
    | some _ => none
  | .write q locs =>
    if s.readers > 0 ∨ s.writers > 0 then some { s with crashed := true }
    else some { s.goto i (.writing q locs) with writers := s.writers + 1 }
  | .writing q locs => some { s.goto i (.unlock q locs) with
      writers := s.writers - 1
      cache := (q.v.ver, locs) :: s.cache }
  | .unlock q locs => some { s.goto i (.rest q locs) with holder := none }
  | .rest q locs => some (s.goto i (.returned (complete (calls i) q locs)))
  | .returned _ => none

/-- A schedule; `none` if some goroutine in it could not move. -/
def run (E : Ext) (calls : Nat → Call) : List Nat → St → Option St
  | [], s => some s
  | i :: is, s => match step E calls i s with
    | some s' => run E calls is s'
    | none => none

end QR.Shared
