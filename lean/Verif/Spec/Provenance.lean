/-!
# Which writes concern which matrix variable

Every matrix made by `New` or `Copy` is a new object; struct assignment makes a variable show an existing object; a slice
belongs to the object whose `Col` returned it; a slice that `Row` returned is an object of its own.  Nothing here looks at memory.
-/
namespace Spec

/-- What a program does, without the values. -/
inductive Event
  | create
  | copy (i : Nat)
  | pass (i : Nat)
  | assign (i j : Nat)
  | set (i : Nat)
  | col (i : Nat)
  | row (i : Nat)
  | write (j : Nat)
  deriving DecidableEq, Repr

/-- The object shown by each matrix variable, the object each slice belongs to, the number of objects. -/
structure Objects where
  mats : List Nat
  slices : List Nat
  count : Nat
  deriving DecidableEq, Repr

def Objects.step (P : Objects) : Event → Objects
  | .create => { P with mats := P.mats ++ [P.count], count := P.count + 1 }
  | .copy i => match P.mats[i]? with
    | some _ => { P with mats := P.mats ++ [P.count], count := P.count + 1 }
    | none => P
  | .pass i => match P.mats[i]? with
    | some o => { P with mats := P.mats ++ [o] }
    | none => P
  | .assign i j => match P.mats[j]? with
    | some o => { P with mats := P.mats.set i o }
    | none => P
  | .col i => match P.mats[i]? with
    | some o => { P with slices := P.slices ++ [o] }
    | none => P
  | .row i => match P.mats[i]? with
    | some _ => { P with slices := P.slices ++ [P.count], count := P.count + 1 }
    | none => P
  | .set _ => P
  | .write _ => P

def Objects.after (es : List Event) : Objects := es.foldl Objects.step ⟨[], [], 0⟩

/-- The object an event writes to, if it writes. -/
def Objects.written (P : Objects) : Event → Option Nat
  | .set i => P.mats[i]?
  | .write j => P.slices[j]?
  | _ => none

end Spec
