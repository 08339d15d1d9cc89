/-!
# Outcomes of Go functions

A Go function with result `(T, error)` that may also panic is modelled by `Res T`.
The error and panic payloads only name the place in `/repo` they come from.
-/
namespace QR

/-- The `error` values returned by the modelled code. -/
inductive Err
  /-- chardet.go:11 `ErrNotSupportCharacter` -/
  | notSupportCharacter
  /-- qrcode.go:62 "character ... cannot be encoded in ... mode" (rune, mode) -/
  | cannotEncode (r : Nat) (mode : Nat)
  /-- version.go:40 `errInvalidErrorCorrectionLevel` -/
  | invalidECLevel
  /-- version.go:41 `errAnalyzeVersionFailed` -/
  | analyzeVersionFailed
  /-- version.go:44 `errMissMatchedEncodeType` -/
  | missMatchedEncodeType
  /-- encoder.go:312 "wrong version(..) cap(..) and could not contain all bits" (ver, cap, len) -/
  | wrongVersionCap (ver cap len : Nat)
  deriving DecidableEq, Repr

/-- The panics of the modelled code. -/
inductive Pan
  /-- qrcode.go:37 `panic("unreachable")` in `toBytes` -/
  | unreachableType
  /-- encoder.go:92 `panic("no indicator")` -/
  | noIndicator
  /-- encoder.go:113 unsupported data encoding mode in newEncoder() -/
  | unsupportedMode
  /-- encoder.go:404 log.Panicf non alphanumeric char -/
  | nonAlphanumeric
  /-- version.go:269 `panic(errMissMatchedVersion)` -/
  | missMatchedVersion
  /-- version.go:189 log.Panicf invalid level -/
  | invalidLevel
  /-- version.go:193 log.Panicf invalid maskPattern -/
  | invalidMask
  /-- version.go:453, 402 could not found align at version -/
  | noAlign
  /-- qrcode.go:236, 271, 318, 346 `panic(err)` after Subset -/
  | subset
  /-- slice index out of range -/
  | index
  /-- a loop that does not terminate within the model's fuel (proved unreachable) -/
  | fuel
  /-- integer division by zero -/
  | divZero
  /-- mask.go:75 impossible panic -/
  | nilModulo
  /-- a method of a nil `*binary.Binary` (a block that was allocated but never filled) -/
  | nilBlock
  deriving DecidableEq, Repr

inductive Res (α : Type)
  | ok (a : α)
  | err (e : Err)
  | panic (p : Pan)
  deriving DecidableEq, Repr

namespace Res

@[simp] def bind {α β : Type} : Res α → (α → Res β) → Res β
  | ok a, f => f a
  | err e, _ => err e
  | panic p, _ => panic p

instance : Monad Res where
  pure := Res.ok
  bind := Res.bind

@[simp] theorem pure_eq {α} (a : α) : (pure a : Res α) = .ok a := rfl
@[simp] theorem bind_ok {α β} (a : α) (f : α → Res β) : ((Res.ok a) >>= f) = f a := rfl
@[simp] theorem bind_err {α β} (e) (f : α → Res β) : ((Res.err e : Res α) >>= f) = .err e := rfl
@[simp] theorem bind_panic {α β} (p) (f : α → Res β) : ((Res.panic p : Res α) >>= f) = .panic p := rfl

/-- Run a list of computations in order, collecting results; the first failure wins. -/
def mapM' {α β : Type} (f : α → Res β) : List α → Res (List β)
  | [] => .ok []
  | a :: l => match f a with
    | .ok b => match mapM' f l with
      | .ok bs => .ok (b :: bs)
      | .err e => .err e
      | .panic p => .panic p
    | .err e => .err e
    | .panic p => .panic p

def isOk {α} : Res α → Bool
  | ok _ => true
  | _ => false

def isPanic {α} : Res α → Bool
  | panic _ => true
  | _ => false

end Res
end QR
