import Verif.Model.Utf8
/-!
# Colours (writer/standard/image_option.go:121-205)
-/
namespace QR.Standard
open QR

/-- Go's `color.RGBA`. -/
structure RGBA where
  r : UInt8
  g : UInt8
  b : UInt8
  a : UInt8
  deriving DecidableEq, Repr

/-- A value of Go's interface type `color.Color`: a `color.RGBA`, or a value of another type, of which the code only sees the
four 16-bit channels its method `RGBA()` returns (as `uint32`). -/
inductive GoColor
  | rgba (c : RGBA)
  | other (r g b a : UInt32)
  deriving DecidableEq, Repr

/-- writer/standard/image_option.go:191 `parseFromColor`: the conversion `uint8(r)` keeps the low byte. -/
def parseFromColor : GoColor → RGBA
  | .rgba c => c
  | .other r g b a => ⟨r.toUInt8, g.toUInt8, b.toUInt8, a.toUInt8⟩

/-- Go's `fmt.isSpace`. -/
def isSpace (r : Nat) : Bool :=
  decide (0x09 ≤ r ∧ r ≤ 0x0d) || r == 0x20 || r == 0x85 || r == 0xa0 || r == 0x1680 || decide (0x2000 ≤ r ∧ r ≤ 0x200a) ||
  decide (0x2028 ≤ r ∧ r ≤ 0x2029) || r == 0x202f || r == 0x205f || r == 0x3000

/-- The value of a character that `fmt` accepts as a hexadecimal digit. -/
def hexDigit (r : Nat) : Option Nat :=
  if 0x30 ≤ r ∧ r ≤ 0x39 then some (r - 0x30)
  else if 0x61 ≤ r ∧ r ≤ 0x66 then some (r - 0x61 + 10)
  else if 0x41 ≤ r ∧ r ≤ 0x46 then some (r - 0x41 + 10)
  else none

/-- Go's `(*ss).SkipSpace` of `fmt` in `Sscanf`, where a newline is not a space (a `\r` before it is skipped like a space
either way); `none` is the error "unexpected newline". -/
def skipSpace : List Nat → Option (List Nat)
  | [] => some []
  | r :: rest => if r = 0x0a then none else if isSpace r then skipSpace rest else some (r :: rest)

/-- The digits of a number of at most `width` digits: value so far, and the rest of the input. -/
def scanDigits : Nat → Nat → List Nat → Nat × List Nat
  | 0, v, s => (v, s)
  | _ + 1, v, [] => (v, [])
  | w + 1, v, r :: s => match hexDigit r with
    | some d => scanDigits w (v * 16 + d) s
    | none => (v, r :: s)

/-- The verb `%<width>x` of `fmt.Sscanf` for a `*uint8`, with width 1 or 2 (no overflow is possible): skip spaces, one digit at
least, up to `width` digits. -/
def scanHex (width : Nat) (s : List Nat) : Option (UInt8 × List Nat) := do
  let s ← skipSpace s
  match s with
  | [] => none
  | r :: rest => match hexDigit r with
    | none => none
    | some d =>
      let (v, rest) := scanDigits (width - 1) d rest
      some (UInt8.ofNat v, rest)

/-- `fmt.Sscanf(s, "#%<width>x%<width>x%<width>x", &r, &g, &b)`; `none` is an error. What follows in `s` is ignored. -/
def sscanf3 (width : Nat) (s : List Nat) : Option (UInt8 × UInt8 × UInt8) :=
  match s with
  | 0x23 :: s => do
    let (r, s) ← scanHex width s
    let (g, s) ← scanHex width s
    let (b, _) ← scanHex width s
    some (r, g, b)
  | _ => none

/-- writer/standard/image_option.go:162 `parseFromHex`; `none` is the panic. `len(s)` counts bytes, `Sscanf` reads
characters. -/
def parseFromHex (s : Bytes) : Option RGBA :=
  if s.length = 7 then (sscanf3 2 (runes s)).map fun (r, g, b) => ⟨r, g, b, 0xff⟩
  else if s.length = 4 then (sscanf3 1 (runes s)).map fun (r, g, b) => ⟨r * 17, g * 17, b * 17, 0xff⟩
  else none

/-- writer/standard/image_option.go:122-123 -/
def color_WHITE : RGBA := ⟨0xff, 0xff, 0xff, 0xff⟩
def color_BLACK : RGBA := ⟨0, 0, 0, 0xff⟩

end QR.Standard
