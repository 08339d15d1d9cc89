import Verif.Spec.Reader
/-!
# What a mode can represent (7.4.3 - 7.4.6), in terms of the bytes of a text

`sjis r` is the Shift-JIS coding of the code point `r`, if it has one.
-/
namespace Spec

/-- CJK unified ideographs, extension A, compatibility ideographs. -/
def isIdeograph (r : Nat) : Prop :=
  (0x4E00 ≤ r ∧ r ≤ 0x9FFF) ∨ (0x3400 ≤ r ∧ r ≤ 0x4DBF) ∨ (0xF900 ≤ r ∧ r ≤ 0xFAFF)

/-- A character of kanji mode: an ideograph whose two-byte Shift-JIS code lies in the ranges of 7.4.6. -/
def kanjiChar (sjis : Nat → Option (List UInt8)) (r : Nat) : Prop :=
  isIdeograph r ∧ ∃ hi lo, sjis r = some [hi, lo] ∧
    ((0x8140 ≤ hi.toNat * 256 + lo.toNat ∧ hi.toNat * 256 + lo.toNat ≤ 0x9FFC) ∨
     (0xE040 ≤ hi.toNat * 256 + lo.toNat ∧ hi.toNat * 256 + lo.toNat ≤ 0xEBBF))

/-- The text (its bytes) can be written in a mode. -/
def Encodable (sjis : Nat → Option (List UInt8)) : Mode → List Nat → Prop
  | .numeric, t => ∀ b ∈ t, 48 ≤ b ∧ b ≤ 57
  | .alnum, t => ∀ b ∈ t, b ∈ alnumChars
  | .kanji, t => ∃ rs : List Nat, t = rs.flatMap utf8 ∧ ∀ r ∈ rs, kanjiChar sjis r
  | .byte, _ => True

/-- Number of characters of a text in a mode: bytes, or UTF-8 characters (bytes that are not continuation bytes). -/
def charCount : Mode → List Nat → Nat
  | .byte, t => t.length
  | _, t => t.countP fun b => decide (b / 64 ≠ 2)

/-- `m` is the first of numeric, alphanumeric, kanji, byte in which the text can be written. -/
def FirstMode (sjis : Nat → Option (List UInt8)) (t : List Nat) (m : Mode) : Prop :=
  Encodable sjis m t ∧
  match m with
  | .numeric => True
  | .alnum => ¬ Encodable sjis .numeric t
  | .kanji => ¬ Encodable sjis .numeric t ∧ ¬ Encodable sjis .alnum t
  | .byte => ¬ Encodable sjis .numeric t ∧ ¬ Encodable sjis .alnum t ∧ ¬ Encodable sjis .kanji t

/-- A nonempty alphanumeric part followed by a nonempty kanji part: representable only in byte mode. -/
def AlnumThenKanji (sjis : Nat → Option (List UInt8)) (t : List Nat) : Prop :=
  ∃ a b, t = a ++ b ∧ a ≠ [] ∧ b ≠ [] ∧ Encodable sjis .alnum a ∧ Encodable sjis .kanji b

end Spec
