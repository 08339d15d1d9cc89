import Verif.Proof.World
/-!
# C23: payload codecs are invertible
-/
namespace QR
open Spec QR.Matrix

/-- For every mode and every text the mode can represent (`Spec.Encodable`), the payload the encoder appends
has the length the standard prescribes for that many characters, and the standard's reader, given only the mode,
the number of characters and a bit stream that starts with the payload, gives back the bytes of the text and
leaves what follows.  `hE` says that the Shift-JIS tables used for writing and reading are inverse. -/
theorem C23_payload_roundtrip {E : Ext} {unsjis : Nat → Option Nat} (hE : E.Ok unsjis) (m : Mode) (raw : Bytes)
    (h : Spec.Encodable E.sjis m (nats raw)) :
    ∃ p, encodePayload E (modeNum m) raw = .ok p ∧
      charCount (modeNum m) raw = Spec.charCount m (nats raw) ∧
      p.length = payloadBits m (Spec.charCount m (nats raw)) ∧
      ∀ rest, readPayload unsjis m (Spec.charCount m (nats raw)) (p ++ rest) = some (nats raw, rest) := by
  have hr := (representable_iff E m raw).2 h
  obtain ⟨p, h1, h2, h3⟩ := payload_ok hE.sjis m raw hr
  rw [charCount_eq, ← countOf_charCount hr]
  exact ⟨p, h1, rfl, h2, h3⟩

/-- Consequence: two texts of a mode with the same number of characters and the same payload are equal. -/
theorem C23_payload_injective {E : Ext} {unsjis : Nat → Option Nat} (hE : E.Ok unsjis) (m : Mode) (a b : Bytes)
    (ha : Spec.Encodable E.sjis m (nats a)) (hb : Spec.Encodable E.sjis m (nats b))
    (hn : Spec.charCount m (nats a) = Spec.charCount m (nats b))
    (h : encodePayload E (modeNum m) a = encodePayload E (modeNum m) b) : a = b := by
  obtain ⟨p, h1, _, _, h3⟩ := C23_payload_roundtrip hE m a ha
  obtain ⟨q, g1, _, _, g3⟩ := C23_payload_roundtrip hE m b hb
  rw [h1, g1] at h
  injection h with h
  subst h
  have := h3 []
  rw [hn, g3 []] at this
  simp only [Option.some.injEq, Prod.mk.injEq, and_true] at this
  exact (List.map_inj_right (fun x y hxy => UInt8.toNat_inj.1 hxy)).1 this.symm

/-- The digits of a text in groups of three, two or one carry their decimal value. -/
theorem demo_numeric_groups : encodePayload demoExt (modeNum .numeric) "0123456".toUTF8.toList =
    .ok (numBits 10 12 ++ numBits 10 345 ++ numBits 4 6) := by decide +kernel

/-- Every mode has a nonempty text, so the hypotheses can be met. -/
theorem demo_codec : Spec.Encodable demoExt.sjis .numeric (nats [48, 49, 57]) ∧
    Spec.Encodable demoExt.sjis .alnum (nats [65, 49, 58]) ∧
    Spec.Encodable demoExt.sjis .kanji (nats [0xE6, 0xBC, 0xA2, 0xE5, 0xAD, 0x97]) ∧
    Spec.Encodable demoExt.sjis .byte (nats [255, 0]) := by
  simp only [← representable_iff]
  decide +kernel

end QR
