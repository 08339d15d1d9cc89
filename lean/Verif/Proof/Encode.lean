import Verif.Proof.Codec
import Verif.Spec.Layout
/-!
# The data bit stream: layout, capacity, and what a reader gets from it
-/
namespace QR
open Spec

/-- The Go constant of a mode (encoder.go:33-55). -/
def modeNum : Mode → Nat
  | .numeric => encNumeric | .alnum => encAlphanumeric | .byte => encByte | .kanji => encKanji

/-- Number of characters counted in a mode. -/
def countOf (m : Mode) (raw : Bytes) : Nat :=
  match m with
  | .kanji => runeCount raw
  | _ => raw.length

/-- The mode can represent the text: every character is in its repertoire. -/
def Representable (E : Ext) (m : Mode) (raw : Bytes) : Prop :=
  match m with
  | .numeric => ∀ r ∈ runes raw, analyzeNum r = true
  | .alnum => ∀ r ∈ runes raw, analyzeAlphaNum r = true
  | .kanji => ∀ r ∈ runes raw, analyzeJP E r = true
  | .byte => True

instance (E m raw) : Decidable (Representable E m raw) := by
  cases m <;> unfold Representable <;> infer_instance

theorem ascii_bytes {raw : Bytes} (h : ∀ r ∈ runes raw, r < 128) : nats raw = runes raw := by
  rw [← utf8_runes raw (fun r hr he => by have := h r hr; rw [he] at this; exact absurd this (by decide))]
  have : ∀ l : List Nat, (∀ r ∈ l, r < 128) → l.flatMap utf8 = l := by
    intro l
    induction l with
    | nil => intro _; rfl
    | cons a l ih =>
      intro h
      have ha := h a (by simp)
      rw [List.flatMap_cons, ih (fun r hr => h r (by simp [hr]))]
      unfold utf8
      rw [if_pos (by omega)]; rfl
  exact this _ h

theorem analyzeNum_iff {r : Nat} : analyzeNum r = true ↔ 48 ≤ r ∧ r ≤ 57 := by simp [analyzeNum]

theorem analyzeAlphaNum_iff {r : Nat} : analyzeAlphaNum r = true ↔ r ∈ alnumChars := by
  have key : ∀ r < 128, analyzeAlphaNum r = true ↔ r ∈ alnumChars := by
    have : ∀ r ∈ List.range 128, analyzeAlphaNum r = true ↔ r ∈ alnumChars := by decide +kernel
    exact fun r h => this r (List.mem_range.2 h)
  have hlt : ∀ r ∈ alnumChars, r < 128 := by decide
  have hlt2 : analyzeAlphaNum r = true → r < 128 := by
    simp only [analyzeAlphaNum, Bool.or_eq_true, Bool.and_eq_true, decide_eq_true_eq, beq_iff_eq]
    omega
  by_cases h : r < 128
  · exact key r h
  · exact ⟨fun hh => absurd (hlt2 hh) h, fun hh => absurd (hlt r hh) h⟩

theorem alnum_lt {r : Nat} (h : analyzeAlphaNum r = true) : r < 128 := by
  simp only [analyzeAlphaNum, Bool.or_eq_true, Bool.and_eq_true, decide_eq_true_eq, beq_iff_eq] at h
  omega

theorem num_alnum {r : Nat} (h : analyzeNum r = true) : analyzeAlphaNum r = true := by
  rw [analyzeNum_iff] at h
  simp [analyzeAlphaNum, h]

theorem digits_of {raw : Bytes} (h : ∀ r ∈ runes raw, analyzeNum r = true) : ∀ b ∈ raw, isDigit b := by
  have e := ascii_bytes (raw := raw) (fun r hr => by have := analyzeNum_iff.1 (h r hr); omega)
  intro b hb
  have : b.toNat ∈ nats raw := List.mem_map.2 ⟨b, hb, rfl⟩
  rw [e] at this
  exact analyzeNum_iff.1 (h _ this)

theorem alnums_of {raw : Bytes} (h : ∀ r ∈ runes raw, analyzeAlphaNum r = true) : ∀ b ∈ raw, isAlnum b := by
  have e := ascii_bytes (raw := raw) (fun r hr => alnum_lt (h r hr))
  intro b hb
  have : b.toNat ∈ nats raw := List.mem_map.2 ⟨b, hb, rfl⟩
  rw [e] at this
  exact analyzeAlphaNum_iff.1 (h _ this)

theorem payload_ok {E : Ext} {unsjis : Nat → Option Nat} (hE : E.ShiftJIS unsjis) (m : Mode) (raw : Bytes)
    (h : Representable E m raw) :
    ∃ p, encodePayload E (modeNum m) raw = .ok p ∧ p.length = payloadBits m (countOf m raw) ∧
      ∀ rest, readPayload unsjis m (countOf m raw) (p ++ rest) = some (nats raw, rest) := by
  cases m with
  | numeric => exact ⟨_, rfl, encodeNumeric_length raw, fun rest => readNumeric_encode raw rest (digits_of h)⟩
  | alnum =>
    obtain ⟨bits, h1, h2, h3⟩ := encodeAlnum_ok raw (alnums_of h)
    exact ⟨bits, h1, h2, h3⟩
  | byte => exact ⟨_, rfl, encodeByte_length raw, fun rest => readBytes_encode raw rest⟩
  | kanji =>
    obtain ⟨h1, h2⟩ := kanji_ok hE raw h
    exact ⟨_, rfl, h1, h2⟩

theorem numBits_eq (w n : Nat) : numBits w n = natBits w n := by
  apply List.ext_getElem
  · simp [numBits, natBits_length]
  · intro k h1 h2
    rw [natBits_get]
    simp [numBits]

theorem indicator_eq (m : Mode) : getEncodeModeIndicator (modeNum m) = .ok m.indicator := by
  cases m <;> rfl

theorem charCount_eq (m : Mode) (raw : Bytes) : charCount (modeNum m) raw = countOf m raw := by
  cases m <;> rfl

theorem countBits_eq (v : Nat) (m : Mode) : charCountBits v (modeNum m) = countWidth v m := by
  unfold charCountBits countWidth
  cases m <;> simp [modeNum, encNumeric, encAlphanumeric, encByte, encKanji]

/-- Mode indicator, count and payload. -/
def segment (v : Nat) (m : Mode) (n : Nat) (p : List Bool) : List Bool := m.indicator ++ numBits (countWidth v m) n ++ p

theorem segment_length (v : Nat) (m : Mode) (n : Nat) (p : List Bool) :
    (segment v m n p).length = 4 + countWidth v m + p.length := by
  unfold segment
  rw [numBits_eq, List.length_append, List.length_append, natBits_length]
  cases m <;> rfl

theorem encode_eq (E : Ext) (V : Version) (m : Mode) (raw : Bytes) (p : Bits)
    (hp : encodePayload E (modeNum m) raw = .ok p) :
    encode E V (modeNum m) raw = breakUpInto8bit V (segment V.ver m (countOf m raw) p) := by
  unfold encode
  rw [indicator_eq, hp, Res.bind_ok, Res.bind_ok, countBits_eq, charCount_eq, segment, numBits_eq]

theorem padBytes_eq (k : Nat) : ∀ i, padBytes k (i + 1) =
    (List.range k).flatMap fun j => byteToBits (if (i + j) % 2 = 0 then 0xEC else 0x11) := by
  induction k with
  | zero => intro i; rfl
  | succ k ih =>
    intro i
    rw [padBytes, ih (i + 1), List.range_succ_eq_map, List.flatMap_cons, List.flatMap_map]
    congr 1
    · by_cases h : i % 2 = 0
      · rw [if_pos (by omega), if_pos (by omega)]; decide
      · rw [if_neg (by omega), if_neg (by omega)]; decide
    · congr 1
      funext j
      rw [show i + 1 + j = i + Nat.succ j by simp only [Nat.succ_eq_add_one]; omega]

theorem padPattern_length (k : Nat) : (padPattern k).length = 8 * k := by
  unfold padPattern
  induction k with
  | zero => rfl
  | succ k ih => rw [List.range_succ, List.flatMap_append, List.length_append, ih]; simp [byteToBits]; omega

theorem breakUp_ok (V : Version) (seg : Bits) (h : seg.length ≤ 8 * V.numTotalCodewords) :
    ∃ bits, breakUpInto8bit V seg = .ok bits ∧ Filled (8 * V.numTotalCodewords) seg bits := by
  unfold breakUpInto8bit
  generalize V.numTotalCodewords = C at *
  rw [if_neg (by omega)]
  simp only
  have e1 : (if C * 8 - seg.length < 4 then C * 8 - seg.length else 4) = min 4 (8 * C - seg.length) := by
    split <;> omega
  rw [e1]
  generalize ht : min 4 (8 * C - seg.length) = t
  obtain ⟨p, hp, hp8, hd2⟩ : ∃ p, p < 8 ∧ (seg.length + t + p) % 8 = 0 ∧
      (if (seg ++ zeroBits t).length % 8 ≠ 0 then seg ++ zeroBits t ++ zeroBits (8 - (seg ++ zeroBits t).length % 8)
        else seg ++ zeroBits t) = seg ++ List.replicate t false ++ List.replicate p false := by
    have hl : (seg ++ zeroBits t).length = seg.length + t := by simp [zeroBits]
    rw [hl]
    by_cases hc : (seg.length + t) % 8 ≠ 0
    · rw [if_pos hc]
      exact ⟨8 - (seg.length + t) % 8, by omega, by omega, rfl⟩
    · rw [if_neg hc]
      exact ⟨0, by omega, by omega, by simp [zeroBits]⟩
  rw [hd2]
  have hl2 : (seg ++ List.replicate t false ++ List.replicate p false).length = seg.length + t + p := by simp; omega
  rw [hl2]
  by_cases hc : C * 8 > seg.length + t + p
  · rw [if_pos hc]
    refine ⟨_, rfl, ?_, t, p, (C * 8 - (seg.length + t + p)) / 8, ?_, ht.symm, hp, hp8⟩
    · rw [List.length_append, hl2]
      have := padPattern_length ((C * 8 - (seg.length + t + p)) / 8)
      rw [padBytes_eq _ 0]
      simp only [Nat.zero_add]
      unfold padPattern at this
      rw [this]; omega
    · rw [padBytes_eq _ 0]
      simp only [Nat.zero_add]
      rfl
  · rw [if_neg hc]
    refine ⟨_, rfl, by rw [hl2]; omega, t, p, 0, by simp [padPattern], ht.symm, hp, hp8⟩

theorem breakUp_err (V : Version) (seg : Bits) (h : 8 * V.numTotalCodewords < seg.length) :
    breakUpInto8bit V seg = .err (.wrongVersionCap V.ver (8 * V.numTotalCodewords) seg.length) := by
  unfold breakUpInto8bit
  simp only
  rw [if_pos (by omega), Nat.mul_comm]

def indNum : Mode → Nat
  | .numeric => 1 | .alnum => 2 | .byte => 4 | .kanji => 8

/-- What a reader gets from a filled stream. -/
theorem read_filled {unsjis : Nat → Option Nat} {v : Nat} {m : Mode} {n cap fuel : Nat} {p bits : List Bool} {out : List Nat}
    (hn : n < 2 ^ countWidth v m) (hr : ∀ rest, readPayload unsjis m n (p ++ rest) = some (out, rest))
    (hf : Filled cap (segment v m n p) bits) (hfuel : 2 ≤ fuel) :
    readSegments unsjis v fuel bits = some out := by
  obtain ⟨hlen, t, pp, k, rfl, ht, hpp, h8⟩ := hf
  obtain ⟨fuel, rfl⟩ : ∃ f, fuel = f + 2 := ⟨fuel - 2, by omega⟩
  have hsl := segment_length v m n p
  generalize hR : List.replicate t false ++ List.replicate pp false ++ padPattern k = R
  have hbits : segment v m n p ++ List.replicate t false ++ List.replicate pp false ++ padPattern k =
      m.indicator ++ (natBits (countWidth v m) n ++ (p ++ R)) := by
    rw [← hR, segment, numBits_eq]; simp [List.append_assoc]
  rw [hbits] at hlen ⊢
  have hind : m.indicator = natBits 4 (indNum m) := by
    cases m <;> rfl
  have hRlen : R.length = cap - (segment v m n p).length := by
    have := hlen
    rw [List.length_append, List.length_append, List.length_append, natBits_length] at this
    have h4 : m.indicator.length = 4 := by cases m <;> rfl
    omega
  -- the rest ends the stream
  have hend : readSegments unsjis v (fuel + 1) R = some [] := by
    rw [readSegments]
    by_cases h4 : R.length < 4
    · rw [if_pos h4]
    · rw [if_neg h4]
      have ht4 : t = 4 := by omega
      have : takeBits 4 R = some (0, R.drop 4) := by
        rw [← hR, ht4]
        have e : List.replicate 4 false = natBits 4 0 := by decide
        rw [e, List.append_assoc, takeBits_natBits _ (by decide), List.drop_left' (natBits_length 4 0)]
      rw [this]
      simp
  rw [readSegments, if_neg (by
    rw [List.length_append]
    have h4 : m.indicator.length = 4 := by cases m <;> rfl
    omega)]
  rw [hind, takeBits_natBits _ (by cases m <;> decide)]
  simp only [Option.bind_eq_bind, Option.bind_some]
  rw [if_neg (by cases m <;> decide)]
  have hof : Mode.ofIndicator (indNum m) = some m := by
    cases m <;> rfl
  rw [hof]
  simp only [Option.bind_some]
  rw [takeBits_natBits _ hn]
  simp only [Option.bind_some]
  have hpay := hr R
  cases m <;> simp only [readPayload] at hpay <;> simp [hpay, hend]

end QR
