import Verif.Model.Encoder
import Verif.Spec.Capacity
import Verif.Proof.Tables
import Verif.Proof.Arrange
/-!
# The payload codecs are inverted by the standard's decoders
-/
namespace QR
open Spec

/-- Byte values. -/
def nats (raw : Bytes) : List Nat := raw.map UInt8.toNat

theorem bitsToNat_cons (b : Bool) (l : List Bool) : bitsToNat (b :: l) = b.toNat * 2 ^ l.length + bitsToNat l := by
  induction l using List.reverseRecOn with
  | nil => simp [bitsToNat]
  | append_singleton l c ih =>
    rw [← List.cons_append, bitsToNat_append, ih, bitsToNat_append, List.length_append, List.length_singleton,
      Nat.pow_succ]
    ring

theorem bitsToNat_natBits (n x : Nat) : bitsToNat (natBits n x) = x % 2 ^ n := by
  induction n with
  | zero => simp [natBits, bitsToNat, Nat.mod_one]
  | succ n ih =>
    rw [natBits, bitsToNat_cons, ih, natBits_length, Nat.mod_pow_succ, Nat.toNat_testBit]
    ring

theorem takeBits_natBits {n x : Nat} (rest : Bits) (h : x < 2 ^ n) :
    takeBits n (natBits n x ++ rest) = some (x, rest) := by
  unfold takeBits
  rw [if_pos (by rw [List.length_append, natBits_length]; omega)]
  rw [List.take_left' (natBits_length n x), List.drop_left' (natBits_length n x), bitsToNat_natBits,
    Nat.mod_eq_of_lt h]

/-! ## Numeric -/

def isDigit (b : UInt8) : Prop := 48 ≤ b.toNat ∧ b.toNat ≤ 57

theorem digitVal_eq {b : UInt8} (h : isDigit b) : digitVal b = b.toNat - 48 := by
  unfold digitVal
  rw [UInt8.toNat_sub_of_le _ _ (by rw [UInt8.le_iff_toNat_le]; exact h.1)]
  rfl

theorem readNumeric_encode : ∀ (raw : Bytes) (rest : Bits), (∀ b ∈ raw, isDigit b) →
    readNumeric raw.length (encodeNumeric raw ++ rest) = some (nats raw, rest) := by
  intro raw
  induction raw using encodeNumeric.induct with
  | case1 => intro rest _; rfl
  | case2 a =>
    intro rest h
    have ha := h a (by simp)
    have e := digitVal_eq ha
    unfold isDigit at ha
    simp only [encodeNumeric, List.length_cons, List.length_nil, Nat.zero_add, readNumeric]
    rw [takeBits_natBits _ (by omega)]
    simp only [Option.bind_eq_bind, Option.bind_some]
    rw [if_pos (by omega)]
    simp only [nats, List.map_cons, List.map_nil]
    congr 3; omega
  | case3 a b =>
    intro rest h
    have ha := h a (by simp)
    have hb := h b (by simp)
    have e := digitVal_eq ha
    have e2 := digitVal_eq hb
    unfold isDigit at ha hb
    simp only [encodeNumeric, List.length_cons, List.length_nil, Nat.zero_add, readNumeric]
    rw [takeBits_natBits _ (by omega)]
    simp only [Option.bind_eq_bind, Option.bind_some]
    rw [if_pos (by omega)]
    simp only [nats, List.map_cons, List.map_nil]
    have q1 : 48 + (digitVal a * 10 + digitVal b) / 10 = a.toNat := by omega
    have q2 : 48 + (digitVal a * 10 + digitVal b) % 10 = b.toNat := by omega
    rw [q1, q2]
  | case4 a b c tail ih =>
    intro rest h
    have ha := h a (by simp)
    have hb := h b (by simp)
    have hc := h c (by simp)
    have e := digitVal_eq ha
    have e2 := digitVal_eq hb
    have e3 := digitVal_eq hc
    unfold isDigit at ha hb hc
    simp only [encodeNumeric, List.length_cons, readNumeric]
    rw [List.append_assoc, takeBits_natBits _ (by omega)]
    simp only [Option.bind_eq_bind, Option.bind_some]
    rw [if_pos (by omega), ih rest (fun x hx => h x (by simp [hx]))]
    simp only [Option.bind_some, nats, List.map_cons]
    have q1 : 48 + ((digitVal a * 10 + digitVal b) * 10 + digitVal c) / 100 = a.toNat := by omega
    have q2 : 48 + ((digitVal a * 10 + digitVal b) * 10 + digitVal c) / 10 % 10 = b.toNat := by omega
    have q3 : 48 + ((digitVal a * 10 + digitVal b) * 10 + digitVal c) % 10 = c.toNat := by omega
    rw [q1, q2, q3]

theorem encodeNumeric_length (raw : Bytes) : (encodeNumeric raw).length = payloadBits .numeric raw.length := by
  induction raw using encodeNumeric.induct with
  | case1 => rfl
  | case2 a => simp [encodeNumeric, natBits_length, payloadBits]
  | case3 a b => simp [encodeNumeric, natBits_length, payloadBits]
  | case4 a b c tail ih =>
    simp only [encodeNumeric, List.length_append, natBits_length, ih, List.length_cons, payloadBits]
    have e1 : (tail.length + 1 + 1 + 1) / 3 = tail.length / 3 + 1 := by omega
    have e2 : (tail.length + 1 + 1 + 1) % 3 = tail.length % 3 := by omega
    simp only [e1, e2]; ring

/-! ## Alphanumeric -/

/-- The 45 characters. -/
def isAlnum (b : UInt8) : Prop := b.toNat ∈ alnumChars

theorem alnumChar_table : ∀ n < 256, match encodeAlphanumericCharacter (UInt8.ofNat n) with
    | .ok k => k < 45 ∧ alnumChars[k]? = some n
    | _ => n ∉ alnumChars := by
  have : ((List.range 256).all fun n => match encodeAlphanumericCharacter (UInt8.ofNat n) with
    | .ok k => decide (k < 45) && decide (alnumChars[k]? = some n)
    | _ => !alnumChars.contains n) = true := by decide +kernel
  intro n hn
  have := List.all_eq_true.1 this n (List.mem_range.2 hn)
  revert this
  cases encodeAlphanumericCharacter (UInt8.ofNat n) <;> simp

theorem alnumChar_ok {b : UInt8} (h : isAlnum b) :
    ∃ k, encodeAlphanumericCharacter b = .ok k ∧ k < 45 ∧ alnumChars[k]? = some b.toNat := by
  have := alnumChar_table b.toNat b.toNat_lt
  rw [UInt8.ofNat_toNat] at this
  revert this
  cases encodeAlphanumericCharacter b with
  | ok k => intro h; exact ⟨k, rfl, h.1, h.2⟩
  | err e => intro h2; exact absurd h h2
  | panic p => intro h2; exact absurd h h2

theorem encodeAlnum_ok : ∀ (raw : Bytes), (∀ b ∈ raw, isAlnum b) →
    ∃ bits, encodeAlphanumeric raw = .ok bits ∧ bits.length = payloadBits .alnum raw.length ∧
      ∀ rest, readAlnum raw.length (bits ++ rest) = some (nats raw, rest) := by
  intro raw
  induction raw using encodeAlphanumeric.induct with
  | case1 => intro _; exact ⟨[], rfl, rfl, fun rest => rfl⟩
  | case2 a =>
    intro h
    obtain ⟨k, hk, hlt, hc⟩ := alnumChar_ok (h a (by simp))
    refine ⟨natBits 6 k, by simp [encodeAlphanumeric, hk], by simp [natBits_length, payloadBits], fun rest => ?_⟩
    simp only [List.length_cons, List.length_nil, Nat.zero_add, readAlnum]
    rw [takeBits_natBits _ (by omega)]
    simp [hc, nats]
  | case3 a b tail ih =>
    intro h
    obtain ⟨k, hk, hlt, hc⟩ := alnumChar_ok (h a (by simp))
    obtain ⟨k2, hk2, hlt2, hc2⟩ := alnumChar_ok (h b (by simp))
    obtain ⟨bits, hb, hl, hr⟩ := ih (fun x hx => h x (by simp [hx]))
    refine ⟨natBits 11 (k * 45 + k2) ++ bits, by simp [encodeAlphanumeric, hk, hk2, hb], ?_, fun rest => ?_⟩
    · simp only [List.length_append, natBits_length, hl, List.length_cons, payloadBits]
      omega
    · simp only [List.length_cons, readAlnum]
      rw [List.append_assoc, takeBits_natBits _ (by omega)]
      simp only [Option.bind_eq_bind, Option.bind_some]
      have q1 : (k * 45 + k2) / 45 = k := by omega
      have q2 : (k * 45 + k2) % 45 = k2 := by omega
      rw [q1, q2, hc, hc2]
      simp only [Option.bind_some, hr rest]
      simp [nats]

/-! ## Byte -/

theorem readBytes_encode : ∀ (raw : Bytes) (rest : Bits),
    readBytes raw.length (encodeByte raw ++ rest) = some (nats raw, rest) := by
  intro raw
  induction raw with
  | nil => intro rest; rfl
  | cons a raw ih =>
    intro rest
    have e : encodeByte (a :: raw) = natBits 8 a.toNat ++ encodeByte raw := rfl
    rw [e, List.append_assoc, List.length_cons, readBytes, takeBits_natBits _ a.toNat_lt]
    simp only [Option.bind_eq_bind, Option.bind_some, ih]
    rfl

theorem encodeByte_length (raw : Bytes) : (encodeByte raw).length = payloadBits .byte raw.length := by
  induction raw with
  | nil => rfl
  | cons a raw ih =>
    have e : encodeByte (a :: raw) = natBits 8 a.toNat ++ encodeByte raw := rfl
    rw [e, List.length_append, natBits_length, ih, List.length_cons]
    simp only [payloadBits]; omega

/-! ## Runes -/

theorem ofNat_inRange {b : UInt8} {lo hi : Nat} : inRange b lo hi = true ↔ lo ≤ b.toNat ∧ b.toNat ≤ hi := by
  simp [inRange]

theorem second3_bounds (n : Nat) : 0x80 ≤ (second3 n).1 ∧ (second3 n).2 ≤ 0xBF := by
  unfold second3; split <;> [skip; split] <;> simp

theorem second4_bounds (n : Nat) : 0x80 ≤ (second4 n).1 ∧ (second4 n).2 ≤ 0xBF := by
  unfold second4; split <;> [skip; split] <;> simp

theorem second3_E0 (n : Nat) (h : n = 0xE0) : (second3 n).1 = 0xA0 := by simp [second3, h]
theorem second4_F0 (n : Nat) (h : n = 0xF0) : (second4 n).1 = 0x90 := by simp [second4, h]

/-- A text without a replacement character is the UTF-8 encoding of its runes. -/
theorem utf8_runes (raw : Bytes) : (∀ r ∈ runes raw, r ≠ runeError) → (runes raw).flatMap utf8 = nats raw := by
  fun_induction runes raw <;> intro h
  case case1 => rfl
  case case2 b0 rest n hn ih =>
    rw [List.flatMap_cons, ih (fun r hr => h r (by simp [hr]))]
    simp only [utf8, hn, if_true, nats, List.map_cons]; rfl
  case case4 b0 n h1 h2 h3 b1 rest' hb ih =>
    rw [List.flatMap_cons, ih (fun r hr => h r (by simp [hr]))]
    rw [ofNat_inRange] at hb
    have := b1.toNat_lt
    have hn : n = b0.toNat := rfl
    unfold utf8
    rw [if_neg (by omega), if_pos (by omega)]
    have q1 : 192 + ((n - 192) * 64 + (b1.toNat - 128)) / 64 = b0.toNat := by omega
    have q2 : 128 + ((n - 192) * 64 + (b1.toNat - 128)) % 64 = b1.toNat := by omega
    rw [q1, q2]; rfl
  case case7 b0 n h1 h2 h3 h4 b1 b2 rest' hb ih =>
    rw [List.flatMap_cons, ih (fun r hr => h r (by simp [hr]))]
    rw [Bool.and_eq_true, ofNat_inRange, ofNat_inRange] at hb
    have hs := second3_bounds n
    have hE := second3_E0 n
    have hn : n = b0.toNat := rfl
    have hlow : 0x800 ≤ (n - 0xE0) * 4096 + (b1.toNat - 0x80) * 64 + (b2.toNat - 0x80) := by
      by_cases he : n = 0xE0
      · have := hE he; omega
      · omega
    unfold utf8
    rw [if_neg (by omega), if_neg (by omega), if_pos (by omega)]
    have q1 : 0xE0 + ((n - 0xE0) * 4096 + (b1.toNat - 0x80) * 64 + (b2.toNat - 0x80)) / 4096 = b0.toNat := by omega
    have q2 : 0x80 + ((n - 0xE0) * 4096 + (b1.toNat - 0x80) * 64 + (b2.toNat - 0x80)) / 64 % 64 = b1.toNat := by omega
    have q3 : 0x80 + ((n - 0xE0) * 4096 + (b1.toNat - 0x80) * 64 + (b2.toNat - 0x80)) % 64 = b2.toNat := by omega
    rw [q1, q2, q3]; rfl
  case case11 b0 n h1 h2 h3 h4 h5 b1 b2 b3 rest' hb ih =>
    rw [List.flatMap_cons, ih (fun r hr => h r (by simp [hr]))]
    rw [Bool.and_eq_true, Bool.and_eq_true, ofNat_inRange, ofNat_inRange, ofNat_inRange] at hb
    have hs := second4_bounds n
    have hE := second4_F0 n
    have hn : n = b0.toNat := rfl
    have hlow : 0x10000 ≤ (n - 0xF0) * 262144 + (b1.toNat - 0x80) * 4096 + (b2.toNat - 0x80) * 64 + (b3.toNat - 0x80) := by
      by_cases he : n = 0xF0
      · have := hE he; omega
      · omega
    unfold utf8
    rw [if_neg (by omega), if_neg (by omega), if_neg (by omega)]
    have q1 : 0xF0 + ((n - 0xF0) * 262144 + (b1.toNat - 0x80) * 4096 + (b2.toNat - 0x80) * 64 + (b3.toNat - 0x80)) / 262144 = b0.toNat := by omega
    have q2 : 0x80 + ((n - 0xF0) * 262144 + (b1.toNat - 0x80) * 4096 + (b2.toNat - 0x80) * 64 + (b3.toNat - 0x80)) / 4096 % 64 = b1.toNat := by omega
    have q3 : 0x80 + ((n - 0xF0) * 262144 + (b1.toNat - 0x80) * 4096 + (b2.toNat - 0x80) * 64 + (b3.toNat - 0x80)) / 64 % 64 = b2.toNat := by omega
    have q4 : 0x80 + ((n - 0xF0) * 262144 + (b1.toNat - 0x80) * 4096 + (b2.toNat - 0x80) * 64 + (b3.toNat - 0x80)) % 64 = b3.toNat := by omega
    rw [q1, q2, q3, q4]; rfl
  all_goals exact absurd rfl (h runeError (by simp))

/-! ## Kanji -/

/-- What the code relies on from the Shift-JIS tables of `golang.org/x/text/encoding/japanese`:
the second byte of a two-byte code is in `40..FC`, no CJK ideograph is coded as the ideographic space
`8140`, and `unsjis` (the reader's table) decodes the code of every CJK ideograph. -/
structure Ext.ShiftJIS (E : Ext) (unsjis : Nat → Option Nat) : Prop where
  trail : ∀ r hi lo, isCJK r = true → E.sjis r = some [hi, lo] → 0x40 ≤ lo.toNat ∧ lo.toNat ≤ 0xFC
  noSpace : ∀ r hi lo, isCJK r = true → E.sjis r = some [hi, lo] → hi.toNat * 256 + lo.toNat ≠ 0x8140
  inv : ∀ r hi lo, isCJK r = true → E.sjis r = some [hi, lo] → unsjis (hi.toNat * 256 + lo.toNat) = some r

theorem analyzeJP_iff {E : Ext} {r : Nat} : analyzeJP E r = true ↔
    isCJK r = true ∧ ∃ hi lo, E.sjis r = some [hi, lo] ∧ inKanjiRange (hi.toNat * 256 + lo.toNat) = true := by
  unfold analyzeJP
  by_cases hc : isCJK r = true
  · simp only [hc, Bool.not_true, Bool.false_eq_true, if_false, true_and]
    constructor
    · intro h
      split at h
      · rename_i hi lo he
        exact ⟨hi, lo, he, h⟩
      · simp at h
    · rintro ⟨hi, lo, he, h⟩
      rw [he]; exact h
  · simp [hc]

theorem kanji_pair {hi lo : UInt8} (hr : inKanjiRange (hi.toNat * 256 + lo.toNat) = true)
    (ht : 0x40 ≤ lo.toNat ∧ lo.toNat ≤ 0xFC) (hs : hi.toNat * 256 + lo.toNat ≠ 0x8140) :
    ∃ x, x < 8192 ∧ x ≠ 0 ∧ (encodeShiftJIS hi lo).1.toNat * 256 + (encodeShiftJIS hi lo).2.toNat = x ∧
      kanjiCode x = hi.toNat * 256 + lo.toNat := by
  have hhi := hi.toNat_lt
  generalize hH : hi.toNat = H at *
  generalize hL : lo.toNat = L at *
  have key : ∀ base, (base = 0x8140 ∧ 0x8140 ≤ H * 256 + L ∧ H * 256 + L ≤ 0x9FFC) ∨
      (base = 0xC140 ∧ 0xE040 ≤ H * 256 + L ∧ H * 256 + L ≤ 0xEBBF) →
      ∃ x, x < 8192 ∧ x ≠ 0 ∧ x = ((H * 256 + L - base) / 256) * 0xC0 + (H * 256 + L - base) % 256 ∧
        kanjiCode x = H * 256 + L := by
    intro base hb
    refine ⟨_, ?_, ?_, rfl, ?_⟩
    · rcases hb with ⟨rfl, _, _⟩ | ⟨rfl, _, _⟩ <;> omega
    · rcases hb with ⟨rfl, _, _⟩ | ⟨rfl, _, _⟩ <;> omega
    · have hlt : (H * 256 + L - base) % 256 < 0xC0 := by
        rcases hb with ⟨rfl, _, _⟩ | ⟨rfl, _, _⟩ <;> omega
      unfold kanjiCode
      have q1 : ((H * 256 + L - base) / 256 * 0xC0 + (H * 256 + L - base) % 256) / 0xC0 = (H * 256 + L - base) / 256 := by
        omega
      have q2 : ((H * 256 + L - base) / 256 * 0xC0 + (H * 256 + L - base) % 256) % 0xC0 = (H * 256 + L - base) % 256 := by
        omega
      simp only [q1, q2]
      have q3 : (H * 256 + L - base) / 256 * 256 + (H * 256 + L - base) % 256 = H * 256 + L - base := by omega
      rw [q3]
      rcases hb with ⟨rfl, _, _⟩ | ⟨rfl, _, _⟩
      · rw [if_pos (by omega)]; omega
      · rw [if_neg (by omega)]; omega
  simp only [inKanjiRange, Bool.or_eq_true, Bool.and_eq_true, decide_eq_true_eq] at hr
  unfold encodeShiftJIS
  simp only [hH, hL]
  rcases hr with h | h
  · obtain ⟨x, h1, h2, h3, h4⟩ := key 0x8140 (Or.inl ⟨rfl, h⟩)
    refine ⟨x, h1, h2, ?_, h4⟩
    rw [if_pos h]
    simp only [UInt8.toNat_ofNat', ← h3]
    omega
  · obtain ⟨x, h1, h2, h3, h4⟩ := key 0xC140 (Or.inr ⟨rfl, h⟩)
    refine ⟨x, h1, h2, ?_, h4⟩
    rw [if_neg (by omega), if_pos h]
    simp only [UInt8.toNat_ofNat', ← h3]
    omega

theorem kanji_runes {E : Ext} {unsjis : Nat → Option Nat} (hE : E.ShiftJIS unsjis) : ∀ (rs : List Nat),
    (∀ r ∈ rs, analyzeJP E r = true) →
    ∃ data out, sjisString E rs = some data ∧ data.length = 2 * rs.length ∧ shiftJISPairs data = some out ∧
      out.length = 2 * rs.length ∧ (kanjiPairs out).length = 13 * rs.length ∧
      ∀ rest, readKanji unsjis rs.length (kanjiPairs out ++ rest) = some (rs.flatMap utf8, rest) := by
  intro rs
  induction rs with
  | nil => intro _; exact ⟨[], [], rfl, rfl, rfl, rfl, rfl, fun _ => rfl⟩
  | cons r rs ih =>
    intro h
    obtain ⟨data, out, h1, h2, h3, h4, h5, h6⟩ := ih (fun x hx => h x (by simp [hx]))
    obtain ⟨hc, hi, lo, hs, hr⟩ := analyzeJP_iff.1 (h r (by simp))
    obtain ⟨x, x1, x2, x3, x4⟩ := kanji_pair hr (hE.trail r hi lo hc hs) (hE.noSpace r hi lo hc hs)
    have hp : shiftJISPairs (hi :: lo :: data) = some ((encodeShiftJIS hi lo).1 :: (encodeShiftJIS hi lo).2 :: out) := by
      rw [shiftJISPairs]
      simp only [h3]
      rw [if_neg]
      rintro ⟨e1, e2⟩
      rw [e1, e2] at x3
      exact x2 x3.symm
    refine ⟨hi :: lo :: data, _, ?_, ?_, hp, ?_, ?_, ?_⟩
    · simp [sjisString, hs, h1]
    · simp [h2]; omega
    · simp [h4]; omega
    · simp only [kanjiPairs, List.length_append, natBits_length, h5, List.length_cons]; omega
    · intro rest
      simp only [kanjiPairs, List.length_cons, readKanji, x3]
      rw [List.append_assoc, takeBits_natBits _ (by omega)]
      simp only [Option.bind_eq_bind, Option.bind_some, x4, hE.inv r hi lo hc hs, h6]
      simp

/-- Kanji payload of a text all of whose runes are kanji. -/
theorem kanji_ok {E : Ext} {unsjis : Nat → Option Nat} (hE : E.ShiftJIS unsjis) (raw : Bytes)
    (h : ∀ r ∈ runes raw, analyzeJP E r = true) :
    (encodeKanji (toShiftJIS E raw)).length = payloadBits .kanji (runeCount raw) ∧
    ∀ rest, readKanji unsjis (runeCount raw) (encodeKanji (toShiftJIS E raw) ++ rest) = some (nats raw, rest) := by
  obtain ⟨data, out, h1, h2, h3, h4, h5, h6⟩ := kanji_runes hE (runes raw) h
  have e : encodeKanji (toShiftJIS E raw) = kanjiPairs out := by
    unfold toShiftJIS
    simp only [h1, h3]
    rw [if_neg (by omega)]
    simp only [Option.getD_some, encodeKanji]
    rw [if_neg (by omega)]
  rw [e]
  refine ⟨h5, fun rest => ?_⟩
  unfold runeCount
  rw [h6, utf8_runes raw]
  intro r hr he
  have := (analyzeJP_iff.1 (h r hr)).1
  rw [he] at this
  exact absurd this (by decide)

end QR
