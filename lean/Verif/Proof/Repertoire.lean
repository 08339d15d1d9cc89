import Verif.Spec.Repertoire
import Verif.Proof.Outcome
/-!
# The model's character tests against the repertoires of the standard
-/
namespace QR
open Spec QR.Matrix

theorem isCJK_iff (r : Nat) : isCJK r = true ↔ isIdeograph r := by
  simp only [isCJK, isIdeograph, Bool.or_eq_true, Bool.and_eq_true, decide_eq_true_eq, or_assoc]

theorem JP_iff {E : Ext} {r : Nat} : analyzeJP E r = true ↔ kanjiChar E.sjis r := by
  rw [analyzeJP_iff, isCJK_iff]
  unfold kanjiChar
  simp only [inKanjiRange, Bool.or_eq_true, Bool.and_eq_true, decide_eq_true_eq]

/-- A Unicode scalar value. -/
def scalar (r : Nat) : Prop := r < 0x110000 ∧ ¬ (0xD800 ≤ r ∧ r ≤ 0xDFFF)

theorem kanji_scalar {E : Ext} {r : Nat} (h : kanjiChar E.sjis r) : scalar r := by
  have := h.1
  unfold isIdeograph at this
  unfold scalar
  omega

theorem toNat_ofNat {n : Nat} (h : n < 256) : (UInt8.ofNat n).toNat = n := by
  simp; omega

theorem inRange_ofNat {n lo hi : Nat} (h : n < 256) (h1 : lo ≤ n) (h2 : n ≤ hi) : inRange (UInt8.ofNat n) lo hi = true := by
  unfold inRange
  rw [toNat_ofNat h]
  simp [h1, h2]

theorem runes_1 (b0 : UInt8) (rest : Bytes) (h : b0.toNat < 0x80) : runes (b0 :: rest) = b0.toNat :: runes rest := by
  conv => lhs; unfold runes
  simp only [h, if_true]

theorem runes_2 (b0 b1 : UInt8) (rest : Bytes) (h1 : 0xC2 ≤ b0.toNat) (h2 : b0.toNat < 0xE0) (hb : inRange b1 0x80 0xBF = true) :
    runes (b0 :: b1 :: rest) = ((b0.toNat - 0xC0) * 64 + (b1.toNat - 0x80)) :: runes rest := by
  conv => lhs; unfold runes
  simp only [show ¬ b0.toNat < 0x80 by omega, show ¬ b0.toNat < 0xC2 by omega, h2, hb, if_true, if_false]

theorem runes_3 (b0 b1 b2 : UInt8) (rest : Bytes) (h1 : 0xE0 ≤ b0.toNat) (h2 : b0.toNat < 0xF0)
    (hb1 : inRange b1 (second3 b0.toNat).1 (second3 b0.toNat).2 = true) (hb2 : inRange b2 0x80 0xBF = true) :
    runes (b0 :: b1 :: b2 :: rest) = ((b0.toNat - 0xE0) * 4096 + (b1.toNat - 0x80) * 64 + (b2.toNat - 0x80)) :: runes rest := by
  conv => lhs; unfold runes
  simp only [show ¬ b0.toNat < 0x80 by omega, show ¬ b0.toNat < 0xC2 by omega, show ¬ b0.toNat < 0xE0 by omega,
    h2, hb1, hb2, if_true, if_false, Bool.and_self]

theorem runes_4 (b0 b1 b2 b3 : UInt8) (rest : Bytes) (h1 : 0xF0 ≤ b0.toNat) (h2 : b0.toNat < 0xF5)
    (hb1 : inRange b1 (second4 b0.toNat).1 (second4 b0.toNat).2 = true) (hb2 : inRange b2 0x80 0xBF = true)
    (hb3 : inRange b3 0x80 0xBF = true) :
    runes (b0 :: b1 :: b2 :: b3 :: rest) = ((b0.toNat - 0xF0) * 262144 + (b1.toNat - 0x80) * 4096 + (b2.toNat - 0x80) * 64
      + (b3.toNat - 0x80)) :: runes rest := by
  conv => lhs; unfold runes
  simp only [show ¬ b0.toNat < 0x80 by omega, show ¬ b0.toNat < 0xC2 by omega, show ¬ b0.toNat < 0xE0 by omega,
    show ¬ b0.toNat < 0xF0 by omega, h2, hb1, hb2, hb3, if_true, if_false, Bool.and_self]

theorem inRange_of {b : UInt8} {lo hi : Nat} (h1 : lo ≤ b.toNat) (h2 : b.toNat ≤ hi) : inRange b lo hi = true := by
  unfold inRange; simp [h1, h2]

/-- Go's UTF-8 decoder on well-formed UTF-8. -/
theorem runes_utf8_one {r : Nat} (h : scalar r) (rest : Bytes) :
    runes ((utf8 r).map UInt8.ofNat ++ rest) = r :: runes rest := by
  unfold scalar at h
  unfold utf8
  by_cases h1 : r < 0x80
  · rw [if_pos h1]
    have e := toNat_ofNat (show r < 256 by omega)
    simp only [List.map_cons, List.map_nil, List.cons_append, List.nil_append]
    rw [runes_1 _ _ (by rw [e]; exact h1), e]
  · rw [if_neg h1]
    by_cases h2 : r < 0x800
    · rw [if_pos h2]
      have e0 := toNat_ofNat (show 192 + r / 64 < 256 by omega)
      have e1 := toNat_ofNat (show 128 + r % 64 < 256 by omega)
      simp only [List.map_cons, List.map_nil, List.cons_append, List.nil_append]
      generalize UInt8.ofNat (192 + r / 64) = b0 at *
      generalize UInt8.ofNat (128 + r % 64) = b1 at *
      rw [runes_2 _ _ _ (by omega) (by omega) (inRange_of (by omega) (by omega)), e0, e1]
      exact congrArg (· :: runes rest) (by omega)
    · rw [if_neg h2]
      by_cases h3 : r < 0x10000
      · rw [if_pos h3]
        have e0 := toNat_ofNat (show 224 + r / 4096 < 256 by omega)
        have e1 := toNat_ofNat (show 128 + r / 64 % 64 < 256 by omega)
        have e2 := toNat_ofNat (show 128 + r % 64 < 256 by omega)
        simp only [List.map_cons, List.map_nil, List.cons_append, List.nil_append]
        generalize UInt8.ofNat (224 + r / 4096) = b0 at *
        generalize UInt8.ofNat (128 + r / 64 % 64) = b1 at *
        generalize UInt8.ofNat (128 + r % 64) = b2 at *
        have hr : (second3 b0.toNat).1 ≤ b1.toNat ∧ b1.toNat ≤ (second3 b0.toNat).2 := by
          unfold second3
          by_cases c1 : b0.toNat = 0xE0
          · rw [if_pos c1]; simp only; omega
          · rw [if_neg c1]
            by_cases c2 : b0.toNat = 0xED
            · rw [if_pos c2]; simp only; omega
            · rw [if_neg c2]; simp only; omega
        rw [runes_3 _ _ _ _ (by omega) (by omega) (inRange_of hr.1 hr.2) (inRange_of (by omega) (by omega)), e0, e1, e2]
        exact congrArg (· :: runes rest) (by omega)
      · rw [if_neg h3]
        have e0 := toNat_ofNat (show 240 + r / 262144 < 256 by omega)
        have e1 := toNat_ofNat (show 128 + r / 4096 % 64 < 256 by omega)
        have e2 := toNat_ofNat (show 128 + r / 64 % 64 < 256 by omega)
        have e3 := toNat_ofNat (show 128 + r % 64 < 256 by omega)
        simp only [List.map_cons, List.map_nil, List.cons_append, List.nil_append]
        generalize UInt8.ofNat (240 + r / 262144) = b0 at *
        generalize UInt8.ofNat (128 + r / 4096 % 64) = b1 at *
        generalize UInt8.ofNat (128 + r / 64 % 64) = b2 at *
        generalize UInt8.ofNat (128 + r % 64) = b3 at *
        have hr : (second4 b0.toNat).1 ≤ b1.toNat ∧ b1.toNat ≤ (second4 b0.toNat).2 := by
          unfold second4
          by_cases c1 : b0.toNat = 0xF0
          · rw [if_pos c1]; simp only; omega
          · rw [if_neg c1]
            by_cases c2 : b0.toNat = 0xF4
            · rw [if_pos c2]; simp only; omega
            · rw [if_neg c2]; simp only; omega
        rw [runes_4 _ _ _ _ _ (by omega) (by omega) (inRange_of hr.1 hr.2) (inRange_of (by omega) (by omega))
          (inRange_of (by omega) (by omega)), e0, e1, e2, e3]
        exact congrArg (· :: runes rest) (by omega)

theorem runes_utf8 : ∀ (rs : List Nat), (∀ r ∈ rs, scalar r) → ∀ rest : Bytes,
    runes ((rs.flatMap utf8).map UInt8.ofNat ++ rest) = rs ++ runes rest := by
  intro rs
  induction rs with
  | nil => intro _ rest; rfl
  | cons r rs ih =>
    intro h rest
    rw [List.flatMap_cons, List.map_append, List.append_assoc, runes_utf8_one (h r (by simp)),
      ih (fun x hx => h x (by simp [hx]))]
    rfl

theorem ofNat_nats (raw : Bytes) : (nats raw).map UInt8.ofNat = raw := by
  unfold nats
  rw [List.map_map]
  conv => rhs; rw [← List.map_id raw]
  apply List.map_congr_left
  intro b _
  simp

/-- Runes of a text whose bytes are the UTF-8 coding of `rs`. -/
theorem runes_of_utf8 {raw : Bytes} {rs : List Nat} (h : nats raw = rs.flatMap utf8) (hs : ∀ r ∈ rs, scalar r) :
    runes raw = rs := by
  have := runes_utf8 rs hs []
  rw [← h, ofNat_nats, List.append_nil] at this
  rw [this]; simp [runes]

theorem utf8_ascii : ∀ l : List Nat, (∀ r ∈ l, r < 128) → l.flatMap utf8 = l := by
  intro l
  induction l with
  | nil => intro _; rfl
  | cons a l ih =>
    intro h
    have ha := h a (by simp)
    rw [List.flatMap_cons, ih (fun r hr => h r (by simp [hr]))]
    unfold utf8
    rw [if_pos (by omega)]; rfl

theorem alnumChars_lt : ∀ r ∈ alnumChars, r < 128 := by decide

theorem runes_of_ascii {raw : Bytes} (h : ∀ b ∈ nats raw, b < 128) : runes raw = nats raw := by
  apply runes_of_utf8 (utf8_ascii _ h).symm
  intro r hr
  have := h r hr
  unfold scalar; omega

theorem not_runeError_of_lt {r : Nat} (h : r < 128) : r ≠ runeError := by unfold runeError; omega
theorem not_runeError_of_kanji {E : Ext} {r : Nat} (h : analyzeJP E r = true) : r ≠ runeError := by
  have := (JP_iff.1 h).1
  unfold isIdeograph at this
  unfold runeError; omega

/-- The model's representability test is the specification's. -/
theorem representable_iff (E : Ext) (m : Mode) (raw : Bytes) : Representable E m raw ↔ Encodable E.sjis m (nats raw) := by
  cases m with
  | numeric =>
    constructor
    · intro h
      have e := ascii_bytes (raw := raw) (fun r hr => alnum_lt (num_alnum (h r hr)))
      rw [e]
      intro b hb
      exact analyzeNum_iff.1 (h b hb)
    · intro h
      have e := runes_of_ascii (raw := raw) (fun b hb => by have := h b hb; omega)
      intro r hr
      rw [e] at hr
      exact analyzeNum_iff.2 (h r hr)
  | alnum =>
    constructor
    · intro h
      have e := ascii_bytes (raw := raw) (fun r hr => alnum_lt (h r hr))
      rw [e]
      intro b hb
      exact analyzeAlphaNum_iff.1 (h b hb)
    · intro h
      have e := runes_of_ascii (raw := raw) (fun b hb => alnumChars_lt b (h b hb))
      intro r hr
      rw [e] at hr
      exact analyzeAlphaNum_iff.2 (h r hr)
  | kanji =>
    constructor
    · intro h
      exact ⟨runes raw, (utf8_runes raw (fun r hr => not_runeError_of_kanji (h r hr))).symm, fun r hr => JP_iff.1 (h r hr)⟩
    · rintro ⟨rs, h1, h2⟩ r hr
      rw [runes_of_utf8 h1 (fun r hr => kanji_scalar (h2 r hr))] at hr
      exact JP_iff.2 (h2 r hr)
  | byte => exact Iff.rfl

theorem mixed_iff (E : Ext) (raw : Bytes) : Mixed E raw ↔ AlnumThenKanji E.sjis (nats raw) := by
  constructor
  · rintro ⟨a, b, hab, ha0, hb0, haa, hbb⟩
    have hlt : ∀ r ∈ a, r < 128 := fun r hr => alnum_lt (haa r hr)
    have hu := utf8_runes raw (by
      intro r hr
      rw [hab] at hr
      rcases List.mem_append.1 hr with h | h
      · exact not_runeError_of_lt (hlt r h)
      · exact not_runeError_of_kanji (hbb r h))
    rw [hab, List.flatMap_append, utf8_ascii a hlt] at hu
    refine ⟨a, b.flatMap utf8, hu.symm, ha0, ?_, fun r hr => analyzeAlphaNum_iff.1 (haa r hr), b, rfl, fun r hr => JP_iff.1 (hbb r hr)⟩
    intro h0
    obtain ⟨x, l, rfl⟩ := List.exists_cons_of_ne_nil hb0
    rw [List.flatMap_cons] at h0
    have := (List.append_eq_nil_iff.1 h0).1
    revert this
    unfold utf8
    split
    · simp
    · split
      · simp
      · split <;> simp
  · rintro ⟨a, b, hab, ha0, hb0, haa, rs, rfl, hbb⟩
    have hlt : ∀ r ∈ a, r < 128 := fun r hr => alnumChars_lt r (haa r hr)
    refine ⟨a, rs, runes_of_utf8 (rs := a ++ rs) ?_ ?_, ha0, ?_, fun r hr => analyzeAlphaNum_iff.2 (haa r hr), fun r hr => JP_iff.2 (hbb r hr)⟩
    · rw [List.flatMap_append, utf8_ascii a hlt, hab]
    · intro r hr
      rcases List.mem_append.1 hr with h | h
      · have := hlt r h; unfold scalar; omega
      · exact kanji_scalar (hbb r h)
    · rintro rfl; exact hb0 rfl

theorem firstMode_best (E : Ext) (raw : Bytes) : FirstMode E.sjis (nats raw) (bestMode E raw) := by
  refine ⟨(representable_iff E _ raw).1 (bestMode_rep E raw), ?_⟩
  have h1 := representable_iff E .numeric raw
  have h2 := representable_iff E .alnum raw
  have h3 := representable_iff E .kanji raw
  unfold bestMode
  by_cases a : Representable E .numeric raw
  · rw [if_pos a]; trivial
  · rw [if_neg a]
    by_cases b : Representable E .alnum raw
    · rw [if_pos b]; exact fun h => a (h1.2 h)
    · rw [if_neg b]
      by_cases c : Representable E .kanji raw
      · rw [if_pos c]; exact ⟨fun h => a (h1.2 h), fun h => b (h2.2 h)⟩
      · rw [if_neg c]; exact ⟨fun h => a (h1.2 h), fun h => b (h2.2 h), fun h => c (h3.2 h)⟩

theorem firstMode_unique {sjis : Nat → Option (List UInt8)} {t : List Nat} {a b : Mode}
    (ha : FirstMode sjis t a) (hb : FirstMode sjis t b) : a = b := by
  obtain ⟨a1, a2⟩ := ha
  obtain ⟨b1, b2⟩ := hb
  cases a <;> cases b <;> simp only at a2 b2 <;> first | rfl | (exfalso; tauto)

/-- One leading byte per character. -/
theorem countP_utf8 : ∀ rs : List Nat, (∀ r ∈ rs, scalar r) →
    (rs.flatMap utf8).countP (fun b => decide (b / 64 ≠ 2)) = rs.length := by
  intro rs
  induction rs with
  | nil => intro _; rfl
  | cons r rs ih =>
    intro h
    rw [List.flatMap_cons, List.countP_append, ih (fun x hx => h x (by simp [hx])), List.length_cons, Nat.add_comm]
    congr 1
    have hr := h r (by simp)
    unfold scalar at hr
    have c0 : ∀ x y : Nat, x < 64 → y = 128 + x → decide (y / 64 ≠ 2) = false := by
      intro x y hx hy; rw [decide_eq_false_iff_not]; omega
    have c1 : ∀ y : Nat, y / 64 ≠ 2 → decide (y / 64 ≠ 2) = true := fun y hy => decide_eq_true hy
    unfold utf8
    split
    · rw [List.countP_singleton, c1 r (by omega)]; rfl
    · split
      · simp only [List.countP_cons, List.countP_nil, c0 (r % 64) _ (by omega) rfl, c1 (192 + r / 64) (by omega)]; rfl
      · split
        · simp only [List.countP_cons, List.countP_nil, c0 (r % 64) _ (by omega) rfl,
            c0 (r / 64 % 64) _ (by omega) rfl, c1 (224 + r / 4096) (by omega)]; rfl
        · simp only [List.countP_cons, List.countP_nil, c0 (r % 64) _ (by omega) rfl,
            c0 (r / 64 % 64) _ (by omega) rfl, c0 (r / 4096 % 64) _ (by omega) rfl, c1 (240 + r / 262144) (by omega)]; rfl

theorem runeCount_eq {raw : Bytes} (h : ∀ r ∈ runes raw, scalar r ∧ r ≠ runeError) :
    runeCount raw = (nats raw).countP (fun b => decide (b / 64 ≠ 2)) := by
  rw [← utf8_runes raw (fun r hr => (h r hr).2), countP_utf8 _ (fun r hr => (h r hr).1)]
  rfl

theorem nats_length (raw : Bytes) : (nats raw).length = raw.length := by unfold nats; simp

/-- The number of characters that the code counts. -/
theorem wantOf_charCount {E : Ext} {m : Mode} {raw : Bytes} (h : Representable E m raw ∨ (Mixed E raw ∧ m = .kanji)) :
    wantOf m raw = Spec.charCount m (nats raw) := by
  have hk : ∀ r, analyzeJP E r = true → scalar r ∧ r ≠ runeError :=
    fun r h => ⟨kanji_scalar (JP_iff.1 h), not_runeError_of_kanji h⟩
  have ha : ∀ r, analyzeAlphaNum r = true → scalar r ∧ r ≠ runeError := by
    intro r h
    have := alnum_lt h
    exact ⟨by unfold scalar; omega, not_runeError_of_lt this⟩
  rcases h with h | ⟨⟨a, b, hab, _, _, haa, hbb⟩, rfl⟩
  · cases m with
    | numeric => exact runeCount_eq (fun r hr => ha r (num_alnum (h r hr)))
    | alnum => exact runeCount_eq (fun r hr => ha r (h r hr))
    | kanji => exact runeCount_eq (fun r hr => hk r (h r hr))
    | byte => exact (nats_length raw).symm
  · refine runeCount_eq ?_
    rw [hab]
    intro r hr
    rcases List.mem_append.1 hr with h | h
    · exact ha r (haa r h)
    · exact hk r (hbb r h)

theorem countOf_charCount {E : Ext} {m : Mode} {raw : Bytes} (h : Representable E m raw) :
    countOf m raw = Spec.charCount m (nats raw) := by
  rw [← wantOf_eq h, wantOf_charCount (Or.inl h)]

end QR
