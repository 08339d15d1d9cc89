import Verif.Proof.Encode
/-!
# Automatic mode selection
-/
namespace QR
open Spec

theorem reAnalyze_4 (E : Ext) (r : Nat) : reAnalyze E r 5 4 =
    (if analyzeNum r then 4 else if analyzeAlphaNum r then 8 else if analyzeJP E r then 16 else 32, false) := by
  simp only [reAnalyze, getNextAnalyzeFn, encNumeric, encAlphanumeric, encKanji, encByte]
  by_cases h1 : analyzeNum r = true <;> by_cases h2 : analyzeAlphaNum r = true <;>
    by_cases h3 : analyzeJP E r = true <;> simp [h1, h2, h3, analyzeByte]

theorem reAnalyze_8 (E : Ext) (r : Nat) : reAnalyze E r 5 8 =
    (if analyzeAlphaNum r then 8 else if analyzeJP E r then 16 else 32, false) := by
  simp only [reAnalyze, getNextAnalyzeFn, encNumeric, encAlphanumeric, encKanji, encByte]
  by_cases h2 : analyzeAlphaNum r = true <;> by_cases h3 : analyzeJP E r = true <;> simp [h2, h3, analyzeByte]

theorem reAnalyze_16 (E : Ext) (r : Nat) : reAnalyze E r 5 16 = (if analyzeJP E r then 16 else 32, false) := by
  simp only [reAnalyze, getNextAnalyzeFn, encNumeric, encAlphanumeric, encKanji, encByte]
  by_cases h3 : analyzeJP E r = true <;> simp [h3, analyzeByte]

theorem reAnalyze_32 (E : Ext) (r : Nat) : reAnalyze E r 5 32 = (32, false) := by
  simp [reAnalyze, getNextAnalyzeFn, encNumeric, encAlphanumeric, encKanji, encByte, analyzeByte]

theorem loop_32 (E : Ext) (rs : List Nat) : analyzeLoop E rs 32 = 32 := by
  induction rs with
  | nil => rfl
  | cons r rs ih => rw [analyzeLoop, reAnalyze_32]; exact ih

theorem loop_16 (E : Ext) (rs : List Nat) : analyzeLoop E rs 16 = if rs.all (analyzeJP E) then 16 else 32 := by
  induction rs with
  | nil => rfl
  | cons r rs ih =>
    rw [analyzeLoop, reAnalyze_16]
    by_cases h : analyzeJP E r = true
    · simp only [h, if_true, ih, List.all_cons, Bool.true_and]
    · simp only [h, Bool.false_eq_true, if_false, loop_32, List.all_cons, Bool.false_and]

/-- The mode found when scanning starts in alphanumeric mode. -/
def from8 (E : Ext) (rs : List Nat) : Nat :=
  if rs.all analyzeAlphaNum then 8 else if (rs.dropWhile analyzeAlphaNum).all (analyzeJP E) then 16 else 32

theorem loop_8 (E : Ext) (rs : List Nat) : analyzeLoop E rs 8 = from8 E rs := by
  unfold from8
  induction rs with
  | nil => rfl
  | cons r rs ih =>
    rw [analyzeLoop, reAnalyze_8]
    by_cases h : analyzeAlphaNum r = true
    · simp only [h, if_true, ih, List.all_cons, Bool.true_and, List.dropWhile_cons_of_pos]
    · by_cases h3 : analyzeJP E r = true
      · simp [h, h3, loop_16]
      · simp [h, h3, loop_32]

/-- The mode the code selects. -/
def detect (E : Ext) (rs : List Nat) : Nat := if rs.all analyzeNum then 4 else from8 E rs

theorem from8_cons_alnum (E : Ext) {r : Nat} {rs : List Nat} (h : analyzeAlphaNum r = true) :
    from8 E (r :: rs) = from8 E rs := by
  simp [from8, h]

theorem loop_4 (E : Ext) (rs : List Nat) : analyzeLoop E rs 4 = detect E rs := by
  unfold detect
  induction rs with
  | nil => rfl
  | cons r rs ih =>
    rw [analyzeLoop, reAnalyze_4]
    by_cases h : analyzeNum r = true
    · simp only [h, if_true, ih, List.all_cons, Bool.true_and, from8_cons_alnum E (num_alnum h)]
    · by_cases h2 : analyzeAlphaNum r = true
      · simp [h, h2, loop_8, from8_cons_alnum E h2]
      · by_cases h3 : analyzeJP E r = true
        · simp [h, h2, h3, loop_16, from8]
        · simp [h, h2, h3, loop_32, from8]

theorem detect_mem (E : Ext) (rs : List Nat) : detect E rs = 4 ∨ detect E rs = 8 ∨ detect E rs = 16 ∨ detect E rs = 32 := by
  unfold detect from8
  split
  · simp
  · split
    · simp
    · split <;> simp

theorem analyzeMode_eq (E : Ext) (raw : Bytes) : analyzeEncodeModeFromRaw E raw = .ok (detect E (runes raw)) := by
  unfold analyzeEncodeModeFromRaw
  have : analyzeLoop E (runes raw) (encNone * 2) = detect E (runes raw) := loop_4 E _
  simp only [this]
  rw [if_neg]
  have := detect_mem E (runes raw)
  unfold encByte
  omega

/-- A nonempty alphanumeric part followed by a nonempty kanji part. -/
def Mixed (E : Ext) (raw : Bytes) : Prop :=
  ∃ a b, runes raw = a ++ b ∧ a ≠ [] ∧ b ≠ [] ∧ (∀ r ∈ a, analyzeAlphaNum r = true) ∧ ∀ r ∈ b, analyzeJP E r = true

theorem JP_not_alnum {E : Ext} {r : Nat} (h : analyzeJP E r = true) : analyzeAlphaNum r = false := by
  have h1 := (analyzeJP_iff.1 h).1
  by_contra hc
  have := alnum_lt (by simpa using hc)
  simp only [isCJK, Bool.or_eq_true, Bool.and_eq_true, decide_eq_true_eq] at h1
  omega

/-- The mode prescribed: the first of numeric, alphanumeric, kanji, byte that represents the whole text. -/
def bestMode (E : Ext) (raw : Bytes) : Mode :=
  if Representable E .numeric raw then .numeric
  else if Representable E .alnum raw then .alnum
  else if Representable E .kanji raw then .kanji
  else .byte

theorem bestMode_rep (E : Ext) (raw : Bytes) : Representable E (bestMode E raw) raw := by
  unfold bestMode
  split
  · assumption
  · split
    · assumption
    · split
      · assumption
      · trivial

theorem dropWhile_split (p : Nat → Bool) (rs : List Nat) : ∃ a, rs = a ++ rs.dropWhile p ∧ ∀ r ∈ a, p r = true := by
  induction rs with
  | nil => exact ⟨[], rfl, by simp⟩
  | cons r rs ih =>
    by_cases h : p r = true
    · obtain ⟨a, h1, h2⟩ := ih
      refine ⟨r :: a, ?_, ?_⟩
      · rw [List.dropWhile_cons_of_pos h, List.cons_append, ← h1]
      · intro x hx
        rcases List.mem_cons.1 hx with rfl | hx
        · exact h
        · exact h2 x hx
    · exact ⟨[], by rw [List.dropWhile_cons_of_neg h]; rfl, by simp⟩

theorem detect_cases (E : Ext) (raw : Bytes) :
    (Mixed E raw ∧ detect E (runes raw) = modeNum .kanji) ∨
    (¬ Mixed E raw ∧ detect E (runes raw) = modeNum (bestMode E raw)) := by
  have hn : (runes raw).all analyzeNum = true ↔ Representable E .numeric raw := List.all_eq_true
  have ha : (runes raw).all analyzeAlphaNum = true ↔ Representable E .alnum raw := List.all_eq_true
  have hk : (runes raw).all (analyzeJP E) = true ↔ Representable E .kanji raw := List.all_eq_true
  by_cases hm : Mixed E raw
  · left
    refine ⟨hm, ?_⟩
    obtain ⟨a, b, hab, ha0, hb0, haa, hbb⟩ := hm
    obtain ⟨c, b', rfl⟩ := List.exists_cons_of_ne_nil hb0
    have hcn := JP_not_alnum (hbb c (by simp))
    have e1 : (runes raw).all analyzeAlphaNum = false := by
      rw [hab, List.all_append]; simp [hcn]
    have e0 : (runes raw).all analyzeNum = false := by
      rw [hab, List.all_append]
      have : analyzeNum c = false := by
        by_contra hc
        have := num_alnum (by simpa using hc)
        rw [hcn] at this; simp at this
      simp [this]
    have e2 : (runes raw).dropWhile analyzeAlphaNum = c :: b' := by
      rw [hab, List.dropWhile_append_of_pos haa]
      simp [hcn]
    unfold detect from8
    rw [e0, e1, e2]
    have e3 : (c :: b').all (analyzeJP E) = true := List.all_eq_true.2 hbb
    rw [e3]; rfl
  · right
    refine ⟨hm, ?_⟩
    unfold detect from8 bestMode
    by_cases h1 : (runes raw).all analyzeNum = true
    · rw [h1, if_pos (hn.1 h1)]; rfl
    · rw [if_neg h1, if_neg (fun h => h1 (hn.2 h))]
      by_cases h2 : (runes raw).all analyzeAlphaNum = true
      · rw [h2, if_pos (ha.1 h2)]; rfl
      · rw [if_neg h2, if_neg (fun h => h2 (ha.2 h))]
        by_cases h3 : (runes raw).all (analyzeJP E) = true
        · rw [if_pos (hk.1 h3)]
          have e : (runes raw).dropWhile analyzeAlphaNum = runes raw := by
            cases hr : runes raw with
            | nil => rfl
            | cons r rs =>
              rw [hr] at h3
              simp only [List.all_cons, Bool.and_eq_true] at h3
              rw [List.dropWhile_cons_of_neg]
              rw [JP_not_alnum h3.1]; simp
          rw [e, h3]; rfl
        · rw [if_neg (fun h => h3 (hk.2 h))]
          have e : ¬ ((runes raw).dropWhile analyzeAlphaNum).all (analyzeJP E) = true := by
            intro hd
            apply hm
            obtain ⟨a, h0, haa⟩ := dropWhile_split analyzeAlphaNum (runes raw)
            refine ⟨a, (runes raw).dropWhile analyzeAlphaNum, h0, ?_, ?_, haa, List.all_eq_true.1 hd⟩
            · rintro rfl
              rw [← List.nil_append (List.dropWhile _ _), ← h0] at hd
              exact h3 hd
            · intro hb
              rw [hb, List.append_nil] at h0
              exact h2 (List.all_eq_true.2 (h0 ▸ haa))
          rw [if_neg e]; rfl

/-- ASCII characters are converted to the same single byte by the Shift-JIS encoder. -/
def Ext.Ascii (E : Ext) : Prop := ∀ r, analyzeAlphaNum r = true → E.sjis r = some [UInt8.ofNat r]

theorem sjisString_alnum {E : Ext} (hA : E.Ascii) : ∀ (a b : List Nat), (∀ r ∈ a, analyzeAlphaNum r = true) →
    sjisString E (a ++ b) = (sjisString E b).map (a.map UInt8.ofNat ++ ·) := by
  intro a
  induction a with
  | nil => intro b _; simp
  | cons r a ih =>
    intro b h
    rw [List.cons_append, sjisString, hA r (h r (by simp)), ih b (fun x hx => h x (by simp [hx]))]
    cases sjisString E b <;> simp

/-- In the mixed case the payload is empty. -/
theorem mixed_payload {E : Ext} (hA : E.Ascii) {raw : Bytes} (h : Mixed E raw) : toShiftJIS E raw = [] := by
  obtain ⟨a, b, hab, ha0, hb0, haa, hbb⟩ := h
  unfold toShiftJIS
  rw [hab, sjisString_alnum hA a b haa]
  have hbl : ∀ b : List Nat, (∀ r ∈ b, analyzeJP E r = true) → ∃ d, sjisString E b = some d ∧ d.length = 2 * b.length := by
    intro b
    induction b with
    | nil => intro _; exact ⟨[], rfl, rfl⟩
    | cons r b ih =>
      intro h
      obtain ⟨d, h1, h2⟩ := ih (fun x hx => h x (by simp [hx]))
      obtain ⟨_, hi, lo, hs, _⟩ := analyzeJP_iff.1 (h r (by simp))
      exact ⟨hi :: lo :: d, by simp [sjisString, hs, h1], by simp [h2]; omega⟩
  obtain ⟨d, hd, hdl⟩ := hbl b hbb
  rw [hd]
  simp only [Option.map_some]
  by_cases hpar : (a.map UInt8.ofNat ++ d).length % 2 ≠ 0
  · rw [if_pos hpar]
  · rw [if_neg hpar]
    match a, ha0, haa, hpar with
    | [x], _, _, hpar => simp at hpar; omega
    | x :: y :: a', _, haa, _ =>
      have hx := alnum_lt (haa x (by simp))
      have hy := alnum_lt (haa y (by simp))
      simp only [List.map_cons, List.cons_append, shiftJISPairs]
      have e : encodeShiftJIS (UInt8.ofNat x) (UInt8.ofNat y) = (0, 0) := by
        unfold encodeShiftJIS
        have e1 : (UInt8.ofNat x).toNat = x := by rw [UInt8.toNat_ofNat']; omega
        have e2 : (UInt8.ofNat y).toNat = y := by rw [UInt8.toNat_ofNat']; omega
        simp only [e1, e2]
        rw [if_neg (by omega), if_neg (by omega)]
      simp [e]

end QR
