import Verif.Spec.Limits
import Verif.Props.Symbol
import Verif.Props.Total
/-!
# C90 - C92: how much fits, and how large the symbol is
-/
namespace QR
open Spec

/-! ## C90 -/

theorem max_fits : ∀ lv ∈ Level.all, ∀ m ∈ [Mode.numeric, .alnum, .byte, .kanji], fits 40 lv m (maxChars lv m) ∧ ¬ fits 40 lv m (maxChars lv m + 1) := by decide +kernel

/-- `n` characters fit some version exactly if they fit version 40, and that is exactly if there are at most `maxChars` of them. -/
theorem some_fits_iff (lv : Level) (m : Mode) (n : Nat) : (∃ u, 1 ≤ u ∧ u ≤ 40 ∧ fits u lv m n) ↔ n ≤ maxChars lv m := by
  obtain ⟨h1, h2⟩ := max_fits lv (by cases lv <;> decide) m (by cases m <;> decide)
  constructor
  · rintro ⟨u, hu, hu', hf⟩
    by_contra hn
    have := payloadBits_mono m (a := maxChars lv m + 1) (b := n) (by omega)
    have hf' := fits_mono hu hu' (by decide) lv m n hf
    exact h2 (by unfold fits at hf' ⊢; omega)
  · intro hn
    have := payloadBits_mono m hn
    exact ⟨40, by decide, by decide, by unfold fits at h1 ⊢; omega⟩

theorem usesMode_supported {sjis : Nat → Option (List UInt8)} {mode : Nat} {t : List Nat} {m : Mode} (h : UsesMode sjis mode t m) : Supported mode := by
  rcases h with ⟨h, _⟩ | ⟨h, _⟩ | ⟨h, _⟩
  · exact Or.inr ⟨m, h⟩
  · exact Or.inl h
  · exact Or.inl h

/-- **C90.** Without an explicit version, a text that is written in mode `m` is accepted if it has at most as many characters as the standard's table gives for version 40, the level asked for and
this mode, and refused with an error if it has more. -/
theorem C90_capacity {E : Ext} {unsjis : Nat → Option Nat} (hE : E.Ok unsjis) {c : AlignCache} (hc : CacheReachable c) {arrival : List Nat} (ha : Arrival arrival)
    {t : TextType} (ht : t ≠ .defined) {text : Bytes} {opts : List EncodeOption} (hv : versionIn opts = none) {m : Mode} (hm : UsesMode E.sjis (modeIn opts) (nats text) m) :
    (Spec.charCount m (nats text) ≤ maxChars (levelIn opts) m → ∃ q, newWith E c arrival t text opts = .ok q) ∧
    (maxChars (levelIn opts) m < Spec.charCount m (nats text) → ∃ e, newWith E c arrival t text opts = .err e) := by
  have hk := C04_error_iff hE hc ha ht hv hm
  have hs := some_fits_iff (levelIn opts) m (Spec.charCount m (nats text))
  constructor
  · intro hn
    obtain ⟨u, h1, h2, h3⟩ := hs.2 hn
    rcases C07_newWith_no_panic hE hc ha ht text (usesMode_supported hm) with h | h
    · exact h
    · exact absurd h3 (hk.1 h u h1 h2)
  · intro hn
    refine hk.2 fun u h1 h2 h3 => ?_
    have := hs.1 ⟨u, h1, h2, h3⟩
    omega

/-! ## C91 -/

theorem data_mono : ∀ a ∈ Level.all, ∀ b ∈ Level.all, a.strength ≤ b.strength → ∀ v ∈ List.range 41, dataCodewords v b ≤ dataCodewords v a := by decide +kernel

theorem fits_weaker {v : Nat} (hv : v ≤ 40) {a b : Level} (h : a.strength ≤ b.strength) (m : Mode) {n k : Nat} (hn : n ≤ k) (hf : fits v b m k) : fits v a m n := by
  have h1 := data_mono a (by cases a <;> decide) b (by cases b <;> decide) h v (by simp; omega)
  have h2 := payloadBits_mono m hn
  unfold fits at *
  omega

theorem least_le {a b : Level} {m m' : Mode} {n k u w : Nat} (hu : LeastVersion a m n u) (hw : LeastVersion b m' k w) (h : fits w b m' k → fits w a m n) : u ≤ w := by
  by_contra hlt
  exact hu.2 w hw.1.1 (by omega) (h hw.1.2.2)

/-- The side of the symbol of a text without an explicit version. -/
theorem side_of {E : Ext} {unsjis : Nat → Option Nat} (hE : E.Ok unsjis) {c : AlignCache} (hc : CacheReachable c) {arrival : List Nat} (ha : Arrival arrival)
    {t : TextType} {text : Bytes} {opts : List EncodeOption} {q : QRCode} (h : newWith E c arrival t text opts = .ok q) (hv : versionIn opts = none) {m : Mode}
    (hm : UsesMode E.sjis (modeIn opts) (nats text) m) :
    ∃ u, LeastVersion (levelIn opts) m (Spec.charCount m (nats text)) u ∧ q.dimension = 17 + 4 * max u (minimumIn opts) := by
  obtain ⟨v, hcv, hd, _⟩ := C11_dimension hE hc ha h
  rcases hcv with h' | ⟨_, m', u, h1, h2, h3⟩
  · rw [hv] at h'; cases h'
  · have := usesMode_unique hm h1
    subst this
    exact ⟨u, h2, by rw [hd, h3]⟩

/-- **C91.** Longer texts and higher levels never give smaller symbols: of two calls without an explicit version that write their texts in the same mode, the one whose text has no more characters, whose
level is no higher and whose minimum version is no larger succeeds if the other does, and its symbol is no larger. -/
theorem C91_monotone {E : Ext} {unsjis : Nat → Option Nat} (hE : E.Ok unsjis) {c c' : AlignCache} (hc : CacheReachable c) (hc' : CacheReachable c')
    {arrival arrival' : List Nat} (ha : Arrival arrival) (ha' : Arrival arrival') {t t' : TextType} (ht : t ≠ .defined) {text text' : Bytes} {opts opts' : List EncodeOption}
    (hv : versionIn opts = none) (hv' : versionIn opts' = none) {m : Mode} (hm : UsesMode E.sjis (modeIn opts) (nats text) m) (hm' : UsesMode E.sjis (modeIn opts') (nats text') m)
    (hn : Spec.charCount m (nats text) ≤ Spec.charCount m (nats text')) (hl : (levelIn opts).strength ≤ (levelIn opts').strength) (hmin : minimumIn opts ≤ minimumIn opts')
    {q' : QRCode} (hq' : newWith E c' arrival' t' text' opts' = .ok q') :
    ∃ q, newWith E c arrival t text opts = .ok q ∧ q.dimension ≤ q'.dimension := by
  obtain ⟨w, hw, hd'⟩ := side_of hE hc' ha' hq' hv' hm'
  rcases C07_newWith_no_panic hE hc ha ht text (usesMode_supported hm) with ⟨q, hq⟩ | he
  · obtain ⟨u, hu, hd⟩ := side_of hE hc ha hq hv hm
    have := least_le hu hw (fits_weaker hw.1.2.1 hl m hn)
    exact ⟨q, hq, by omega⟩
  · exact absurd (fits_weaker hw.1.2.1 hl m hn hw.1.2.2) ((C04_error_iff hE hc ha ht hv hm).1 he w hw.1.1 hw.1.2.1)

/-! ## C92 -/

theorem utf8_kanji {sjis : Nat → Option (List UInt8)} {r : Nat} (h : kanjiChar sjis r) : (utf8 r).length = 3 := by
  have h1 := h.1
  unfold isIdeograph at h1
  unfold utf8
  rw [if_neg (by omega), if_neg (by omega), if_pos (by omega)]
  rfl

theorem kanji_length {sjis : Nat → Option (List UInt8)} : ∀ rs : List Nat, (∀ r ∈ rs, kanjiChar sjis r) → (rs.flatMap utf8).length = 3 * rs.length := by
  intro rs
  induction rs with
  | nil => intro _; rfl
  | cons r rs ih =>
    intro h
    rw [List.flatMap_cons, List.length_append, utf8_kanji (h r (by simp)), ih fun r hr => h r (by simp [hr]), List.length_cons]
    omega

theorem count_ascii {t : List Nat} (h : ∀ b ∈ t, b < 128) : t.countP (fun b => decide (b / 64 ≠ 2)) = t.length := by
  refine List.countP_eq_length.2 fun b hb => ?_
  have := h b hb
  simp only [decide_eq_true_eq]
  omega

theorem alnum_ascii : ∀ b ∈ alnumChars, b < 128 := by decide +kernel

theorem digit_ascii {t : List Nat} (h : ∀ b ∈ t, 48 ≤ b ∧ b ≤ 57) : ∀ b ∈ t, b < 128 := fun b hb => by have := h b hb; omega

theorem empty_fits : ∀ v ∈ List.range 41, 1 ≤ v → ∀ lv ∈ Level.all, ∀ m ∈ [Mode.numeric, .alnum, .byte, .kanji], fits v lv m 0 := by decide +kernel

theorem kanji_ascii_false {sjis : Nat → Option (List UInt8)} {t : List Nat} (hne : t ≠ []) (h : Encodable sjis .kanji t) (ha : ∀ b ∈ t, b < 128) : False := by
  obtain ⟨rs, rfl, hk⟩ := h
  cases rs with
  | nil => exact hne rfl
  | cons r rs =>
    have h1 := (hk r (by simp)).1
    unfold isIdeograph at h1
    have hu : utf8 r = [0xE0 + r / 4096, 0x80 + r / 64 % 64, 0x80 + r % 64] := by
      unfold utf8
      rw [if_neg (by omega), if_neg (by omega), if_pos (by omega)]
    have := ha (0xE0 + r / 4096) (by rw [List.flatMap_cons, hu]; simp)
    omega

theorem widths {v : Nat} : countWidth v .numeric ≤ countWidth v .alnum + 1 ∧ countWidth v .numeric ≤ countWidth v .byte + 2 ∧
    countWidth v .alnum ≤ countWidth v .byte + 1 ∧ countWidth v .kanji ≤ countWidth v .byte := by
  simp only [countWidth]
  split
  · omega
  · split <;> omega

/-- What fits in a mode the text can be written in fits in the first such mode. -/
theorem fits_first {E : Ext} {t : List Nat} {m m' : Mode} (hm : FirstMode E.sjis t m) (hm' : Encodable E.sjis m' t) {v : Nat} (hv : 1 ≤ v) (hv' : v ≤ 40) (lv : Level)
    (hf : fits v lv m' (Spec.charCount m' t)) : fits v lv m (Spec.charCount m t) := by
  by_cases hne : t = []
  · subst hne
    have : Spec.charCount m [] = 0 := by cases m <;> rfl
    rw [this]
    exact empty_fits v (by simp; omega) hv lv (by cases lv <;> decide) m (by cases m <;> decide)
  obtain ⟨w1, w2, w3, w4⟩ := widths (v := v)
  have hpos : 1 ≤ t.length := by
    cases t with
    | nil => exact absurd rfl hne
    | cons a t => simp
  obtain ⟨he, hfirst⟩ := hm
  cases m <;> cases m' <;> simp only at hfirst
  all_goals first | exact hf | exact absurd hm' hfirst | exact absurd hm' hfirst.1 | exact absurd hm' hfirst.2.1 | exact absurd hm' hfirst.2.2 | exact absurd hm' hfirst.2 | skip
  · simp only [Spec.charCount] at *
    rw [count_ascii (digit_ascii he)] at *
    unfold fits at *
    simp only [payloadBits] at *
    split <;> (try split) <;> omega
  · simp only [Spec.charCount] at *
    rw [count_ascii (digit_ascii he)] at *
    unfold fits at *
    simp only [payloadBits] at *
    split <;> (try split) <;> omega
  · exact absurd (kanji_ascii_false hne hm' (digit_ascii he)) id
  · simp only [Spec.charCount] at *
    rw [count_ascii fun b hb => alnum_ascii b (he b hb)] at *
    unfold fits at *
    simp only [payloadBits] at *
    omega
  · exact absurd (kanji_ascii_false hne hm' fun b hb => alnum_ascii b (he b hb)) id
  · obtain ⟨rs, h1, h2⟩ := he
    have hl := kanji_length rs h2
    have hn : Spec.charCount .kanji t = rs.length := by
      simp only [Spec.charCount]
      rw [h1]
      exact countP_utf8 rs fun r hr => kanji_scalar (h2 r hr)
    rw [hn]
    simp only [Spec.charCount] at hf
    rw [h1, hl] at hf
    unfold fits at *
    simp only [payloadBits] at *
    omega

/-- **C92.** If a text is accepted in some mode given explicitly, it is accepted in automatic mode with the same level and minimum version, and the symbol is no larger.  The exception are the texts of an
alphanumeric part followed by a kanji part. -/
theorem C92_automatic_partial {E : Ext} {unsjis : Nat → Option Nat} (hE : E.Ok unsjis) {c c' : AlignCache} (hc : CacheReachable c) (hc' : CacheReachable c')
    {arrival arrival' : List Nat} (ha : Arrival arrival) (ha' : Arrival arrival') {t : TextType} (ht : t ≠ .defined) {text : Bytes} {opts opts' : List EncodeOption}
    (hx : ¬ AlnumThenKanji E.sjis (nats text)) (hauto : modeIn opts = encAuto) (hexp : modeIn opts' ≠ encAuto)
    (hv : versionIn opts = none) (hv' : versionIn opts' = none) (hl : levelIn opts = levelIn opts') (hmin : minimumIn opts = minimumIn opts')
    {q' : QRCode} (hq' : newWith E c' arrival' t text opts' = .ok q') :
    ∃ q, newWith E c arrival t text opts = .ok q ∧ q.dimension ≤ q'.dimension := by
  obtain ⟨m', u', hm', _⟩ := C04_smallest_version hE hc' ha' hq' hv'
  obtain ⟨w, hw, hd'⟩ := side_of hE hc' ha' hq' hv' hm'
  have he' : Encodable E.sjis m' (nats text) := by
    rcases hm' with ⟨_, h⟩ | ⟨h, _⟩ | ⟨h, _⟩
    · exact h
    · exact absurd h hexp
    · exact absurd h hexp
  have hm : UsesMode E.sjis (modeIn opts) (nats text) (bestMode E text) := Or.inr (Or.inl ⟨hauto, hx, firstMode_best E text⟩)
  have hfit : fits w (levelIn opts') m' (Spec.charCount m' (nats text)) → fits w (levelIn opts) (bestMode E text) (Spec.charCount (bestMode E text) (nats text)) := by
    rw [hl]
    exact fits_first (firstMode_best E text) he' hw.1.1 hw.1.2.1 _
  rcases C07_newWith_no_panic hE hc ha ht text (usesMode_supported hm) with ⟨q, hq⟩ | he
  · obtain ⟨u, hu, hd⟩ := side_of hE hc ha hq hv hm
    have := least_le hu hw hfit
    exact ⟨q, hq, by omega⟩
  · exact absurd (hfit hw.1.2.2) ((C04_error_iff hE hc ha ht hv hm).1 he w hw.1.1 hw.1.2.1)

/-- Fifty letters and a kanji. -/
def lettersKanji : Bytes := List.replicate 50 0x41 ++ [0xE6, 0xBC, 0xA2]

theorem letters_kanji : AlnumThenKanji demoExt.sjis (nats lettersKanji) := by
  refine ⟨List.replicate 50 0x41, [0xE6, 0xBC, 0xA2], by decide, by decide, by decide, ?_, [0x6F22], by decide, ?_⟩
  · intro b hb
    have := List.eq_of_mem_replicate hb
    subst this
    decide
  · intro r hr
    rw [List.mem_singleton.1 hr]
    exact ⟨.inl (by decide), 0x8A, 0xBF, rfl, .inl (by decide)⟩

theorem least_unique {lv : Level} {m : Mode} {n u w : Nat} (hu : LeastVersion lv m n u) (hw : LeastVersion lv m n w) : u = w := by
  have h1 := least_le hu hw id
  have h2 := least_le hw hu id
  omega

/-- **C92 is false of texts of an alphanumeric part followed by a kanji part.**  Fifty letters and a kanji give a symbol of version 7 in automatic mode and one of version 5 in byte mode. -/
theorem C92_counterexample {c c' : AlignCache} (hc : CacheReachable c) (hc' : CacheReachable c') {arrival arrival' : List Nat} (ha : Arrival arrival) (ha' : Arrival arrival') :
    ∃ q q', newWith demoExt c arrival .string lettersKanji [] = .ok q ∧ newWith demoExt c' arrival' .string lettersKanji [.withEncodingMode encByte] = .ok q' ∧
      q.dimension = 45 ∧ q'.dimension = 37 := by
  have hm : UsesMode demoExt.sjis (modeIn []) (nats lettersKanji) .kanji := Or.inr (Or.inr ⟨rfl, letters_kanji, rfl⟩)
  have hm' : UsesMode demoExt.sjis (modeIn [.withEncodingMode encByte]) (nats lettersKanji) .byte := Or.inl ⟨by decide, trivial⟩
  obtain ⟨q, hq⟩ := (C90_capacity demo_ok hc ha (t := .string) (by decide) (text := lettersKanji) (opts := []) (by decide) hm).1 (by decide +kernel)
  obtain ⟨q', hq'⟩ := (C90_capacity demo_ok hc' ha' (t := .string) (by decide) (text := lettersKanji) (opts := [.withEncodingMode encByte]) (by decide) hm').1 (by decide +kernel)
  obtain ⟨u, hu, hd⟩ := side_of demo_ok hc ha hq (by decide) hm
  obtain ⟨w, hw, hd'⟩ := side_of demo_ok hc' ha' hq' (by decide) hm'
  have e1 : u = 7 := least_unique hu (by
    refine ⟨⟨by decide, by decide, by decide +kernel⟩, ?_⟩
    have : ∀ w ∈ List.range 7, 1 ≤ w → ¬ fits w (levelIn []) .kanji (Spec.charCount .kanji (nats lettersKanji)) := by decide +kernel
    exact fun w h1 h2 => this w (by simp; omega) h1)
  have e2 : w = 5 := least_unique hw (by
    refine ⟨⟨by decide, by decide, by decide +kernel⟩, ?_⟩
    have : ∀ w ∈ List.range 5, 1 ≤ w → ¬ fits w (levelIn [.withEncodingMode encByte]) .byte (Spec.charCount .byte (nats lettersKanji)) := by decide +kernel
    exact fun w h1 h2 => this w (by simp; omega) h1)
  subst e1 e2
  exact ⟨q, q', hq, hq', by rw [hd]; decide, by rw [hd']; decide⟩

end QR
