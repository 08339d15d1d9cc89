import Verif.Props.Version
/-!
# C01, exactly: which texts a reader recovers

`C01_roundtrip_partial` leaves out the texts made of an alphanumeric part followed by a kanji part, in automatic mode.  Here
is the converse: none of them is recovered.  Of the Shift-JIS table of the reader it is assumed that no two-byte code stands for
an ASCII character.
-/
namespace QR
open Spec

theorem natBits_congr {x y : Nat} : ∀ {w : Nat}, (∀ i < w, x.testBit i = y.testBit i) → natBits w x = natBits w y
  | 0, _ => rfl
  | w + 1, h => by
    rw [natBits, natBits, h w (by omega), natBits_congr (fun i hi => h i (by omega))]

theorem natBits_mod (w n : Nat) : natBits w n = natBits w (n % 2 ^ w) := by
  apply natBits_congr
  intro i hi
  rw [Nat.testBit_mod_two_pow]
  simp [hi]

theorem utf8_head {r : Nat} (h : 0x80 ≤ r) : ∃ a l, utf8 r = a :: l ∧ 0x80 ≤ a := by
  unfold utf8
  rw [if_neg (by omega)]
  by_cases h1 : r < 0x800
  · rw [if_pos h1]; exact ⟨_, _, rfl, by omega⟩
  · rw [if_neg h1]
    by_cases h2 : r < 0x10000
    · rw [if_pos h2]; exact ⟨_, _, rfl, by omega⟩
    · rw [if_neg h2]; exact ⟨_, _, rfl, by omega⟩

theorem readKanji_head {unsjis : Nat → Option Nat} (hu : ∀ s r, unsjis s = some r → 0x80 ≤ r) {n : Nat} {bs : List Bool}
    {out : List Nat} {rest : List Bool} (h : readKanji unsjis (n + 1) bs = some (out, rest)) : ∃ a l, out = a :: l ∧ 0x80 ≤ a := by
  rw [readKanji] at h
  simp only [Option.bind_eq_bind, Option.bind_eq_some_iff] at h
  obtain ⟨⟨x, b⟩, _, r, hr, ⟨t, b'⟩, _, h⟩ := h
  cases h
  obtain ⟨a, l, h1, h2⟩ := utf8_head (hu _ _ hr)
  exact ⟨a, l ++ t, by rw [h1]; rfl, h2⟩

/-- A stream that carries an empty kanji segment, whatever count it announces: what is read does not begin with ASCII. -/
theorem read_empty_kanji {unsjis : Nat → Option Nat} (hu : ∀ s r, unsjis s = some r → 0x80 ≤ r) {v n cap fuel : Nat}
    {bits : List Bool} (hf : Filled cap (segment v .kanji n []) bits) (hfuel : 2 ≤ fuel) {a : Nat} {l : List Nat}
    (h : readSegments unsjis v fuel bits = some (a :: l)) : 0x80 ≤ a := by
  obtain ⟨hlen, t, pp, k, rfl, ht, hpp, h8⟩ := hf
  obtain ⟨fuel, rfl⟩ : ∃ f, fuel = f + 2 := ⟨fuel - 2, by omega⟩
  have hsl := segment_length v .kanji n []
  generalize hR : List.replicate t false ++ List.replicate pp false ++ padPattern k = R at *
  have hbits : segment v .kanji n [] ++ List.replicate t false ++ List.replicate pp false ++ padPattern k =
      natBits 4 8 ++ (natBits (countWidth v .kanji) (n % 2 ^ countWidth v .kanji) ++ R) := by
    rw [← hR, segment, numBits_eq, ← natBits_mod]
    have e : Mode.kanji.indicator = natBits 4 8 := by decide
    rw [e]
    simp [List.append_assoc]
  rw [hbits] at hlen h
  have hRlen : R.length = cap - (segment v .kanji n []).length := by
    have := hlen
    rw [List.length_append, List.length_append, natBits_length, natBits_length] at this
    simp only [List.length_nil] at hsl
    omega
  have hend : readSegments unsjis v (fuel + 1) R = some [] := by
    rw [readSegments]
    by_cases h4 : R.length < 4
    · rw [if_pos h4]
    · rw [if_neg h4]
      have ht4 : t = 4 := by omega
      have : takeBits 4 R = some (0, R.drop 4) := by
        rw [← hR, ht4]
        have e : List.replicate 4 false = natBits 4 0 := by decide
        rw [e, List.append_assoc, takeBits_natBits _ (by decide), List.drop_left' (natBits_length 4 0)]
      rw [this]
      simp
  rw [readSegments, if_neg (by rw [List.length_append, natBits_length]; omega), takeBits_natBits _ (by decide)] at h
  simp only [Option.bind_eq_bind, Option.bind_some] at h
  rw [if_neg (by decide), show Mode.ofIndicator 8 = some .kanji from rfl] at h
  simp only [Option.bind_some] at h
  rw [takeBits_natBits _ (Nat.mod_lt _ (Nat.two_pow_pos _))] at h
  simp only [Option.bind_some] at h
  cases hn : n % 2 ^ countWidth v .kanji with
  | zero =>
    rw [hn, readKanji] at h
    simp only [Option.bind_some, hend] at h
    cases h
  | succ n' =>
    rw [hn] at h
    simp only [Option.bind_eq_some_iff] at h
    obtain ⟨⟨out, b⟩, h1, t', _, h⟩ := h
    obtain ⟨a', l', rfl, h'⟩ := readKanji_head hu h1
    cases h
    exact h'

/-- **C01, exactly.**  A reader (with a Shift-JIS table in which no two-byte code means an ASCII character) recovers the text
of a symbol if and only if it is not the case that the mode was automatic and the text is an alphanumeric part followed by a
kanji part. -/
theorem C01_exact {E : Ext} {unsjis : Nat → Option Nat} (hE : E.Ok unsjis) (hu : ∀ s r, unsjis s = some r → 0x80 ≤ r)
    {c : AlignCache} (hc : CacheReachable c) {arrival : List Nat} (ha : Arrival arrival) {t : TextType} {text : Bytes}
    {opts : List EncodeOption} {q : QRCode} (h : newWith E c arrival t text opts = .ok q) :
    Spec.decode unsjis q.mat.bitmap = some (nats text) ↔ ¬ (modeIn opts = encAuto ∧ AlnumThenKanji E.sjis (nats text)) := by
  refine ⟨?_, C01_roundtrip_partial hE hc ha h⟩
  rintro hd ⟨h0, hx⟩
  obtain ⟨m, v, k, p, bs, hm, hv, hp, hf, hb⟩ := ok_facts hE hc ha h
  have hmx := (mixed_iff E text).2 hx
  have hmk : m = .kanji ∧ p = [] := by
    have hk : m = .kanji := by
      cases hm with
      | mixed _ _ => rfl
      | auto _ h => exact absurd hmx h
      | explicit m h1 _ => rw [h0] at h1; exact absurd h1.symm (modeNum_ne_auto _)
    rcases hp with ⟨hr, _⟩ | ⟨_, _, h2⟩
    · rw [hk] at hr; exact absurd hr (mixed_not_rep hmx)
    · exact ⟨hk, h2⟩
  obtain ⟨rfl, rfl⟩ := hmk
  obtain ⟨a, b, hab, ha0, _, hal, _⟩ := hx
  obtain ⟨x, a', rfl⟩ := List.exists_cons_of_ne_nil ha0
  have hlt : x < 0x80 := by
    have : ∀ y ∈ alnumChars, y < 0x80 := by decide
    exact this x (hal x (by simp))
  rw [hab] at hd
  rw [← level_applied] at hf
  obtain ⟨h1, h2, h3, h4⟩ := hb.read hE.rs
  unfold Spec.decode at hd
  rw [h1] at hd
  simp only [Option.bind_eq_bind, Option.bind_some, h2, h4] at hd
  have hfu : 2 ≤ bs.length + 1 := by
    have := hf.1
    have h5 := segment_length v .kanji (countOf .kanji text) []
    obtain ⟨_, t, pp, kk, e, _⟩ := hf
    rw [e]
    simp only [List.length_append]
    omega
  have := read_empty_kanji hu hf hfu hd
  omega

/-- **C03, the collisions.**  Any two texts made of an alphanumeric part followed by a kanji part, with equally many characters,
give the same symbol (in automatic mode, with the same other options, in every schedule). -/
theorem C03_collisions {E : Ext} {unsjis : Nat → Option Nat} (hE : E.Ok unsjis) (c : AlignCache) (arrival : List Nat) (t : TextType)
    {a b : Bytes} {opts : List EncodeOption} (h0 : modeIn opts = encAuto) (ha : AlnumThenKanji E.sjis (nats a))
    (hb : AlnumThenKanji E.sjis (nats b)) (hab : Spec.charCount .kanji (nats a) = Spec.charCount .kanji (nats b)) :
    symbolOf (newWith E c arrival t a opts) = symbolOf (newWith E c arrival t b opts) := by
  have ma := (mixed_iff E a).2 ha
  have mb := (mixed_iff E b).2 hb
  refine mixed_collide hE.ascii c arrival t h0 ma mb ?_
  rw [← wantOf_charCount (E := E) (Or.inr ⟨ma, rfl⟩), ← wantOf_charCount (E := E) (Or.inr ⟨mb, rfl⟩)] at hab
  exact hab

/-- The assumption on the table is met by the demonstration table. -/
example : (∀ s r, demoUnsjis s = some r → 0x80 ≤ r) := by
  intro s r h
  unfold demoUnsjis at h
  split at h <;> (try cases h) <;> first | decide | (split at h <;> cases h; decide)

end QR
