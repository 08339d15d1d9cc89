import Verif.Proof.Collide
/-!
# C01, C02, C03: the symbol determines the text

Setting of all statements: `E` stands for the two external libraries (Reed-Solomon, Shift-JIS) under the contract
`E.Ok unsjis`; `c` is any reachable state of the alignment cache; `arrival` is the order in which the eight mask goroutines
deliver their scores; `t` is the type of the text; `opts` is any list of options.
`Spec.decode` is the reader of `Spec/Reader.lean`, which sees only the bitmap.

The three properties are false of the code in one corner, which is made precise here: in automatic mode a text that consists
of a nonempty alphanumeric part followed by a nonempty kanji part (for example `1漢`) is put into kanji mode, and its
payload is lost.
-/
namespace QR
open Spec

/-- **C01 (partial).** A reader that sees only the bitmap recovers exactly the bytes passed in, unless the mode was
automatic and the text is an alphanumeric part followed by a kanji part.
Full statement: without the last hypothesis (refuted by `C01_counterexample`). -/
theorem C01_roundtrip_partial {E : Ext} {unsjis : Nat → Option Nat} (hE : E.Ok unsjis) {c : AlignCache} (hc : CacheReachable c)
    {arrival : List Nat} (ha : Arrival arrival) {t : TextType} {text : Bytes} {opts : List EncodeOption} {q : QRCode}
    (h : newWith E c arrival t text opts = .ok q)
    (hx : ¬ (modeIn opts = encAuto ∧ AlnumThenKanji E.sjis (nats text))) :
    Spec.decode unsjis q.mat.bitmap = some (nats text) := by
  obtain ⟨m, v, k, p, bs, hm, hv, hp, hf, hb⟩ := ok_facts hE hc ha h
  rw [← level_applied] at hf
  refine decode_of_choice hE hp hf hb ?_
  rintro ⟨hmx, hk⟩
  apply hx
  refine ⟨?_, (mixed_iff E text).1 hmx⟩
  cases hm with
  | mixed h0 _ => exact h0
  | auto h0 _ => exact h0
  | explicit _ h0 hr => rw [hk] at hr; exact absurd hr (mixed_not_rep hmx)

/-- Every reader, however clever: no function of the bitmap recovers the text of all symbols, because two texts share
their symbols. -/
theorem C03_counterexample :
    ∃ (E : Ext) (unsjis : Nat → Option Nat), E.Ok unsjis ∧ ∃ a b : Bytes, a ≠ b ∧
      (∀ c arrival t opts, modeIn opts = encAuto →
        symbolOf (newWith E c arrival t a opts) = symbolOf (newWith E c arrival t b opts)) ∧
      ∀ c arrival, CacheReachable c → Arrival arrival → ∃ q, newWith E c arrival .string a [] = .ok q := by
  have ma : Mixed demoExt [0x31, 0xE6, 0xBC, 0xA2] := ⟨[0x31], [0x6F22], by decide +kernel, by simp, by simp, by decide, by decide +kernel⟩
  have mb : Mixed demoExt [0x32, 0xE6, 0xBC, 0xA2] := ⟨[0x32], [0x6F22], by decide +kernel, by simp, by simp, by decide, by decide +kernel⟩
  refine ⟨demoExt, demoUnsjis, demo_ok, [0x31, 0xE6, 0xBC, 0xA2], [0x32, 0xE6, 0xBC, 0xA2], by decide, ?_, ?_⟩
  · intro c arrival t opts h0
    exact mixed_collide demo_ok.ascii c arrival t h0 ma mb (by decide +kernel)
  · intro c arrival hc ha
    have hfit : ∀ lv, fits 1 lv .kanji 2 := by intro lv; cases lv <;> decide
    rcases outcome demo_ok hc (t := .string) (by simp) [0x31, 0xE6, 0xBC, 0xA2] (opts := []) (Or.inl rfl) with
      ⟨m, r, h1, _, _⟩ | ⟨m, hm, _, h2, _⟩ | ⟨m, v, p, hm, h1, h40, hv, hp, h2, _⟩ | ⟨m, v, p, bs, _, _, _, _, _, _, hs⟩
    · exact absurd h1.symm (modeNum_ne_auto m)
    · exfalso
      cases hm with
      | mixed _ _ =>
        have e : wantOf .kanji [0x31, 0xE6, 0xBC, 0xA2] = 2 := by decide +kernel
        exact h2 1 (by omega) (by omega) (by rw [e]; exact hfit _)
      | auto _ h => exact h ma
      | explicit _ h _ => exact modeNum_ne_auto _ h.symm
    · exfalso
      rcases hp with ⟨hr, _, _⟩ | ⟨_, rfl, rfl⟩
      · cases hm with
        | mixed _ _ => exact mixed_not_rep ma hr
        | auto _ h => exact h ma
        | explicit _ h _ => exact modeNum_ne_auto _ h.symm
      · have hmono := fits_mono (u := 1) (v := v) (by omega) h1 h40 (levelIn []) .kanji 2 (hfit _)
        unfold fits at hmono
        simp only [List.length_nil] at h2
        omega
    · obtain ⟨q, k, h, _⟩ := hs.built arrival ha
      exact ⟨q, h⟩

/-- **C01 refuted** in full generality: for some text, accepted with default options, the reader does not
recover the text. (In fact no reader can, by `C03_counterexample`.) -/
theorem C01_counterexample :
    ∃ (E : Ext) (unsjis : Nat → Option Nat) (c : AlignCache) (arrival : List Nat) (text : Bytes) (q : QRCode),
      E.Ok unsjis ∧ CacheReachable c ∧ Arrival arrival ∧ newWith E c arrival .string text [] = .ok q ∧
      ∀ reader : List (List Bool) → Option (List Nat), ∃ text' q', newWith E c arrival .string text' [] = .ok q' ∧
        reader q'.mat.bitmap ≠ some (nats text') := by
  obtain ⟨E, unsjis, hE, a, b, hab, hsame, hok⟩ := C03_counterexample
  obtain ⟨c, hc, _⟩ := initialCache_ok
  obtain ⟨q, hq⟩ := hok c inOrder (.start hc) inOrder_arrival
  refine ⟨E, unsjis, c, inOrder, a, q, hE, .start hc, inOrder_arrival, hq, ?_⟩
  intro reader
  have hs := hsame c inOrder .string [] rfl
  rw [hq] at hs
  cases hb : newWith E c inOrder .string b [] with
  | err e => rw [hb] at hs; cases hs
  | panic p => rw [hb] at hs; cases hs
  | ok q' =>
    rw [hb] at hs
    simp only [symbolOf, Option.some.injEq] at hs
    by_cases h1 : reader q.mat.bitmap = some (nats a)
    · refine ⟨b, q', hb, ?_⟩
      rw [← hs, h1]
      intro h
      apply hab
      rw [← ofNat_nats a, ← ofNat_nats b, Option.some.inj h]
    · exact ⟨a, q, hq, h1⟩

/-- The hypotheses of `C01_roundtrip_partial` are met, e.g. by the text `A1` with default options. -/
example : ∃ c, CacheReachable c ∧ demoExt.Ok demoUnsjis ∧ Arrival inOrder ∧
    ¬ (modeIn [] = encAuto ∧ AlnumThenKanji demoExt.sjis (nats [0x41, 0x31])) := by
  obtain ⟨c, hc, _⟩ := initialCache_ok
  refine ⟨c, .start hc, demo_ok, inOrder_arrival, ?_⟩
  rintro ⟨_, h⟩
  have h' := (mixed_iff demoExt [0x41, 0x31]).2 h
  obtain ⟨a, b, hab, _, hb0, _, hbb⟩ := h'
  have hr : runes [0x41, 0x31] = [0x41, 0x31] := by decide +kernel
  rw [hr] at hab
  obtain ⟨x, l, rfl⟩ := List.exists_cons_of_ne_nil hb0
  have h1 := hbb x (by simp)
  have h2 : x ∈ [0x41, 0x31] := by rw [hab]; simp
  have h3 : ∀ x ∈ [0x41, 0x31], analyzeJP demoExt x = false := by decide +kernel
  rw [h3 x h2] at h1
  cases h1

/-! ## C02 -/

/-- The mode indicator a reader finds in the symbol. -/
def modeInSymbol (bm : List (List Bool)) : Option Mode :=
  (readData bm).bind fun (_, _, _, bits) => Mode.ofIndicator (bitsToNat (bits.take 4))

theorem modeInSymbol_eq {E : Ext} (hE : E.Systematic) {m : Mode} {n : Nat} {p bs : Bits} {v ec k cap : Nat} {q : QRCode} {text : Bytes}
    (hf : Filled cap (segment v m n p) bs) (hb : Built E v ec k bs text q) : modeInSymbol q.mat.bitmap = some m := by
  obtain ⟨h1, h2, h3, h4⟩ := hb.read hE
  unfold modeInSymbol readData
  rw [h1]
  simp only [Option.bind_eq_bind, Option.bind_some, h2, h4]
  obtain ⟨_, t, pp, kk, e, _⟩ := hf
  have : bs.take 4 = m.indicator := by
    rw [e, segment]
    simp only [List.append_assoc]
    cases m <;> rfl
  rw [this]
  cases m <;> decide

/-- **C02 (partial).** With automatic mode selection the mode of the symbol is the first of numeric, alphanumeric, kanji,
byte that can represent the whole text, unless the text is an alphanumeric part followed by a kanji part.
Full statement: without the last hypothesis (refuted by `C02_counterexample`). -/
theorem C02_auto_mode_partial {E : Ext} {unsjis : Nat → Option Nat} (hE : E.Ok unsjis) {c : AlignCache} (hc : CacheReachable c)
    {arrival : List Nat} (ha : Arrival arrival) {t : TextType} {text : Bytes} {opts : List EncodeOption} {q : QRCode}
    (h : newWith E c arrival t text opts = .ok q) (hauto : modeIn opts = encAuto)
    (hx : ¬ AlnumThenKanji E.sjis (nats text)) :
    ∃ m, modeInSymbol q.mat.bitmap = some m ∧ FirstMode E.sjis (nats text) m := by
  obtain ⟨m, v, k, p, bs, hm, hv, hp, hf, hb⟩ := ok_facts hE hc ha h
  refine ⟨m, modeInSymbol_eq hE.rs hf hb, ?_⟩
  cases hm with
  | mixed _ h1 => exact absurd ((mixed_iff E text).1 h1) hx
  | auto _ _ => exact firstMode_best E text
  | explicit _ h0 _ => exact absurd (hauto ▸ h0).symm (modeNum_ne_auto m)

/-- **C02 refuted** for every text outside the hypothesis of `C02_auto_mode_partial`: such a text is written in kanji mode,
which cannot represent it, and whose payload is empty (the count is followed by the filling). -/
theorem C02_counterexample {E : Ext} {unsjis : Nat → Option Nat} (hE : E.Ok unsjis) {c : AlignCache} (hc : CacheReachable c)
    {arrival : List Nat} (ha : Arrival arrival) {t : TextType} {text : Bytes} {opts : List EncodeOption} {q : QRCode}
    (h : newWith E c arrival t text opts = .ok q) (hauto : modeIn opts = encAuto)
    (hx : AlnumThenKanji E.sjis (nats text)) :
    modeInSymbol q.mat.bitmap = some .kanji ∧ ¬ Encodable E.sjis .kanji (nats text) ∧
      ∃ v lv k bs, readData q.mat.bitmap = some (v, lv, k, bs) ∧
        Filled (8 * dataCodewords v lv) (Segment v .kanji (Spec.charCount .kanji (nats text)) []) bs := by
  have hmx := (mixed_iff E text).2 hx
  obtain ⟨m, v, k, p, bs, hm, hv, hp, hf, hb⟩ := ok_facts hE hc ha h
  have hk : m = .kanji := by
    cases hm with
    | mixed _ h1 => rfl
    | auto _ h1 => exact absurd hmx h1
    | explicit _ h0 _ => exact absurd (hauto ▸ h0).symm (modeNum_ne_auto m)
  subst hk
  have hp0 : p = [] := by
    rcases hp with ⟨h1, _, _⟩ | ⟨_, _, h1⟩
    · exact absurd h1 (mixed_not_rep hmx)
    · exact h1
  subst hp0
  refine ⟨modeInSymbol_eq hE.rs hf hb, fun he => mixed_not_rep hmx ((representable_iff E .kanji text).2 he), ?_⟩
  obtain ⟨h1, h2, h3, h4⟩ := hb.read hE.rs
  refine ⟨v, levelIn opts, k, bs, ?_, ?_⟩
  · unfold readData
    rw [level_applied] at h2 h4
    rw [h1]
    simp only [Option.bind_eq_bind, Option.bind_some, h2, h4]
  · rw [← wantOf_charCount (E := E) (Or.inr ⟨hmx, rfl⟩)]
    exact hf

/-! ## C03 -/

/-- **C03 (partial).** Different texts never give the same symbol, whatever the options and schedules of the two calls,
unless one of them is, in automatic mode, an alphanumeric part followed by a kanji part.
Full statement: without the last two hypotheses (refuted by `C03_counterexample`). -/
theorem C03_injective_partial {E : Ext} {unsjis : Nat → Option Nat} (hE : E.Ok unsjis) {c c' : AlignCache}
    (hc : CacheReachable c) (hc' : CacheReachable c') {arrival arrival' : List Nat} (ha : Arrival arrival) (ha' : Arrival arrival')
    {t t' : TextType} {text text' : Bytes} {opts opts' : List EncodeOption} {q q' : QRCode}
    (h : newWith E c arrival t text opts = .ok q) (h' : newWith E c' arrival' t' text' opts' = .ok q')
    (hne : text ≠ text')
    (hx : ¬ (modeIn opts = encAuto ∧ AlnumThenKanji E.sjis (nats text)))
    (hx' : ¬ (modeIn opts' = encAuto ∧ AlnumThenKanji E.sjis (nats text'))) :
    q.mat.bitmap ≠ q'.mat.bitmap := by
  intro e
  have h1 := C01_roundtrip_partial hE hc ha h hx
  have h2 := C01_roundtrip_partial hE hc' ha' h' hx'
  rw [e, h2] at h1
  apply hne
  rw [← ofNat_nats text, ← ofNat_nats text', Option.some.inj h1]

end QR
