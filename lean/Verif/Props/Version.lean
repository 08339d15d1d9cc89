import Verif.Props.Text
/-!
# C04, C05, C06: choice of the version

`fits v lv m n` (`Spec/Capacity.lean`): `n` characters in mode `m` with their mode indicator and character count
are not longer than the data codewords of a symbol of version `v` and level `lv`.
`C24_capacities` shows that the published capacities are exactly the largest such `n`.
-/
namespace QR
open Spec

/-- The mode in which a text is written under a mode option: an explicit mode that can represent it; in automatic
mode the first mode that can represent it (C02), except for an alphanumeric part followed by a kanji part. -/
def UsesMode (sjis : Nat → Option (List UInt8)) (mode : Nat) (t : List Nat) (m : Mode) : Prop :=
  (mode = modeNum m ∧ Encodable sjis m t) ∨
  (mode = encAuto ∧ ¬ AlnumThenKanji sjis t ∧ FirstMode sjis t m) ∨
  (mode = encAuto ∧ AlnumThenKanji sjis t ∧ m = .kanji)

/-- `u` is the smallest version that holds `n` characters. -/
def LeastVersion (lv : Level) (m : Mode) (n u : Nat) : Prop :=
  (1 ≤ u ∧ u ≤ 40 ∧ fits u lv m n) ∧ ∀ w, 1 ≤ w → w < u → ¬ fits w lv m n

theorem usesMode_of {E : Ext} {text : Bytes} {mode : Nat} {m : Mode} (h : ChosenMode E text mode m) :
    UsesMode E.sjis mode (nats text) m := by
  cases h with
  | mixed h0 h1 => exact Or.inr (Or.inr ⟨h0, (mixed_iff E text).1 h1, rfl⟩)
  | auto h0 h1 => exact Or.inr (Or.inl ⟨h0, fun h => h1 ((mixed_iff E text).2 h), firstMode_best E text⟩)
  | explicit _ h0 h1 => exact Or.inl ⟨h0, (representable_iff E m text).1 h1⟩

theorem usesMode_unique {sjis : Nat → Option (List UInt8)} {mode : Nat} {t : List Nat} {a b : Mode}
    (ha : UsesMode sjis mode t a) (hb : UsesMode sjis mode t b) : a = b := by
  rcases ha with ⟨h1, _⟩ | ⟨h1, h2, h3⟩ | ⟨h1, h2, h3⟩ <;> rcases hb with ⟨g1, _⟩ | ⟨g1, g2, g3⟩ | ⟨g1, g2, g3⟩
  · exact modeNum_inj (h1.symm.trans g1)
  · exact absurd (h1.symm.trans g1) (modeNum_ne_auto a)
  · exact absurd (h1.symm.trans g1) (modeNum_ne_auto a)
  · exact absurd (g1.symm.trans h1) (modeNum_ne_auto b)
  · exact firstMode_unique h3 g3
  · exact absurd g2 h2
  · exact absurd (g1.symm.trans h1) (modeNum_ne_auto b)
  · exact absurd h2 g2
  · rw [h3, g3]

theorem chosen_want {E : Ext} {text : Bytes} {mode : Nat} {m : Mode} (h : ChosenMode E text mode m) :
    wantOf m text = Spec.charCount m (nats text) := by
  rcases h.cases with h | ⟨_, h1, h2⟩
  · exact wantOf_charCount (E := E) (Or.inl h)
  · exact wantOf_charCount (E := E) (Or.inr ⟨h1, h2⟩)

/-- The room the payload takes is at most that of the counted characters. -/
theorem payload_le {E : Ext} {unsjis : Nat → Option Nat} {m : Mode} {text : Bytes} {p : Bits}
    (hp : PayloadChoice E unsjis m text p) : p.length ≤ payloadBits m (wantOf m text) := by
  rcases hp with ⟨h1, h2, _⟩ | ⟨_, _, h2⟩
  · rw [h2, wantOf_eq h1]
  · rw [h2]; exact Nat.zero_le _

/-! ## C04 -/

/-- **C04.** Without an explicit version, the version a reader finds in the symbol is the smallest one that holds the
text in the mode used, or the minimum version if that is larger. -/
theorem C04_smallest_version {E : Ext} {unsjis : Nat → Option Nat} (hE : E.Ok unsjis) {c : AlignCache} (hc : CacheReachable c)
    {arrival : List Nat} (ha : Arrival arrival) {t : TextType} {text : Bytes} {opts : List EncodeOption} {q : QRCode}
    (h : newWith E c arrival t text opts = .ok q) (hv : versionIn opts = none) :
    ∃ m u, UsesMode E.sjis (modeIn opts) (nats text) m ∧ modeInSymbol q.mat.bitmap = some m ∧
      LeastVersion (levelIn opts) m (Spec.charCount m (nats text)) u ∧
      readVersion q.mat.bitmap = some (max u (minimumIn opts)) := by
  obtain ⟨m, v, k, p, bs, hm, hvc, hp, hf, hb⟩ := ok_facts hE hc ha h
  rcases hvc with hvc | ⟨_, u, h1, h2, h3, h4, h5⟩
  · rw [hv] at hvc; cases hvc
  · rw [chosen_want hm] at h3 h4
    refine ⟨m, u, usesMode_of hm, modeInSymbol_eq hE.rs hf hb, ⟨⟨h1, h2, h3⟩, h4⟩, ?_⟩
    rw [← h5]; exact (hb.read hE.rs).1

/-- **C04.** Without an explicit version, and for a text the mode can represent, an error is returned exactly when no
version holds the text. (An explicit mode that cannot represent the text is C09.) -/
theorem C04_error_iff {E : Ext} {unsjis : Nat → Option Nat} (hE : E.Ok unsjis) {c : AlignCache} (hc : CacheReachable c)
    {arrival : List Nat} (ha : Arrival arrival) {t : TextType} (ht : t ≠ .defined) {text : Bytes} {opts : List EncodeOption}
    (hv : versionIn opts = none) {m : Mode} (hm : UsesMode E.sjis (modeIn opts) (nats text) m) :
    (∃ e, newWith E c arrival t text opts = .err e) ↔
      ∀ u, 1 ≤ u → u ≤ 40 → ¬ fits u (levelIn opts) m (Spec.charCount m (nats text)) := by
  have hs : Supported (modeIn opts) := by
    rcases hm with ⟨h, _⟩ | ⟨h, _⟩ | ⟨h, _⟩
    · exact Or.inr ⟨m, h⟩
    · exact Or.inl h
    · exact Or.inl h
  rcases outcome hE hc ht text hs with ⟨m', r, h1, h2, h3⟩ | ⟨m', h1, _, h2, h3⟩ | ⟨m', v, p, h1, hv1, h40, hvc, hp, hlt, h3⟩ | ⟨m', v, p, bs, h1, hv1, h40, hvc, hp, hle, hsu⟩
  · exfalso
    rcases hm with ⟨h, h'⟩ | ⟨h, _⟩ | ⟨h, _⟩
    · have := modeNum_inj (h1.symm.trans h); subst this
      exact h2 ((representable_iff E _ text).2 h')
    · exact modeNum_ne_auto m' (h1.symm.trans h)
    · exact modeNum_ne_auto m' (h1.symm.trans h)
  · have := usesMode_unique hm (usesMode_of h1); subst this
    rw [chosen_want h1] at h2
    exact ⟨fun _ => h2, fun _ => ⟨_, h3 arrival⟩⟩
  · exfalso
    rcases hvc with hvc | ⟨_, u, g1, g2, g3, g4, g5⟩
    · rw [hv] at hvc; cases hvc
    · have := fits_mono g1 (v := v) (by omega) h40 (levelIn opts) m' _ g3
      have hp' := payload_le hp
      unfold fits at this
      omega
  · have := usesMode_unique hm (usesMode_of h1); subst this
    obtain ⟨q, k, hq, _⟩ := hsu.built arrival ha
    rw [hq]
    constructor
    · rintro ⟨e, h⟩; cases h
    · intro hno
      exfalso
      rcases hvc with hvc | ⟨_, u, g1, g2, g3, g4, g5⟩
      · rw [hv] at hvc; cases hvc
      · rw [chosen_want h1] at g3
        exact hno u g1 g2 g3

/-! ## C05 -/

/-- **C05.** Without an explicit version the call never fails for lack of room: whatever the minimum version, the error
of an overfull stream does not occur. -/
theorem C05_never_overfull {E : Ext} {unsjis : Nat → Option Nat} (hE : E.Ok unsjis) {c : AlignCache} (hc : CacheReachable c)
    {arrival : List Nat} (ha : Arrival arrival) {t : TextType} (ht : t ≠ .defined) (text : Bytes) {opts : List EncodeOption}
    (hs : Supported (modeIn opts)) (hv : versionIn opts = none) :
    ∀ ver cap len, newWith E c arrival t text opts ≠ .err (.wrongVersionCap ver cap len) := by
  intro ver cap len h
  rcases outcome hE hc ht text hs with ⟨m', r, h1, h2, h3⟩ | ⟨m', h1, _, h2, h3⟩ | ⟨m', v, p, h1, hv1, h40, hvc, hp, hlt, h3⟩ | ⟨m', v, p, bs, h1, hv1, h40, hvc, hp, hle, hsu⟩
  · rw [h3] at h; cases h
  · rw [h3] at h; cases h
  · rcases hvc with hvc | ⟨_, u, g1, g2, g3, g4, g5⟩
    · rw [hv] at hvc; cases hvc
    · have := fits_mono g1 (v := v) (by omega) h40 (levelIn opts) m' _ g3
      have hp' := payload_le hp
      unfold fits at this
      omega
  · obtain ⟨q, k, hq, _⟩ := hsu.built arrival ha
    rw [hq] at h; cases h

/-- **C05.** The stream in an automatically versioned symbol: mode indicator, count and payload fit the version found
in the symbol, also when the minimum version raised it. -/
theorem C05_stream_fits {E : Ext} {unsjis : Nat → Option Nat} (hE : E.Ok unsjis) {c : AlignCache} (hc : CacheReachable c)
    {arrival : List Nat} (ha : Arrival arrival) {t : TextType} {text : Bytes} {opts : List EncodeOption} {q : QRCode}
    (h : newWith E c arrival t text opts = .ok q) (hv : versionIn opts = none) :
    ∃ v m, readVersion q.mat.bitmap = some v ∧ modeInSymbol q.mat.bitmap = some m ∧ minimumIn opts ≤ v ∧
      fits v (levelIn opts) m (Spec.charCount m (nats text)) := by
  obtain ⟨m, u, _, h2, ⟨⟨h3, h4, h5⟩, _⟩, h6⟩ := C04_smallest_version hE hc ha h hv
  refine ⟨_, m, h6, h2, by omega, ?_⟩
  have := (minimum_applied opts).2
  exact fits_mono h3 (by omega) (by omega) _ _ _ h5

/-! ## C06 -/

/-- **C06.** With an explicit version the call yields a symbol of exactly that version, or an error; it does not panic. -/
theorem C06_honoured {E : Ext} {unsjis : Nat → Option Nat} (hE : E.Ok unsjis) {c : AlignCache} (hc : CacheReachable c)
    {arrival : List Nat} (ha : Arrival arrival) {t : TextType} (ht : t ≠ .defined) (text : Bytes) {opts : List EncodeOption}
    (hs : Supported (modeIn opts)) {v : Nat} (hv : versionIn opts = some v) :
    (∃ q, newWith E c arrival t text opts = .ok q ∧ readVersion q.mat.bitmap = some v) ∨
    ∃ e, newWith E c arrival t text opts = .err e := by
  rcases outcome hE hc ht text hs with ⟨m', r, h1, h2, h3⟩ | ⟨m', h1, _, h2, h3⟩ | ⟨m', v', p, h1, hv1, h40, hvc, hp, hlt, h3⟩ | ⟨m', v', p, bs, h1, hv1, h40, hvc, hp, hle, hsu⟩
  · exact Or.inr ⟨_, h3 arrival⟩
  · exact Or.inr ⟨_, h3 arrival⟩
  · exact Or.inr ⟨_, h3 arrival⟩
  · left
    obtain ⟨q, k, hq, hb⟩ := hsu.built arrival ha
    refine ⟨q, hq, ?_⟩
    rcases hvc with hvc | ⟨h0, _⟩
    · rw [hv] at hvc; cases hvc; exact (hb.read hE.rs).1
    · rw [hv] at h0; cases h0

/-- **C06 (partial).** With an explicit version, an error is returned exactly when the explicit mode cannot represent the
text, or its bits exceed the version's capacity.
Full statement: without `hx` (refuted by `C06_counterexample`). -/
theorem C06_error_iff_partial {E : Ext} {unsjis : Nat → Option Nat} (hE : E.Ok unsjis) {c : AlignCache} (hc : CacheReachable c)
    {arrival : List Nat} (ha : Arrival arrival) {t : TextType} (ht : t ≠ .defined) (text : Bytes) {opts : List EncodeOption}
    (hs : Supported (modeIn opts)) {v : Nat} (hv : versionIn opts = some v)
    (hx : ¬ (modeIn opts = encAuto ∧ AlnumThenKanji E.sjis (nats text))) :
    (∃ e, newWith E c arrival t text opts = .err e) ↔
      (∃ m, modeIn opts = modeNum m ∧ ¬ Encodable E.sjis m (nats text)) ∨
      ∃ m, UsesMode E.sjis (modeIn opts) (nats text) m ∧ ¬ fits v (levelIn opts) m (Spec.charCount m (nats text)) := by
  have rep : ∀ {m}, ChosenMode E text (modeIn opts) m → Representable E m text := by
    intro m h
    rcases h.cases with h | ⟨h0, h1, _⟩
    · exact h
    · exact absurd ⟨h0, (mixed_iff E text).1 h1⟩ hx
  have vv : ∀ {m v'}, VersionChoice opts m text v' → v' = v := by
    intro m v' h
    rcases h with h | ⟨h0, _⟩
    · rw [hv] at h; exact (Option.some.inj h).symm
    · rw [hv] at h0; cases h0
  have len : ∀ {m p}, PayloadChoice E unsjis m text p → Representable E m text →
      p.length = payloadBits m (Spec.charCount m (nats text)) := by
    intro m p h hr
    rcases h with ⟨h1, h2, _⟩ | ⟨h1, h2, _⟩
    · rw [h2, countOf_charCount h1]
    · subst h2; exact absurd hr (mixed_not_rep h1)
  rcases outcome hE hc ht text hs with ⟨m', r, h1, h2, h3⟩ | ⟨m', h1, h0, h2, h3⟩ | ⟨m', v', p, h1, hv1, h40, hvc, hp, hlt, h3⟩ | ⟨m', v', p, bs, h1, hv1, h40, hvc, hp, hle, hsu⟩
  · exact ⟨fun _ => Or.inl ⟨m', h1, fun h => h2 ((representable_iff E m' text).2 h)⟩, fun _ => ⟨_, h3 arrival⟩⟩
  · rw [hv] at h0; cases h0
  · refine ⟨fun _ => Or.inr ⟨m', usesMode_of h1, ?_⟩, fun _ => ⟨_, h3 arrival⟩⟩
    rw [vv hvc, len hp (rep h1)] at hlt
    unfold fits
    omega
  · obtain ⟨q, k, hq, hb⟩ := hsu.built arrival ha
    rw [hq]
    constructor
    · rintro ⟨e, h⟩; cases h
    · rintro (⟨m, g1, g2⟩ | ⟨m, g1, g2⟩)
      · exfalso
        rcases usesMode_of h1 with ⟨f1, f2⟩ | ⟨f1, _⟩ | ⟨f1, _⟩
        · rw [modeNum_inj (g1.symm.trans f1)] at g2; exact g2 f2
        · exact modeNum_ne_auto m (g1.symm.trans f1)
        · exact modeNum_ne_auto m (g1.symm.trans f1)
      · exfalso
        have := usesMode_unique g1 (usesMode_of h1); subst this
        rw [vv hvc, len hp (rep h1)] at hle
        exact g2 hle

/-- **C06 refuted** in the excluded corner: there, no text is ever rejected under an explicit version, however long:
its payload is lost and nothing but mode and count is written. -/
theorem C06_counterexample {E : Ext} {unsjis : Nat → Option Nat} (hE : E.Ok unsjis) {c : AlignCache} (hc : CacheReachable c)
    {arrival : List Nat} (ha : Arrival arrival) {t : TextType} (ht : t ≠ .defined) (text : Bytes) {opts : List EncodeOption}
    {v : Nat} (hv : versionIn opts = some v) (h0 : modeIn opts = encAuto) (hx : AlnumThenKanji E.sjis (nats text)) :
    ∃ q, newWith E c arrival t text opts = .ok q ∧ readVersion q.mat.bitmap = some v := by
  have hmx := (mixed_iff E text).2 hx
  have hk : ∀ {m}, ChosenMode E text (modeIn opts) m → m = .kanji := by
    intro m hm
    cases hm with
    | mixed _ h1 => rfl
    | auto _ h1 => exact absurd hmx h1
    | explicit _ h1 _ => exact absurd (h0 ▸ h1).symm (modeNum_ne_auto m)
  rcases outcome hE hc ht text (opts := opts) (Or.inl h0) with ⟨m', r, h1, h2, h3⟩ | ⟨m', h1, h2, _, h3⟩ | ⟨m', v', p, h1, hv1, h40, hvc, hp, hlt, h3⟩ | ⟨m', v', p, bs, h1, hv1, h40, hvc, hp, hle, hsu⟩
  · exact absurd (h0 ▸ h1).symm (modeNum_ne_auto m')
  · rw [hv] at h2; cases h2
  · exfalso
    have e := hk h1
    subst e
    have hp0 : p = [] := by
      rcases hp with ⟨g1, _, _⟩ | ⟨_, _, g1⟩
      · exact absurd g1 (mixed_not_rep hmx)
      · exact g1
    subst hp0
    have h1fit : fits 1 (levelIn opts) .kanji 1 := by
      generalize levelIn opts = lv; cases lv <;> decide
    have := fits_mono (u := 1) (v := v') (by omega) hv1 h40 (levelIn opts) .kanji 1 h1fit
    unfold fits at this
    simp only [List.length_nil] at hlt
    omega
  · obtain ⟨q, k, hq, hb⟩ := hsu.built arrival ha
    refine ⟨q, hq, ?_⟩
    rcases hvc with hvc | ⟨h0, _⟩
    · rw [hv] at hvc; cases hvc; exact (hb.read hE.rs).1
    · rw [hv] at h0; cases h0

/-! ## The hypotheses are met -/

/-- `HELLO` with the minimum version 3: alphanumeric, needs version 1 only. -/
example : versionIn [.withMinimumVersion 3] = none ∧ minimumIn [.withMinimumVersion 3] = 3 ∧
    UsesMode demoExt.sjis (modeIn [.withMinimumVersion 3]) (nats [72, 69, 76, 76, 79]) .alnum ∧
    LeastVersion (levelIn [.withMinimumVersion 3]) .alnum (Spec.charCount .alnum (nats [72, 69, 76, 76, 79])) 1 := by
  refine ⟨rfl, rfl, ?_, ?_⟩
  · have hm : ¬ AlnumThenKanji demoExt.sjis (nats [72, 69, 76, 76, 79]) := by
      intro h
      have h' := (mixed_iff demoExt [72, 69, 76, 76, 79]).2 h
      obtain ⟨a, b, hab, _, hb0, _, hbb⟩ := h'
      have hr : runes [72, 69, 76, 76, 79] = [72, 69, 76, 76, 79] := by decide +kernel
      rw [hr] at hab
      obtain ⟨x, l, rfl⟩ := List.exists_cons_of_ne_nil hb0
      have h1 := hbb x (by simp)
      have h2 : x ∈ [72, 69, 76, 76, 79] := by rw [hab]; simp
      have h3 : ∀ x ∈ [72, 69, 76, 76, 79], analyzeJP demoExt x = false := by decide +kernel
      rw [h3 x h2] at h1
      cases h1
    refine Or.inr (Or.inl ⟨rfl, hm, ?_, ?_⟩)
    · simp only [Spec.Encodable]; decide
    · simp only [Spec.Encodable]; decide
  · refine ⟨⟨by omega, by omega, by decide⟩, ?_⟩
    intro w h1 h2; omega

/-- The corner excluded in C01, C02, C03 and C06 is real: `1漢`. -/
theorem demo_mixed : AlnumThenKanji demoExt.sjis (nats [0x31, 0xE6, 0xBC, 0xA2]) :=
  (mixed_iff demoExt _).1 ⟨[0x31], [0x6F22], by decide +kernel, by simp, by simp, by decide, by decide +kernel⟩

/-- An explicit version 5. -/
example : versionIn [.withVersion 5] = some 5 ∧ Supported (modeIn [.withVersion 5]) := ⟨rfl, Or.inl rfl⟩

end QR
