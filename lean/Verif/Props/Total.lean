import Verif.Props.Version
/-!
# C07, C08, C09: no panics, rejected inputs
-/
namespace QR
open Spec

/-! ## C07 -/

/-- **C07.** For texts of type `string` and `[]byte` and supported modes, `NewWith` returns a code or an error:
it never panics, whatever the text, the options, the cache state and the schedule. -/
theorem C07_newWith_no_panic {E : Ext} {unsjis : Nat → Option Nat} (hE : E.Ok unsjis) {c : AlignCache} (hc : CacheReachable c)
    {arrival : List Nat} (ha : Arrival arrival) {t : TextType} (ht : t ≠ .defined) (text : Bytes) {opts : List EncodeOption}
    (hs : Supported (modeIn opts)) : (∃ q, newWith E c arrival t text opts = .ok q) ∨ ∃ e, newWith E c arrival t text opts = .err e := by
  rcases outcome hE hc ht text hs with ⟨_, _, _, _, h3⟩ | ⟨_, _, _, _, h3⟩ | ⟨_, _, _, _, _, _, _, _, _, h3⟩ | ⟨_, _, _, _, _, _, _, _, _, _, hsu⟩
  · exact Or.inr ⟨_, h3 arrival⟩
  · exact Or.inr ⟨_, h3 arrival⟩
  · exact Or.inr ⟨_, h3 arrival⟩
  · obtain ⟨q, k, hq, _⟩ := hsu.built arrival ha
    exact Or.inl ⟨q, hq⟩

/-- `New` is `NewWith` without options. -/
theorem new_eq (E : Ext) (c : AlignCache) (arrival : List Nat) (t : TextType) (text : Bytes) :
    new E c arrival t text = newWith E c arrival t text [] := by
  cases t <;> rfl

/-- **C07** for `New`. -/
theorem C07_new_no_panic {E : Ext} {unsjis : Nat → Option Nat} (hE : E.Ok unsjis) {c : AlignCache} (hc : CacheReachable c)
    {arrival : List Nat} (ha : Arrival arrival) {t : TextType} (ht : t ≠ .defined) (text : Bytes) :
    (∃ q, new E c arrival t text = .ok q) ∨ ∃ e, new E c arrival t text = .err e := by
  rw [new_eq]; exact C07_newWith_no_panic hE hc ha ht text (Or.inl rfl)

/-- The empty text succeeds, in every schedule. -/
example {c : AlignCache} (hc : CacheReachable c) {arrival : List Nat} (ha : Arrival arrival) :
    ∃ q, new demoExt c arrival .string [] = .ok q := by
  rcases C07_new_no_panic demo_ok hc ha (t := .string) (by simp) [] with h | h
  · exact h
  · exfalso
    rw [new_eq] at h
    have hm : UsesMode demoExt.sjis (modeIn []) (nats []) .numeric := by
      refine Or.inr (Or.inl ⟨rfl, ?_, ?_, trivial⟩)
      · rintro ⟨a, b, hab, ha0, _⟩
        exact ha0 (List.append_eq_nil_iff.1 hab.symm).1
      · intro b hb; cases hb
    exact (C04_error_iff demo_ok hc ha (by simp) rfl hm).1 h 1 (by omega) (by omega) (by decide)

/-! ## C08 -/

/-- **C08 refuted**, first half: a text of a defined type with underlying type `string` or `[]byte` always panics,
although the type constraint `~string | ~[]byte` admits it. -/
theorem C08_defined_type_panics (E : Ext) (c : AlignCache) (arrival : List Nat) (text : Bytes) (opts : List EncodeOption) :
    newWith E c arrival .defined text opts = .panic .unreachableType ∧ new E c arrival .defined text = .panic .unreachableType := ⟨rfl, rfl⟩

/-- What happens with an unsupported mode: without an explicit version an error, with one a panic. -/
theorem C08_unsupported_mode (E : Ext) (c : AlignCache) (arrival : List Nat) {t : TextType} (ht : t ≠ .defined) (text : Bytes)
    {opts : List EncodeOption} (hs : ¬ Supported (modeIn opts)) :
    newWith E c arrival t text opts =
      if versionIn opts = none then .err .missMatchedEncodeType else .panic .unsupportedMode := by
  have h0 : modeIn opts ≠ encAuto := fun h => hs (Or.inl h)
  have hm : ∀ m, modeIn opts ≠ modeNum m := fun m h => hs (Or.inr ⟨m, h⟩)
  have hcm : capMark = fun (c : Capacity) (mode : Nat) => capMark c mode := rfl
  rw [newWith_eq E c arrival ht text opts]
  have hl := (optOk_applyOptions opts).level
  have hch : chooseMode E text (applyOptions opts) = .ok (modeIn opts) := by
    unfold chooseMode
    rw [mode_applied, if_neg h0, validate_unsupported hm]
  unfold build init
  rw [hch]
  simp only [Res.bind_ok]
  rcases version_applied opts with ⟨hv0, hvn⟩ | ⟨w, hw1, hw40, hvw, hvs⟩
  · have : calcVersionNumber text { applyOptions opts with encMode := modeIn opts } = .err .missMatchedEncodeType := by
      unfold calcVersionNumber
      rw [if_neg (by simp only; omega)]
      have hloop : ∀ i : Nat, i < 160 → ∀ want n, analyzeVersionLoop (modeIn opts) want (n + 1) i = .err .missMatchedEncodeType := by
        intro i hi want n
        have hi' : i < versions.length := by rw [versions_length]; exact hi
        have h1 := hm .numeric
        have h2 := hm .alnum
        have h3 := hm .kanji
        have h4 := hm .byte
        simp only [modeNum] at h1 h2 h3 h4
        have : ∀ cp, capMark cp (modeIn opts) = none := by
          intro cp; unfold capMark; simp [h1, h2, h3, h4]
        unfold analyzeVersionLoop
        rw [List.getElem?_eq_getElem hi']
        simp only [this]
      have : analyzeVersion text (applyOptions opts).ecLevel (modeIn opts) = .err .missMatchedEncodeType := by
        unfold analyzeVersion
        have : (applyOptions opts).ecLevel = 1 ∨ (applyOptions opts).ecLevel = 2 ∨ (applyOptions opts).ecLevel = 3 ∨ (applyOptions opts).ecLevel = 4 := by omega
        rcases this with e | e | e | e <;> rw [e] <;> simp only [ecLow, ecMedium, ecQuart, ecHighest]
        · exact hloop 0 (by omega) _ 39
        · exact hloop 1 (by omega) _ 39
        · exact hloop 2 (by omega) _ 39
        · exact hloop 3 (by omega) _ 39
      simp only [this, Res.bind_err]
    rw [this]
    simp only [Res.bind_err, hvn, if_true]
  · have : calcVersionNumber text { applyOptions opts with encMode := modeIn opts } = .ok (w : Int) := by
      unfold calcVersionNumber
      simp only
      rw [if_pos ⟨by omega, by omega, by unfold ecLow; omega, by unfold ecHighest; omega⟩, hvw]
    rw [this]
    simp only [Res.bind_ok]
    obtain ⟨V, hV, _⟩ := loadVersion_ok hw1 hw40 (ec := (applyOptions opts).ecLevel.toNat) (by omega) (by omega)
    have e : (((applyOptions opts).ecLevel.toNat : Nat) : Int) = (applyOptions opts).ecLevel := by omega
    rw [e] at hV
    rw [hV]
    simp only [Res.bind_ok, newEncoder_unsupported hm, Res.bind_panic, hvs]
    rw [if_neg (by simp)]

/-- **C08 refuted**, second half: an unsupported mode together with a valid explicit version panics. -/
theorem C08_counterexample (E : Ext) (c : AlignCache) (arrival : List Nat) (text : Bytes) :
    newWith E c arrival .string text [.withEncodingMode 3, .withVersion 1] = .panic .unsupportedMode := by
  rw [C08_unsupported_mode E c arrival (by simp) text (by
    rintro (h | ⟨m, h⟩)
    · exact absurd h (by decide)
    · cases m <;> exact absurd h (by decide))]
  rfl

/-- **C08 (partial).** The exact set of panicking calls: a call panics iff the text has a defined type, or the mode is
unsupported and a version was given; all other calls return a code or an error.
Full statement: no call panics (refuted above). -/
theorem C08_no_panic_partial {E : Ext} {unsjis : Nat → Option Nat} (hE : E.Ok unsjis) {c : AlignCache} (hc : CacheReachable c)
    {arrival : List Nat} (ha : Arrival arrival) (t : TextType) (text : Bytes) (opts : List EncodeOption) :
    (∃ p, newWith E c arrival t text opts = .panic p) ↔
      t = .defined ∨ (¬ Supported (modeIn opts) ∧ versionIn opts ≠ none) := by
  by_cases ht : t = .defined
  · subst ht
    exact ⟨fun _ => Or.inl rfl, fun _ => ⟨_, (C08_defined_type_panics E c arrival text opts).1⟩⟩
  · by_cases hs : Supported (modeIn opts)
    · constructor
      · rintro ⟨p, h⟩
        rcases C07_newWith_no_panic hE hc ha ht text hs with ⟨q, h'⟩ | ⟨e, h'⟩ <;> rw [h'] at h <;> cases h
      · rintro (h | ⟨h, _⟩)
        · exact absurd h ht
        · exact absurd hs h
    · rw [C08_unsupported_mode E c arrival ht text hs]
      by_cases hv : versionIn opts = none
      · rw [if_pos hv]
        constructor
        · rintro ⟨p, h⟩; cases h
        · rintro (h | ⟨_, h⟩)
          · exact absurd h ht
          · exact absurd hv h
      · rw [if_neg hv]
        exact ⟨fun _ => Or.inr ⟨hs, hv⟩, fun _ => ⟨_, rfl⟩⟩

/-! ## C09 -/

/-- **C09.** With an explicit mode the call is rejected for a character exactly when the text is not in that mode's
repertoire; the rejection does not depend on capacity. -/
theorem C09_rejects_iff {E : Ext} {unsjis : Nat → Option Nat} (hE : E.Ok unsjis) {c : AlignCache} (hc : CacheReachable c)
    {arrival : List Nat} (ha : Arrival arrival) {t : TextType} (ht : t ≠ .defined) (text : Bytes) {opts : List EncodeOption}
    {m : Mode} (hm : modeIn opts = modeNum m) :
    (∃ r, newWith E c arrival t text opts = .err (.cannotEncode r (modeNum m))) ↔ ¬ Encodable E.sjis m (nats text) := by
  have key : ∀ {m'}, ChosenMode E text (modeIn opts) m' → Encodable E.sjis m (nats text) := by
    intro m' h
    rcases usesMode_of h with ⟨h1, h2⟩ | ⟨h1, _⟩ | ⟨h1, _⟩
    · rw [modeNum_inj (hm.symm.trans h1)]; exact h2
    · exact absurd (hm.symm.trans h1) (modeNum_ne_auto m)
    · exact absurd (hm.symm.trans h1) (modeNum_ne_auto m)
  rcases outcome hE hc ht text (opts := opts) (Or.inr ⟨m, hm⟩) with ⟨m', r, h1, h2, h3⟩ | ⟨m', h1, h0, h2, h3⟩ | ⟨m', v', p, h1, hv1, h40, hvc, hp, hlt, h3⟩ | ⟨m', v', p, bs, h1, hv1, h40, hvc, hp, hle, hsu⟩
  · have := modeNum_inj (hm.symm.trans h1); subst this
    exact ⟨fun _ h => h2 ((representable_iff E _ text).2 h), fun _ => ⟨r, h3 arrival⟩⟩
  · rw [h3]
    constructor
    · rintro ⟨r, h⟩; cases h
    · intro h; exact absurd (key h1) h
  · rw [h3]
    constructor
    · rintro ⟨r, h⟩; cases h
    · intro h; exact absurd (key h1) h
  · obtain ⟨q, k, hq, _⟩ := hsu.built arrival ha
    rw [hq]
    constructor
    · rintro ⟨r, h⟩; cases h
    · intro h; exact absurd (key h1) h

/-- **C09.** Given enough capacity (the text would fit version 40 and no version, or a version it fits, is asked for),
an explicit mode fails exactly when some character is outside its repertoire. -/
theorem C09_fails_iff {E : Ext} {unsjis : Nat → Option Nat} (hE : E.Ok unsjis) {c : AlignCache} (hc : CacheReachable c)
    {arrival : List Nat} (ha : Arrival arrival) {t : TextType} (ht : t ≠ .defined) (text : Bytes) {opts : List EncodeOption}
    {m : Mode} (hm : modeIn opts = modeNum m)
    (hroom : fits ((versionIn opts).getD 40) (levelIn opts) m (Spec.charCount m (nats text))) :
    (∃ q, newWith E c arrival t text opts = .ok q) ↔ Encodable E.sjis m (nats text) := by
  have hs : Supported (modeIn opts) := Or.inr ⟨m, hm⟩
  constructor
  · rintro ⟨q, h⟩
    apply Classical.byContradiction
    intro hn
    obtain ⟨r, h'⟩ := (C09_rejects_iff hE hc ha ht text hm).2 hn
    rw [h'] at h; cases h
  · intro he
    rcases C07_newWith_no_panic hE hc ha ht text hs with h | h
    · exact h
    · exfalso
      have hu : UsesMode E.sjis (modeIn opts) (nats text) m := Or.inl ⟨hm, he⟩
      cases hv : versionIn opts with
      | none =>
        rw [hv] at hroom
        exact (C04_error_iff hE hc ha ht hv hu).1 h 40 (by omega) (by omega) hroom
      | some v =>
        rw [hv] at hroom
        rcases (C06_error_iff_partial hE hc ha ht text hs hv (by rintro ⟨h0, _⟩; exact modeNum_ne_auto m (hm.symm.trans h0))).1 h with ⟨m', g1, g2⟩ | ⟨m', g1, g2⟩
        · rw [modeNum_inj (g1.symm.trans hm)] at g2; exact g2 he
        · rw [usesMode_unique g1 hu] at g2; exact g2 hroom

/-- **C09.** Byte mode accepts every byte string that fits. -/
theorem C09_byte_accepts {E : Ext} {unsjis : Nat → Option Nat} (hE : E.Ok unsjis) {c : AlignCache} (hc : CacheReachable c)
    {arrival : List Nat} (ha : Arrival arrival) {t : TextType} (ht : t ≠ .defined) (text : Bytes) {opts : List EncodeOption}
    (hm : modeIn opts = encByte) (hroom : fits ((versionIn opts).getD 40) (levelIn opts) .byte text.length) :
    ∃ q, newWith E c arrival t text opts = .ok q := by
  refine (C09_fails_iff hE hc ha ht text (m := .byte) hm ?_).2 trivial
  simpa only [Spec.charCount, nats_length] using hroom

/-- The hypotheses are met: numeric mode, texts `12` and `1A`. -/
example : modeIn [.withEncodingMode encNumeric] = modeNum .numeric ∧
    fits ((versionIn [.withEncodingMode encNumeric]).getD 40) (levelIn [.withEncodingMode encNumeric]) .numeric
      (Spec.charCount .numeric (nats [0x31, 0x41])) ∧
    Spec.Encodable demoExt.sjis .numeric (nats [0x31, 0x32]) ∧ ¬ Spec.Encodable demoExt.sjis .numeric (nats [0x31, 0x41]) := by
  refine ⟨rfl, by decide, ?_, ?_⟩
  · simp only [Spec.Encodable]; decide
  · simp only [Spec.Encodable]; decide

end QR
