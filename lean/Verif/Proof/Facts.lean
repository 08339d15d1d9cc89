import Verif.Props.Options
/-!
# Everything that is known about a successful call of `NewWith`
-/
namespace QR
open Spec QR.Matrix

/-- How the version comes about. -/
def VersionChoice (opts : List EncodeOption) (m : Mode) (text : Bytes) (v : Nat) : Prop :=
  versionIn opts = some v ∨
  (versionIn opts = none ∧ ∃ u : Nat, 1 ≤ u ∧ u ≤ 40 ∧ fits u (levelIn opts) m (wantOf m text) ∧
    (∀ w : Nat, 1 ≤ w → w < u → ¬ fits w (levelIn opts) m (wantOf m text)) ∧ v = max u (minimumIn opts))

/-- How the payload comes about. -/
def PayloadChoice (E : Ext) (unsjis : Nat → Option Nat) (m : Mode) (text : Bytes) (p : Bits) : Prop :=
  (Representable E m text ∧ p.length = payloadBits m (countOf m text) ∧
    ∀ rest, readPayload unsjis m (countOf m text) (p ++ rest) = some (nats text, rest)) ∨
  (Mixed E text ∧ m = .kanji ∧ p = [])

/-- The stream is the segment filled up, and every schedule yields a code carrying it. -/
structure Success (E : Ext) (c : AlignCache) (t : TextType) (text : Bytes) (opts : List EncodeOption) (v : Nat) (m : Mode)
    (p bs : Bits) : Prop where
  filled : Filled (8 * dataCodewords v (levelIn opts)) (segment v m (countOf m text) p) bs
  start : ∃ q0, init E c text (applyOptions opts) = .ok q0 ∧ Inited E v (applyOptions opts).ecLevel.toNat bs text q0
  cands : ∃ M s, Candidates v (applyOptions opts).ecLevel.toNat (finalStream E v (levelIn opts) bs) M s ∧
    ∀ arrival, Arrival arrival → ∃ q k, newWith E c arrival t text opts = .ok q ∧
      Built E v (applyOptions opts).ecLevel.toNat k bs text q ∧ q.mat = M k ∧ Chosen s arrival k

theorem Success.built {E : Ext} {c : AlignCache} {t : TextType} {text : Bytes} {opts : List EncodeOption} {v : Nat} {m : Mode}
    {p bs : Bits} (h : Success E c t text opts v m p bs) :
    ∀ arrival, Arrival arrival → ∃ q k, newWith E c arrival t text opts = .ok q ∧
      Built E v (applyOptions opts).ecLevel.toNat k bs text q := by
  obtain ⟨M, s, _, h⟩ := h.cands
  intro a ha
  obtain ⟨q, k, h1, h2, _⟩ := h a ha
  exact ⟨q, k, h1, h2⟩

/-- The four outcomes of a call with a supported mode and a text of type `string` or `[]byte`. -/
inductive Outcome (E : Ext) (unsjis : Nat → Option Nat) (c : AlignCache) (t : TextType) (text : Bytes) (opts : List EncodeOption) : Prop
  | badChar (m : Mode) (r : Nat) : modeIn opts = modeNum m → ¬ Representable E m text →
      (∀ arrival, newWith E c arrival t text opts = .err (.cannotEncode r (modeNum m))) → Outcome E unsjis c t text opts
  | noVersion (m : Mode) : ChosenMode E text (modeIn opts) m → versionIn opts = none →
      (∀ u : Nat, 1 ≤ u → u ≤ 40 → ¬ fits u (levelIn opts) m (wantOf m text)) →
      (∀ arrival, newWith E c arrival t text opts = .err .analyzeVersionFailed) → Outcome E unsjis c t text opts
  | tooLong (m : Mode) (v : Nat) (p : Bits) : ChosenMode E text (modeIn opts) m → 1 ≤ v → v ≤ 40 →
      VersionChoice opts m text v → PayloadChoice E unsjis m text p →
      8 * dataCodewords v (levelIn opts) < 4 + countWidth v m + p.length →
      (∀ arrival, newWith E c arrival t text opts = .err (.wrongVersionCap v (8 * dataCodewords v (levelIn opts))
        (4 + countWidth v m + p.length))) → Outcome E unsjis c t text opts
  | success (m : Mode) (v : Nat) (p bs : Bits) : ChosenMode E text (modeIn opts) m → 1 ≤ v → v ≤ 40 →
      VersionChoice opts m text v → PayloadChoice E unsjis m text p →
      4 + countWidth v m + p.length ≤ 8 * dataCodewords v (levelIn opts) →
      Success E c t text opts v m p bs → Outcome E unsjis c t text opts

theorem outcome {E : Ext} {unsjis : Nat → Option Nat} (hE : E.Ok unsjis) {c : AlignCache} (hc : CacheReachable c)
    {t : TextType} (ht : t ≠ .defined) (text : Bytes) {opts : List EncodeOption} (hs : Supported (modeIn opts)) :
    Outcome E unsjis c t text opts := by
  rw [← mode_applied] at hs
  have key := build_cases hE hc.ok (raw := text) (optOk_applyOptions opts) hs
  have nw := fun arrival => newWith_eq E c arrival ht text opts
  rw [mode_applied, level_applied] at key
  have vc : ∀ (m : Mode) (v : Nat), 1 ≤ v → ((1 ≤ (applyOptions opts).version ∧ (applyOptions opts).version = v) ∨
         ((applyOptions opts).version = 0 ∧ ∃ u : Nat, 1 ≤ u ∧ u ≤ 40 ∧ fits u (levelIn opts) m (wantOf m text) ∧
            (∀ w : Nat, 1 ≤ w → w < u → ¬ fits w (levelIn opts) m (wantOf m text)) ∧
            (v : Int) = max (u : Int) (applyOptions opts).minimumVersion)) → VersionChoice opts m text v := by
    intro m v h1 h
    rcases h with ⟨h2, h3⟩ | ⟨h0, u, a, b, c, d, e⟩
    · left
      rcases version_applied opts with ⟨h4, _⟩ | ⟨w, _, _, h5, h6⟩
      · omega
      · rw [h6]; congr 1; omega
    · right
      refine ⟨?_, u, a, b, c, d, ?_⟩
      · rcases version_applied opts with ⟨_, h4⟩ | ⟨w, h5, _, h6, _⟩
        · exact h4
        · omega
      · rw [(minimum_applied opts).1] at e; omega
  rcases key with ⟨m, r, h1, h2, h3⟩ | ⟨m, hm, ⟨h0, h1, h2⟩ | ⟨v, p, h1, h40, hv, hp, ⟨h2, h3⟩ | ⟨h2, bs, hf, hb⟩⟩⟩
  · exact .badChar m r h1 h2 (fun a => by rw [nw]; exact h3 a)
  · refine .noVersion m hm ?_ h1 (fun a => by rw [nw]; exact h2 a)
    rcases version_applied opts with ⟨_, h4⟩ | ⟨w, h5, _, h6, _⟩
    · exact h4
    · omega
  · exact .tooLong m v p hm h1 h40 (vc m v h1 hv) hp h2 (fun a => by rw [nw]; exact h3 a)
  · refine .success m v p bs hm h1 h40 (vc m v h1 hv) hp h2 ⟨hf, hb.1, ?_⟩
    obtain ⟨_, M, s, hc1, hc2⟩ := hb
    rw [level_applied] at hc1
    refine ⟨M, s, hc1, fun a ha => ?_⟩
    rw [nw]
    exact hc2 a ha

/-- What a successful call tells. -/
theorem ok_facts {E : Ext} {unsjis : Nat → Option Nat} (hE : E.Ok unsjis) {c : AlignCache} (hc : CacheReachable c)
    {arrival : List Nat} (ha : Arrival arrival) {t : TextType} {text : Bytes} {opts : List EncodeOption} {q : QRCode}
    (h : newWith E c arrival t text opts = .ok q) :
    ∃ m v k p bs, ChosenMode E text (modeIn opts) m ∧ VersionChoice opts m text v ∧ PayloadChoice E unsjis m text p ∧
      Filled (8 * dataCodewords v (levelIn opts)) (segment v m (countOf m text) p) bs ∧
      Built E v (applyOptions opts).ecLevel.toNat k bs text q := by
  obtain ⟨ht, hs, _⟩ := newWith_ok h
  rw [mode_applied] at hs
  rcases outcome hE hc ht text hs with ⟨m, r, _, _, h3⟩ | ⟨m, _, _, _, h3⟩ | ⟨m, v, p, _, _, _, _, _, _, h3⟩ | ⟨m, v, p, bs, hm, _, _, hv, hp, _, hsu⟩
  · rw [h3] at h; cases h
  · rw [h3] at h; cases h
  · rw [h3] at h; cases h
  · obtain ⟨q', k, h1, h2⟩ := hsu.built arrival ha
    rw [h1] at h; cases h
    exact ⟨m, v, k, p, bs, hm, hv, hp, hsu.filled, h2⟩

/-- The text fits in the version used. -/
theorem choice_fits {E : Ext} {unsjis : Nat → Option Nat} {m : Mode} {text : Bytes} {p : Bits} {v : Nat} {lv : Level} {bs : Bits}
    (hp : PayloadChoice E unsjis m text p) (hr : Representable E m text)
    (hf : Filled (8 * dataCodewords v lv) (segment v m (countOf m text) p) bs)
    (hm : ¬ Mixed E text ∨ m ≠ .kanji) : fits v lv m (countOf m text) := by
  rcases hp with ⟨_, hl, _⟩ | ⟨h1, h2, _⟩
  · unfold fits
    rw [← hl, ← segment_length v m (countOf m text) p]
    obtain ⟨hlen, t, pp, k, e, _⟩ := hf
    rw [← hlen, e]
    simp only [List.length_append]
    omega
  · rcases hm with hm | hm
    · exact absurd h1 hm
    · exact absurd h2 hm

theorem mixed_not_rep {E : Ext} {text : Bytes} (h : Mixed E text) : ¬ Representable E .kanji text := by
  obtain ⟨a, b, hab, ha0, _, haa, _⟩ := h
  intro hr
  obtain ⟨x, l, rfl⟩ := List.exists_cons_of_ne_nil ha0
  have h1 := hr x (by rw [hab]; simp)
  have h2 := haa x (by simp)
  rw [JP_not_alnum h1] at h2
  cases h2

/-- Unless a mixed text is encoded in automatic mode, a reader recovers the text. -/
theorem decode_of_choice {E : Ext} {unsjis : Nat → Option Nat} (hE : E.Ok unsjis) {m : Mode} {text : Bytes} {p bs : Bits}
    {v ec k : Nat} {q : QRCode} (hp : PayloadChoice E unsjis m text p)
    (hf : Filled (8 * dataCodewords v (levelOf ec)) (segment v m (countOf m text) p) bs)
    (hb : Built E v ec k bs text q) (hm : ¬ (Mixed E text ∧ m = .kanji)) :
    decode unsjis q.mat.bitmap = some (nats text) := by
  have hp' := hp
  rcases hp' with ⟨h1, h2, h3⟩ | ⟨h1, h2, _⟩
  · refine hb.decode hE.rs hf ?_ h3
    refine count_lt hb.v1 hb.v40 (levelOf ec) (choice_fits hp h1 hf ?_)
    by_cases hk : m = .kanji
    · left; intro hmx; exact hm ⟨hmx, hk⟩
    · right; exact hk
  · exact absurd ⟨h1, h2⟩ hm

end QR
