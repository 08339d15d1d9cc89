import Verif.Proof.ScoreDemo
import Verif.Props.Reference
import Verif.Props.Damage
/-!
# C78: which of the eight reference symbols is returned

`Spec.score` is a function of the version and the colours of a symbol; with C77 this determines the bitmap of a call from
text, options and arrival order, without reference to the model.
-/
namespace QR
open _root_.Spec

/-- `C78_mask_choice`, and the format modules of the reference symbols tell the mask. -/
theorem mask_choice {E : Ext} {unsjis : Nat → Option Nat} (hE : E.Ok unsjis) (hRS : E.rs = rsEncode) {c : AlignCache}
    (hc : CacheReachable c) {arrival : List Nat} {t : TextType} {text : Bytes} {opts : List EncodeOption} {q : QRCode}
    (h : newWith E c arrival t text opts = .ok q) :
    ∃ (m : Mode) (v : Nat) (p : List Bool),
      UsesMode E.sjis (modeIn opts) (nats text) m ∧ ChosenVersion E.sjis opts (nats text) v ∧
      PayloadOf E.sjis (modeIn opts) m (nats text) p ∧
      (∀ k < 8, readFormat (encodeSymbol v (levelIn opts) k m (Spec.charCount m (nats text)) p) = some (levelIn opts, k)) ∧
      ∀ arrival', Arrival arrival' → ∃ q' k, newWith E c arrival' t text opts = .ok q' ∧ k < 8 ∧
        q'.mat.bitmap = encodeSymbol v (levelIn opts) k m (Spec.charCount m (nats text)) p ∧
        FirstLowest (fun j => score v (pixel (encodeSymbol v (levelIn opts) j m (Spec.charCount m (nats text)) p))) arrival' k := by
  obtain ⟨un, hun, hex⟩ := exact_table hE
  obtain ⟨ht, hs, _⟩ := newWith_ok h
  rw [mode_applied] at hs
  rcases outcome hun hc ht text hs with ⟨m, r, _, _, h3⟩ | ⟨m, _, _, _, h3⟩ | ⟨m, v, p, _, _, _, _, _, _, h3⟩ | ⟨m, v, p, bs, hm, h1, h40, hv, hp, _, hsu⟩
  · rw [h3] at h; cases h
  · rw [h3] at h; cases h
  · rw [h3] at h; cases h
  obtain ⟨q0, hq0, hi0⟩ := hsu.start
  obtain ⟨q', _, _, hb⟩ := hsu.built inOrder inOrder_arrival
  have hlen : q0.dataBSet.length = rawModules v := by
    rw [hi0.stream]; exact finalStream_length hE.rs h1 h40 _ hb.len
  have hl := (optOk_applyOptions opts).level
  obtain ⟨M, s, F, hcd, hF, hw, hsel⟩ := masking_spec h1 h40 (by omega) (by omega) hi0.row hi0.mat hlen
  have hcount : countOf m text = Spec.charCount m (nats text) := by
    rcases hm.cases with hr | ⟨_, h1, h2⟩
    · exact countOf_charCount hr
    · rw [← wantOf_charCount (E := E) (Or.inr ⟨h1, h2⟩)]
      subst h2; rfl
  have hf := hsu.filled
  rw [hcount] at hf
  have hsym2 : ∀ k < 8, (M k).bitmap = encodeSymbol v (levelIn opts) k m (Spec.charCount m (nats text)) p ∧
      readFormat (M k).bitmap = some (levelIn opts, k) := by
    intro k hk
    have hb' : Built E v (applyOptions opts).ecLevel.toNat k bs text { q' with mat := M k } :=
      ⟨h1, h40, hk, hb.row, hb.len, by
        have := hcd.sym k hk
        rw [hi0.stream] at this
        exact this, hb.text, hb.stream⟩
    have hsym := isSymbol_of hE.rs hb'
    have hl := hb.len
    rw [level_applied] at hsym hl
    have hst := isStream_of hE.rs h1 h40 (levelIn opts) hl
    rw [hRS] at hst
    refine ⟨?_, readFormat_of hsym⟩
    have e1 : (M k).bitmap = _ := symbol_eq hsym
    rw [e1, message_eq h1 h40 hst]
    unfold encodeSymbol
    rw [fillUp_eq hf]
    rfl
  have hsym := fun k hk => (hsym2 k hk).1
  have hscore : ∀ k < 8, s k = score v (pixel (encodeSymbol v (levelIn opts) k m (Spec.charCount m (nats text)) p)) := by
    intro k hk
    have hkinds := maskWorker_kinds h1 h40 (by omega) (by omega) hk hi0.row hi0.mat hlen hF (hw k hk)
    have := evaluation_score (hcd.sym k hk).sq (by unfold side; omega) hkinds
    rw [hcd.score k hk, hsym k hk] at this
    exact Res.ok.inj this
  refine ⟨m, v, p, usesMode_of hm, chosenVersion_of hm hv, ?_, fun k hk => hsym k hk ▸ (hsym2 k hk).2, fun a ha => ?_⟩
  · rcases hp with ⟨g1, g2, g3⟩ | ⟨g1, g2, g3⟩
    · exact Or.inl ⟨(representable_iff E m text).1 g1, payload_inv hex g3⟩
    · refine Or.inr ⟨?_, (mixed_iff E text).1 g1, g2, g3⟩
      cases hm with
      | mixed h0 _ => exact h0
      | auto h0 _ => exact h0
      | explicit _ h0 hr => subst g2; exact absurd hr (mixed_not_rep g1)
  · obtain ⟨x, k, y, e, hk, hmk, hx, hy⟩ := hsel a ha
    have hlt : ∀ j ∈ a, j < 8 := fun j hj => List.mem_range.1 (ha.mem_iff.1 hj)
    refine ⟨{ q0 with mat := M k }, k, ?_, hk, hsym k hk, x, y, e, fun j hj => ?_, fun j hj => ?_⟩
    · rw [newWith_eq _ _ _ ht]
      unfold build
      rw [hq0, Res.bind_ok, hmk]
    · have := hx j hj
      rw [hscore k hk, hscore j (hlt j (by rw [e]; simp [hj]))] at this
      exact this
    · have := hy j hj
      rw [hscore k hk, hscore j (hlt j (by rw [e]; simp [hj]))] at this
      exact this

/-- **C78.** Let a call succeed.  With mode, version and payload of the text and the options, in every arrival order of the
scores the bitmap is the reference symbol with the mask that comes first among those of the lowest score. -/
theorem C78_mask_choice {E : Ext} {unsjis : Nat → Option Nat} (hE : E.Ok unsjis) (hRS : E.rs = rsEncode) {c : AlignCache}
    (hc : CacheReachable c) {arrival : List Nat} {t : TextType} {text : Bytes} {opts : List EncodeOption} {q : QRCode}
    (h : newWith E c arrival t text opts = .ok q) :
    ∃ (m : Mode) (v : Nat) (p : List Bool),
      UsesMode E.sjis (modeIn opts) (nats text) m ∧ ChosenVersion E.sjis opts (nats text) v ∧
      PayloadOf E.sjis (modeIn opts) m (nats text) p ∧
      ∀ arrival', Arrival arrival' → ∃ q' k, newWith E c arrival' t text opts = .ok q' ∧ k < 8 ∧
        q'.mat.bitmap = encodeSymbol v (levelIn opts) k m (Spec.charCount m (nats text)) p ∧
        FirstLowest (fun j => score v (pixel (encodeSymbol v (levelIn opts) j m (Spec.charCount m (nats text)) p))) arrival' k := by
  obtain ⟨m, v, p, h1, h2, h3, _, h4⟩ := mask_choice hE hRS hc h
  exact ⟨m, v, p, h1, h2, h3, h4⟩

theorem firstLowest_le {s : Nat → Nat} {l : List Nat} {k : Nat} (h : FirstLowest s l k) : ∀ j ∈ l, s k ≤ s j := by
  obtain ⟨a, b, rfl, ha, hb⟩ := h
  intro j hj
  rcases List.mem_append.1 hj with h | h
  · exact Nat.le_of_lt (ha j h)
  · rcases List.mem_cons.1 h with rfl | h
    · exact Nat.le_refl _
    · exact hb j h

theorem firstLowest_head {s : Nat → Nat} {l : List Nat} {k k' : Nat} (h : FirstLowest s (k' :: l) k) (hk : s k' ≤ s k) : k = k' := by
  obtain ⟨a, b, e, ha, _⟩ := h
  cases a with
  | nil => simp only [List.nil_append, List.cons.injEq] at e; exact e.1.symm
  | cons x a =>
    simp only [List.cons_append, List.cons.injEq] at e
    have := ha x (by simp)
    rw [← e.1] at this
    omega

/-- C78 for the code returned: no mask gives the reference symbol a lower score. -/
theorem C78_lowest {E : Ext} {unsjis : Nat → Option Nat} (hE : E.Ok unsjis) (hRS : E.rs = rsEncode) {c : AlignCache}
    (hc : CacheReachable c) {arrival : List Nat} (ha : Arrival arrival) {t : TextType} {text : Bytes} {opts : List EncodeOption} {q : QRCode}
    (h : newWith E c arrival t text opts = .ok q) :
    ∃ m v p k, UsesMode E.sjis (modeIn opts) (nats text) m ∧ ChosenVersion E.sjis opts (nats text) v ∧
      PayloadOf E.sjis (modeIn opts) m (nats text) p ∧ k < 8 ∧
      q.mat.bitmap = encodeSymbol v (levelIn opts) k m (Spec.charCount m (nats text)) p ∧
      ∀ j < 8, score v (pixel q.mat.bitmap) ≤ score v (pixel (encodeSymbol v (levelIn opts) j m (Spec.charCount m (nats text)) p)) := by
  obtain ⟨m, v, p, h1, h2, h3, h4⟩ := C78_mask_choice hE hRS hc h
  obtain ⟨q', k, g1, g2, g3, g4⟩ := h4 arrival ha
  rw [h] at g1
  cases g1
  refine ⟨m, v, p, k, h1, h2, h3, g2, g3, fun j hj => ?_⟩
  rw [g3]
  exact firstLowest_le g4 j (ha.mem_iff.2 (List.mem_range.2 hj))

/-- The arrival order that begins with `k`. -/
theorem arrival_first {k : Nat} (hk : k < 8) : Arrival (k :: (List.range 8).erase k) :=
  (List.perm_cons_erase (List.mem_range.2 hk)).symm

/-- C78, the converse: every mask of the lowest score is the one returned in some arrival order, so the bitmaps a call can
return are exactly the reference symbols of the lowest score. -/
theorem C78_all {E : Ext} {unsjis : Nat → Option Nat} (hE : E.Ok unsjis) (hRS : E.rs = rsEncode) {c : AlignCache}
    (hc : CacheReachable c) {arrival : List Nat} {t : TextType} {text : Bytes} {opts : List EncodeOption} {q : QRCode}
    (h : newWith E c arrival t text opts = .ok q) :
    ∃ (m : Mode) (v : Nat) (p : List Bool),
      UsesMode E.sjis (modeIn opts) (nats text) m ∧ ChosenVersion E.sjis opts (nats text) v ∧
      PayloadOf E.sjis (modeIn opts) m (nats text) p ∧
      ∀ bm, (∃ arrival' q', Arrival arrival' ∧ newWith E c arrival' t text opts = .ok q' ∧ q'.mat.bitmap = bm) ↔
        ∃ k < 8, bm = encodeSymbol v (levelIn opts) k m (Spec.charCount m (nats text)) p ∧
          ∀ j < 8, score v (pixel bm) ≤ score v (pixel (encodeSymbol v (levelIn opts) j m (Spec.charCount m (nats text)) p)) := by
  obtain ⟨m, v, p, h1, h2, h3, h4⟩ := C78_mask_choice hE hRS hc h
  refine ⟨m, v, p, h1, h2, h3, fun bm => ⟨?_, ?_⟩⟩
  · rintro ⟨a, q', ha, hq, rfl⟩
    obtain ⟨q1, k, g1, g2, g3, g4⟩ := h4 a ha
    rw [hq] at g1
    cases g1
    refine ⟨k, g2, g3, fun j hj => ?_⟩
    rw [g3]
    exact firstLowest_le g4 j (ha.mem_iff.2 (List.mem_range.2 hj))
  · rintro ⟨k, hk, rfl, hlow⟩
    obtain ⟨q1, k', g1, g2, g3, g4⟩ := h4 _ (arrival_first hk)
    have := firstLowest_head g4 (hlow k' g2)
    subst this
    exact ⟨_, q1, arrival_first hk, g1, g3⟩

/-- **C19, exactly.**  With mode, version and payload of the text and the options: all schedules return the same bitmap if and only if
one mask alone gives the reference symbol the lowest score. -/
theorem C19_exact {E : Ext} {unsjis : Nat → Option Nat} (hE : E.Ok unsjis) (hRS : E.rs = rsEncode) {c : AlignCache}
    (hc : CacheReachable c) {arrival : List Nat} {t : TextType} {text : Bytes} {opts : List EncodeOption} {q : QRCode}
    (h : newWith E c arrival t text opts = .ok q) :
    ∃ (m : Mode) (v : Nat) (p : List Bool),
      UsesMode E.sjis (modeIn opts) (nats text) m ∧ ChosenVersion E.sjis opts (nats text) v ∧
      PayloadOf E.sjis (modeIn opts) m (nats text) p ∧
      ((∀ a a' q1 q2, Arrival a → Arrival a' → newWith E c a t text opts = .ok q1 → newWith E c a' t text opts = .ok q2 →
          q1.mat.bitmap = q2.mat.bitmap) ↔
        ∀ k k', k < 8 → k' < 8 →
          (∀ j < 8, score v (pixel (encodeSymbol v (levelIn opts) k m (Spec.charCount m (nats text)) p)) ≤
            score v (pixel (encodeSymbol v (levelIn opts) j m (Spec.charCount m (nats text)) p))) →
          (∀ j < 8, score v (pixel (encodeSymbol v (levelIn opts) k' m (Spec.charCount m (nats text)) p)) ≤
            score v (pixel (encodeSymbol v (levelIn opts) j m (Spec.charCount m (nats text)) p))) →
          k = k') := by
  obtain ⟨m, v, p, h1, h2, h3, hf, h4⟩ := mask_choice hE hRS hc h
  refine ⟨m, v, p, h1, h2, h3, fun hall k k' hk hk' hl hl' => ?_, fun huniq a a' q1 q2 ha ha' e1 e2 => ?_⟩
  · obtain ⟨q1, k1, g1, g2, g3, g4⟩ := h4 _ (arrival_first hk)
    have h1 := firstLowest_head g4 (hl k1 g2)
    subst h1
    obtain ⟨q2, k2, g1', g2', g3', g4'⟩ := h4 _ (arrival_first hk')
    have h2 := firstLowest_head g4' (hl' k2 g2')
    subst h2
    have e := hall _ _ _ _ (arrival_first hk) (arrival_first hk') g1 g1'
    rw [g3, g3'] at e
    have := hf k1 hk
    rw [e, hf k2 hk'] at this
    cases this
    rfl
  · obtain ⟨q1', k1, g1, g2, g3, g4⟩ := h4 a ha
    obtain ⟨q2', k2, g1', g2', g3', g4'⟩ := h4 a' ha'
    rw [e1] at g1
    rw [e2] at g1'
    cases g1
    cases g1'
    have := huniq k1 k2 g2 g2' (fun j hj => firstLowest_le g4 j (ha.mem_iff.2 (List.mem_range.2 hj)))
      (fun j hj => firstLowest_le g4' j (ha'.mem_iff.2 (List.mem_range.2 hj)))
    rw [g3, g3', this]

/-! ## Example -/

theorem demo_lowest : ∀ j < 8, j ≠ 0 → score 1 (pixel (demoSymbol 0)) < score 1 (pixel (demoSymbol j)) := by
  intro j hj h0
  have : j = 1 ∨ j = 2 ∨ j = 3 ∨ j = 4 ∨ j = 5 ∨ j = 6 ∨ j = 7 := by omega
  rw [demoScore_0]
  rcases this with rfl | rfl | rfl | rfl | rfl | rfl | rfl
  · rw [demoScore_1]; decide
  · rw [demoScore_2]; decide
  · rw [demoScore_3]; decide
  · rw [demoScore_4]; decide
  · rw [demoScore_5]; decide
  · rw [demoScore_6]; decide
  · rw [demoScore_7]; decide

theorem demoSymbol_eq : ∀ k < 8, encodeSymbol 1 .Q k .byte 2 (writeBytes [48, 59]) = demoSymbol k := by
  intro k hk
  have : k = 0 ∨ k = 1 ∨ k = 2 ∨ k = 3 ∨ k = 4 ∨ k = 5 ∨ k = 6 ∨ k = 7 := by omega
  rcases this with rfl | rfl | rfl | rfl | rfl | rfl | rfl | rfl
  · exact demoSymbol_0
  · exact demoSymbol_1
  · exact demoSymbol_2
  · exact demoSymbol_3
  · exact demoSymbol_4
  · exact demoSymbol_5
  · exact demoSymbol_6
  · exact demoSymbol_7

/-- `0;` in byte mode and version 1: the call succeeds in every schedule, always with the same symbol (mask 0, score 242). -/
theorem demo_choice {c : AlignCache} (hc : CacheReachable c) {arrival : List Nat} (ha : Arrival arrival) :
    ∃ q, newWith demoExt c arrival .string [48, 59] [.withEncodingMode encByte, .withVersion 1] = .ok q ∧
      q.mat.bitmap = demoSymbol 0 := by
  obtain ⟨q, hq⟩ := (C09_fails_iff demo_ok hc ha (t := .string) (by simp) [48, 59]
    (opts := [.withEncodingMode encByte, .withVersion 1]) (m := .byte) rfl (by decide)).2 (by
      simp only [Spec.Encodable])
  refine ⟨q, hq, ?_⟩
  obtain ⟨m, v, p, k, h1, h2, h3, h4, h5, h6⟩ := C78_lowest demo_ok rfl hc ha hq
  have hm : m = .byte := by
    rcases h1 with ⟨e, _⟩ | ⟨e, _⟩ | ⟨e, _⟩
    · exact modeNum_inj (b := .byte) (e.symm.trans (by decide))
    · exact absurd e (by decide)
    · exact absurd e (by decide)
  subst hm
  have hv : v = 1 := by
    rcases h2 with h | ⟨h, _⟩
    · rw [show versionIn [.withEncodingMode encByte, .withVersion 1] = some 1 from rfl] at h
      cases h
      rfl
    · cases h
  subst hv
  rcases h3 with ⟨_, hp⟩ | ⟨e, _⟩
  · obtain rfl : p = writeBytes [48, 59] := hp
    have e1 : q.mat.bitmap = demoSymbol k := h5.trans (demoSymbol_eq k h4)
    have e2 := h6 0 (by omega)
    rw [e1] at e2 ⊢
    have e3 : encodeSymbol 1 (levelIn [.withEncodingMode encByte, .withVersion 1]) 0 .byte
        (Spec.charCount .byte (nats [48, 59])) (writeBytes [48, 59]) = demoSymbol 0 := demoSymbol_eq 0 (by omega)
    rw [e3] at e2
    by_cases hk : k = 0
    · rw [hk]
    · have := demo_lowest k h4 hk
      omega
  · exact absurd e (by decide)


end QR
