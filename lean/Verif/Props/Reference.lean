import Verif.Proof.Reference
import Verif.Props.Mask
/-!
# C77: the whole symbol, module by module, is that of a reference encoder

`Spec/Encoder.lean` is an encoder written from the standard.  `hRS : E.rs = rsEncode` as in C50.
-/
namespace QR
open _root_.Spec

/-- What is written for a text: its payload; nothing in the exceptional case of C01. -/
def PayloadOf (sjis : Nat → Option (List UInt8)) (mode : Nat) (m : Mode) (t : List Nat) (p : List Bool) : Prop :=
  (Encodable sjis m t ∧ Payload sjis m t p) ∨ (mode = encAuto ∧ AlnumThenKanji sjis t ∧ m = .kanji ∧ p = [])

/-- **C77.** Let a call succeed.  There are a mode, a version and a payload, those of the text and the options, such that
the eight candidates are, module by module, the symbols the reference encoder makes with the eight masks; in every arrival
order of the scores the result is one of them, and none has a lower score. -/
theorem C77_reference {E : Ext} {unsjis : Nat → Option Nat} (hE : E.Ok unsjis) (hRS : E.rs = rsEncode) {c : AlignCache}
    (hc : CacheReachable c) {arrival : List Nat} {t : TextType} {text : Bytes} {opts : List EncodeOption} {q : QRCode}
    (h : newWith E c arrival t text opts = .ok q) :
    ∃ (m : Mode) (v : Nat) (p : List Bool) (M : Nat → Matrix) (score : Nat → Nat),
      UsesMode E.sjis (modeIn opts) (nats text) m ∧ ChosenVersion E.sjis opts (nats text) v ∧
      PayloadOf E.sjis (modeIn opts) m (nats text) p ∧
      (∀ k < 8, (M k).bitmap = encodeSymbol v (levelIn opts) k m (Spec.charCount m (nats text)) p ∧ evaluation (M k) = .ok (score k)) ∧
      ∀ arrival', Arrival arrival' → ∃ q' k, newWith E c arrival' t text opts = .ok q' ∧ k < 8 ∧ q'.mat = M k ∧
        ∀ j < 8, score k ≤ score j := by
  obtain ⟨un, hun, hex⟩ := exact_table hE
  obtain ⟨ht, hs, _⟩ := newWith_ok h
  rw [mode_applied] at hs
  rcases outcome hun hc ht text hs with ⟨m, r, _, _, h3⟩ | ⟨m, _, _, _, h3⟩ | ⟨m, v, p, _, _, _, _, _, _, h3⟩ | ⟨m, v, p, bs, hm, h1, h40, hv, hp, _, hsu⟩
  · rw [h3] at h; cases h
  · rw [h3] at h; cases h
  · rw [h3] at h; cases h
  obtain ⟨M, s, hcd, hsel⟩ := hsu.cands
  have hcount : countOf m text = Spec.charCount m (nats text) := by
    rcases hm.cases with hr | ⟨_, h1, h2⟩
    · exact countOf_charCount hr
    · rw [← wantOf_charCount (E := E) (Or.inr ⟨h1, h2⟩)]
      subst h2; rfl
  have hf := hsu.filled
  rw [hcount] at hf
  refine ⟨m, v, p, M, s, usesMode_of hm, chosenVersion_of hm hv, ?_, fun k hk => ⟨?_, hcd.score k hk⟩, ?_⟩
  · rcases hp with ⟨g1, g2, g3⟩ | ⟨g1, g2, g3⟩
    · exact Or.inl ⟨(representable_iff E m text).1 g1, payload_inv hex g3⟩
    · refine Or.inr ⟨?_, (mixed_iff E text).1 g1, g2, g3⟩
      cases hm with
      | mixed h0 _ => exact h0
      | auto h0 _ => exact h0
      | explicit _ h0 hr => subst g2; exact absurd hr (mixed_not_rep g1)
  · obtain ⟨q', k', _, hb, _⟩ := hsel inOrder inOrder_arrival
    have hb' : Built E v (applyOptions opts).ecLevel.toNat k bs text { q' with mat := M k } :=
      ⟨h1, h40, hk, hb.row, hb.len, by have := hcd.sym k hk; rw [level_applied] at this ⊢; exact this, hb.text, hb.stream⟩
    have hsym := isSymbol_of hE.rs hb'
    have hl := hb.len
    rw [level_applied] at hsym hl
    have hst := isStream_of hE.rs h1 h40 (levelIn opts) hl
    rw [hRS] at hst
    have e1 : (M k).bitmap = _ := symbol_eq hsym
    rw [e1, message_eq h1 h40 hst]
    unfold encodeSymbol
    rw [fillUp_eq hf]
    rfl
  · intro a ha
    obtain ⟨q', k, h2, hb, h3, hch⟩ := hsel a ha
    exact ⟨q', k, h2, hb.mask, h3, hch.le ha⟩

/-- The bitmap of a successful call. -/
theorem C77_bitmap {E : Ext} {unsjis : Nat → Option Nat} (hE : E.Ok unsjis) (hRS : E.rs = rsEncode) {c : AlignCache}
    (hc : CacheReachable c) {arrival : List Nat} (ha : Arrival arrival) {t : TextType} {text : Bytes} {opts : List EncodeOption} {q : QRCode}
    (h : newWith E c arrival t text opts = .ok q) :
    ∃ m v p k, UsesMode E.sjis (modeIn opts) (nats text) m ∧ ChosenVersion E.sjis opts (nats text) v ∧
      PayloadOf E.sjis (modeIn opts) m (nats text) p ∧ k < 8 ∧
      q.mat.bitmap = encodeSymbol v (levelIn opts) k m (Spec.charCount m (nats text)) p := by
  obtain ⟨m, v, p, M, s, h1, h2, h3, h4, h5⟩ := C77_reference hE hRS hc h
  obtain ⟨q', k, g1, g2, g3, _⟩ := h5 arrival ha
  rw [h] at g1
  cases g1
  exact ⟨m, v, p, k, h1, h2, h3, g2, by rw [g3]; exact (h4 k g2).1⟩

theorem utf8_cons_inj {a b : Nat} {s t : List Nat} (h : utf8 a ++ s = utf8 b ++ t) : a = b ∧ s = t := by
  unfold utf8 at h
  repeat' split at h
  all_goals simp only [List.cons_append, List.nil_append, List.cons.injEq] at h
  all_goals first
    | exact ⟨by omega, h.2⟩
    | exact ⟨by omega, h.2.2⟩
    | exact ⟨by omega, h.2.2.2⟩
    | exact ⟨by omega, h.2.2.2.2⟩
    | (exfalso; omega)

theorem utf8_inj : ∀ {a b : List Nat}, a.flatMap utf8 = b.flatMap utf8 → a = b := by
  intro a
  induction a with
  | nil =>
    intro b h
    cases b with
    | nil => rfl
    | cons y b =>
      exfalso
      have := congrArg List.length h
      simp only [List.flatMap_nil, List.length_nil, List.flatMap_cons, List.length_append] at this
      have : (utf8 y).length ≠ 0 := by unfold utf8; repeat' split
                                       all_goals simp
      omega
  | cons x a ih =>
    intro b h
    cases b with
    | nil =>
      exfalso
      have := congrArg List.length h
      simp only [List.flatMap_nil, List.length_nil, List.flatMap_cons, List.length_append] at this
      have : (utf8 x).length ≠ 0 := by unfold utf8; repeat' split
                                       all_goals simp
      omega
    | cons y b =>
      rw [List.flatMap_cons, List.flatMap_cons] at h
      obtain ⟨rfl, h'⟩ := utf8_cons_inj h
      rw [ih h']

/-- Mode, version and payload are determined by text and options, so the reference symbol depends on the mask only. -/
theorem C77_determined {sjis : Nat → Option (List UInt8)} {opts : List EncodeOption} {t : List Nat} {m m' : Mode} {v v' : Nat} {p p' : List Bool}
    (hm : UsesMode sjis (modeIn opts) t m) (hm' : UsesMode sjis (modeIn opts) t m') (hv : ChosenVersion sjis opts t v)
    (hv' : ChosenVersion sjis opts t v') (hp : PayloadOf sjis (modeIn opts) m t p) (hp' : PayloadOf sjis (modeIn opts) m' t p') :
    m = m' ∧ v = v' ∧ p = p' := by
  obtain rfl := usesMode_unique hm hm'
  refine ⟨rfl, ?_, ?_⟩
  · rcases hv with h | ⟨h0, a, u, h1, ⟨h2, h3⟩, h4⟩ <;> rcases hv' with g | ⟨g0, b, w, g1, ⟨g2, g3⟩, g4⟩
    · rw [h] at g; cases g; rfl
    · rw [h] at g0; cases g0
    · rw [g] at h0; cases h0
    · obtain rfl := usesMode_unique h1 g1
      have : u = w := by
        rcases Nat.lt_trichotomy u w with hlt | rfl | hlt
        · exact absurd h2.2.2 (g3 u h2.1 hlt)
        · rfl
        · exact absurd g2.2.2 (h3 w g2.1 hlt)
      subst this
      rw [h4, g4]
  · have excl : AlnumThenKanji sjis t → Encodable sjis .kanji t → False := by
      rintro ⟨a, b, rfl, ha, hb, h1, _⟩ ⟨rs, e, h2⟩
      cases a with
      | nil => exact ha rfl
      | cons x a =>
        have hx := h1 x (by simp)
        have hlt : x < 128 := by
          have key : ∀ x ∈ alnumChars, x < 128 := by decide +kernel
          exact key x hx
        cases rs with
        | nil => cases e
        | cons r rs =>
          have hr := (h2 r (by simp)).1
          unfold isIdeograph at hr
          rw [List.cons_append, List.flatMap_cons] at e
          unfold utf8 at e
          rw [if_neg (by omega), if_neg (by omega), if_pos (by omega)] at e
          simp only [List.cons_append, List.cons.injEq] at e
          omega
    rcases hp with ⟨h1, h2⟩ | ⟨h0, h1, h2, h3⟩ <;> rcases hp' with ⟨g1, g2⟩ | ⟨g0, g1, g2, g3⟩
    · cases m with
      | numeric => exact h2.trans g2.symm
      | alnum => exact h2.trans g2.symm
      | byte => exact h2.trans g2.symm
      | kanji =>
        obtain ⟨rs, e, h2⟩ := h2
        obtain ⟨rs', e', g2⟩ := g2
        rw [h2, g2, utf8_inj (e.symm.trans e')]
    · subst g2; exact absurd h1 (excl g1)
    · subst h2; exact absurd g1 (excl h1)
    · rw [h3, g3]

/-! ## Examples -/

/-- Annex I of the standard: "01234567" in version 1-M. -/
def annexI : List Bool := fillUp (8 * dataCodewords 1 .M) (Segment 1 .numeric 8 (writeNumeric (nats [48, 49, 50, 51, 52, 53, 54, 55])))

example : toCodewords 16 annexI =
    [0x10, 0x20, 0x0C, 0x56, 0x61, 0x80, 0xEC, 0x11, 0xEC, 0x11, 0xEC, 0x11, 0xEC, 0x11, 0xEC, 0x11] := by decide +kernel

example : (dataBlocks 1 .M annexI).map (parityOf 10) = [[0xA5, 0x24, 0xD4, 0xC1, 0xED, 0x36, 0xC7, 0x87, 0x2C, 0x55]] := by decide +kernel

/-- "HELLO" with a minimum version of 7: the symbol is that of the reference encoder for version 7, level Q, alphanumeric
mode, 5 characters. -/
example {c : AlignCache} (hc : CacheReachable c) {arrival : List Nat} (ha : Arrival arrival) :
    ∃ q k, newWith demoExt c arrival .string [72, 69, 76, 76, 79] [.withEncodingMode encAlphanumeric, .withMinimumVersion 7] = .ok q ∧
      k < 8 ∧ q.mat.bitmap = encodeSymbol 7 .Q k .alnum 5 (writeAlnum [72, 69, 76, 76, 79]) := by
  obtain ⟨q, hq, hd⟩ := demo_symbol hc ha
  obtain ⟨m, v, p, k, h1, h2, h3, h4, h5⟩ := C77_bitmap demo_ok rfl hc ha hq
  have hm : m = .alnum := by
    rcases h1 with ⟨e, _⟩ | ⟨e, _⟩ | ⟨e, _⟩
    · exact modeNum_inj (b := .alnum) (e.symm.trans (by decide))
    · exact absurd e (by decide)
    · exact absurd e (by decide)
  subst hm
  have hv : v = 7 := by
    obtain ⟨v', _, e1, e2, _⟩ := C11_dimension demo_ok hc ha hq
    have : (q.mat.bitmap).length = 17 + 4 * v := by rw [h5]; simp [encodeSymbol, symbol, side]
    omega
  subst hv
  rcases h3 with ⟨_, hp⟩ | ⟨e, _⟩
  · obtain rfl : p = _ := hp
    exact ⟨q, k, hq, h4, h5⟩
  · exact absurd e (by decide)

end QR
