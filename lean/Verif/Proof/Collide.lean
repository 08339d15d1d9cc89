import Verif.Proof.Facts
/-!
# Mixed texts with the same number of characters give the same symbol
-/
namespace QR
open Spec QR.Matrix

/-- The symbol of a result, if there is one. -/
def symbolOf : Res QRCode → Option (List (List Bool))
  | .ok q => some q.mat.bitmap
  | _ => none

def withText (a : Bytes) : Res QRCode → Res QRCode
  | .ok q => .ok { q with sourceText := a }
  | .err e => .err e
  | .panic p => .panic p

theorem symbolOf_withText (a : Bytes) (r : Res QRCode) : symbolOf (withText a r) = symbolOf r := by cases r <;> rfl

theorem mixed_mode {E : Ext} {raw : Bytes} (h : Mixed E raw) : analyzeEncodeModeFromRaw E raw = .ok (modeNum .kanji) := by
  rw [analyzeMode_eq]
  rcases detect_cases E raw with ⟨_, h2⟩ | ⟨h1, _⟩
  · rw [h2]
  · exact absurd h h1

theorem masking_withText (arrival : List Nat) (a : Bytes) (q : QRCode) :
    masking arrival { q with sourceText := a } = withText a (masking arrival q) := by
  unfold masking
  have hw : ∀ (cpy : Matrix) (i : Nat), maskWorker { q with sourceText := a } cpy i = maskWorker q cpy i := fun _ _ => rfl
  have hw' : ∀ cpy : Matrix, maskWorker { q with sourceText := a } cpy = maskWorker q cpy := fun cpy => funext (hw cpy)
  simp only [hw']
  cases hf : fillDataBinary q.mat.copy q.v.dimension q.dataBSet with
  | none => rfl
  | some cpy =>
    simp only [Res.bind_ok]
    cases Res.mapM' (maskWorker q cpy) (List.range 8) with
    | err e => rfl
    | panic p => rfl
    | ok results =>
      simp only [Res.bind_ok]
      split <;> rfl

theorem init_mixed {E : Ext} (hA : E.Ascii) {c : AlignCache} {a b : Bytes} {opt : EncodingOption} (h0 : opt.encMode = encAuto)
    (ha : Mixed E a) (hb : Mixed E b) (hab : runeCount a = runeCount b) :
    init E c a opt = withText a (init E c b opt) := by
  have hm : ∀ r, Mixed E r → chooseMode E r opt = .ok (modeNum .kanji) := by
    intro r hr; unfold chooseMode; rw [if_pos h0, mixed_mode hr]
  have hv : ∀ o : EncodingOption, o.encMode = modeNum .kanji → calcVersionNumber a o = calcVersionNumber b o := by
    intro o ho
    unfold calcVersionNumber
    have : analyzeVersion a o.ecLevel o.encMode = analyzeVersion b o.ecLevel o.encMode := by
      unfold analyzeVersion
      rw [ho, hab]
      simp only [show ¬ modeNum .kanji = encByte by decide, if_false]
    rw [this]
  have he : ∀ V, dataEncoding E V (modeNum .kanji) a = dataEncoding E V (modeNum .kanji) b := by
    intro V
    unfold dataEncoding
    have p : ∀ r, Mixed E r → encodePayload E (modeNum .kanji) r = .ok [] := by
      intro r hr
      have : encodePayload E (modeNum .kanji) r = .ok (encodeKanji (toShiftJIS E r)) := rfl
      rw [this, mixed_payload hA hr]; rfl
    rw [encode_eq E V .kanji a [] (p a ha), encode_eq E V .kanji b [] (p b hb)]
    have : countOf .kanji a = countOf .kanji b := hab
    rw [this]
  unfold init
  rw [hm a ha, hm b hb]
  simp only [Res.bind_ok]
  rw [hv { opt with encMode := modeNum .kanji } rfl]
  cases calcVersionNumber b { opt with encMode := modeNum .kanji } with
  | err e => rfl
  | panic p => rfl
  | ok n =>
    simp only [Res.bind_ok]
    cases loadVersion n opt.ecLevel with
    | err e => rfl
    | panic p => rfl
    | ok V =>
      simp only [Res.bind_ok, he]
      cases newEncoder (modeNum .kanji) with
      | err e => rfl
      | panic p => rfl
      | ok u =>
        simp only [Res.bind_ok]
        cases dataEncoding E V (modeNum .kanji) b with
        | err e => rfl
        | panic p => rfl
        | ok blocks =>
          simp only [Res.bind_ok]
          cases errorCorrectionEncoding E V blocks with
          | err e => rfl
          | panic p => rfl
          | ok ecs =>
            simp only [Res.bind_ok]
            cases arrangeBits (blocks.map (Option.map (·.data))) with
            | err e => rfl
            | panic p => rfl
            | ok d =>
              simp only [Res.bind_ok]
              cases arrangeBits ecs with
              | err e => rfl
              | panic p => rfl
              | ok e =>
                simp only [Res.bind_ok]
                split
                · cases loadAlignmentPatternLocV2 c V.ver with
                  | err e => rfl
                  | panic p => rfl
                  | ok r => rfl
                · rfl

/-- Two mixed texts with equally many characters give the same symbol in every schedule. -/
theorem mixed_collide {E : Ext} (hA : E.Ascii) (c : AlignCache) (arrival : List Nat) (t : TextType) {a b : Bytes}
    {opts : List EncodeOption} (h0 : modeIn opts = encAuto)
    (ha : Mixed E a) (hb : Mixed E b) (hab : runeCount a = runeCount b) :
    symbolOf (newWith E c arrival t a opts) = symbolOf (newWith E c arrival t b opts) := by
  cases t with
  | defined => rfl
  | string | bytes =>
    rw [newWith_eq E c arrival (by simp) a opts, newWith_eq E c arrival (by simp) b opts]
    unfold build
    rw [init_mixed hA (by rw [mode_applied]; exact h0) ha hb hab]
    cases init E c b (applyOptions opts) with
    | err e => rfl
    | panic p => rfl
    | ok q =>
      show symbolOf (masking arrival { q with sourceText := a }) = symbolOf (masking arrival q)
      rw [masking_withText, symbolOf_withText]

end QR
