import Verif.Props.Mixed
import Verif.Props.Version
import Verif.Props.Total
/-!
# ASCII texts

For texts of ASCII characters the exception of C01 (an alphanumeric part followed by a kanji part) does not occur.
-/
namespace QR
open QR.Matrix Spec

/-- All bytes are ASCII. -/
def AllAscii (text : Bytes) : Prop := ∀ b ∈ nats text, b < 128

/-- What kanji mode represents has a byte that is not ASCII. -/
theorem kanji_not_ascii {sjis : Nat → Option (List UInt8)} {t : List Nat} (h : Encodable sjis .kanji t) (hne : t ≠ []) : ∃ b ∈ t, 128 ≤ b := by
  obtain ⟨rs, rfl, hr⟩ := h
  cases rs with
  | nil => simp at hne
  | cons r rs =>
    obtain ⟨hi, _⟩ := hr r List.mem_cons_self
    unfold isIdeograph at hi
    have h3 : 0x800 ≤ r ∧ r < 0x10000 := by omega
    refine ⟨(utf8 r).head (by unfold utf8; split_ifs <;> simp), List.mem_flatMap.2 ⟨r, List.mem_cons_self, List.head_mem _⟩, ?_⟩
    unfold utf8
    split_ifs <;> simp only [List.head_cons] <;> omega

theorem ascii_not_mixed {sjis : Nat → Option (List UInt8)} {text : Bytes} (h : AllAscii text) : ¬ AlnumThenKanji sjis (nats text) := by
  rintro ⟨a, b, he, _, hb, _, hk⟩
  obtain ⟨x, hx, h128⟩ := kanji_not_ascii hk hb
  have := h x (by rw [he]; exact List.mem_append_right _ hx)
  omega

/-- **C04 for ASCII texts**: `New` accepts every ASCII text of at most 1273 characters, with any level and minimum version, in automatic or byte mode. -/
theorem C04_ascii {E : Ext} {unsjis : Nat → Option Nat} (hE : E.Ok unsjis) {c : AlignCache} (hc : CacheReachable c) {arrival : List Nat} (ha : Arrival arrival)
    {opts : List EncodeOption} (hv : versionIn opts = none) (hm : modeIn opts = encAuto ∨ modeIn opts = encByte) {text : Bytes} (h : AllAscii text) (hl : text.length ≤ 1273) :
    ∃ q, newWith E c arrival .string text opts = .ok q := by
  have hsup : Supported (modeIn opts) := hm.imp id fun h => ⟨.byte, h⟩
  rcases C07_newWith_no_panic hE hc ha (t := .string) (by simp) text hsup with h' | h'
  · exact h'
  · exfalso
    have hfit : ∀ m, m ≠ .kanji → fits 40 (levelIn opts) m (Spec.charCount m (nats text)) := by
      intro m hk
      have hn : Spec.charCount m (nats text) ≤ 1273 := by
        have hlen : (nats text).length = text.length := by simp [nats]
        cases m <;> simp only [Spec.charCount]
        all_goals first | exact (List.countP_le_length).trans (by omega) | omega
      have := payloadBits_mono m hn
      unfold fits
      generalize levelIn opts = lv
      have hmax : 4 + countWidth 40 m + payloadBits m 1273 ≤ 8 * dataCodewords 40 lv := by
        cases m <;> cases lv <;> first | decide +kernel | exact absurd rfl hk
      omega
    obtain ⟨m, hk, hu⟩ : ∃ m, m ≠ .kanji ∧ UsesMode E.sjis (modeIn opts) (nats text) m := by
      rcases hm with hm | hm
      · have hf := firstMode_best E text
        refine ⟨_, fun hk => ?_, .inr (.inl ⟨hm, ascii_not_mixed h, hf⟩)⟩
        rw [hk] at hf
        obtain ⟨h1, h2, _⟩ := hf
        obtain ⟨x, hx, h128⟩ := kanji_not_ascii h1 (fun e => h2 (by rw [e]; intro b hb; cases hb))
        have := h x hx
        omega
      · exact ⟨.byte, by decide, .inl ⟨hm, trivial⟩⟩
    exact (C04_error_iff hE hc ha (t := .string) (by simp) hv hu).1 h' 40 (by decide) (by decide) (hfit m hk)

/-- **C01 for ASCII texts**, without exception: whatever the options, if `NewWith` succeeds then the symbol contains the text. -/
theorem C01_ascii {E : Ext} {unsjis : Nat → Option Nat} (hE : E.Ok unsjis) {c : AlignCache} (hc : CacheReachable c)
    {arrival : List Nat} (ha : Arrival arrival) {t : TextType} {text : Bytes} {opts : List EncodeOption} {q : QRCode}
    (h : newWith E c arrival t text opts = .ok q) (htext : AllAscii text) : decode unsjis q.mat.bitmap = some (nats text) :=
  C01_roundtrip_partial hE hc ha h fun hx => ascii_not_mixed htext hx.2

/-- The hypotheses are met by `Hello`, which starts alphanumeric. -/
example : AllAscii [72, 101, 108, 108, 111] := by unfold AllAscii; decide

end QR
