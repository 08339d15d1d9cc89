import Verif.Model.Issues
import Verif.Spec.Json
import Verif.Props.ScanWriters
import Verif.Props.Total
import Verif.Props.Compressed
/-!
# C88: the programs under .issues/
-/
namespace QR.Issues
open QR QR.Matrix Spec

set_option maxRecDepth 100000

/-- The picture of both programs: one pixel for each module, four white pixels all round, and the modules give the text. -/
def OnePixelPicture (unsjis : Nat → Option Nat) (dim : Nat) (img : Compressed.Paletted) (text : List Nat) : Prop :=
  (img.minX = 0 ∧ img.minY = 0 ∧ img.maxX = dim + 8 ∧ img.maxY = dim + 8) ∧
  (∀ px py : Nat, px < dim + 8 → py < dim + 8 → (px < 4 ∨ dim + 4 ≤ px ∨ py < 4 ∨ dim + 4 ≤ py) → img.at' px py = some 0xff) ∧
  decode unsjis ((List.range dim).map fun y => (List.range dim).map fun x => decide (img.at' ((4 + x : Nat) : Int) ((4 + y : Nat) : Int) = some 0x00)) = some text

theorem picture {E : Ext} {unsjis : Nat → Option Nat} (hE : E.Ok unsjis) {c : AlignCache} (hc : CacheReachable c) {arrival : List Nat} (ha : Arrival arrival)
    {text : Bytes} {opts : List EncodeOption} {q : QRCode} (h : newWith E c arrival .string text opts = .ok q) (hm : modeIn opts ≠ encAuto) :
    ∃ img, Compressed.write (some writerOption) q.mat = some img ∧ OnePixelPicture unsjis q.dimension img (nats text) := by
  obtain ⟨hw, hh⟩ := Standard.mat_size hE hc ha h
  obtain ⟨img, h1, h2⟩ := C71_compressed hE hc ha h (fun hx => hm hx.1) (padding := 4) (blockSize := 1) (by decide)
  obtain ⟨img', h3, ⟨e1, e2, e3, e4⟩, h5⟩ := Compressed.C36_pixels q.mat (by omega) 4 1
  have e : img' = img := by rw [h1] at h3; exact (Option.some.inj h3).symm
  subst e
  refine ⟨img', h1, ⟨e1, e2, ?_, ?_⟩, ?_, ?_⟩
  · rw [e3, hw]; push_cast; omega
  · rw [e4, hw]; push_cast; omega
  · intro px py g1 g2 g3
    obtain ⟨k1, k2⟩ := h5 px py (by omega) (by omega)
    refine k1.resolve_left fun hb => ?_
    obtain ⟨x, y, hx, hy, _, b1, b2, b3, b4⟩ := k2.1 hb
    omega
  · have := h2 (fun x y => (((4 + x : Nat) : Int), ((4 + y : Nat) : Int))) (fun x y hx hy => by push_cast; omega)
    exact this

/-! ## Issue 69 -/

theorem json_cases {p : Nat → Prop} [DecidablePred p] (h : (jsonChars.all fun c => decide (p c.toNat)) = true) {b : Nat} (hb : isJson b) : p b := by
  obtain ⟨c, hc, rfl⟩ := hb
  exact of_decide_eq_true (List.all_eq_true.1 h c hc)

theorem simplify_byte : ∀ b : UInt8,
    (content69 [b]).map UInt8.toNat = [simplify b.toNat] := by
  have : ∀ n : Fin 256, (content69 [UInt8.ofNat n]).map UInt8.toNat = [simplify n] := by decide +kernel
  intro b
  have h := this ⟨b.toNat, b.toNat_lt⟩
  simpa using h

theorem content69_map (s : Bytes) : nats (content69 s) = (nats s).map simplify := by
  induction s with
  | nil => rfl
  | cons b s ih =>
    have h1 := simplify_byte b
    simp only [content69, replaceByte, toUpper, List.map_cons, List.map_nil, List.cons.injEq, and_true, nats] at h1 ih ⊢
    exact ⟨h1, ih⟩

theorem simplify_alnum {b : Nat} (h : isJson b) : simplify b ∈ alnumChars :=
  json_cases (p := fun b => simplify b ∈ alnumChars) (by decide +kernel) h

/-- A text of `n` characters fits some version exactly if it fits version 40, and that is exactly if `n` is at most `k`. -/
theorem fits_iff {lv : Level} {m : Mode} {k : Nat} (h1 : fits 40 lv m k) (h2 : ¬ fits 40 lv m (k + 1)) (n : Nat) :
    (∀ u, 1 ≤ u → u ≤ 40 → ¬ fits u lv m n) ↔ k < n := by
  constructor
  · intro h
    apply Classical.byContradiction
    intro hn
    have := payloadBits_mono m (a := n) (b := k) (by omega)
    exact h 40 (by decide) (by decide) (by unfold fits at h1 ⊢; omega)
  · intro h u hu hu' hf
    have := payloadBits_mono m (a := k + 1) (b := n) h
    have hf' := fits_mono hu hu' (by decide) lv m n hf
    exact h2 (by unfold fits at hf' ⊢; omega)

/-- Both programs: with an explicit mode and no version, the text that can be written in that mode is refused or the picture is drawn, according to the number of characters. -/
theorem either {E : Ext} {unsjis : Nat → Option Nat} (hE : E.Ok unsjis) {c : AlignCache} (hc : CacheReachable c) {arrival : List Nat} (ha : Arrival arrival)
    {text : Bytes} {opts : List EncodeOption} {m : Mode} (hm : modeIn opts = modeNum m) (hauto : modeIn opts ≠ encAuto) (hv : versionIn opts = none) (he : Encodable E.sjis m (nats text))
    {k : Nat} (h1 : fits 40 (levelIn opts) m k) (h2 : ¬ fits 40 (levelIn opts) m (k + 1)) :
    if Spec.charCount m (nats text) ≤ k then
      ∃ q img, newWith E c arrival .string text opts = .ok q ∧ Compressed.write (some writerOption) q.mat = some img ∧ OnePixelPicture unsjis q.dimension img (nats text)
    else ∃ e, newWith E c arrival .string text opts = .err e := by
  have hk := C04_error_iff hE hc ha (t := .string) (by simp) hv (.inl ⟨hm, he⟩ : UsesMode E.sjis (modeIn opts) (nats text) m)
  rw [fits_iff h1 h2] at hk
  by_cases hn : Spec.charCount m (nats text) ≤ k
  · rw [if_pos hn]
    rcases C07_newWith_no_panic hE hc ha (t := .string) (by simp) text (.inr ⟨m, hm⟩ : Supported (modeIn opts)) with ⟨q, hq⟩ | hx
    · obtain ⟨img, g1, g2⟩ := picture hE hc ha hq hauto
      exact ⟨q, img, hq, g1, g2⟩
    · have := hk.1 hx
      omega
  · rw [if_neg hn]
    exact hk.2 (by omega)

/-- **C88, issue 69.**  Whatever JSON text is put in place of the one in the program: if it has at most 1852 characters then after the replacements it can be encoded in alphanumeric mode at the highest
level, the picture is drawn with one pixel for each module and a white frame four pixels wide, and its pixels give the text with capitals and `$%*/` and space in place of the other characters.  If it
has more, `NewWith` returns an error (and the program panics with it). -/
theorem C88_issue69 {E : Ext} {unsjis : Nat → Option Nat} (hE : E.Ok unsjis) {c : AlignCache} (hc : CacheReachable c) {arrival : List Nat} (ha : Arrival arrival)
    {text : Bytes} (hj : ∀ b ∈ nats text, isJson b) :
    if text.length ≤ 1852 then
      ∃ q img, newWith E c arrival .string (content69 text) options69 = .ok q ∧ Compressed.write (some writerOption) q.mat = some img ∧
        OnePixelPicture unsjis q.dimension img ((nats text).map simplify)
    else ∃ e, newWith E c arrival .string (content69 text) options69 = .err e := by
  have hn := content69_map text
  have hal : ∀ b ∈ nats (content69 text), b ∈ alnumChars := by
    rw [hn]
    intro b hb
    obtain ⟨a, ha', rfl⟩ := List.mem_map.1 hb
    exact simplify_alnum (hj a ha')
  have hcount : Spec.charCount .alnum (nats (content69 text)) = text.length := by
    simp only [Spec.charCount]
    rw [List.countP_eq_length.2 (fun b hb => ?_), hn, List.length_map, nats_length]
    have : ∀ b ∈ alnumChars, decide (b / 64 ≠ 2) = true := by decide +kernel
    exact this b (hal b hb)
  have h := either hE hc ha (text := content69 text) (opts := options69) (m := .alnum) rfl (by decide) (by decide) hal (k := 1852) (by decide +kernel) (by decide +kernel)
  rw [hcount, hn] at h
  exact h

/-! ## Issue 106 -/

/-- **C88, issue 106.**  Whatever text is put in place of the one in the program: if all its characters can be written in kanji mode and they are at most 1024, the picture is drawn as above and gives
the text; in all other cases `NewWith` returns an error. -/
theorem C88_issue106 {E : Ext} {unsjis : Nat → Option Nat} (hE : E.Ok unsjis) {c : AlignCache} (hc : CacheReachable c) {arrival : List Nat} (ha : Arrival arrival) (text : Bytes) :
    (∀ rs : List Nat, nats text = rs.flatMap utf8 → (∀ r ∈ rs, kanjiChar E.sjis r) → rs.length ≤ 1024 →
      ∃ q img, newWith E c arrival .string text options106 = .ok q ∧ Compressed.write (some writerOption) q.mat = some img ∧ OnePixelPicture unsjis q.dimension img (nats text)) ∧
    ((¬ ∃ rs : List Nat, nats text = rs.flatMap utf8 ∧ (∀ r ∈ rs, kanjiChar E.sjis r) ∧ rs.length ≤ 1024) → ∃ e, newWith E c arrival .string text options106 = .err e) := by
  have key : ∀ rs : List Nat, nats text = rs.flatMap utf8 → (∀ r ∈ rs, kanjiChar E.sjis r) → Spec.charCount .kanji (nats text) = rs.length := by
    intro rs h1 h2
    simp only [Spec.charCount]
    rw [h1]
    exact countP_utf8 rs fun r hr => kanji_scalar (h2 r hr)
  have main := fun he : Encodable E.sjis .kanji (nats text) =>
    either hE hc ha (text := text) (opts := options106) (m := .kanji) rfl (by decide) (by decide) he (k := 1024) (by decide +kernel) (by decide +kernel)
  constructor
  · intro rs h1 h2 h3
    have h := main ⟨rs, h1, h2⟩
    rw [key rs h1 h2, if_pos h3] at h
    exact h
  · intro hno
    by_cases he : Encodable E.sjis .kanji (nats text)
    · have h := main he
      obtain ⟨rs, h1, h2⟩ := he
      rw [key rs h1 h2, if_neg (fun h3 => hno ⟨rs, h1, h2, h3⟩)] at h
      exact h
    · obtain ⟨r, h'⟩ := (C09_rejects_iff hE hc ha (t := .string) (by simp) text (opts := options106) (m := .kanji) rfl).2 he
      exact ⟨_, h'⟩

/-- The text of issue 69 is meant: 158 characters. -/
def text69 : String :=
  "{\n  \"id\": \"beb6c04733d1a2da0f87c910a384\",\n  \"tmax\": 895,\n  \"cur\": [\n    \"USD\"\n  ],\n  \"imp\": [\n    {\n      \"id\": \"21292\",\n      \"instl\": 0,\n      \"secure\": 0}\n"

example : (∀ c ∈ text69.toList, c ∈ jsonChars) ∧ text69.length = 158 := by decide +kernel

end QR.Issues
