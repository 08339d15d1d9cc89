import Verif.Proof.SymbolFacts
/-!
# C11 - C16, C21, C22: the symbol

`bm = q.mat.bitmap` is what `Bitmap()` returns: rows of modules, dark = `true`.
The geometry of the standard is in `Spec/Standard.lean`, `IsSymbol`, `IsStream` in `Spec/Symbol.lean`.
-/
namespace QR
open Spec

/-- The version asked for explicitly, or the smallest that holds the text in the mode used, raised to the minimum. -/
def ChosenVersion (sjis : Nat → Option (List UInt8)) (opts : List EncodeOption) (t : List Nat) (v : Nat) : Prop :=
  versionIn opts = some v ∨
  (versionIn opts = none ∧ ∃ m u, UsesMode sjis (modeIn opts) t m ∧ LeastVersion (levelIn opts) m (Spec.charCount m t) u ∧
    v = max u (minimumIn opts))

theorem chosenVersion_of {E : Ext} {opts : List EncodeOption} {m : Mode} {text : Bytes} {v : Nat}
    (hm : ChosenMode E text (modeIn opts) m) (h : VersionChoice opts m text v) :
    ChosenVersion E.sjis opts (nats text) v := by
  rcases h with h | ⟨h0, u, h1, h2, h3, h4, h5⟩
  · exact Or.inl h
  · rw [chosen_want hm] at h3 h4
    exact Or.inr ⟨h0, m, u, usesMode_of hm, ⟨⟨h1, h2, h3⟩, h4⟩, h5⟩

/-- **C11.** Every symbol is a square of `17 + 4 version` modules, and `Dimension()` reports that side. -/
theorem C11_dimension {E : Ext} {unsjis : Nat → Option Nat} (hE : E.Ok unsjis) {c : AlignCache} (hc : CacheReachable c)
    {arrival : List Nat} (ha : Arrival arrival) {t : TextType} {text : Bytes} {opts : List EncodeOption} {q : QRCode}
    (h : newWith E c arrival t text opts = .ok q) :
    ∃ v, ChosenVersion E.sjis opts (nats text) v ∧ q.dimension = 17 + 4 * v ∧ q.mat.bitmap.length = 17 + 4 * v ∧
      ∀ r ∈ q.mat.bitmap, r.length = 17 + 4 * v := by
  obtain ⟨m, v, k, p, bs, hm, hv, hp, hf, hb⟩ := ok_facts hE hc ha h
  have hs := isSymbol_of hE.rs hb
  exact ⟨v, chosenVersion_of hm hv, hb.dimension, hs.rows, hs.cols⟩

/-- All facts about the bitmap in one statement: version, level, mask and stream as the standard prescribes. -/
theorem symbol_facts {E : Ext} {unsjis : Nat → Option Nat} (hE : E.Ok unsjis) {c : AlignCache} (hc : CacheReachable c)
    {arrival : List Nat} (ha : Arrival arrival) {t : TextType} {text : Bytes} {opts : List EncodeOption} {q : QRCode}
    (h : newWith E c arrival t text opts = .ok q) :
    ∃ v k m p bits, q.dimension = 17 + 4 * v ∧ 1 ≤ v ∧ v ≤ 40 ∧ k < 8 ∧
      IsSymbol v (levelIn opts) k (readStream q.mat.bitmap v k) q.mat.bitmap ∧
      IsStream E.rs v (levelIn opts) bits (readStream q.mat.bitmap v k) ∧
      UsesMode E.sjis (modeIn opts) (nats text) m ∧
      Filled (8 * dataCodewords v (levelIn opts)) (Segment v m (Spec.charCount m (nats text)) p) bits ∧
      (Encodable E.sjis m (nats text) →
        p.length = payloadBits m (Spec.charCount m (nats text)) ∧
        ∀ rest, readPayload unsjis m (Spec.charCount m (nats text)) (p ++ rest) = some (nats text, rest)) := by
  obtain ⟨m, v, k, p, bs, hm, hv, hp, hf, hb⟩ := ok_facts hE hc ha h
  have hs := isSymbol_of hE.rs hb
  rw [level_applied] at hs
  have hl := hb.len
  rw [level_applied] at hl
  have hst := isStream_of hE.rs hb.v1 hb.v40 (levelIn opts) hl
  refine ⟨v, k, m, p, bs, hb.dimension, hb.v1, hb.v40, hb.mask, ?_, ?_, usesMode_of hm, ?_, ?_⟩
  · rw [hs.data]; exact hs
  · rw [hs.data]; exact hst
  · have e : countOf m text = Spec.charCount m (nats text) := by
      rcases hm.cases with hr | ⟨_, h1, h2⟩
      · exact countOf_charCount hr
      · rw [← wantOf_charCount (E := E) (Or.inr ⟨h1, h2⟩)]
        subst h2; rfl
    rw [e] at hf; exact hf
  · intro he
    have hr := (representable_iff E m text).2 he
    rcases hp with ⟨h1, h2, h3⟩ | ⟨h1, h2, _⟩
    · rw [countOf_charCount h1] at h2 h3; exact ⟨h2, h3⟩
    · subst h2; exact absurd hr (mixed_not_rep h1)

/-- **C12.** In every symbol each module of a finder pattern, separator, alignment pattern, timing pattern and the dark
module has the prescribed colour; `v` is the version that belongs to the dimension. -/
theorem C12_function_patterns {E : Ext} {unsjis : Nat → Option Nat} (hE : E.Ok unsjis) {c : AlignCache} (hc : CacheReachable c)
    {arrival : List Nat} (ha : Arrival arrival) {t : TextType} {text : Bytes} {opts : List EncodeOption} {q : QRCode}
    (h : newWith E c arrival t text opts = .ok q) {v : Nat} (hv : q.dimension = 17 + 4 * v) :
    ∀ i j colour, i < 17 + 4 * v → j < 17 + 4 * v → patternColour v i j = some colour → pixel q.mat.bitmap i j = colour := by
  obtain ⟨v', k, m, p, bits, hd, h1, h40, hk, hs, _⟩ := symbol_facts hE hc ha h
  have : v' = v := by omega
  subst this
  exact hs.pattern

/-- **C13.** Both copies of the format information carry the BCH-coded level asked for and a mask number `k`; and mask `k`
is the one applied: with it removed, the data region carries the codewords of the text. -/
theorem C13_format_information {E : Ext} {unsjis : Nat → Option Nat} (hE : E.Ok unsjis) {c : AlignCache} (hc : CacheReachable c)
    {arrival : List Nat} (ha : Arrival arrival) {t : TextType} {text : Bytes} {opts : List EncodeOption} {q : QRCode}
    (h : newWith E c arrival t text opts = .ok q) {v : Nat} (hv : q.dimension = 17 + 4 * v) :
    ∃ k, k < 8 ∧
      (formatCells1.map fun x => pixel q.mat.bitmap x.1 x.2) = numBits 15 (formatWord (levelIn opts) k) ∧
      ((formatCells2 v).map fun x => pixel q.mat.bitmap x.1 x.2) = numBits 15 (formatWord (levelIn opts) k) ∧
      ∃ m p bits, UsesMode E.sjis (modeIn opts) (nats text) m ∧
        Filled (8 * dataCodewords v (levelIn opts)) (Segment v m (Spec.charCount m (nats text)) p) bits ∧
        IsStream E.rs v (levelIn opts) bits (readStream q.mat.bitmap v k) := by
  obtain ⟨v', k, m, p, bits, hd, h1, h40, hk, hs, hst, hm, hf, _⟩ := symbol_facts hE hc ha h
  have : v' = v := by omega
  subst this
  exact ⟨k, hk, hs.format1, hs.format2, m, p, bits, hm, hf, hst⟩

/-- **C14.** Versions 7..40 carry both copies of the Golay-coded version number; below 7 every function module is a
pattern or format module, so there is no version information. -/
theorem C14_version_information {E : Ext} {unsjis : Nat → Option Nat} (hE : E.Ok unsjis) {c : AlignCache} (hc : CacheReachable c)
    {arrival : List Nat} (ha : Arrival arrival) {t : TextType} {text : Bytes} {opts : List EncodeOption} {q : QRCode}
    (h : newWith E c arrival t text opts = .ok q) {v : Nat} (hv : q.dimension = 17 + 4 * v) :
    (7 ≤ v → ((versionCells1 v).map fun x => pixel q.mat.bitmap x.1 x.2) = numBits 18 (versionWord v) ∧
      ((versionCells2 v).map fun x => pixel q.mat.bitmap x.1 x.2) = numBits 18 (versionWord v)) ∧
    (v < 7 → ∀ i j, i < 17 + 4 * v → j < 17 + 4 * v →
      (∃ colour, patternColour v i j = some colour) ∨ (i, j) ∈ formatCells1 ∨ (i, j) ∈ formatCells2 v ∨ (i, j) ∈ dataModules v) := by
  obtain ⟨v', k, m, p, bits, hd, h1, h40, hk, hs, _⟩ := symbol_facts hE hc ha h
  have : v' = v := by omega
  subst this
  refine ⟨fun h7 => ⟨hs.version1 h7, hs.version2 h7⟩, fun h7 i j hi hj => ?_⟩
  cases hf : isFunction v' i j with
  | false => exact Or.inr (Or.inr (Or.inr ((mem_dataModules h1).2 ⟨hi, hj, hf⟩)))
  | true =>
    rcases function_covered h1 hi hj hf with h | h | h | ⟨h, _⟩
    · exact Or.inl h
    · exact Or.inr (Or.inl h)
    · exact Or.inr (Or.inr (Or.inl h))
    · omega

/-- **C15.** The stream (codewords and remainder bits) has exactly as many bits as there are data modules; the list of
data modules has no repetitions and contains every non-function module; no module of the returned matrix is in the
initial state. -/
theorem C15_every_module_determined {E : Ext} {unsjis : Nat → Option Nat} (hE : E.Ok unsjis) {c : AlignCache} (hc : CacheReachable c)
    {arrival : List Nat} (ha : Arrival arrival) {t : TextType} {text : Bytes} {opts : List EncodeOption} {q : QRCode}
    (h : newWith E c arrival t text opts = .ok q) {v : Nat} (hv : q.dimension = 17 + 4 * v) :
    q.dataBSet.length = (dataModules v).length ∧ (dataModules v).length = 8 * totalCodewords v + rawModules v % 8 ∧
    (dataModules v).Nodup ∧ (∀ i j, (i, j) ∈ dataModules v ↔ i < 17 + 4 * v ∧ j < 17 + 4 * v ∧ isFunction v i j = false) ∧
    ∀ x y : Nat, x < q.dimension → y < q.dimension → (q.mat.at' x y).ty ≠ .init := by
  obtain ⟨ht, hsup, hbuild⟩ := newWith_ok h
  obtain ⟨m, v', k, p, bs, hm, hvc, hp, hf, hb⟩ := ok_facts hE hc ha h
  have hd : q.dimension = 17 + 4 * v' := hb.dimension
  have : v' = v := by omega
  subst this
  have hl := hb.len
  have hdm := dataModules_length hb.v1 hb.v40
  refine ⟨?_, ?_, ?_, fun i j => mem_dataModules hb.v1, ?_⟩
  · rw [hdm]
    rw [hb.stream]
    exact finalStream_length hE.rs hb.v1 hb.v40 _ hl
  · rw [hdm]; unfold totalCodewords; omega
  · exact (zigzag_nodup hb.v1).filter _
  · intro x y hx hy
    rw [hd] at hx hy
    exact hb.sym.noInit y x hy hx

/-- **C15**, seen from the standard: version, level, mask and stream determine every module, so a bitmap that satisfies
C12, C13, C14 and C16 for the same stream is the same bitmap. -/
theorem C15_symbol_unique {v : Nat} {lv : Level} {k : Nat} {s : List Bool} {bm bm' : List (List Bool)}
    (h : IsSymbol v lv k s bm) (h' : IsSymbol v lv k s bm') : bm = bm' := isSymbol_unique h h'

/-- **C16.** Reading the non-function modules in the standard's zig-zag order, with the mask named in the format
information removed, yields the stream of interleaved codewords (data, error correction, zero remainder bits). -/
theorem C16_zigzag {E : Ext} {unsjis : Nat → Option Nat} (hE : E.Ok unsjis) {c : AlignCache} (hc : CacheReachable c)
    {arrival : List Nat} (ha : Arrival arrival) {t : TextType} {text : Bytes} {opts : List EncodeOption} {q : QRCode}
    (h : newWith E c arrival t text opts = .ok q) :
    ∃ v lv k bits, readVersion q.mat.bitmap = some v ∧ readFormat q.mat.bitmap = some (lv, k) ∧
      ((dataModules v).map fun x => pixel q.mat.bitmap x.1 x.2 ^^ maskBit k x.1 x.2) = q.dataBSet ∧
      IsStream E.rs v lv bits q.dataBSet := by
  obtain ⟨m, v, k, p, bs, hm, hvc, hp, hf, hb⟩ := ok_facts hE hc ha h
  obtain ⟨r1, r2, r3, r4⟩ := hb.read hE.rs
  refine ⟨v, _, k, bs, r1, r2, ?_, ?_⟩
  · rw [hb.stream, ← r3]; rfl
  · rw [hb.stream]; exact isStream_of hE.rs hb.v1 hb.v40 _ hb.len

/-- **C21.** De-interleaving with the standard's block table gives back the data blocks, whose concatenation is the data
bit stream, and for each block the codewords that the Reed-Solomon coder appends to that block. -/
theorem C21_blocks {E : Ext} {unsjis : Nat → Option Nat} (hE : E.Ok unsjis) {c : AlignCache} (hc : CacheReachable c)
    {arrival : List Nat} (ha : Arrival arrival) {t : TextType} {text : Bytes} {opts : List EncodeOption} {q : QRCode}
    (h : newWith E c arrival t text opts = .ok q) :
    ∃ v lv k bits, readData q.mat.bitmap = some (v, lv, k, bits) ∧
      IsStream E.rs v lv bits (readStream q.mat.bitmap v k) ∧ lv = levelIn opts := by
  obtain ⟨m, v, k, p, bs, hm, hvc, hp, hf, hb⟩ := ok_facts hE hc ha h
  obtain ⟨r1, r2, r3, r4⟩ := hb.read hE.rs
  have hl := hb.len
  rw [level_applied] at r2 r3 r4 hl
  refine ⟨v, levelIn opts, k, bs, ?_, ?_, rfl⟩
  · unfold readData
    rw [r1]
    simp only [Option.bind_eq_bind, Option.bind_some, r2, r4]
  · rw [r3]; exact isStream_of hE.rs hb.v1 hb.v40 _ hl

/-- **C22.** The data bit stream of the symbol is mode indicator, character count, payload, a terminator of at most four
zero bits, zero bits up to a byte boundary and alternating pad bytes `0xEC 0x11`, in total 8 times the number of data
codewords; for a text the mode can represent, the payload has the standard's length and decodes to the text. -/
theorem C22_layout {E : Ext} {unsjis : Nat → Option Nat} (hE : E.Ok unsjis) {c : AlignCache} (hc : CacheReachable c)
    {arrival : List Nat} (ha : Arrival arrival) {t : TextType} {text : Bytes} {opts : List EncodeOption} {q : QRCode}
    (h : newWith E c arrival t text opts = .ok q) :
    ∃ v lv k bits m payload, readData q.mat.bitmap = some (v, lv, k, bits) ∧
      UsesMode E.sjis (modeIn opts) (nats text) m ∧ bits.length = 8 * dataCodewords v lv ∧
      Filled (8 * dataCodewords v lv) (m.indicator ++ numBits (countWidth v m) (Spec.charCount m (nats text)) ++ payload) bits ∧
      (Encodable E.sjis m (nats text) → payload.length = payloadBits m (Spec.charCount m (nats text)) ∧
        ∀ rest, readPayload unsjis m (Spec.charCount m (nats text)) (payload ++ rest) = some (nats text, rest)) := by
  obtain ⟨v, k, m, p, bits, hd, h1, h40, hk, hs, hst, hm, hf, hp⟩ := symbol_facts hE hc ha h
  obtain ⟨v', lv, k', bits', r1, r2, rfl⟩ := C21_blocks hE hc ha h
  have hr1 : readVersion q.mat.bitmap = some v := by
    unfold readVersion
    simp only [hs.rows, side]
    rw [if_pos (by omega)]
    congr 1; omega
  have hr2 : readFormat q.mat.bitmap = some (levelIn opts, k) := by
    unfold readFormat readCells
    have e := hs.format1
    rw [numBits_eq] at e
    have e2 : bitsToNat (formatCells1.map fun (x : Nat × Nat) => pixel q.mat.bitmap x.1 x.2) = formatWord (levelIn opts) k := by
      rw [e, bitsToNat_natBits, Nat.mod_eq_of_lt (formatWord_lt _ _ hk)]
    have e3 : bitsToNat (formatCells1.map fun (x : Nat × Nat) => match x with | (i, j) => pixel q.mat.bitmap i j) = formatWord (levelIn opts) k := e2
    simp only [e3]
    exact find_format _ _ hk
  have hvv : v' = v ∧ k' = k ∧ bits' = bits := by
    unfold readData at r1
    rw [hr1] at r1
    simp only [Option.bind_eq_bind, Option.bind_some, hr2, Option.some.injEq, Prod.mk.injEq] at r1
    obtain ⟨e1, _, e2, e3⟩ := r1
    refine ⟨e1.symm, e2.symm, ?_⟩
    have := hst.data
    rw [← this, ← e3]
    unfold deinterleave
    rw [List.flatMap_assoc]
    rfl
  obtain ⟨rfl, rfl, rfl⟩ := hvv
  exact ⟨v', levelIn opts, k', bits', m, p, r1, hm, hf.1, hf, hp⟩

/-! ## The hypotheses are met -/

/-- There are symbols: `HELLO` with minimum version 7 in every schedule (so version information occurs). -/
theorem demo_symbol {c : AlignCache} (hc : CacheReachable c) {arrival : List Nat} (ha : Arrival arrival) :
    ∃ q, newWith demoExt c arrival .string [72, 69, 76, 76, 79] [.withEncodingMode encAlphanumeric, .withMinimumVersion 7] = .ok q ∧
      q.dimension = 17 + 4 * 7 := by
  obtain ⟨q, hq⟩ := (C09_fails_iff demo_ok hc ha (t := .string) (by simp) [72, 69, 76, 76, 79]
    (opts := [.withEncodingMode encAlphanumeric, .withMinimumVersion 7]) (m := .alnum) rfl (by decide)).2 (by
      simp only [Spec.Encodable]; decide)
  refine ⟨q, hq, ?_⟩
  obtain ⟨v, hv, hd, _⟩ := C11_dimension demo_ok hc ha hq
  rw [hd]
  rcases hv with h | ⟨_, m, u, hm, hu, rfl⟩
  · cases h
  · have e : m = .alnum := by
      rcases hm with ⟨h, _⟩ | ⟨h, _⟩ | ⟨h, _⟩
      · exact (modeNum_inj (a := .alnum) h).symm
      · exact absurd h (by decide)
      · exact absurd h (by decide)
    subst e
    have hu1 : u = 1 := by
      apply Classical.byContradiction
      intro hne
      exact hu.2 1 (by omega) (by have := hu.1.1; omega) (by decide)
    subst hu1
    rfl

end QR
