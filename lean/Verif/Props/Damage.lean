import Verif.Props.Text
import Verif.Proof.BlockIndices
/-!
# C68: damaged symbols

`Spec.decodeDamaged` (`Spec/Damage.lean`) is a reader that corrects errors; `a` is the bitmap of a symbol, `bm` what a scanner sees of it.
`hRS : E.rs = rsEncode`: the external Reed-Solomon package is a systematic coder of the standard's code, as in C50.
-/
namespace QR
open Spec

theorem formats_injective : ∀ f ∈ formats, ∀ g ∈ formats, (formatWord f.1 f.2 == formatWord g.1 g.2) = true → f = g := by
  decide +kernel

theorem formats_bits : ∀ f ∈ formats, bitsToNat (numBits 15 (formatWord f.1 f.2)) = formatWord f.1 f.2 := by
  decide +kernel

theorem readFormat_of {v k : Nat} {lv : Level} {s : List Bool} {a : List (List Bool)} (hs : IsSymbol v lv k s a) : readFormat a = some (lv, k) := by
  have hm := mem_formats lv hs.mask
  have hw : readCells a formatCells1 = formatWord lv k := by
    have e : readCells a formatCells1 = bitsToNat (formatCells1.map fun p => pixel a p.1 p.2) := rfl
    rw [e, hs.format1]
    have := formats_bits (lv, k) hm
    simpa only using this
  have e : readFormat a = formats.find? fun (x : Level × Nat) => formatWord x.1 x.2 == readCells a formatCells1 := rfl
  rw [e, hw]
  exact find_unique hm (by simp) (fun y hy hp => formats_injective y hy (lv, k) hm hp)

/-- **C68.** A reader that corrects errors recovers the text from a damaged symbol, whatever colours the damaged modules have, as long as
at most 6 of the 30 format modules are wrong and in every block at most half as many codewords are damaged as the block has error correction
codewords. (The finder, timing, alignment and version modules may be damaged at will: locating the symbol is not modelled.) -/
theorem C68_damage {E : Ext} {unsjis : Nat → Option Nat} (hE : E.Ok unsjis) (hRS : E.rs = rsEncode) {c : AlignCache} (hc : CacheReachable c)
    {arrival : List Nat} (ha : Arrival arrival) {t : TextType} {text : Bytes} {opts : List EncodeOption} {q : QRCode}
    (h : newWith E c arrival t text opts = .ok q)
    (hx : ¬ (modeIn opts = encAuto ∧ AlnumThenKanji E.sjis (nats text)))
    {v : Nat} (hv : q.dimension = 17 + 4 * v) {bm : List (List Bool)} (hlen : bm.length = q.dimension)
    (hfmt : wrongAt q.mat.bitmap bm formatCells1 + wrongAt q.mat.bitmap bm (formatCells2 v) ≤ 6)
    (hcw : ∀ b < numBlocks v (levelIn opts), wrongCodewords v (levelIn opts) q.mat.bitmap bm b ≤ ecPerBlock v (levelIn opts) / 2) :
    decodeDamaged unsjis bm = some (nats text) := by
  rw [← C01_roundtrip_partial hE hc ha h hx]
  obtain ⟨v', k, m, p, bits, hd, h1, h40, hk, hs, hst, _⟩ := symbol_facts hE hc ha h
  have : v' = v := by omega
  subst this
  rw [hRS] at hst
  refine damaged_decode hs (fun b hb => stream_codeword hst hb) (readFormat_of hs) ?_ hfmt hcw
  rw [hlen, hv, hs.rows]
  rfl

/-- In particular few wrong modules, anywhere in the symbol, do no harm: no more than 6 and no more than half the error correction codewords of a block. -/
theorem C68_few_modules {E : Ext} {unsjis : Nat → Option Nat} (hE : E.Ok unsjis) (hRS : E.rs = rsEncode) {c : AlignCache} (hc : CacheReachable c)
    {arrival : List Nat} (ha : Arrival arrival) {t : TextType} {text : Bytes} {opts : List EncodeOption} {q : QRCode}
    (h : newWith E c arrival t text opts = .ok q)
    (hx : ¬ (modeIn opts = encAuto ∧ AlnumThenKanji E.sjis (nats text)))
    {v : Nat} (hv : q.dimension = 17 + 4 * v) {bm : List (List Bool)} (hlen : bm.length = q.dimension)
    (h6 : wrongAt q.mat.bitmap bm (allCells v) ≤ 6) (he : wrongAt q.mat.bitmap bm (allCells v) ≤ ecPerBlock v (levelIn opts) / 2) :
    decodeDamaged unsjis bm = some (nats text) := by
  obtain ⟨v', k, m, p, bits, hd, h1, h40, _⟩ := symbol_facts hE hc ha h
  have : v' = v := by omega
  subst this
  exact C68_damage hE hRS hc ha h hx hv hlen (Nat.le_trans (wrongFormat_le h1 h40 _ _) h6)
    (fun b hb => Nat.le_trans (wrongCodewords_le_wrong h1 h40 _ hb _ _) he)

/-- Any three wrong modules are harmless in every symbol, any six at the levels Q (the default) and H. -/
theorem C68_margin {v : Nat} (h1 : 1 ≤ v) (h40 : v ≤ 40) :
    (∀ lv, 3 ≤ ecPerBlock v lv / 2) ∧ 6 ≤ ecPerBlock v .Q / 2 ∧ 6 ≤ ecPerBlock v .H / 2 := by
  refine ⟨C50_nontrivial h1 h40, ?_⟩
  have t : ∀ v ∈ List.range 41, 1 ≤ v → 6 ≤ ecPerBlock v .Q / 2 ∧ 6 ≤ ecPerBlock v .H / 2 := by decide +kernel
  exact t v (List.mem_range.2 (by omega)) h1

/-- The hypotheses are met by damaged symbols: whatever is done to the modules (20, 20), (20, 21) and (8, 1) (a format module) of the symbol
`HELLO` of version 7, the reader finds the text. -/
example {c : AlignCache} (hc : CacheReachable c) {arrival : List Nat} (ha : Arrival arrival) :
    ∃ q, newWith demoExt c arrival .string [72, 69, 76, 76, 79] [.withEncodingMode encAlphanumeric, .withMinimumVersion 7] = .ok q ∧
      ∀ bm : List (List Bool), bm.length = 45 →
        (∀ i j, (i, j) ∉ [(20, 20), (20, 21), (8, 1)] → pixel q.mat.bitmap i j = pixel bm i j) →
        decodeDamaged demoUnsjis bm = some [72, 69, 76, 76, 79] := by
  obtain ⟨q, hq, hd⟩ := demo_symbol hc ha
  refine ⟨q, hq, fun bm hl hs => ?_⟩
  have hw : wrongAt q.mat.bitmap bm (allCells 7) ≤ 3 := by
    refine Nat.le_trans (m := (allCells 7).countP fun p => decide (p ∈ [(20, 20), (20, 21), (8, 1)])) (List.countP_mono_left ?_) (by decide +kernel)
    intro p _ hp
    by_contra hn
    have := hs p.1 p.2 (by simpa using hn)
    rw [this] at hp
    simp at hp
  exact C68_few_modules demo_ok rfl hc ha hq (fun h => absurd h.1 (by decide)) hd (by rw [hl, hd]) (by omega) (Nat.le_trans hw (by decide))

end QR
