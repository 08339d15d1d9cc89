import Verif.Props.Damage
import Verif.Proof.DamageLimit
/-!
# C82: symbols of different texts are far apart

C03 says that different texts give different symbols; here is how different.  `wrongAt a b cells` counts the modules among `cells` in which two bitmaps
differ, `wrongCodewords v lv a b i` the codewords of block `i` in which they differ (`Spec/Damage.lean`).
-/
namespace QR
open Spec

theorem hamming_refl (a : List GF) : hamming a a = 0 := by
  have e := hamming_map (α := GF) id id a
  rw [List.map_id] at e
  rw [e]
  simp

/-- **C82.** Two symbols of the same size that carry different texts (whatever the options of the two calls, and unless one of the texts is in the exception of
C01) either have different format information, and then differ in at least 7 of the 15 modules of each of its copies, or have the same level and some block in
which more codewords differ than the block has error correction codewords. -/
theorem C82_apart {E : Ext} {unsjis : Nat → Option Nat} (hE : E.Ok unsjis) (hRS : E.rs = rsEncode)
    {c c' : AlignCache} (hc : CacheReachable c) (hc' : CacheReachable c')
    {arrival arrival' : List Nat} (ha : Arrival arrival) (ha' : Arrival arrival')
    {t t' : TextType} {text text' : Bytes} {opts opts' : List EncodeOption} {q q' : QRCode}
    (h : newWith E c arrival t text opts = .ok q) (h' : newWith E c' arrival' t' text' opts' = .ok q')
    (hne : text ≠ text')
    (hx : ¬ (modeIn opts = encAuto ∧ AlnumThenKanji E.sjis (nats text)))
    (hx' : ¬ (modeIn opts' = encAuto ∧ AlnumThenKanji E.sjis (nats text')))
    {v : Nat} (hv : q.dimension = 17 + 4 * v) (hv' : q'.dimension = 17 + 4 * v) :
    (7 ≤ wrongAt q.mat.bitmap q'.mat.bitmap formatCells1 ∧ 7 ≤ wrongAt q.mat.bitmap q'.mat.bitmap (formatCells2 v)) ∨
    (levelIn opts = levelIn opts' ∧ ∃ b < numBlocks v (levelIn opts),
      ecPerBlock v (levelIn opts) < wrongCodewords v (levelIn opts) q.mat.bitmap q'.mat.bitmap b) := by
  obtain ⟨v1, k, m, p, bits, hd, h1, h40, hk, hs, hst, _⟩ := symbol_facts hE hc ha h
  obtain ⟨v2, k', m', p', bits', hd', _, _, hk', hs', hst', _⟩ := symbol_facts hE hc' ha' h'
  have e1 : v1 = v := by omega
  have e2 : v2 = v := by omega
  subst e1; subst e2
  rw [hRS] at hst hst'
  by_cases hf : (levelIn opts, k) = (levelIn opts', k')
  · right
    injection hf with hl hkk
    subst hkk
    refine ⟨hl, ?_⟩
    by_contra hcon
    push Not at hcon
    rw [← hl] at hs' hst'
    have hz : ∀ b < numBlocks v2 (levelIn opts), wrongCodewords v2 (levelIn opts) q.mat.bitmap q'.mat.bitmap b = 0 := by
      intro b hb
      rw [← hamming_wrong h1 h40 _ hb k]
      have hle := hcon b hb
      rw [← hamming_wrong h1 h40 _ hb k] at hle
      by_cases he : blockBytes v2 (levelIn opts) (codewordsOf q.mat.bitmap v2 k) b = blockBytes v2 (levelIn opts) (codewordsOf q'.mat.bitmap v2 k) b
      · rw [he, hamming_refl]
      · exact absurd (codeword_distance (by rw [blockBytes_length, blockBytes_length]) (by rw [blockBytes_length]; exact block_short h1 h40 _ b)
          (stream_codeword hst hb) (stream_codeword hst' hb) he) (Nat.not_lt.2 hle)
    have hfmt : wrongAt q.mat.bitmap q'.mat.bitmap formatCells1 + wrongAt q.mat.bitmap q'.mat.bitmap (formatCells2 v2) = 0 := by
      have g1 : bitsAt q.mat.bitmap formatCells1 = bitsAt q'.mat.bitmap formatCells1 := hs.format1.trans hs'.format1.symm
      have g2 : bitsAt q.mat.bitmap (formatCells2 v2) = bitsAt q'.mat.bitmap (formatCells2 v2) := hs.format2.trans hs'.format2.symm
      rw [← bitDist_bitsAt, ← bitDist_bitsAt, g1, g2]
      rw [bitDist_bitsAt, bitDist_bitsAt]
      simp [wrongAt]
    have r1 := C68_damage hE hRS hc ha h hx hv (bm := q'.mat.bitmap) (by rw [hv, hs'.rows]; rfl) (by omega)
      (fun b hb => by rw [hz b hb]; omega)
    have r2 := C68_damage hE hRS hc' ha' h' hx' hv' (bm := q'.mat.bitmap) (by rw [hv', hs'.rows]; rfl) (by simp [wrongAt])
      (fun b hb => by simp [wrongCodewords, wrongAt])
    rw [r1] at r2
    apply hne
    rw [← ofNat_nats text, ← ofNat_nats text', Option.some.inj r2]
  · left
    have hdist := formats_apart _ (mem_formats (levelIn opts) hk) _ (mem_formats (levelIn opts') hk') hf
    have g1 : bitsAt q.mat.bitmap formatCells1 = numBits 15 (formatWord (levelIn opts) k) := hs.format1
    have g1' : bitsAt q'.mat.bitmap formatCells1 = numBits 15 (formatWord (levelIn opts') k') := hs'.format1
    have g2 : bitsAt q.mat.bitmap (formatCells2 v2) = numBits 15 (formatWord (levelIn opts) k) := hs.format2
    have g2' : bitsAt q'.mat.bitmap (formatCells2 v2) = numBits 15 (formatWord (levelIn opts') k') := hs'.format2
    rw [← bitDist_bitsAt, ← bitDist_bitsAt, g1, g1', g2, g2']
    exact ⟨hdist, hdist⟩

/-- Counted in modules: symbols of the same size that carry different texts differ in at least 14 modules, or in more modules than a block has error correction
codewords if that is less. -/
theorem C82_modules {E : Ext} {unsjis : Nat → Option Nat} (hE : E.Ok unsjis) (hRS : E.rs = rsEncode)
    {c c' : AlignCache} (hc : CacheReachable c) (hc' : CacheReachable c')
    {arrival arrival' : List Nat} (ha : Arrival arrival) (ha' : Arrival arrival')
    {t t' : TextType} {text text' : Bytes} {opts opts' : List EncodeOption} {q q' : QRCode}
    (h : newWith E c arrival t text opts = .ok q) (h' : newWith E c' arrival' t' text' opts' = .ok q')
    (hne : text ≠ text')
    (hx : ¬ (modeIn opts = encAuto ∧ AlnumThenKanji E.sjis (nats text)))
    (hx' : ¬ (modeIn opts' = encAuto ∧ AlnumThenKanji E.sjis (nats text')))
    {v : Nat} (hv : q.dimension = 17 + 4 * v) (hv' : q'.dimension = 17 + 4 * v) :
    min 14 (ecPerBlock v (levelIn opts) + 1) ≤ wrongAt q.mat.bitmap q'.mat.bitmap (allCells v) := by
  obtain ⟨v1, k, m, p, bits, hd, h1, h40, _⟩ := symbol_facts hE hc ha h
  have e1 : v1 = v := by omega
  subst e1
  rcases C82_apart hE hRS hc hc' ha ha' h h' hne hx hx' hv hv' with ⟨a, b⟩ | ⟨_, b, hb, hw⟩
  · have := wrongFormat_le h1 h40 q.mat.bitmap q'.mat.bitmap
    omega
  · have := wrongCodewords_le_wrong h1 h40 (levelIn opts) hb q.mat.bitmap q'.mat.bitmap
    omega

/-- The least numbers of error correction codewords per block: 7 at level L, 10 at M, 13 at the default Q and 16 at H.  So symbols of different texts differ in at
least 8, 11, 14 and 14 modules. -/
theorem C82_margin {v : Nat} (h1 : 1 ≤ v) (h40 : v ≤ 40) :
    7 ≤ ecPerBlock v .L ∧ 10 ≤ ecPerBlock v .M ∧ 13 ≤ ecPerBlock v .Q ∧ 16 ≤ ecPerBlock v .H := by
  have t : ∀ v ∈ List.range 41, 1 ≤ v → 7 ≤ ecPerBlock v .L ∧ 10 ≤ ecPerBlock v .M ∧ 13 ≤ ecPerBlock v .Q ∧ 16 ≤ ecPerBlock v .H := by decide +kernel
  exact t v (List.mem_range.2 (by omega)) h1

/-- A reader cannot take one symbol for the other: no picture is within the correction limits of C68 of the symbols of two different texts. -/
theorem C82_unambiguous {E : Ext} {unsjis : Nat → Option Nat} (hE : E.Ok unsjis) (hRS : E.rs = rsEncode)
    {c c' : AlignCache} (hc : CacheReachable c) (hc' : CacheReachable c')
    {arrival arrival' : List Nat} (ha : Arrival arrival) (ha' : Arrival arrival')
    {t t' : TextType} {text text' : Bytes} {opts opts' : List EncodeOption} {q q' : QRCode}
    (h : newWith E c arrival t text opts = .ok q) (h' : newWith E c' arrival' t' text' opts' = .ok q')
    (hne : text ≠ text')
    (hx : ¬ (modeIn opts = encAuto ∧ AlnumThenKanji E.sjis (nats text)))
    (hx' : ¬ (modeIn opts' = encAuto ∧ AlnumThenKanji E.sjis (nats text')))
    {v v' : Nat} (hv : q.dimension = 17 + 4 * v) (hv' : q'.dimension = 17 + 4 * v')
    {bm : List (List Bool)} :
    ¬ ((bm.length = q.dimension ∧ wrongAt q.mat.bitmap bm formatCells1 + wrongAt q.mat.bitmap bm (formatCells2 v) ≤ 6 ∧
          ∀ b < numBlocks v (levelIn opts), wrongCodewords v (levelIn opts) q.mat.bitmap bm b ≤ ecPerBlock v (levelIn opts) / 2) ∧
       (bm.length = q'.dimension ∧ wrongAt q'.mat.bitmap bm formatCells1 + wrongAt q'.mat.bitmap bm (formatCells2 v') ≤ 6 ∧
          ∀ b < numBlocks v' (levelIn opts'), wrongCodewords v' (levelIn opts') q'.mat.bitmap bm b ≤ ecPerBlock v' (levelIn opts') / 2)) := by
  rintro ⟨⟨l1, f1, w1⟩, l2, f2, w2⟩
  have r1 := C68_damage hE hRS hc ha h hx hv l1 f1 w1
  have r2 := C68_damage hE hRS hc' ha' h' hx' hv' l2 f2 w2
  rw [r1] at r2
  apply hne
  rw [← ofNat_nats text, ← ofNat_nats text', Option.some.inj r2]

/-- The hypotheses are met: the symbols `HELLO` and `WORLD` in version 7 at the default level, which differ in at least
14 modules whatever their masks. -/
example {c c' : AlignCache} (hc : CacheReachable c) (hc' : CacheReachable c') {arrival arrival' : List Nat} (ha : Arrival arrival) (ha' : Arrival arrival') :
    ∃ q q', newWith demoExt c arrival .string [72, 69, 76, 76, 79] [.withEncodingMode encAlphanumeric, .withMinimumVersion 7] = .ok q ∧
      newWith demoExt c' arrival' .string [87, 79, 82, 76, 68] [.withEncodingMode encAlphanumeric, .withMinimumVersion 7] = .ok q' ∧
      14 ≤ wrongAt q.mat.bitmap q'.mat.bitmap (allCells 7) := by
  obtain ⟨q, hq, hd⟩ := demo_symbol hc ha
  obtain ⟨q', hq'⟩ := (C09_fails_iff demo_ok hc' ha' (t := .string) (by simp) [87, 79, 82, 76, 68]
    (opts := [.withEncodingMode encAlphanumeric, .withMinimumVersion 7]) (m := .alnum) rfl (by decide)).2 (by
      simp only [Spec.Encodable]; decide)
  have hd' : q'.dimension = 17 + 4 * 7 := by
    obtain ⟨v, hv, hd, _⟩ := C11_dimension demo_ok hc' ha' hq'
    rw [hd]
    rcases hv with h | ⟨_, m, u, hm, hu, rfl⟩
    · cases h
    · have e : m = .alnum := by
        rcases hm with ⟨h, _⟩ | ⟨h, _⟩ | ⟨h, _⟩
        · exact (modeNum_inj (a := .alnum) h).symm
        · exact absurd h (by decide)
        · exact absurd h (by decide)
      subst e
      have hu1 : u = 1 := by
        apply Classical.byContradiction
        intro hne
        exact hu.2 1 (by omega) (by have := hu.1.1; omega) (by decide)
      subst hu1
      rfl
  refine ⟨q, q', hq, hq', ?_⟩
  exact C82_modules demo_ok rfl hc hc' ha ha' hq hq' (by decide) (fun h => absurd h.1 (by decide)) (fun h => absurd h.1 (by decide)) hd hd'

end QR
