import Verif.Props.Scan
import Verif.Proof.DamageLimit
/-!
# C68, C69: where correction ends

The bounds of C68 and the exceptions of C69 are not artefacts of the proofs: one codeword too many can make a symbol unreadable, and a logo of the
permitted size can do that to every symbol of version 1 and level L.
-/
namespace QR
open Spec

/-- **C68, the limit.** If in some block one codeword more is damaged than can be corrected, and the block has an odd number of error correction codewords, the
correcting reader does not find any text (whatever the text and whatever colours the damaged modules have). -/
theorem C68_limit {E : Ext} {unsjis : Nat → Option Nat} (hE : E.Ok unsjis) (hRS : E.rs = rsEncode) {c : AlignCache} (hc : CacheReachable c)
    {arrival : List Nat} (ha : Arrival arrival) {t : TextType} {text : Bytes} {opts : List EncodeOption} {q : QRCode}
    (h : newWith E c arrival t text opts = .ok q)
    {v : Nat} (hv : q.dimension = 17 + 4 * v) {bm : List (List Bool)} (hlen : bm.length = q.dimension)
    (hfmt : wrongAt q.mat.bitmap bm formatCells1 + wrongAt q.mat.bitmap bm (formatCells2 v) ≤ 6)
    {b : Nat} (hb : b < numBlocks v (levelIn opts)) (hodd : ecPerBlock v (levelIn opts) % 2 = 1)
    (hcw : wrongCodewords v (levelIn opts) q.mat.bitmap bm b = ecPerBlock v (levelIn opts) / 2 + 1) :
    decodeDamaged unsjis bm = none := by
  obtain ⟨v', k, m, p, bits, hd, h1, h40, hk, hs, hst, _⟩ := symbol_facts hE hc ha h
  have : v' = v := by omega
  subst this
  rw [hRS] at hst
  refine damaged_none hs (fun b hb => stream_codeword hst hb) ?_ hfmt hb (by omega) (by omega)
  rw [hlen, hv, hs.rows]
  rfl

/-- A symbol of version 1 and level L: `HELLO` in every schedule. -/
theorem demo_small {c : AlignCache} (hc : CacheReachable c) {arrival : List Nat} (ha : Arrival arrival) :
    ∃ q, newWith demoExt c arrival .string [72, 69, 76, 76, 79] [.withEncodingMode encAlphanumeric, .withErrorCorrectionLevel ecLow, .withVersion 1] = .ok q ∧
      q.dimension = 17 + 4 * 1 := by
  obtain ⟨q, hq⟩ := (C09_fails_iff demo_ok hc ha (t := .string) (by simp) [72, 69, 76, 76, 79]
    (opts := [.withEncodingMode encAlphanumeric, .withErrorCorrectionLevel ecLow, .withVersion 1]) (m := .alnum) rfl (by decide)).2 (by
      simp only [Spec.Encodable]; decide)
  refine ⟨q, hq, ?_⟩
  obtain ⟨v, hv, hd, _⟩ := C11_dimension demo_ok hc ha hq
  rw [hd]
  rcases hv with h | ⟨h, _⟩
  · rw [show versionIn [.withEncodingMode encAlphanumeric, .withErrorCorrectionLevel ecLow, .withVersion 1] = some 1 from rfl] at h
    cases h
    rfl
  · cases h

end QR

namespace QR.Standard
open QR Matrix Spec

/-- Drawing shows the opaque pixels of an image as they are (`draw.Over` with an opaque source; the channels of `color.Color` have 16 bits). -/
def ShowsOpaque (blend : Blend) : Prop := ∀ (img : Image) (x y : Int) (old : RGBA), (img.chan x y).2.2.2 = 0xffff →
  blend img x y old = ⟨UInt8.ofNat ((img.chan x y).1.toNat / 256), UInt8.ofNat ((img.chan x y).2.1.toNat / 256), UInt8.ofNat ((img.chan x y).2.2.1.toNat / 256), 255⟩

/-- Four modules (row, column) in four codewords. -/
def fourCells : List (Nat × Nat) := [(12, 12), (8, 12), (8, 10), (9, 10)]

/-- A logo of 100 by 100 pixels that looks exactly like the part of the symbol (version 1, blocks of 20 pixels) under it, except for four modules. -/
def foulLogo (m : Matrix) : Image where
  minX := 0
  minY := 0
  maxX := 100
  maxY := 100
  chan := fun px py =>
    let x := ((px + 160) / 20).toNat
    let y := ((py + 160) / 20).toNat
    if (m.raw x y).bit ^^ decide ((y, x) ∈ fourCells) then (0, 0, 0, 0xffff) else (0xffff, 0xffff, 0xffff, 0xffff)

theorem four_format : formatCells1.countP (fun p => decide (p ∈ fourCells)) + (formatCells2 1).countP (fun p => decide (p ∈ fourCells)) = 0 := by decide +kernel

theorem four_codewords : (blockIndices 1 .L 0).countP (fun i => decide ((codewordCells 1 i).countP (fun p => decide (p ∈ fourCells)) ≠ 0)) = 4 := by decide +kernel

/-- **C69, counterexample.** The exceptions of C69 cannot be dropped: for every symbol of version 1 and level L, whatever the text, there is a logo of a permitted size
(a fifth of the width and height) which, drawn with the default options, makes the symbol unreadable for every scanner. -/
theorem C69_counterexample {E : Ext} {unsjis : Nat → Option Nat} (hE : E.Ok unsjis) (hRS : E.rs = rsEncode) {c : AlignCache} (hc : CacheReachable c)
    {arrival : List Nat} (ha : Arrival arrival) {t : TextType} {text : Bytes} {opts : List EncodeOption} {q : QRCode}
    (h : newWith E c arrival t text opts = .ok q) (hv : q.dimension = 21) (hlv : levelIn opts = .L)
    (scale : Scaler) {blend : Blend} (hbl : ShowsOpaque blend) :
    ∃ img : Image, img.minX = 0 ∧ img.minY = 0 ∧ img.maxX = 100 ∧ img.maxY = 100 ∧
      ∃ ops o' cv, draw scale { defaultOpts with logo := some img } q.mat = some (ops, o') ∧ paintAllImg blend ops = some cv ∧
        ∀ pt, InBlocks { defaultOpts with logo := some img } 21 pt →
          decodeDamaged unsjis (seen { defaultOpts with logo := some img } 21 cv pt) = none := by
  refine ⟨foulLogo q.mat, rfl, rfl, rfl, rfl, ?_⟩
  generalize ho : ({ defaultOpts with logo := some (foulLogo q.mat) } : Opts) = o
  have hlogo : o.logo = some (foulLogo q.mat) := by rw [← ho]
  have hbw : o.qrBlockWidth = 20 := by rw [← ho]; rfl
  have hbo : o.borders = ⟨40, 40, 40, 40⟩ := by rw [← ho]; rfl
  have hmul : o.logoSizeMultiplier = 5 := by rw [← ho]; rfl
  have hqc : o.qrColor = ⟨0, 0, 0, 255⟩ := by rw [← ho]; rfl
  have hp : Rects o := by rw [← ho]; exact ⟨Or.inr rfl, rfl, rfl⟩
  have hdiff : defaultOpts.bgColor ≠ defaultOpts.qrColor := by decide
  have hcol : Contrast o := by rw [← ho]; exact ⟨rfl, Or.inr ⟨rfl, hdiff⟩⟩
  obtain ⟨hw, hh⟩ := mat_size hE hc ha h
  rw [hv] at hw hh
  obtain ⟨ops, o', cv, h1, h2, h3, h4⟩ := rects_picture_logo scale blend hp (hw.trans hh.symm) (by rw [hbo]; decide) (by omega)
    (fun img hi _ => by rw [hlogo] at hi; cases hi; exact ⟨rfl, rfl⟩)
  refine ⟨ops, o', cv, h1, h2, fun pt hpt => ?_⟩
  have cw : canvasW o q.mat = 500 := by unfold canvasW; rw [hw, hbw, hbo]; rfl
  have ch : canvasH o q.mat = 500 := by unfold canvasH; rw [hh, hbw, hbo]; rfl
  have lw : logoW o q.mat = 100 := by unfold logoW logoSize; rw [hlogo]; rfl
  have lh : logoH o q.mat = 100 := by unfold logoH logoSize; rw [hlogo]; rfl
  have hval : logoValid o q.mat = true := by unfold logoValid logoSize; rw [hlogo, cw, ch, hmul]; rfl
  have d : Int.tdiv (500 - 100) 2 = 200 := rfl
  have hpix : ∀ i j, i < 21 → j < 21 → pixel (seen o 21 cv pt) i j = (pixel q.mat.bitmap i j ^^ decide ((i, j) ∈ fourCells)) := by
    intro i j hi hj
    have hin := hpt j i hj hi
    unfold seen
    rw [pixel_scan hi hj, (bitmap_spec q.mat).2 i j (by omega) (by omega)]
    generalize (pt j i).1 = px at *
    generalize (pt j i).2 = py at *
    by_cases hcov : covered o q.mat j i = true
    · unfold covered overlaps blockOverlapsLogo at hcov
      simp only [Bool.and_eq_true, decide_eq_true_eq] at hcov
      obtain ⟨_, ⟨⟨o1, o2⟩, o3⟩, o4⟩ := hcov
      rw [cw, lw, hbw, hbo, d] at o1 o2
      rw [ch, lh, hbw, hbo, d] at o3 o4
      unfold InBlock at hin
      rw [hbw, hbo] at hin
      simp only at hin o1 o2 o3 o4
      have := h4 _ hlogo hval (px - 200) (py - 200) (by omega) (by show _ < (100 : Int); omega) (by omega) (by show _ < (100 : Int); omega)
      rw [cw, lw, ch, lh, d, show px - 200 + 200 = px by omega, show py - 200 + 200 = py by omega] at this
      obtain ⟨old, hold⟩ := this (by omega) (by omega) (by omega) (by omega)
      have e1 : ((px - 200 + 160) / 20).toNat = j := by omega
      have e2 : ((py - 200 + 160) / 20).toNat = i := by omega
      have hch : (foulLogo q.mat).chan (px - 200) (py - 200) = if (q.mat.raw j i).bit ^^ decide ((i, j) ∈ fourCells) then (0, 0, 0, 0xffff) else
          (0xffff, 0xffff, 0xffff, 0xffff) := by
        unfold foulLogo
        simp only
        rw [e1, e2]
      rw [hold, hqc]
      cases hb : ((q.mat.raw j i).bit ^^ decide ((i, j) ∈ fourCells)) with
      | true =>
        rw [hb, if_pos rfl] at hch
        rw [hbl _ _ _ _ (by rw [hch]), hch]
        rfl
      | false =>
        rw [hb, if_neg (by decide)] at hch
        rw [hbl _ _ _ _ (by rw [hch]), hch]
        rfl
    · rw [h3 j i px py (by omega) (by omega) hin (by simpa using hcov), dark_eq hcol]
      have : decide ((i, j) ∈ fourCells) = false := by
        rw [decide_eq_false_iff_not]
        intro hm
        apply hcov
        unfold covered overlaps blockOverlapsLogo
        rw [hval, hlogo, cw, lw, hbw, hbo, d, ch, lh, d]
        unfold fourCells at hm
        simp only [List.mem_cons, Prod.mk.injEq, List.not_mem_nil, or_false] at hm
        rcases hm with ⟨rfl, rfl⟩ | ⟨rfl, rfl⟩ | ⟨rfl, rfl⟩ | ⟨rfl, rfl⟩ <;> rfl
      rw [this, Bool.xor_false]
  have hwrong : ∀ cells : List (Nat × Nat), (∀ p ∈ cells, p.1 < 21 ∧ p.2 < 21) →
      wrongAt q.mat.bitmap (seen o 21 cv pt) cells = cells.countP fun p => decide (p ∈ fourCells) := by
    intro cells hcells
    unfold wrongAt
    refine List.countP_congr fun p hpm => ?_
    obtain ⟨g1, g2⟩ := hcells p hpm
    rw [hpix p.1 p.2 g1 g2]
    cases pixel q.mat.bitmap p.1 p.2 <;> cases decide ((p.1, p.2) ∈ fourCells) <;> simp
  have hsmall : ∀ i < 26, ∀ p ∈ codewordCells 1 i, p.1 < 21 ∧ p.2 < 21 := by decide +kernel
  refine C68_limit hE hRS hc ha h (v := 1) hv (by rw [hv]; exact scan_length _ _ _) ?_ (b := 0) (by rw [hlv]; decide) (by rw [hlv]; decide) ?_
  · rw [hwrong _ (by decide), hwrong _ (by decide), four_format]
    omega
  · rw [hlv]
    unfold wrongCodewords
    have : ∀ i ∈ blockIndices 1 .L 0, i < 26 := by decide +kernel
    rw [List.countP_congr (q := fun i => decide ((codewordCells 1 i).countP (fun p => decide (p ∈ fourCells)) ≠ 0))
      (fun i hi => by rw [hwrong _ (hsmall i (this i hi))]), four_codewords]
    rfl

/-- The hypotheses of the counterexample (and so those of C68_limit) are met: the symbol `HELLO` of version 1 and level L, and a way of drawing that shows opaque pixels. -/
example {c : AlignCache} (hc : CacheReachable c) {arrival : List Nat} (ha : Arrival arrival) (scale : Scaler) :
    ∃ (q : QRCode) (blend : Blend) (img : Image) (ops : _) (o' : _) (cv : _),
      newWith demoExt c arrival .string [72, 69, 76, 76, 79] [.withEncodingMode encAlphanumeric, .withErrorCorrectionLevel ecLow, .withVersion 1] = .ok q ∧
      ShowsOpaque blend ∧ draw scale { defaultOpts with logo := some img } q.mat = some (ops, o') ∧ paintAllImg blend ops = some cv ∧
      ∀ pt, InBlocks { defaultOpts with logo := some img } 21 pt →
        decodeDamaged demoUnsjis (seen { defaultOpts with logo := some img } 21 cv pt) = none := by
  obtain ⟨q, hq, hd⟩ := demo_small hc ha
  have hb : ShowsOpaque (fun img x y _ => ⟨UInt8.ofNat ((img.chan x y).1.toNat / 256), UInt8.ofNat ((img.chan x y).2.1.toNat / 256),
    UInt8.ofNat ((img.chan x y).2.2.1.toNat / 256), 255⟩) := fun _ _ _ _ _ => rfl
  obtain ⟨img, _, _, _, _, ops, o', cv, h1, h2, h3⟩ := C69_counterexample demo_ok rfl hc ha hq hd rfl scale hb
  exact ⟨q, _, img, ops, o', cv, hq, hb, h1, h2, h3⟩

end QR.Standard
