import Verif.Props.Scan
import Verif.Props.Compressed
import Verif.Props.FileWriter
import Verif.Props.Terminal
/-!
# C71: text to the output of the other writers and back
-/
namespace QR
open Spec Matrix

/-- **C71, compressed writer.** With a positive block size, a scanner that looks at any one pixel in the block of every module of the image that is encoded reads exactly
the text. -/
theorem C71_compressed {E : Ext} {unsjis : Nat → Option Nat} (hE : E.Ok unsjis) {c : AlignCache} (hc : CacheReachable c)
    {arrival : List Nat} (ha : Arrival arrival) {t : TextType} {text : Bytes} {opts : List EncodeOption} {q : QRCode}
    (h : newWith E c arrival t text opts = .ok q)
    (hx : ¬ (modeIn opts = encAuto ∧ AlnumThenKanji E.sjis (nats text))) {padding blockSize : Nat} (hpos : 0 < blockSize) :
    ∃ img, Compressed.write (some ⟨padding, blockSize⟩) q.mat = some img ∧
      ∀ pt : Nat → Nat → Int × Int,
        (∀ x y, x < q.dimension → y < q.dimension → padding + x * blockSize ≤ (pt x y).1 ∧ (pt x y).1 < padding + (x + 1) * blockSize ∧
          padding + y * blockSize ≤ (pt x y).2 ∧ (pt x y).2 < padding + (y + 1) * blockSize) →
        decode unsjis (scan q.dimension (fun px py => decide (img.at' px py = some 0x00)) pt) = some (nats text) := by
  obtain ⟨hw, hh⟩ := Standard.mat_size hE hc ha h
  obtain ⟨img, hi, _, hp⟩ := Compressed.C36_pixels q.mat (by omega) padding blockSize
  refine ⟨img, hi, fun pt hpt => ?_⟩
  rw [Standard.scan_eq hw hh (fun x y hx' hy' => ?_)]
  · exact C01_roundtrip_partial hE hc ha h hx
  · obtain ⟨p1, p2, p3, p4⟩ := hpt x y hx' hy'
    obtain ⟨px, hpx⟩ : ∃ n : Nat, (pt x y).1 = n := ⟨(pt x y).1.toNat, by
      have : 0 ≤ (x : Int) * blockSize := Int.mul_nonneg (by omega) (by omega)
      omega⟩
    obtain ⟨py, hpy⟩ : ∃ n : Nat, (pt x y).2 = n := ⟨(pt x y).2.toNat, by
      have : 0 ≤ (y : Int) * blockSize := Int.mul_nonneg (by omega) (by omega)
      omega⟩
    rw [hpx] at p1 p2 ⊢
    rw [hpy] at p3 p4 ⊢
    norm_cast at p1 p2 p3 p4
    have m1 : (x + 1) * blockSize ≤ q.mat.width * blockSize := Nat.mul_le_mul_right _ (by omega)
    have m2 : (y + 1) * blockSize ≤ q.mat.width * blockSize := Nat.mul_le_mul_right _ (by omega)
    have hq := (hp px py (by omega) (by omega)).2
    cases hb : (q.mat.raw x y).bit with
    | true => exact decide_eq_true (hq.2 ⟨x, y, by omega, by omega, hb, p1, p2, p3, p4⟩)
    | false =>
      refine decide_eq_false fun hc => ?_
      obtain ⟨x', y', _, _, hb', g1, g2, g3, g4⟩ := hq.1 hc
      have ux : x' = x := block_unique hpos g1 g2 p1 p2
      have uy : y' = y := block_unique hpos g3 g4 p3 p4
      subst ux uy
      rw [hb] at hb'
      cases hb'
where
  block_unique {padding blockSize px x x' : Nat} (hpos : 0 < blockSize) (g1 : padding + x' * blockSize ≤ px) (g2 : px < padding + (x' + 1) * blockSize)
      (p1 : padding + x * blockSize ≤ px) (p2 : px < padding + (x + 1) * blockSize) : x' = x := by
    have a : x' * blockSize < (x + 1) * blockSize := by omega
    have b : x * blockSize < (x' + 1) * blockSize := by omega
    have := Nat.lt_of_mul_lt_mul_right a
    have := Nat.lt_of_mul_lt_mul_right b
    omega

/-- **C71, text file writer.** If writing to the file does not fail, the lines of block characters that the file receives show the text to a reader of the characters' ink. -/
theorem C71_file {E : Ext} {unsjis : Nat → Option Nat} (hE : E.Ok unsjis) {c : AlignCache} (hc : CacheReachable c)
    {arrival : List Nat} (ha : Arrival arrival) {t : TextType} {text : Bytes} {opts : List EncodeOption} {q : QRCode}
    (h : newWith E c arrival t text opts = .ok q)
    (hx : ¬ (modeIn opts = encAuto ∧ AlnumThenKanji E.sjis (nats text))) {sink : FileWriter.Sink} (hs : ∀ i, sink i = none) :
    ∃ out lines, FileWriter.write (some sink) q.mat = some (out, none) ∧ runes out = lines.flatMap (fun l => l ++ [10]) ∧
      (∀ l ∈ lines, ∀ c ∈ l, isBlockChar c = true) ∧
      decode unsjis ((List.range q.dimension).map fun y => (List.range q.dimension).map fun x => decide (inkAt lines x y = some true)) =
        some (nats text) := by
  obtain ⟨hw, hh⟩ := Standard.mat_size hE hc ha h
  obtain ⟨out, lines, h1, h2, _, h4, h5⟩ := FileWriter.C35_picture q.mat sink hs
  refine ⟨out, lines, h1, h2, fun l hl => (h4 l hl).2, ?_⟩
  have : ((List.range q.dimension).map fun y => (List.range q.dimension).map fun x => decide (inkAt lines x y = some true)) =
      scan q.dimension (fun px py => decide (inkAt lines px.toNat py.toNat = some true)) (fun x y => ((x : Int), (y : Int))) := rfl
  rw [this, Standard.scan_eq hw hh (fun x y hx' hy' => ?_)]
  · exact C01_roundtrip_partial hE hc ha h hx
  · simp only [Int.toNat_natCast]
    simp only [h5 x y (by rw [hw]; exact hx') (by rw [hh]; exact hy')]
    cases (q.mat.raw x y).bit <;> rfl

/-- **C71, terminal writer.** On a terminal with at least `2 * (dimension + 2)` columns and `dimension + 2` rows, one of the two cells of every module, whichever, shows black for a
dark module: read so, the screen contains the text. -/
theorem C71_terminal {E : Ext} {unsjis : Nat → Option Nat} (hE : E.Ok unsjis) {c : AlignCache} (hc : CacheReachable c)
    {arrival : List Nat} (ha : Arrival arrival) {t : TextType} {text : Bytes} {opts : List EncodeOption} {q : QRCode}
    (h : newWith E c arrival t text opts = .ok q)
    (hx : ¬ (modeIn opts = encAuto ∧ AlnumThenKanji E.sjis (nats text))) (s : Terminal.Screen) (runeWidth : Nat → Nat) (ambiguous : Nat → Bool)
    (hcols : 2 * (q.dimension + 2) ≤ s.cols) (hrows : q.dimension + 2 ≤ s.rows) (half : Nat → Nat → Bool) :
    decode unsjis ((List.range q.dimension).map fun y => (List.range q.dimension).map fun x =>
      decide (((Terminal.render runeWidth ambiguous s q.mat).cells ((2 * x + 2 + (half x y).toNat : Nat), (y + 1 : Nat))).map (·.fg) = some Terminal.colorBlack)) =
        some (nats text) := by
  obtain ⟨hw, hh⟩ := Standard.mat_size hE hc ha h
  have hd : 0 < q.dimension := by obtain ⟨v, _, hd, _⟩ := C11_dimension hE hc ha h; omega
  have key : ∀ S : Terminal.Screen, ((List.range q.dimension).map fun y => (List.range q.dimension).map fun x =>
      decide ((S.cells ((2 * x + 2 + (half x y).toNat : Nat), (y + 1 : Nat))).map (·.fg) = some Terminal.colorBlack)) =
      scan q.dimension (fun px py => decide ((S.cells (px, py)).map (·.fg) = some Terminal.colorBlack))
        (fun x y => (((2 * x + 2 + (half x y).toNat : Nat) : Int), ((y + 1 : Nat) : Int))) := fun _ => rfl
  rw [key, Standard.scan_eq hw hh (fun x y hx' hy' => ?_)]
  · exact C01_roundtrip_partial hE hc ha h hx
  · have hhalf : (half x y).toNat ≤ 1 := Bool.toNat_le _
    obtain ⟨c1, c2⟩ := Terminal.C38_cells (m := q.mat) (by omega) (by omega) s runeWidth ambiguous (2 * x + 2 + (half x y).toNat) (y + 1) (by omega) (by omega)
      (by omega) (by omega)
    have hdark : Terminal.Dark q.mat (((2 * x + 2 + (half x y).toNat : Nat) : Int), ((y + 1 : Nat) : Int)) ↔ (q.mat.raw x y).bit = true := by
      constructor
      · rintro ⟨x', y', _, _, hb, g1, g2⟩
        simp only at g1 g2
        have ux : x' = x := by omega
        have uy : y' = y := by omega
        rw [← ux, ← uy]
        exact hb
      · intro hb
        exact ⟨x, y, by omega, by omega, hb, by simp only; omega, by simp only; omega⟩
    cases hb : (q.mat.raw x y).bit with
    | true => rw [c1 (hdark.2 hb)]; rfl
    | false => rw [c2 (fun hd => by rw [hdark.1 hd] at hb; cases hb)]; rfl

end QR
