import Verif.Model.CompressedArch
import Verif.Props.Compressed64
import Verif.Props.DrawArch
/-!
# C99 for the compressed writer
-/
namespace QR.Compressed
open QR QR.Matrix QR.Standard _root_.Spec

/-- The frame of a square picture of `w` pixels a side. -/
def SquareFrame (w : Int) (img : Paletted) : Prop := img.minX = 0 ∧ img.minY = 0 ∧ img.stride = w

theorem offsetOn_eq {A : Arch} (hA : A.bits = 32 ∨ A.bits = 64) (hl : A.limit < 2 ^ (A.bits - 1)) {w : Int} (hw0 : 0 ≤ w) (hw : w ≤ 2 ^ 24) (hlim : w.natAbs * w.natAbs ≤ A.limit)
    {img : Paletted} (h : SquareFrame w img) {x y : Int} (hx : 0 ≤ x ∧ x < w) (hy : 0 ≤ y ∧ y < w) : img.pixOffsetOn A x y = img.pixOffset x y := by
  obtain ⟨a, b, c⟩ := h
  have big : ∀ z : Int, 0 ≤ z → z < w * w → A.wrap z = z := by
    intro z h0 h1
    have hz : z < (A.limit : Int) := by
      have : w * w ≤ (A.limit : Int) := by
        have e : ((w.natAbs * w.natAbs : Nat) : Int) = w * w := by
          rw [Nat.cast_mul, Int.natAbs_of_nonneg hw0]
        omega
      omega
    unfold Arch.wrap
    rcases hA with g | g <;> rw [g] at hl ⊢ <;> rw [Int.bmod_eq_of_le] <;> omega
  have small : ∀ z : Int, 0 ≤ z → z ≤ 2 ^ 24 → A.wrap z = z := fun z h0 h1 => wrapOn_eq hA (by omega) (by omega)
  have k0 : 0 ≤ y * w := mul_nonneg hy.1 hw0
  have k1 : y * w + w ≤ w * w := by nlinarith
  unfold Paletted.pixOffsetOn Paletted.pixOffset Arch.add Arch.mul Arch.sub
  rw [a, b, c, small (y - 0) (by omega) (by omega), small (x - 0) (by omega) (by omega), show y - 0 = y by omega, show x - 0 = x by omega,
    big (y * w) k0 (by omega), big (y * w + x) (by omega) (by omega)]

theorem rectangleOn_eq {A : Arch} (hA : A.bits = 32 ∨ A.bits = 64) (hl : A.limit < 2 ^ (A.bits - 1)) {w : Int} (hw0 : 0 ≤ w) (hw : w ≤ 2 ^ 24) (hlim : w.natAbs * w.natAbs ≤ A.limit)
    {img : Paletted} (h : SquareFrame w img) {x1 y1 x2 y2 : Int} (hx1 : 0 ≤ x1) (hx2 : x2 ≤ w) (hy1 : 0 ≤ y1) (hy2 : y2 ≤ w) (c : Nat) :
    rectangleOn A x1 y1 x2 y2 img c = rectangle x1 y1 x2 y2 img c ∧ ∀ img', rectangle x1 y1 x2 y2 img c = some img' → SquareFrame w img' := by
  have mem : ∀ {a b i : Int}, i ∈ intRange a b → a ≤ i ∧ i < b := by
    intro a b i hi
    unfold intRange at hi
    obtain ⟨k, hk, rfl⟩ := List.mem_map.1 hi
    have := List.mem_range.1 hk
    omega
  refine foldlM_congr_inv (SquareFrame w) _ _ h fun img x hi hx => foldlM_congr_inv (SquareFrame w) _ _ hi fun img y hi hy => ?_
  have hx := mem hx
  have hy := mem hy
  rw [offsetOn_eq hA hl hw0 hw hlim hi ⟨by omega, by omega⟩ ⟨by omega, by omega⟩]
  refine ⟨rfl, fun img' e => ?_⟩
  unfold Paletted.setPix at e
  split at e
  · cases e; exact hi
  · cases e

/-- **C99 for the compressed writer.** On a platform whose `int` has 32 or 64 bits, for every symbol, a padding of at most 2^20 and blocks of at most 2^16 pixels: nothing overflows. `Write`
panics if the pixels of the picture, a byte each, are more than the platform's largest slice, and otherwise makes the picture of exact arithmetic. -/
theorem C99_compressed {E : Ext} {unsjis : Nat → Option Nat} (hE : E.Ok unsjis) {c : AlignCache} (hc : CacheReachable c)
    {arrival : List Nat} (ha : Arrival arrival) {t : TextType} {text : Bytes} {opts : List EncodeOption} {q : QRCode}
    (h : newWith E c arrival t text opts = .ok q) {A : Arch} (hA : A.bits = 32 ∨ A.bits = 64) (hl : A.limit < 2 ^ (A.bits - 1))
    {p b : Nat} (hp : p ≤ 2 ^ 20) (hb : b ≤ 2 ^ 16) :
    imageOn A ⟨p, b⟩ q.mat = if (q.dimension * b + 2 * p) * (q.dimension * b + 2 * p) ≤ A.limit then image ⟨p, b⟩ q.mat else none := by
  obtain ⟨hw, hh⟩ := mat_size hE hc ha h
  have hd : q.dimension ≤ 177 := by
    obtain ⟨v', k, m, p, bits, hd, h1, h40, _⟩ := symbol_facts hE hc ha h
    omega
  have hmul : ∀ x : Int, 0 ≤ x → x ≤ 178 → 0 ≤ x * (b : Int) ∧ x * (b : Int) ≤ 178 * 2 ^ 16 := by
    intro x h0 h1
    constructor
    · positivity
    · nlinarith [mul_nonneg h0 (show (0 : Int) ≤ 2 ^ 16 - (b : Int) by omega)]
  have hpt : ∀ x : Int, 0 ≤ x → x ≤ 178 → A.add (A.mul x b) p = x * (b : Int) + p := by
    intro x h0 h1
    obtain ⟨k1, k2⟩ := hmul x h0 h1
    unfold Arch.add Arch.mul
    rw [wrapOn_eq hA (x := x * (b : Int)) (by omega) (by omega), wrapOn_eq hA (by omega) (by omega)]
  obtain ⟨w1, w2⟩ := hmul q.mat.width (by omega) (by omega)
  have ew : A.add (A.mul q.mat.width b) (A.mul 2 p) = (q.mat.width : Int) * b + 2 * p := by
    unfold Arch.add Arch.mul
    rw [wrapOn_eq hA (x := (q.mat.width : Int) * (b : Int)) (by omega) (by omega), wrapOn_eq hA (x := 2 * (p : Int)) (by omega) (by omega), wrapOn_eq hA (by omega) (by omega)]
  have en : (((q.dimension * b + 2 * p : Nat) : Int)) = (q.mat.width : Int) * b + 2 * p := by
    rw [hw]
    push_cast
    rfl
  unfold imageOn image
  simp only [ew, ← en]
  have wl : q.dimension * b + 2 * p ≤ 13762560 := by omega
  have inside : ∀ x : Nat, x < q.mat.width → ((x : Int) + 1) * b + p ≤ ((q.dimension * b + 2 * p : Nat) : Int) := by
    intro x hx
    rw [en]
    nlinarith [mul_nonneg (show (0 : Int) ≤ (q.mat.width : Int) - (x + 1) by omega) (show (0 : Int) ≤ (b : Int) by omega)]
  generalize q.dimension * b + 2 * p = w at wl inside ⊢
  rw [if_congr (show (w : Int).natAbs * (w : Int).natAbs ≤ A.limit ↔ w * w ≤ A.limit by rw [Int.natAbs_natCast]) rfl rfl]
  by_cases hn : w * w ≤ A.limit
  swap
  · rw [if_neg hn, if_neg hn]
  rw [if_pos hn, if_pos hn]
  have hlim : (w : Int).natAbs * (w : Int).natAbs ≤ A.limit := by rw [Int.natAbs_natCast]; exact hn
  have hframe : SquareFrame w (newPaletted w w [backgroundColor, foregroundColor]) := by
    unfold SquareFrame newPaletted
    simp only
    omega
  obtain ⟨r1, r2⟩ := rectangleOn_eq hA hl (w := w) (by omega) (by omega) hlim hframe (x1 := 0) (y1 := 0) (x2 := w) (y2 := w) (by omega) (by omega) (by omega) (by omega)
    (paletteIndex backgroundColor (newPaletted w w [backgroundColor, foregroundColor]).palette 0 0xFFFFFFFF 0)
  rw [r1]
  cases hr : rectangle 0 0 w w (newPaletted w w [backgroundColor, foregroundColor]) (paletteIndex backgroundColor (newPaletted w w [backgroundColor, foregroundColor]).palette 0 0xFFFFFFFF 0) with
  | none => rfl
  | some img =>
    rw [Option.bind_some, Option.bind_some]
    refine (foldlM_congr_inv (SquareFrame w) _ _ (r2 img hr) ?_).1
    rintro img' ⟨x, y, v⟩ hi hmem
    obtain ⟨g1, g2⟩ : x < q.mat.width ∧ y < q.mat.height := by
      unfold Matrix.iterate Matrix.coords at hmem
      simp only [List.mem_map, List.mem_flatMap, List.mem_range, Prod.mk.injEq, Prod.exists] at hmem
      obtain ⟨a, b, ⟨w, hw, h, hh, rfl, rfl⟩, rfl, rfl, _⟩ := hmem
      exact ⟨hw, hh⟩
    simp only
    have p1 := hpt x (by omega) (by omega)
    have p2 := hpt y (by omega) (by omega)
    have p3 := hpt (x + 1) (by omega) (by omega)
    have p4 := hpt (y + 1) (by omega) (by omega)
    rw [p1, p2, p3, p4]
    split
    · obtain ⟨m1, m2⟩ := hmul x (by omega) (by omega)
      obtain ⟨m3, m4⟩ := hmul y (by omega) (by omega)
      have i1 := inside x g1
      have i2 := inside y (by omega)
      exact rectangleOn_eq hA hl (by omega) (by omega) hlim hi (by omega) (by omega) (by omega) (by omega) _
    · exact ⟨rfl, fun s' e => by cases e; exact hi⟩

/-- **C99 for the compressed writer, the limits.** The largest pictures: 46340 pixels a side on a 32-bit platform, 65536 in WebAssembly, and no limit within these settings on 64 bits. -/
theorem C99_compressed_limits {E : Ext} {unsjis : Nat → Option Nat} (hE : E.Ok unsjis) {c : AlignCache} (hc : CacheReachable c)
    {arrival : List Nat} (ha : Arrival arrival) {t : TextType} {text : Bytes} {opts : List EncodeOption} {q : QRCode}
    (h : newWith E c arrival t text opts = .ok q) {p b : Nat} (hp : p ≤ 2 ^ 20) (hb : b ≤ 2 ^ 16) :
    (imageOn i386 ⟨p, b⟩ q.mat = if q.dimension * b + 2 * p ≤ 46340 then image ⟨p, b⟩ q.mat else none) ∧
    (imageOn wasm ⟨p, b⟩ q.mat = if q.dimension * b + 2 * p ≤ 65536 then image ⟨p, b⟩ q.mat else none) ∧
    imageOn amd64 ⟨p, b⟩ q.mat = image ⟨p, b⟩ q.mat := by
  have hd : q.dimension ≤ 177 := by
    obtain ⟨v', k, m, p, bits, hd, h1, h40, _⟩ := symbol_facts hE hc ha h
    omega
  have hs : q.dimension * b + 2 * p ≤ 13762560 := by
    have := Nat.mul_le_mul hd hb
    omega
  have k : ∀ s : Nat, s ≤ 13762560 → (s * s ≤ 2 ^ 31 - 1 ↔ s ≤ 46340) ∧ (s * s ≤ 2 ^ 32 ↔ s ≤ 65536) ∧ s * s ≤ 2 ^ 48 := by
    intro s hs
    refine ⟨⟨fun h => ?_, fun h => ?_⟩, ⟨fun h => ?_, fun h => ?_⟩, ?_⟩
    · by_contra g
      have := Nat.mul_le_mul (show 46341 ≤ s by omega) (show 46341 ≤ s by omega)
      omega
    · have := Nat.mul_le_mul h h
      omega
    · by_contra g
      have := Nat.mul_le_mul (show 65537 ≤ s by omega) (show 65537 ≤ s by omega)
      omega
    · have := Nat.mul_le_mul h h
      omega
    · have := Nat.mul_le_mul hs hs
      omega
  obtain ⟨k1, k2, k3⟩ := k _ hs
  exact ⟨(C99_compressed hE hc ha h (A := i386) (Or.inl rfl) (by decide) hp hb).trans (if_congr k1 rfl rfl),
    (C99_compressed hE hc ha h (A := wasm) (Or.inr rfl) (by decide) hp hb).trans (if_congr k2 rfl rfl),
    (C99_compressed hE hc ha h (A := amd64) (Or.inr rfl) (by decide) hp hb).trans (if_pos k3)⟩

theorem C99_compressed_same (o : Opt) (m : Matrix) : imageOn amd64 o m = image64 o m := rfl

end QR.Compressed
