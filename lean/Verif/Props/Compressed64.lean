import Verif.Model.Compressed64
import Verif.Props.Draw64
/-!
# C94 for the compressed writer
-/
namespace QR.Compressed
open QR QR.Matrix QR.Standard Spec

theorem foldlM_congr_inv {α β : Type} {f g : β → α → Option β} (P : β → Prop) : ∀ (l : List α) (s : β), P s → (∀ s a, P s → a ∈ l → f s a = g s a ∧ ∀ s', g s a = some s' → P s') →
    l.foldlM f s = l.foldlM g s ∧ ∀ s', l.foldlM g s = some s' → P s' := by
  intro l
  induction l with
  | nil => intro s hs _; exact ⟨rfl, fun s' h => by cases h; exact hs⟩
  | cons a l ih =>
    intro s hs h
    obtain ⟨e, p⟩ := h s a hs (by simp)
    rw [List.foldlM_cons, List.foldlM_cons, e]
    cases hg : g s a with
    | none => exact ⟨rfl, fun s' h => by cases h⟩
    | some s1 => exact ih s1 (p s1 hg) fun s b hs hb => h s b hs (by simp [hb])

/-- The frame of a picture that is not too large. -/
def SmallFrame (img : Paletted) : Prop := -2 ^ 24 ≤ img.minX ∧ img.minX ≤ 0 ∧ -2 ^ 24 ≤ img.minY ∧ img.minY ≤ 0 ∧ 0 ≤ img.stride ∧ img.stride ≤ 2 ^ 24

theorem offset_eq {img : Paletted} (h : SmallFrame img) {x y : Int} (hx : -2 ^ 24 ≤ x ∧ x ≤ 2 ^ 24) (hy : -2 ^ 24 ≤ y ∧ y ≤ 2 ^ 24) : img.pixOffset64 x y = img.pixOffset x y := by
  obtain ⟨a, b, c, d, e, f⟩ := h
  have e1 : sub64 y img.minY = y - img.minY := wrap_eq (by omega) (by omega)
  have e2 : sub64 x img.minX = x - img.minX := wrap_eq (by omega) (by omega)
  have k1 : -2 ^ 50 ≤ (y - img.minY) * img.stride := by
    nlinarith [mul_nonneg (show (0 : Int) ≤ y - img.minY + 2 ^ 25 by omega) e]
  have k2 : (y - img.minY) * img.stride ≤ 2 ^ 50 := by
    nlinarith [mul_nonneg (show (0 : Int) ≤ 2 ^ 25 - (y - img.minY) by omega) e]
  have e3 : mul64 (y - img.minY) img.stride = (y - img.minY) * img.stride := wrap_eq (by omega) (by omega)
  unfold Paletted.pixOffset64 Paletted.pixOffset
  rw [e1, e2, e3]
  exact wrap_eq (by omega) (by omega)

theorem rectangle64_eq {img : Paletted} (h : SmallFrame img) {x1 y1 x2 y2 : Int} (hx1 : -2 ^ 24 ≤ x1) (hx2 : x2 ≤ 2 ^ 24) (hy1 : -2 ^ 24 ≤ y1) (hy2 : y2 ≤ 2 ^ 24) (c : Nat) :
    rectangle64 x1 y1 x2 y2 img c = rectangle x1 y1 x2 y2 img c ∧ ∀ img', rectangle x1 y1 x2 y2 img c = some img' → SmallFrame img' := by
  have mem : ∀ {a b i : Int}, i ∈ intRange a b → a ≤ i ∧ i < b := by
    intro a b i hi
    unfold intRange at hi
    obtain ⟨k, hk, rfl⟩ := List.mem_map.1 hi
    have := List.mem_range.1 hk
    omega
  refine foldlM_congr_inv SmallFrame _ _ h fun img x hi hx => foldlM_congr_inv SmallFrame _ _ hi fun img y hi hy => ?_
  have hx := mem hx
  have hy := mem hy
  rw [offset_eq hi ⟨by omega, by omega⟩ ⟨by omega, by omega⟩]
  refine ⟨rfl, fun img' e => ?_⟩
  unfold Paletted.setPix at e
  split at e
  · cases e; exact hi
  · cases e

/-- **C94 for the compressed writer.** For every symbol, a padding of at most 2^20 and a block size of at most 2^16 (either sign), the picture is allocated and computed without overflow. -/
theorem C94_compressed {E : Ext} {unsjis : Nat → Option Nat} (hE : E.Ok unsjis) {c : AlignCache} (hc : CacheReachable c)
    {arrival : List Nat} (ha : Arrival arrival) {t : TextType} {text : Bytes} {opts : List EncodeOption} {q : QRCode}
    (h : newWith E c arrival t text opts = .ok q) {o : Opt} (hp : -2 ^ 20 ≤ o.padding ∧ o.padding ≤ 2 ^ 20) (hb : -2 ^ 16 ≤ o.blockSize ∧ o.blockSize ≤ 2 ^ 16) :
    image64 o q.mat = image o q.mat := by
  obtain ⟨hw, hh⟩ := mat_size hE hc ha h
  have hd : q.dimension ≤ 177 := by
    obtain ⟨v', k, m, p, bits, hd, h1, h40, _⟩ := symbol_facts hE hc ha h
    omega
  have hmul : ∀ x : Int, 0 ≤ x → x ≤ 178 → -(178 * 2 ^ 16) ≤ x * o.blockSize ∧ x * o.blockSize ≤ 178 * 2 ^ 16 := by
    intro x h0 h1
    constructor
    · nlinarith [mul_nonneg h0 (show (0 : Int) ≤ o.blockSize + 2 ^ 16 by omega)]
    · nlinarith [mul_nonneg h0 (show (0 : Int) ≤ 2 ^ 16 - o.blockSize by omega)]
  have hpt : ∀ x : Int, 0 ≤ x → x ≤ 178 → add64 (mul64 x o.blockSize) o.padding = x * o.blockSize + o.padding := by
    intro x h0 h1
    obtain ⟨k1, k2⟩ := hmul x h0 h1
    unfold add64 mul64
    rw [wrap_eq (x := x * o.blockSize) (by omega) (by omega), wrap_eq (by omega) (by omega)]
  obtain ⟨w1, w2⟩ := hmul q.mat.width (by omega) (by omega)
  have ew : add64 (mul64 q.mat.width o.blockSize) (mul64 2 o.padding) = q.mat.width * o.blockSize + 2 * o.padding := by
    unfold add64 mul64
    rw [wrap_eq (x := (q.mat.width : Int) * o.blockSize) (by omega) (by omega), wrap_eq (x := 2 * o.padding) (by omega) (by omega), wrap_eq (by omega) (by omega)]
  unfold image64 image
  simp only [ew]
  have wl : -13762560 ≤ (q.mat.width : Int) * o.blockSize + 2 * o.padding ∧ (q.mat.width : Int) * o.blockSize + 2 * o.padding ≤ 13762560 := by omega
  generalize (q.mat.width : Int) * o.blockSize + 2 * o.padding = w at wl ⊢
  have hn : w.natAbs * w.natAbs ≤ 2 ^ 48 := by
    have a : w.natAbs ≤ 13762560 := by omega
    have := Nat.mul_le_mul a a
    omega
  rw [if_pos hn]
  have hframe : SmallFrame (newPaletted w w [backgroundColor, foregroundColor]) := by
    unfold SmallFrame newPaletted
    simp only
    omega
  obtain ⟨r1, r2⟩ := rectangle64_eq hframe (x1 := 0) (y1 := 0) (x2 := w) (y2 := w) (by omega) (by omega) (by omega) (by omega)
    (paletteIndex backgroundColor (newPaletted w w [backgroundColor, foregroundColor]).palette 0 0xFFFFFFFF 0)
  rw [r1]
  cases hr : rectangle 0 0 w w (newPaletted w w [backgroundColor, foregroundColor]) (paletteIndex backgroundColor (newPaletted w w [backgroundColor, foregroundColor]).palette 0 0xFFFFFFFF 0) with
  | none => rfl
  | some img =>
    rw [Option.bind_some, Option.bind_some]
    refine (foldlM_congr_inv SmallFrame _ _ (r2 img hr) ?_).1
    rintro img' ⟨x, y, v⟩ hi hmem
    obtain ⟨g1, g2⟩ : x < q.mat.width ∧ y < q.mat.height := by
      unfold Matrix.iterate Matrix.coords at hmem
      simp only [List.mem_map, List.mem_flatMap, List.mem_range, Prod.mk.injEq, Prod.exists] at hmem
      obtain ⟨a, b, ⟨w, hw, h, hh, rfl, rfl⟩, rfl, rfl, _⟩ := hmem
      exact ⟨hw, hh⟩
    simp only
    have p1 := hpt x (by omega) (by omega)
    have p2 := hpt y (by omega) (by omega)
    have p3 := hpt (x + 1) (by omega) (by omega)
    have p4 := hpt (y + 1) (by omega) (by omega)
    rw [p1, p2, p3, p4]
    split
    · obtain ⟨m1, m2⟩ := hmul x (by omega) (by omega)
      obtain ⟨m3, m4⟩ := hmul y (by omega) (by omega)
      obtain ⟨m5, m6⟩ := hmul (x + 1) (by omega) (by omega)
      obtain ⟨m7, m8⟩ := hmul (y + 1) (by omega) (by omega)
      exact rectangle64_eq hi (by omega) (by omega) (by omega) (by omega) _
    · exact ⟨rfl, fun s' e => by cases e; exact hi⟩

/-- **C94 for the compressed writer, the limit.** Blocks of 2^20 to 2^54 pixels: `Write` panics, the picture cannot be allocated. -/
theorem C94_compressed_too_large {E : Ext} {unsjis : Nat → Option Nat} (hE : E.Ok unsjis) {c : AlignCache} (hc : CacheReachable c)
    {arrival : List Nat} (ha : Arrival arrival) {t : TextType} {text : Bytes} {opts : List EncodeOption} {q : QRCode}
    (h : newWith E c arrival t text opts = .ok q) {o : Opt} (hp : 0 ≤ o.padding ∧ o.padding ≤ 2 ^ 60) (hb : 2 ^ 20 ≤ o.blockSize ∧ o.blockSize ≤ 2 ^ 54) :
    image64 o q.mat = none := by
  obtain ⟨hw, hh⟩ := mat_size hE hc ha h
  obtain ⟨v', k, m, p, bits, hd, h1, h40, _⟩ := symbol_facts hE hc ha h
  have hd0 : 21 ≤ q.mat.width := by omega
  have hd1 : q.mat.width ≤ 177 := by omega
  have w1 : 21 * 2 ^ 20 ≤ (q.mat.width : Int) * o.blockSize := by nlinarith
  have w2 : (q.mat.width : Int) * o.blockSize ≤ 177 * 2 ^ 54 := by nlinarith
  have ew : add64 (mul64 q.mat.width o.blockSize) (mul64 2 o.padding) = q.mat.width * o.blockSize + 2 * o.padding := by
    unfold add64 mul64
    rw [wrap_eq (x := (q.mat.width : Int) * o.blockSize) (by omega) (by omega), wrap_eq (x := 2 * o.padding) (by omega) (by omega), wrap_eq (by omega) (by omega)]
  unfold image64
  simp only [ew]
  have wl : 22020096 ≤ (q.mat.width : Int) * o.blockSize + 2 * o.padding := by omega
  generalize (q.mat.width : Int) * o.blockSize + 2 * o.padding = w at wl ⊢
  refine if_neg fun hn => ?_
  have a : 22020096 ≤ w.natAbs := by omega
  have := Nat.mul_le_mul a a
  omega

end QR.Compressed
