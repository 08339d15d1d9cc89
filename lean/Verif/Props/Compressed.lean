import Verif.Model.Compressed
import Verif.Proof.Bitmap
/-!
# C36: the compressed writer
-/
namespace QR.Compressed
open QR

theorem mem_intRange {a b x : Int} : x ∈ intRange a b ↔ a ≤ x ∧ x < b := by
  unfold intRange
  constructor
  · intro h
    obtain ⟨i, hi, rfl⟩ := List.mem_map.1 h
    have := List.mem_range.1 hi
    constructor <;> omega
  · rintro ⟨h1, h2⟩
    refine List.mem_map.2 ⟨(x - a).toNat, List.mem_range.2 (by omega), by omega⟩

/-- Everything but the pixels is the same. -/
def Frame (a b : Paletted) : Prop :=
  a.minX = b.minX ∧ a.minY = b.minY ∧ a.maxX = b.maxX ∧ a.maxY = b.maxY ∧ a.stride = b.stride ∧
    a.palette = b.palette ∧ a.pix.length = b.pix.length

theorem Frame.refl (a : Paletted) : Frame a a := ⟨rfl, rfl, rfl, rfl, rfl, rfl, rfl⟩

theorem Frame.trans {a b c : Paletted} (h : Frame a b) (g : Frame b c) : Frame a c := by
  obtain ⟨h1, h2, h3, h4, h5, h6, h7⟩ := h
  obtain ⟨g1, g2, g3, g4, g5, g6, g7⟩ := g
  exact ⟨h1.trans g1, h2.trans g2, h3.trans g3, h4.trans g4, h5.trans g5, h6.trans g6, h7.trans g7⟩

/-- A painting step: it succeeds and colours exactly the positions in `S`. -/
structure Paints (img : Paletted) (r : Option Paletted) (S : Int → Prop) (c : Nat) : Prop where
  ex : ∃ img', r = some img' ∧ Frame img img' ∧
    ∀ k : Nat, k < img.pix.length → (S k → img'.pix[k]? = some c) ∧ (¬ S k → img'.pix[k]? = img.pix[k]?)

/-- A fold of painting steps. -/
theorem fold_paints {α : Type} {f : Paletted → α → Option Paletted} {S : α → Int → Prop} {c : Nat} (img0 : Paletted) :
    ∀ (l : List α) (img : Paletted), Frame img0 img →
      (∀ a ∈ l, ∀ i, Frame img0 i → Paints i (f i a) (S a) c) →
      Paints img (l.foldlM f img) (fun k => ∃ a ∈ l, S a k) c := by
  intro l
  induction l with
  | nil =>
    intro img hf _
    refine ⟨img, rfl, Frame.refl _, ?_⟩
    intro k hk
    exact ⟨fun h => (by obtain ⟨a, ha, _⟩ := h; cases ha), fun _ => rfl⟩
  | cons a l ih =>
    intro img hf h
    obtain ⟨i1, e1, f1, p1⟩ := (h a (by simp) img hf).ex
    have hf1 := hf.trans f1
    obtain ⟨i2, e2, f2, p2⟩ := (ih i1 hf1 (fun b hb => h b (by simp [hb]))).ex
    refine ⟨i2, ?_, f1.trans f2, ?_⟩
    · rw [List.foldlM_cons, e1]; exact e2
    · intro k hk
      have hlen : img.pix.length = i1.pix.length := f1.2.2.2.2.2.2
      have p2 := p2 k (by rw [← hlen]; exact hk)
      have p1 := p1 k hk
      constructor
      · rintro ⟨b, hb, hs⟩
        by_cases hl : ∃ a ∈ l, S a k
        · exact p2.1 hl
        · rw [p2.2 hl]
          rcases List.mem_cons.1 hb with rfl | hb
          · exact p1.1 hs
          · exact absurd ⟨b, hb, hs⟩ hl
      · intro hn
        have hl : ¬ ∃ a ∈ l, S a k := fun ⟨b, hb, hs⟩ => hn ⟨b, by simp [hb], hs⟩
        have ha : ¬ S a k := fun hs => hn ⟨a, by simp, hs⟩
        rw [p2.2 hl, p1.2 ha]

theorem setPix_paints {img : Paletted} {pos : Int} {c : Nat} (h0 : 0 ≤ pos) (h1 : pos < img.pix.length) :
    Paints img (img.setPix pos c) (fun k => k = pos) c := by
  refine ⟨{ img with pix := img.pix.set pos.toNat c }, ?_, ⟨rfl, rfl, rfl, rfl, rfl, rfl, ?_⟩, ?_⟩
  · unfold Paletted.setPix; rw [if_pos ⟨h0, h1⟩]
  · simp
  · intro k hk
    constructor
    · intro h
      have : pos.toNat = k := by omega
      simp only [this]
      rw [List.getElem?_set_self hk]
    · intro h
      have : pos.toNat ≠ k := by omega
      simp only
      rw [List.getElem?_set_ne this]

/-- The image of side `n`. -/
structure Square (img : Paletted) (n : Nat) : Prop where
  minX : img.minX = 0
  minY : img.minY = 0
  maxX : img.maxX = n
  maxY : img.maxY = n
  stride : img.stride = n
  len : img.pix.length = n * n

theorem Square.frame {a b : Paletted} {n : Nat} (h : Square a n) (f : Frame a b) : Square b n := by
  obtain ⟨g1, g2, g3, g4, g5, g6, g7⟩ := f
  exact ⟨g1 ▸ h.1, g2 ▸ h.2, g3 ▸ h.3, g4 ▸ h.4, g5 ▸ h.5, g7 ▸ h.6⟩

/-- Offsets in a square image. -/
theorem offset_lt {n x y : Int} (hx0 : 0 ≤ x) (hx : x < n) (hy0 : 0 ≤ y) (hy : y < n) : 0 ≤ y * n + x ∧ y * n + x < n * n := by
  constructor
  · have := Int.mul_nonneg hy0 (by omega : 0 ≤ n); omega
  · have : y * n ≤ (n - 1) * n := Int.mul_le_mul_of_nonneg_right (by omega) (by omega)
    rw [Int.sub_mul, Int.one_mul] at this
    omega

/-- Different pixels have different offsets. -/
theorem offset_inj {n x y x' y' : Int} (hx0 : 0 ≤ x) (hx : x < n) (hx0' : 0 ≤ x') (hx' : x' < n)
    (h : y * n + x = y' * n + x') : x = x' ∧ y = y' := by
  have hn : 0 < n := by omega
  have h1 : (y * n + x) / n = y := by
    rw [Int.add_comm, Int.add_mul_ediv_right _ _ (by omega), Int.ediv_eq_zero_of_lt hx0 hx]; omega
  have h2 : (y' * n + x') / n = y' := by
    rw [Int.add_comm, Int.add_mul_ediv_right _ _ (by omega), Int.ediv_eq_zero_of_lt hx0' hx']; omega
  rw [h, h2] at h1
  subst h1
  exact ⟨by omega, rfl⟩

/-- `rectangle` inside a square image. -/
theorem rectangle_paints {img : Paletted} {n : Nat} (hs : Square img n) {x1 y1 x2 y2 : Int} (c : Nat)
    (hx1 : 0 ≤ x1) (hx2 : x2 ≤ n) (hy1 : 0 ≤ y1) (hy2 : y2 ≤ n) :
    Paints img (rectangle x1 y1 x2 y2 img c)
      (fun k => ∃ x ∈ intRange x1 x2, ∃ y ∈ intRange y1 y2, k = y * n + x) c := by
  unfold rectangle
  apply fold_paints img _ _ (Frame.refl _)
  intro x hx i hi
  apply fold_paints img _ _ hi
  intro y hy i hi
  have hsi := hs.frame hi
  rw [mem_intRange] at hx hy
  have hb := offset_lt (n := n) (x := x) (y := y) (by omega) (by omega) (by omega) (by omega)
  have : i.pixOffset x y = y * n + x := by
    unfold Paletted.pixOffset; rw [hsi.minX, hsi.minY, hsi.stride, Int.sub_zero, Int.sub_zero]
  rw [this]
  apply setPix_paints hb.1
  rw [hsi.len]
  push_cast
  exact hb.2

theorem palette_indices :
    paletteIndex backgroundColor [backgroundColor, foregroundColor] 0 0xFFFFFFFF 0 = 0 ∧
    paletteIndex foregroundColor [backgroundColor, foregroundColor] 0 0xFFFFFFFF 0 = 1 := by decide +kernel

theorem newPaletted_square (n : Nat) (p : List Nat) : Square (newPaletted n n p) n := by
  have h0 : min (0 : Int) n = 0 := by omega
  have h1 : max (0 : Int) n = n := by omega
  refine ⟨h0, h0, h1, h1, ?_, ?_⟩
  · simp only [newPaletted, h0, h1]; omega
  · simp only [newPaletted, h0, h1, List.length_replicate, Int.sub_zero]
    rw [← Int.natCast_mul, Int.toNat_natCast]

/-- **C36.**  For every symbol that is not higher than wide (every QR code is square), every padding and block size that is
not negative: `Write` does not panic; the image it encodes is a square of side `width * blockSize + 2 * padding`; and
every pixel of it is black exactly if it lies in the block of a dark module, and white otherwise.  The block of module
`(x, y)` consists of the pixels `padding + x * blockSize ≤ px < padding + (x + 1) * blockSize` and likewise for `py`. -/
theorem C36_pixels (m : Matrix) (hh : m.height ≤ m.width) (padding blockSize : Nat) :
    ∃ img, write (some ⟨padding, blockSize⟩) m = some img ∧
      (img.minX = 0 ∧ img.minY = 0 ∧ img.maxX = m.width * blockSize + 2 * padding ∧
        img.maxY = m.width * blockSize + 2 * padding) ∧
      ∀ px py : Nat, px < m.width * blockSize + 2 * padding → py < m.width * blockSize + 2 * padding →
        (img.at' px py = some 0x00 ∨ img.at' px py = some 0xff) ∧
        (img.at' px py = some 0x00 ↔ ∃ x y, x < m.width ∧ y < m.height ∧ (m.raw x y).bit = true ∧
          padding + x * blockSize ≤ px ∧ px < padding + (x + 1) * blockSize ∧
          padding + y * blockSize ≤ py ∧ py < padding + (y + 1) * blockSize) := by
  obtain ⟨n, hn⟩ : ∃ n, n = m.width * blockSize + 2 * padding := ⟨_, rfl⟩
  have hnI : (m.width : Int) * (blockSize : Int) + 2 * (padding : Int) = (n : Int) := by rw [hn]; push_cast; rfl
  rw [← hn]
  unfold write image
  simp only [Option.bind_some]
  rw [hnI]
  have hsq := newPaletted_square n [backgroundColor, foregroundColor]
  have hpal : (newPaletted n n [backgroundColor, foregroundColor]).palette = [backgroundColor, foregroundColor] := rfl
  rw [hpal, palette_indices.1, palette_indices.2]
  obtain ⟨i1, e1, f1, p1⟩ := (rectangle_paints hsq 0 (x1 := 0) (y1 := 0) (x2 := n) (y2 := n)
    (by omega) (by omega) (by omega) (by omega)).ex
  rw [e1, Option.bind_some]
  have hs1 := hsq.frame f1
  -- block bounds
  have bound : ∀ a : Nat, a < m.width → ((a : Int) + 1) * blockSize + padding ≤ n := by
    intro a ha
    have : (a + 1) * blockSize ≤ m.width * blockSize := Nat.mul_le_mul_right _ ha
    rw [hn]
    have h2 : (((a + 1) * blockSize : Nat) : Int) ≤ ((m.width * blockSize : Nat) : Int) := by exact_mod_cast this
    push_cast at h2 ⊢
    omega
  have nonneg : ∀ a : Nat, 0 ≤ (a : Int) * blockSize + padding := by
    intro a
    have := Int.mul_nonneg (Int.natCast_nonneg a) (Int.natCast_nonneg blockSize)
    omega
  have key := fold_paints (S := fun (a : Nat × Nat × QRValue) k => a.2.2.qrbool = true ∧
      ∃ x ∈ intRange ((a.1 : Int) * blockSize + padding) (((a.1 : Int) + 1) * blockSize + padding),
      ∃ y ∈ intRange ((a.2.1 : Int) * blockSize + padding) (((a.2.1 : Int) + 1) * blockSize + padding), k = y * n + x)
    (c := 1)
    (f := fun img (a : Nat × Nat × QRValue) =>
      if a.2.2.qrbool then rectangle ((a.1 : Int) * blockSize + padding) ((a.2.1 : Int) * blockSize + padding)
        (((a.1 : Int) + 1) * blockSize + padding) (((a.2.1 : Int) + 1) * blockSize + padding) img 1 else some img)
    i1 (m.iterate .column) i1 (Frame.refl _) (by
      intro a ha i hi
      obtain ⟨p, hp, rfl⟩ := List.mem_map.1 ha
      obtain ⟨x, y⟩ := p
      simp only
      have hxy : x < m.width ∧ y < m.height := by
        rcases List.mem_flatMap.1 hp with ⟨a, ha, hb⟩
        obtain ⟨b, hb, he⟩ := List.mem_map.1 hb
        simp only [Prod.mk.injEq] at he
        rw [← he.1, ← he.2]
        exact ⟨List.mem_range.1 ha, List.mem_range.1 hb⟩
      by_cases hb : (m.raw x y).qrbool = true
      · rw [if_pos hb]
        obtain ⟨j, ej, fj, pj⟩ := (rectangle_paints (hs1.frame hi) 1 (nonneg x) (bound x hxy.1) (nonneg y)
          (bound y (by omega))).ex
        exact ⟨j, ej, fj, fun k hk => ⟨fun h => (pj k hk).1 h.2, fun h => (pj k hk).2 (fun h' => h ⟨hb, h'⟩)⟩⟩
      · rw [if_neg hb]
        exact ⟨i, rfl, Frame.refl _, fun k hk => ⟨fun h => absurd h.1 hb, fun _ => rfl⟩⟩)
  obtain ⟨img, e2, f2, p2⟩ := key.ex
  refine ⟨img, ?_, ?_, ?_⟩
  · exact e2
  · have := hs1.frame f2
    exact ⟨this.minX, this.minY, by rw [this.maxX, hn], by rw [this.maxY, hn]⟩
  intro px py hpx hpy
  have hs2 := hs1.frame f2
  have hlt := offset_lt (n := n) (x := px) (y := py) (by omega) (by omega) (by omega) (by omega)
  obtain ⟨k, hk⟩ : ∃ k : Nat, k = py * n + px := ⟨_, rfl⟩
  have hkI : (k : Int) = py * n + px := by rw [hk]; push_cast; rfl
  have hkl : k < n * n := by
    have := hlt.2
    rw [← hkI] at this
    exact_mod_cast this
  have hpalette : img.palette = [0xff, 0x00] := by
    rw [← f2.2.2.2.2.2.1, ← f1.2.2.2.2.2.1]; rfl
  have hat : img.at' px py = (img.pix[k]?).bind fun i => [0xff, 0x00][i]? := by
    unfold Paletted.at'
    rw [hs2.minX, hs2.minY, hs2.maxX, hs2.maxY, if_pos (by omega), hpalette]
    have : (img.pixOffset px py).toNat = k := by
      unfold Paletted.pixOffset
      rw [hs2.minX, hs2.minY, hs2.stride, Int.sub_zero, Int.sub_zero, ← hkI]; simp
    rw [this]
  have hbg := (p1 k (by rw [hsq.len]; exact hkl)).1 ⟨px, mem_intRange.2 (by omega), py, mem_intRange.2 (by omega), hkI⟩
  have hfg := p2 k (by rw [hs1.len]; exact hkl)
  have hiff : (∃ a ∈ m.iterate .column, a.2.2.qrbool = true ∧
      ∃ x ∈ intRange ((a.1 : Int) * blockSize + padding) (((a.1 : Int) + 1) * blockSize + padding),
      ∃ y ∈ intRange ((a.2.1 : Int) * blockSize + padding) (((a.2.1 : Int) + 1) * blockSize + padding), (k : Int) = y * n + x) ↔
      ∃ x y, x < m.width ∧ y < m.height ∧ (m.raw x y).bit = true ∧
          padding + x * blockSize ≤ px ∧ px < padding + (x + 1) * blockSize ∧
          padding + y * blockSize ≤ py ∧ py < padding + (y + 1) * blockSize := by
    constructor
    · rintro ⟨a, ha, hb, x, hx, y, hy, he⟩
      obtain ⟨p, hp, rfl⟩ := List.mem_map.1 ha
      obtain ⟨mx, my⟩ := p
      simp only at hb hx hy
      obtain ⟨c, hc, hd⟩ := List.mem_flatMap.1 hp
      obtain ⟨d, hd2, he'⟩ := List.mem_map.1 hd
      simp only [Prod.mk.injEq] at he'
      obtain ⟨rfl, rfl⟩ := he'
      have hc := List.mem_range.1 hc
      have hd := List.mem_range.1 hd2
      rw [mem_intRange] at hx hy
      have b1 := bound c hc
      have n1 := nonneg c
      rw [hkI] at he
      obtain ⟨rfl, rfl⟩ := offset_inj (by omega) (by omega) (by omega) (by omega) he
      refine ⟨c, d, hc, hd, hb, ?_, ?_, ?_, ?_⟩
      · have := hx.1; apply Int.ofNat_le.1; push_cast; omega
      · have := hx.2; apply Int.ofNat_lt.1; push_cast; omega
      · have := hy.1; apply Int.ofNat_le.1; push_cast; omega
      · have := hy.2; apply Int.ofNat_lt.1; push_cast; omega
    · rintro ⟨x, y, hx, hy, hb, h1, h2, h3, h4⟩
      refine ⟨(x, y, m.raw x y), List.mem_map.2 ⟨(x, y), ?_, rfl⟩, hb, px, ?_, py, ?_, hkI⟩
      · exact List.mem_flatMap.2 ⟨x, List.mem_range.2 hx, List.mem_map.2 ⟨y, List.mem_range.2 hy, rfl⟩⟩
      · have h1 := Int.ofNat_le.2 h1
        have h2 := Int.ofNat_lt.2 h2
        push_cast at h1 h2
        rw [mem_intRange]; simp only; constructor <;> omega
      · have h3 := Int.ofNat_le.2 h3
        have h4 := Int.ofNat_lt.2 h4
        push_cast at h3 h4
        rw [mem_intRange]; simp only; constructor <;> omega
  by_cases hd : ∃ a ∈ m.iterate .column, a.2.2.qrbool = true ∧
      ∃ x ∈ intRange ((a.1 : Int) * blockSize + padding) (((a.1 : Int) + 1) * blockSize + padding),
      ∃ y ∈ intRange ((a.2.1 : Int) * blockSize + padding) (((a.2.1 : Int) + 1) * blockSize + padding), (k : Int) = y * n + x
  · have : img.at' px py = some 0 := by rw [hat, hfg.1 hd]; rfl
    exact ⟨Or.inl this, ⟨fun _ => hiff.1 hd, fun _ => this⟩⟩
  · have : img.at' px py = some 255 := by rw [hat, hfg.2 hd, hbg]; rfl
    refine ⟨Or.inr this, ⟨fun h => ?_, fun h => absurd (hiff.2 h) hd⟩⟩
    rw [this] at h; cases h

/-- A nil option panics. -/
theorem C36_nil_option (m : Matrix) : write none m = none := rfl

/-- **C36, read back.**  With a positive block size the image determines the symbol: its side and the colour of every module. -/
theorem C36_injective {a b : Matrix} (ha : a.width = a.height) (hb : b.width = b.height) {padding blockSize : Nat}
    (hpos : 0 < blockSize) (h : write (some ⟨padding, blockSize⟩) a = write (some ⟨padding, blockSize⟩) b) :
    a.width = b.width ∧ ∀ x y, x < a.width → y < a.height → (a.raw x y).bit = (b.raw x y).bit := by
  obtain ⟨ia, ea, ⟨_, _, sa, _⟩, pa⟩ := C36_pixels a (by omega) padding blockSize
  obtain ⟨ib, eb, ⟨_, _, sb, _⟩, pb⟩ := C36_pixels b (by omega) padding blockSize
  rw [ea, eb, Option.some.injEq] at h
  subst h
  have hw : a.width = b.width := by
    rw [sa] at sb
    have : a.width * blockSize = b.width * blockSize := by
      apply Int.ofNat_inj.1; push_cast; omega
    exact Nat.eq_of_mul_eq_mul_right hpos this
  refine ⟨hw, ?_⟩
  have one : ∀ (c d : Matrix), c.width = c.height → c.width = d.width → d.width = d.height →
      (∀ px py : Nat, px < c.width * blockSize + 2 * padding → py < c.width * blockSize + 2 * padding →
        (ia.at' px py = some 0x00 ∨ ia.at' px py = some 0xff) ∧
        (ia.at' px py = some 0x00 ↔ ∃ x y, x < c.width ∧ y < c.height ∧ (c.raw x y).bit = true ∧
          padding + x * blockSize ≤ px ∧ px < padding + (x + 1) * blockSize ∧
          padding + y * blockSize ≤ py ∧ py < padding + (y + 1) * blockSize)) →
      (∀ px py : Nat, px < d.width * blockSize + 2 * padding → py < d.width * blockSize + 2 * padding →
        (ia.at' px py = some 0x00 ∨ ia.at' px py = some 0xff) ∧
        (ia.at' px py = some 0x00 ↔ ∃ x y, x < d.width ∧ y < d.height ∧ (d.raw x y).bit = true ∧
          padding + x * blockSize ≤ px ∧ px < padding + (x + 1) * blockSize ∧
          padding + y * blockSize ≤ py ∧ py < padding + (y + 1) * blockSize)) →
      ∀ x y, x < c.width → y < c.height → (c.raw x y).bit = true → (d.raw x y).bit = true := by
    intro c d hc hcd hd hpc hpd x y hx hy hbit
    have bx : (x + 1) * blockSize ≤ c.width * blockSize := Nat.mul_le_mul_right _ hx
    have bY : (y + 1) * blockSize ≤ c.width * blockSize := Nat.mul_le_mul_right _ (by omega)
    rw [Nat.add_mul, Nat.one_mul] at bx bY
    have h1 := (hpc (padding + x * blockSize) (padding + y * blockSize) (by omega) (by omega)).2.2
      ⟨x, y, hx, hy, hbit, by omega, by rw [Nat.add_mul]; omega, by omega, by rw [Nat.add_mul]; omega⟩
    obtain ⟨x', y', _, _, hb', g1, g2, g3, g4⟩ := (hpd (padding + x * blockSize) (padding + y * blockSize)
      (by rw [← hcd]; omega) (by rw [← hcd]; omega)).2.1 h1
    have uniq : ∀ u v : Nat, padding + u * blockSize ≤ padding + v * blockSize →
        padding + v * blockSize < padding + (u + 1) * blockSize → u = v := by
      intro u v h1 h2
      have h1 : u * blockSize ≤ v * blockSize := by omega
      have h2 : v * blockSize < (u + 1) * blockSize := by omega
      have := Nat.le_of_mul_le_mul_right h1 hpos
      have := Nat.lt_of_mul_lt_mul_right h2
      omega
    rw [uniq x' x g1 g2, uniq y' y g3 g4] at hb'
    exact hb'
  intro x y hx hy
  have h1 := one a b ha hw hb pa pb x y hx hy
  have h2 := one b a hb hw.symm ha pb pa x y (by omega) (by omega)
  cases e1 : (a.raw x y).bit <;> cases e2 : (b.raw x y).bit
  · rfl
  · rw [h2 e2] at e1; cases e1
  · rw [h1 e1] at e2; cases e2
  · rfl

/-- A 2x2 symbol with padding 1 and blocks of 2 pixels; a negative padding makes the writer panic. -/
example : let m : Matrix := ⟨2, 2, [[DATA_V1, DATA_V0], [DATA_V0, FINDER_V1]]⟩
    (write (some ⟨1, 2⟩) m).map (·.pix) = some
      [0,0,0,0,0,0, 0,1,1,0,0,0, 0,1,1,0,0,0, 0,0,0,1,1,0, 0,0,0,1,1,0, 0,0,0,0,0,0] ∧
    write (some ⟨-1, 2⟩) m = none := by
  decide +kernel

end QR.Compressed
