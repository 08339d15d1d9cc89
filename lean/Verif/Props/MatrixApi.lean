import Verif.Proof.World
/-!
# C31: the views of a matrix agree

The theorems are about every well-formed matrix `m` (`WF`: the slices have the lengths `width` and `height` say),
square or not.
-/
namespace QR
open Spec QR.Matrix

/-- `WF` holds initially and is preserved by every operation. -/
theorem C31_wellformed (w h : Nat) : (newMatrix w h).WF ∧ ∀ m : Matrix, m.WF →
    (m.copy.WF ∧ ∀ x y c, (m.setE x y c).1.WF) := by
  refine ⟨by simp [newMatrix, Matrix.WF], ?_⟩
  intro m hm
  constructor
  · constructor
    · simp [copy]
    · intro col hc
      simp only [copy, List.mem_map] at hc
      obtain ⟨a, _, rfl⟩ := hc
      simp [copy]
  · intro x y c
    unfold setE
    split
    · exact hm
    split
    · exact hm
    · constructor
      · simp [rawSet, hm.1]
      · intro col hc
        obtain ⟨i, hi, rfl⟩ := List.getElem_of_mem hc
        simp only [rawSet, List.length_modify] at hi
        simp only [rawSet, List.getElem_modify]
        split
        · rw [List.length_set]; exact hm.2 _ (List.getElem_mem hi)
        · exact hm.2 _ (List.getElem_mem hi)

/-- `(x, y)` comes before `(x', y')`: row first compares rows, then columns; column first the other way round. -/
def Before : Dir → Nat × Nat → Nat × Nat → Prop
  | .row, p, q => p.2 < q.2 ∨ (p.2 = q.2 ∧ p.1 < q.1)
  | .column, p, q => p.1 < q.1 ∨ (p.1 = q.1 ∧ p.2 < q.2)

theorem pairwise_range (n : Nat) : (List.range n).Pairwise (· < ·) := List.pairwise_lt_range

theorem coords_before (w h : Nat) (dir : Dir) : (coords w h dir).Pairwise (Before dir) := by
  cases dir with
  | row =>
    unfold coords
    rw [List.pairwise_flatMap]
    refine ⟨?_, ?_⟩
    · intro y _
      rw [List.pairwise_map]
      exact (pairwise_range w).imp fun h => Or.inr ⟨rfl, h⟩
    · refine (pairwise_range h).imp fun hab => ?_
      intro p hp q hq
      obtain ⟨_, _, rfl⟩ := List.mem_map.1 hp
      obtain ⟨_, _, rfl⟩ := List.mem_map.1 hq
      exact Or.inl hab
  | column =>
    unfold coords
    rw [List.pairwise_flatMap]
    refine ⟨?_, ?_⟩
    · intro y _
      rw [List.pairwise_map]
      exact (pairwise_range h).imp fun h => Or.inr ⟨rfl, h⟩
    · refine (pairwise_range w).imp fun hab => ?_
      intro p hp q hq
      obtain ⟨_, _, rfl⟩ := List.mem_map.1 hp
      obtain ⟨_, _, rfl⟩ := List.mem_map.1 hq
      exact Or.inl hab

theorem mem_coords' {w h : Nat} {dir : Dir} {p : Nat × Nat} : p ∈ coords w h dir ↔ p.1 < w ∧ p.2 < h := by
  obtain ⟨a, b⟩ := p
  cases dir <;> simp [coords] <;> omega

/-- `Iterate` calls the callback with every module exactly once (strictly increasing positions), in the documented
order, with the value `at` reports, and with no other position. -/
theorem C31_iterate (m : Matrix) (dir : Dir) :
    ((m.iterate dir).map fun c => (c.1, c.2.1)).Pairwise (Before dir) ∧
    (∀ x y : Nat, (∃ v, (x, y, v) ∈ m.iterate dir) ↔ x < m.width ∧ y < m.height) ∧
    (∀ (x y : Nat) (v : QRValue), (x, y, v) ∈ m.iterate dir → m.atE x y = (v, none)) := by
  refine ⟨?_, ?_, ?_⟩
  · unfold iterate
    rw [List.map_map]
    have : (coords m.width m.height dir).map ((fun c : Nat × Nat × QRValue => (c.1, c.2.1)) ∘
        fun x : Nat × Nat => (x.1, x.2, m.raw x.1 x.2)) = coords m.width m.height dir := by
      exact (List.map_congr_left (fun p _ => rfl)).trans (List.map_id _)
    refine Eq.mpr (congrArg (List.Pairwise (Before dir)) ?_) (coords_before m.width m.height dir)
    exact this
  · intro x y
    unfold iterate
    constructor
    · rintro ⟨v, hv⟩
      obtain ⟨p, hp, he⟩ := List.mem_map.1 hv
      have := mem_coords'.1 hp
      simp only [Prod.mk.injEq] at he
      omega
    · intro h
      exact ⟨m.raw x y, List.mem_map.2 ⟨(x, y), mem_coords'.2 h, rfl⟩⟩
  · intro x y v hv
    unfold iterate at hv
    obtain ⟨p, hp, he⟩ := List.mem_map.1 hv
    have := mem_coords'.1 hp
    simp only [Prod.mk.injEq] at he
    obtain ⟨rfl, rfl, rfl⟩ := he
    unfold atE
    rw [if_neg (by omega), if_neg (by omega)]
    rfl

/-- Only the value 1 means row first. -/
theorem C31_direction (d : UInt8) : Dir.ofByte d = .row ↔ d = 1 := by
  unfold Dir.ofByte; split <;> simp_all

/-- `Bitmap()` has `height` rows of `width` entries, and entry `[y][x]` is `IsSet` of the value at `(x, y)`. -/
theorem C31_bitmap (m : Matrix) : m.bitmap.length = m.height ∧ (∀ r ∈ m.bitmap, r.length = m.width) ∧
    ∀ (dir : Dir) (x y : Nat) (v : QRValue), (x, y, v) ∈ m.iterate dir →
      ∃ r, m.bitmap[y]? = some r ∧ r[x]? = some v.qrbool := by
  obtain ⟨h1, h2⟩ := bitmap_spec m
  refine ⟨h1.1, h1.2, ?_⟩
  intro dir x y v hv
  have hin := ((C31_iterate m dir).2.1 x y).1 ⟨v, hv⟩
  have hat := (C31_iterate m dir).2.2 x y v hv
  have hy : y < m.bitmap.length := by rw [h1.1]; exact hin.2
  have hr := h1.2 _ (List.getElem_mem hy)
  refine ⟨m.bitmap[y], List.getElem?_eq_getElem hy, ?_⟩
  rw [List.getElem?_eq_getElem (by rw [hr]; exact hin.1)]
  have := h2 y x hin.2 hin.1
  unfold pixel at this
  rw [List.getD_eq_getElem?_getD (l := m.bitmap), List.getElem?_eq_getElem hy, Option.getD_some,
    List.getD_eq_getElem?_getD, List.getElem?_eq_getElem (by rw [hr]; exact hin.1), Option.getD_some] at this
  rw [this]
  unfold atE at hat
  rw [if_neg (by omega), if_neg (by omega)] at hat
  simp only [Prod.mk.injEq, Int.toNat_natCast, and_true] at hat
  rw [← hat]; rfl

theorem raw_get {m : Matrix} (hm : m.WF) {x y : Nat} (hx : x < m.width) (hy : y < m.height) :
    ∃ col, m.mat[x]? = some col ∧ col.length = m.height ∧ col[y]? = some (m.raw x y) := by
  have h1 : x < m.mat.length := by rw [hm.1]; exact hx
  have h2 : (m.mat[x]).length = m.height := hm.2 _ (List.getElem_mem h1)
  refine ⟨m.mat[x], List.getElem?_eq_getElem h1, h2, ?_⟩
  simp [raw, List.getElem?_eq_getElem h1, List.getElem?_eq_getElem (show y < (m.mat[x]).length by omega)]

/-- `Col(x)` is the column of `height` modules at `x`, or nil outside the matrix. -/
theorem C31_col {m : Matrix} (hm : m.WF) (x : Int) :
    (¬ (0 ≤ x ∧ x < m.width) → m.col x = none) ∧
    (0 ≤ x → x < m.width → ∃ l, m.col x = some l ∧ l.length = m.height ∧
      ∀ y : Nat, y < m.height → ∃ v, l[y]? = some v ∧ m.atE x y = (v, none)) := by
  constructor
  · intro h
    unfold col; rw [if_pos (by omega)]
  · intro h0 h1
    obtain ⟨x, rfl⟩ := Int.eq_ofNat_of_zero_le h0
    have hx : x < m.mat.length := by rw [hm.1]; omega
    unfold col
    rw [if_neg (by omega), Int.toNat_natCast, List.getElem?_eq_getElem hx]
    refine ⟨_, rfl, hm.2 _ (List.getElem_mem hx), ?_⟩
    intro y hy
    obtain ⟨c, hc, _, hv⟩ := raw_get hm (show x < m.width by omega) hy
    rw [List.getElem?_eq_getElem hx] at hc
    cases hc
    refine ⟨_, hv, ?_⟩
    unfold atE
    rw [if_neg (by omega), if_neg (by omega)]
    rfl

/-- `Row(y)` is the row of modules at `y`, or nil exactly outside the matrix; for the square matrices of symbols (width =
height) it never panics and has `width` entries.  (The code allocates `height` entries: a matrix higher than wide gets zero values behind the
row, and one wider than high panics for every row inside it.) -/
theorem C31_row (m : Matrix) (y : Int) :
    (¬ (0 ≤ y ∧ y < m.height) → m.row y = .ok none) ∧
    (0 ≤ y → y < m.height → m.width ≤ m.height → ∃ l, m.row y = .ok (some l) ∧ l.length = m.height ∧
      (∀ x : Nat, x < m.width → ∃ v, l[x]? = some v ∧ m.atE x y = (v, none)) ∧
      ∀ x : Nat, m.width ≤ x → x < m.height → l[x]? = some ZERO_V) ∧
    (0 ≤ y → y < m.height → m.height < m.width → m.row y = .panic .index) := by
  refine ⟨?_, ?_, ?_⟩
  · intro h
    unfold row; rw [if_pos (by omega)]
  · intro h0 h1 hle
    obtain ⟨y, rfl⟩ := Int.eq_ofNat_of_zero_le h0
    unfold row
    rw [if_neg (by omega), if_neg (by omega)]
    refine ⟨_, rfl, by simp; omega, ?_, ?_⟩
    · intro x hx
      refine ⟨m.raw x y, ?_, ?_⟩
      · rw [List.getElem?_append_left (by simpa using hx)]
        simp [List.getElem?_range hx]
      · unfold atE
        rw [if_neg (by omega), if_neg (by omega)]
        rfl
    · intro x hx hx'
      rw [List.getElem?_append_right (by simpa using hx), List.getElem?_replicate, if_pos (by simp; omega)]
  · intro h0 h1 hlt
    unfold row
    rw [if_neg (by omega), if_pos (by omega)]

/-- Reads and writes outside the matrix report an error and change nothing; inside, a write changes that module and
no other, and reads succeed. -/
theorem C31_access {m : Matrix} (hm : m.WF) (x y : Int) (c : QRValue) :
    (¬ (0 ≤ x ∧ x < m.width ∧ 0 ≤ y ∧ y < m.height) →
      (m.setE x y c).1 = m ∧ (m.setE x y c).2 ≠ none ∧ (m.atE x y).2 ≠ none) ∧
    (0 ≤ x → x < m.width → 0 ≤ y → y < m.height → (m.setE x y c).2 = none ∧ (m.atE x y).2 = none ∧
      (m.setE x y c).1.atE x y = (c, none) ∧
      ∀ x' y' : Int, (x', y') ≠ (x, y) → (m.setE x y c).1.atE x' y' = m.atE x' y') := by
  constructor
  · intro h
    unfold setE atE
    by_cases h1 : x ≥ m.width ∨ x < 0
    · simp [h1]
    · simp only [h1, if_false]
      have h2 : y ≥ m.height ∨ y < 0 := by omega
      simp [h2]
  · intro h1 h2 h3 h4
    obtain ⟨x, rfl⟩ := Int.eq_ofNat_of_zero_le h1
    obtain ⟨y, rfl⟩ := Int.eq_ofNat_of_zero_le h3
    have e : m.setE (x : Int) (y : Int) c = (m.rawSet x y c, none) := by
      unfold setE; rw [if_neg (by omega), if_neg (by omega)]; rfl
    rw [e]
    have hw : (m.rawSet x y c).width = m.width := rfl
    have hh : (m.rawSet x y c).height = m.height := rfl
    have key : ∀ a b : Nat, a < m.width → b < m.height →
        (m.rawSet x y c).raw a b = if a = x ∧ b = y then c else m.raw a b := by
      intro a b ha hb
      have la : a < m.mat.length := by rw [hm.1]; exact ha
      have hl : (m.mat[a]).length = m.height := hm.2 _ (List.getElem_mem la)
      unfold raw rawSet
      simp only [List.getElem?_modify, List.getElem?_eq_getElem la, Option.map_eq_map, Option.map_some, Option.getD_some]
      by_cases hxa : x = a
      · subst hxa
        simp only [if_true, List.getD_set_eq, true_and]
        rw [hl]
        by_cases hyb : y = b
        · subst hyb; simp [hb]
        · simp [hyb, Ne.symm hyb]
      · simp [hxa, Ne.symm hxa]
    have at_in : ∀ (M : Matrix) (a b : Nat), a < M.width → b < M.height → M.atE (a : Int) (b : Int) = (M.raw a b, none) := by
      intro M a b ha hb
      unfold atE; rw [if_neg (by omega), if_neg (by omega)]; rfl
    refine ⟨rfl, ?_, ?_, ?_⟩
    · rw [at_in m x y (by omega) (by omega)]
    · rw [at_in _ x y (by rw [hw]; omega) (by rw [hh]; omega), key x y (by omega) (by omega)]; simp
    · intro x' y' hne
      by_cases hin : 0 ≤ x' ∧ x' < m.width ∧ 0 ≤ y' ∧ y' < m.height
      · obtain ⟨a, rfl⟩ := Int.eq_ofNat_of_zero_le hin.1
        obtain ⟨b, rfl⟩ := Int.eq_ofNat_of_zero_le hin.2.2.1
        rw [at_in _ a b (by rw [hw]; omega) (by rw [hh]; omega), at_in m a b (by omega) (by omega), key a b (by omega) (by omega),
          if_neg]
        rintro ⟨rfl, rfl⟩
        exact hne rfl
      · unfold atE
        rw [hw, hh]
        by_cases h1 : x' ≥ m.width ∨ x' < 0
        · simp [h1]
        · have h2 : y' ≥ m.height ∨ y' < 0 := by omega
          simp only [h1, if_false, h2, if_true]

/-- `Copy` has the same dimensions and modules. -/
theorem C31_copy {m : Matrix} (x y : Int) : m.copy.width = m.width ∧ m.copy.height = m.height ∧ m.copy.atE x y = m.atE x y := by
  refine ⟨rfl, rfl, ?_⟩
  unfold atE
  show (if x ≥ m.width ∨ x < 0 then _ else if y ≥ m.height ∨ y < 0 then _ else _) = _
  by_cases h1 : x ≥ m.width ∨ x < 0
  · rw [if_pos h1, if_pos h1]
  · rw [if_neg h1, if_neg h1]
    by_cases h2 : y ≥ m.height ∨ y < 0
    · rw [if_pos h2, if_pos h2]
    · rw [if_neg h2, if_neg h2]
      have hx : x.toNat < m.width := by omega
      have hy : y.toNat < m.height := by omega
      have : m.copy.raw x.toNat y.toNat = m.raw x.toNat y.toNat := by
        conv => lhs; unfold raw
        simp [copy, hx, hy]
      rw [this]

/-- Bytes: `Type()`, `IsSet()`, `==` and `xor` computed on Go's bytes agree with the pair model of values. -/
theorem C31_bytes (v w : QRValue) : byteType v.toByte = v.qrtype.toByte ∧ byteBool v.toByte = v.qrbool ∧
    (v.toByte = w.toByte ↔ v = w) ∧ byteXor v.toByte w.toByte = (v.xor w).toByte := by
  obtain ⟨t, b⟩ := v
  obtain ⟨t', b'⟩ := w
  cases t <;> cases b <;> cases t' <;> cases b' <;> decide +kernel

/-- The type names are pairwise different, so `String()` determines the value. -/
theorem C31_string (v w : QRValue) (h : v.string = w.string) : v = w := by
  obtain ⟨t, b⟩ := v
  obtain ⟨t', b'⟩ := w
  cases t <;> cases b <;> cases t' <;> cases b' <;> first | rfl | exact absurd h (by decide)

/-- A matrix that is not square, with different values. -/
def demoMatrix : Matrix := ((newMatrix 2 3).set 1 2 DATA_V1).set 0 1 FINDER_V1

theorem demo_matrix : demoMatrix.WF ∧ demoMatrix.bitmap = [[false, false], [true, false], [false, true]] := by
  decide +kernel

end QR
