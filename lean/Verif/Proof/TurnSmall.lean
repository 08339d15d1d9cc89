import Verif.Proof.Turn
import Verif.Proof.Reference
/-!
# Version 1: the lower right corner

There is no alignment pattern in version 1.  The first fourteen data modules lie in the lower right corner; in a finder
pattern they would have to hold, for each of the eight masks, bits with which no segment begins.
-/
namespace Spec
open QR

/-- What a finder pattern in the lower right corner of a version 1 symbol would mean for the first fourteen data bits. -/
def cornerBits (k : Nat) : List Bool :=
  ((dataModules 1).take 14).map fun p => (cheb (p.1 - 14) (p.2 - 14) 3 3 != 2) ^^ maskBit k p.1 p.2

theorem corner_place : ∀ p ∈ (dataModules 1).take 14, 14 ≤ p.1 ∧ p.1 < 21 ∧ 14 ≤ p.2 ∧ p.2 < 21 := by decide +kernel

theorem cornerBits_eq : (List.range 8).map cornerBits =
    [[false, true, true, true, false, false, true, true, false, false, true, true, false, true],
     [false, false, true, false, false, true, true, false, false, true, true, false, false, false],
     [true, true, true, false, true, false, true, false, true, false, true, false, true, true],
     [true, false, false, false, true, false, true, true, false, false, true, false, true, false],
     [false, false, true, false, true, false, false, true, false, true, true, false, true, true],
     [true, true, true, false, false, true, true, false, true, false, false, false, true, true],
     [true, false, false, true, false, true, true, false, false, false, false, false, true, false],
     [true, true, true, false, false, false, false, true, false, true, true, true, true, true]] := by decide +kernel

theorem corner_stream {bm : List (List Bool)} {k : Nat} (h : finderAt bm 14 14 = true) :
    (readStream bm 1 k).take 14 = cornerBits k := by
  rw [finderAt_iff] at h
  unfold readStream cornerBits
  rw [← List.map_take]
  apply List.map_congr_left
  intro p hp
  obtain ⟨h1, h2, h3, h4⟩ := corner_place p hp
  have := h (p.1 - 14) (p.2 - 14) (by omega) (by omega)
  rw [show 14 + (p.1 - 14) = p.1 by omega, show 14 + (p.2 - 14) = p.2 by omega] at this
  rw [← this]

theorem numBits_9 (n : Nat) : numBits 9 n = [n.testBit 8, n.testBit 7, n.testBit 6, n.testBit 5, n.testBit 4, n.testBit 3,
    n.testBit 2, n.testBit 1, n.testBit 0] := rfl
theorem numBits_8 (n : Nat) : numBits 8 n = [n.testBit 7, n.testBit 6, n.testBit 5, n.testBit 4, n.testBit 3,
    n.testBit 2, n.testBit 1, n.testBit 0] := rfl

theorem small_capacity (lv : Level) : 9 ≤ dataCodewords 1 lv ∧ dataCodewords 1 lv ≤ 19 := by cases lv <;> decide

theorem no_corner_bits {lv : Level} {m : Mode} {n : Nat} {p bits : List Bool} {k : Nat} (hk : k < 8)
    (hf : Filled (8 * dataCodewords 1 lv) (Segment 1 m n p) bits)
    (hp : p.length = payloadBits m n ∨ (m = .kanji ∧ p = [])) : bits.take 14 ≠ cornerBits k := by
  intro hs
  have hcap := small_capacity lv
  obtain ⟨hl, t, z, y, hb, ht, -, -⟩ := hf
  have hlen : (Segment 1 m n p).length ≤ 8 * dataCodewords 1 lv := by
    rw [hb] at hl
    simp only [List.length_append] at hl
    simp only [List.append_assoc] at *
    omega
  have hc : cornerBits k ∈ (List.range 8).map cornerBits := List.mem_map_of_mem (List.mem_range.2 hk)
  rw [cornerBits_eq] at hc
  rw [← hs, hb] at hc
  have hn : ∀ i, n.testBit i = true → 2 ^ i ≤ n := fun i h => Nat.ge_two_pow_of_testBit h
  cases m with
  | numeric => simp [Segment, Mode.indicator] at hc
  | byte => simp [Segment, Mode.indicator] at hc
  | alnum =>
    rcases hp with hp | ⟨hp, _⟩
    · simp [Segment, Mode.indicator, countWidth, numBits_9, payloadBits] at hc hlen hp
      have : n.testBit 7 = true ∨ n.testBit 8 = true := by tauto
      have : 128 ≤ n := by
        rcases this with h | h
        · exact hn 7 h
        · have := hn 8 h; omega
      omega
    · cases hp
  | kanji =>
    rcases hp with hp | ⟨_, hp⟩
    · simp [Segment, Mode.indicator, countWidth, numBits_8, payloadBits] at hc hlen hp
      have : n.testBit 7 = true := by tauto
      have := hn 7 this
      omega
    · subst hp
      have e : (Segment 1 .kanji n []).length = 12 := rfl
      have : t = 4 := by rw [ht, e]; omega
      subst this
      simp [Segment, Mode.indicator, countWidth, numBits_8, List.replicate] at hc

/-- The data bits of a version 1 symbol begin with the first bits of its stream. -/
theorem small_stream {rs : List Bool → Nat → List Bool} {lv : Level} {bits stream : List Bool}
    (h : IsStream rs 1 lv bits stream) : bits.take 14 = stream.take 14 := by
  have hl := h.length
  have hr : rawModules 1 = 208 := by decide +kernel
  have hb : numBlocks 1 lv = 1 := by cases lv <;> decide
  have hn : ∃ b, blockLen 1 lv 0 = b + 2 := by cases lv <;> exact ⟨_, rfl⟩
  obtain ⟨b, hn⟩ := hn
  have hc : ∃ c, totalCodewords 1 = c + 2 := ⟨24, by decide +kernel⟩
  obtain ⟨c, hc⟩ := hc
  have hi : ∀ t < 2, dataIndex 1 lv 0 t = t := by cases lv <;> decide
  rw [← h.data, hb]
  simp only [List.range_one, List.flatMap_cons, List.flatMap_nil, List.append_nil]
  unfold dataBlock
  rw [hn, List.range_succ_eq_map, List.range_succ_eq_map]
  simp only [List.map_cons, List.flatMap_cons, hc, toCodewords]
  rw [hi 0 (by omega), hi (0 + 1) (by omega)]
  have e1 : byteToBits (bitsToNat (stream.take 8)) = stream.take 8 := byteToBits_bitsToNat _ (by rw [List.length_take]; omega)
  have e2 : byteToBits (bitsToNat ((stream.drop 8).take 8)) = (stream.drop 8).take 8 :=
    byteToBits_bitsToNat _ (by rw [List.length_take, List.length_drop]; omega)
  simp only [List.getD_cons_zero, List.getD_cons_succ, e1, e2]
  have l1 : (stream.take 8).length = 8 := by rw [List.length_take]; omega
  have l2 : ((stream.drop 8).take 8).length = 8 := by rw [List.length_take, List.length_drop]; omega
  have l3 : 14 ≤ (stream.take 8 ++ (stream.drop 8).take 8).length := by rw [List.length_append]; omega
  have e3 : stream = stream.take 8 ++ (stream.drop 8).take 8 ++ (stream.drop 8).drop 8 := by
    rw [List.append_assoc, List.take_append_drop, List.take_append_drop]
  rw [← List.append_assoc, List.take_append_of_le_length l3]
  conv => rhs; rw [e3]
  rw [List.take_append_of_le_length l3]

end Spec
