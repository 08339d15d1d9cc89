import Verif.Model.QRCode
import Verif.Spec.Reader
import Mathlib.Tactic.Ring
import Mathlib.Tactic.Linarith
import Mathlib.Data.List.Induction
/-!
# Splitting into blocks and interleaving
-/
namespace QR
open Spec

/-- Byte `t` of a bit string. -/
def byteAt (t : Nat) (b : Bits) : Bits := (b.drop (8 * t)).take 8

theorem byteAt_nil {t : Nat} {b : Bits} (h : b.length ≤ 8 * t) : byteAt t b = [] := by
  unfold byteAt
  rw [List.drop_eq_nil_of_le h]; rfl

theorem byteAt_length {t n : Nat} {b : Bits} (hn : b.length = 8 * n) (ht : t < n) : (byteAt t b).length = 8 := by
  unfold byteAt
  rw [List.length_take, List.length_drop]; omega

/-- A bit string is the concatenation of its bytes. -/
theorem bytes_join (n : Nat) : ∀ (b : Bits), b.length = 8 * n → (List.range n).flatMap (fun t => byteAt t b) = b := by
  induction n with
  | zero => intro b h; simp at h; simp [h]
  | succ n ih =>
    intro b h
    rw [List.range_succ_eq_map, List.flatMap_cons, List.flatMap_map]
    have e : (fun t => byteAt (Nat.succ t) b) = fun t => byteAt t (b.drop 8) := by
      funext t
      unfold byteAt
      rw [List.drop_drop]; congr 2
      simp only [Nat.succ_eq_add_one]; omega
    rw [e, ih (b.drop 8) (by rw [List.length_drop]; omega)]
    simp [byteAt]

theorem subset_byte {b : Bits} {t n : Nat} (hn : b.length = 8 * n) (ht : t < n) :
    subset b (t * 8) (t * 8 + 8) = some (byteAt t b) := by
  unfold subset byteAt
  rw [if_pos (by omega)]
  rw [show t * 8 + 8 - t * 8 = 8 by omega, Nat.mul_comm]

theorem arrangeRound_eq (t : Nat) : ∀ (blocks : List Bits) (ovf : Nat) (acc : Bits),
    (∀ b ∈ blocks, ∃ n, b.length = 8 * n) →
    arrangeRound t blocks (ovf, acc) = .ok (ovf + blocks.countP (fun b => decide (b.length ≤ 8 * t)),
      acc ++ blocks.flatMap (byteAt t)) := by
  intro blocks
  induction blocks with
  | nil => intro ovf acc _; simp [arrangeRound]
  | cons b bs ih =>
    intro ovf acc h
    obtain ⟨n, hn⟩ := h b (by simp)
    unfold arrangeRound
    by_cases hc : t * 8 ≥ b.length
    · rw [if_pos hc, ih _ _ (fun c hc => h c (by simp [hc]))]
      rw [List.countP_cons_of_pos (by simp; omega), List.flatMap_cons, byteAt_nil (by omega), List.nil_append]
      congr 2; omega
    · rw [if_neg hc, subset_byte hn (by omega)]
      simp only
      rw [ih _ _ (fun c hc => h c (by simp [hc]))]
      rw [List.countP_cons_of_neg (by simp; omega), List.flatMap_cons, List.append_assoc]

/-- Number of blocks that are exhausted in round `t`. -/
def exhausted (blocks : List Bits) (t : Nat) : Nat := blocks.countP (fun b => decide (b.length ≤ 8 * t))

/-- While no block is exhausted the loop just appends. -/
theorem arrangeLoop_run (blocks : List Bits) (hb : ∀ b ∈ blocks, ∃ n, b.length = 8 * n) (hne : 0 < blocks.length) :
    ∀ (k fuel t : Nat) (acc : Bits), (∀ u, t ≤ u → u < t + k → exhausted blocks u = 0) →
    arrangeLoop blocks (fuel + k) t 0 acc =
      arrangeLoop blocks fuel (t + k) 0 (acc ++ (List.range' t k).flatMap fun u => blocks.flatMap (byteAt u)) := by
  intro k
  induction k with
  | zero => intro fuel t acc _; simp
  | succ k ih =>
    intro fuel t acc h
    rw [show fuel + (k + 1) = (fuel + k) + 1 by omega]
    rw [arrangeLoop, arrangeRound_eq t blocks 0 acc hb]
    have h0 := h t (by omega) (by omega)
    unfold exhausted at h0
    simp only [Res.bind_ok, h0]
    rw [if_neg (by omega), ih fuel (t + 1) _ (fun u h1 h2 => h u (by omega) (by omega))]
    rw [List.range'_succ, List.flatMap_cons, List.append_assoc, show t + 1 + k = t + (k + 1) by omega]

theorem foldl_max_ge (l : List Nat) : ∀ (a x : Nat), (x = a ∨ x ∈ l) → x ≤ l.foldl max a := by
  induction l with
  | nil => intro a x h; simp at h; simp [h]
  | cons b l ih =>
    intro a x h
    rw [List.foldl_cons]
    rcases h with rfl | h
    · exact Nat.le_trans (Nat.le_max_left _ _) (ih _ _ (Or.inl rfl))
    · rcases List.mem_cons.1 h with rfl | h
      · exact Nat.le_trans (Nat.le_max_right _ _) (ih _ _ (Or.inl rfl))
      · exact ih _ _ (Or.inr h)

/-- Interleaving: `q` blocks of `s` bytes followed by blocks of `s + 1` bytes. -/
theorem arrange_eq (blocks : List Bits) (s q : Nat) (hq : q ≤ blocks.length) (hne : 0 < blocks.length)
    (hlen : ∀ b (h : b < blocks.length), (blocks[b]).length = 8 * (s + if b < q then 0 else 1)) :
    arrange blocks = .ok ((List.range (s + 1)).flatMap fun t => blocks.flatMap (byteAt t)) := by
  have hb : ∀ b ∈ blocks, ∃ n, b.length = 8 * n := by
    intro b h
    obtain ⟨i, hi, rfl⟩ := List.getElem_of_mem h
    exact ⟨_, hlen i hi⟩
  have hcases : ∀ b ∈ blocks, b.length = 8 * s ∨ b.length = 8 * (s + 1) := by
    intro b h
    obtain ⟨i, hi, rfl⟩ := List.getElem_of_mem h
    have := hlen i hi
    split at this
    · left; omega
    · right; omega
  have h0 : ∀ u, u < s → exhausted blocks u = 0 := by
    intro u hu
    unfold exhausted
    rw [List.countP_eq_zero]
    intro b hbm
    have := hcases b hbm
    simp; omega
  have hall : exhausted blocks (s + 1) = blocks.length := by
    unfold exhausted
    rw [List.countP_eq_length]
    intro b hbm
    have := hcases b hbm
    simp; omega
  -- fuel
  have hmax : 8 * s ≤ (blocks.map List.length).foldl max 0 := by
    have h1 : blocks[0].length ≤ (blocks.map List.length).foldl max 0 :=
      foldl_max_ge _ _ _ (Or.inr (List.mem_map.2 ⟨_, List.getElem_mem hne, rfl⟩))
    have := hcases blocks[0] (List.getElem_mem hne)
    omega
  unfold arrange arrangeFuel
  obtain ⟨fuel, hf⟩ : ∃ fuel, (blocks.map List.length).foldl max 0 + 2 = fuel + 2 + s :=
    ⟨(blocks.map List.length).foldl max 0 - s, by omega⟩
  rw [hf, arrangeLoop_run blocks hb hne s (fuel + 2) 0 [] (fun u _ h => h0 u (by omega))]
  rw [Nat.zero_add, List.nil_append, ← List.range_eq_range']
  rw [arrangeLoop, arrangeRound_eq s blocks 0 _ hb]
  simp only [Res.bind_ok]
  by_cases hend : 0 + List.countP (fun b => decide (b.length ≤ 8 * s)) blocks ≥ blocks.length
  · rw [if_pos hend, List.range_succ, List.flatMap_append]
    simp
  · rw [if_neg hend, arrangeLoop, arrangeRound_eq (s + 1) blocks _ _ hb]
    simp only [Res.bind_ok]
    unfold exhausted at hall
    rw [hall, if_pos (by omega)]
    have hnil : blocks.flatMap (byteAt (s + 1)) = [] := by
      rw [List.flatMap_eq_nil_iff]
      intro b hbm
      apply byteAt_nil
      have := hcases b hbm
      omega
    rw [hnil, List.append_nil, List.range_succ, List.flatMap_append]
    simp

/-! ## Codewords -/

theorem toCodewords_flatten (A : List Bits) (h8 : ∀ c ∈ A, c.length = 8) (k : Nat) (r : Bits) :
    toCodewords (A.length + k) (A.flatten ++ r) = A.map bitsToNat ++ toCodewords k r := by
  induction A with
  | nil => simp
  | cons c A ih =>
    have hc := h8 c (by simp)
    rw [List.length_cons, show A.length + 1 + k = (A.length + k) + 1 by omega, toCodewords,
      List.flatten_cons, List.append_assoc]
    rw [List.take_left' hc, List.drop_left' hc, ih (fun c hc => h8 c (by simp [hc]))]
    rfl

theorem bitsToNat_append (a : List Bool) (b : Bool) : bitsToNat (a ++ [b]) = 2 * bitsToNat a + b.toNat := by
  unfold bitsToNat; rw [List.foldl_append]; rfl

theorem bitsToNat_lt (a : List Bool) : bitsToNat a < 2 ^ a.length := by
  induction a using List.reverseRecOn with
  | nil => simp [bitsToNat]
  | append_singleton a b ih =>
    rw [bitsToNat_append, List.length_append, List.length_singleton, Nat.pow_succ]
    cases b <;> simp <;> omega

theorem bitsToNat_testBit (a : List Bool) (k : Nat) (hk : k < a.length) :
    (bitsToNat a).testBit (a.length - 1 - k) = a[k] := by
  induction a using List.reverseRecOn generalizing k with
  | nil => simp at hk
  | append_singleton a b ih =>
    rw [bitsToNat_append]
    simp only [List.length_append, List.length_singleton] at hk ⊢
    by_cases h : k = a.length
    · subst h
      simp only [Nat.add_sub_cancel, Nat.sub_self, List.getElem_concat_length, Nat.testBit_zero]
      cases b <;> simp <;> omega
    · have h1 : a.length + 1 - 1 - k = (a.length - 1 - k) + 1 := by omega
      rw [h1, Nat.testBit_succ]
      have h2 : (2 * bitsToNat a + b.toNat) / 2 = bitsToNat a := by cases b <;> simp <;> omega
      rw [h2, ih k (by omega), List.getElem_append_left]

theorem byteToBits_bitsToNat (c : Bits) (h : c.length = 8) : byteToBits (bitsToNat c) = c := by
  unfold byteToBits
  apply List.ext_getElem
  · simp [h]
  · intro k h1 h2
    simp only [List.getElem_map, List.getElem_range]
    have := bitsToNat_testBit c k h2
    rw [h] at this
    exact this

/-- Index into the concatenation of equally long lists. -/
theorem getElem?_flatMap_const {α β : Type} (f : α → List β) (n : Nat) : ∀ (l : List α) (t b : Nat),
    (∀ a ∈ l, (f a).length = n) → b < n → (l.flatMap f)[t * n + b]? = (l[t]?).bind (fun a => (f a)[b]?) := by
  intro l
  induction l with
  | nil => intro t b _ _; simp
  | cons a l ih =>
    intro t b h hb
    have ha := h a (by simp)
    cases t with
    | zero =>
      simp only [Nat.zero_mul, Nat.zero_add, List.flatMap_cons, List.getElem?_cons_zero, Option.bind_some]
      rw [List.getElem?_append_left (by omega)]
    | succ t =>
      rw [List.flatMap_cons, List.getElem?_append_right (by rw [ha, Nat.succ_mul]; omega), ha,
        show (t + 1) * n + b - n = t * n + b by rw [Nat.succ_mul]; omega,
        ih t b (fun a h' => h a (by simp [h'])) hb]
      simp

/-- The interleaved codewords as a list of bytes. -/
def interleaved (blocks : List Bits) (s q : Nat) : List Bits :=
  ((List.range s).flatMap fun t => blocks.map (byteAt t)) ++ (blocks.drop q).map (byteAt s)

theorem flatten_interleaved (blocks : List Bits) (s q : Nat) (hq : q ≤ blocks.length)
    (hlen : ∀ b (h : b < blocks.length), (blocks[b]).length = 8 * (s + if b < q then 0 else 1)) :
    (interleaved blocks s q).flatten = (List.range (s + 1)).flatMap fun t => blocks.flatMap (byteAt t) := by
  unfold interleaved
  rw [List.flatten_append, List.range_succ, List.flatMap_append]
  congr 1
  · rw [List.flatMap_def, List.flatMap_def, List.flatten_flatten, List.map_map]
    rfl
  · simp only [List.flatMap_cons, List.flatMap_nil, List.append_nil]
    conv_rhs => rw [← List.take_append_drop q blocks, List.flatMap_append]
    have : (blocks.take q).flatMap (byteAt s) = [] := by
      rw [List.flatMap_eq_nil_iff]
      intro b hb
      apply byteAt_nil
      obtain ⟨i, hi, rfl⟩ := List.getElem_of_mem hb
      rw [List.length_take] at hi
      rw [List.getElem_take, hlen i (by omega), if_pos (by omega)]
      omega
    rw [this, List.nil_append, List.flatMap_def]

theorem interleaved_len8 (blocks : List Bits) (s q : Nat)
    (hlen : ∀ b (h : b < blocks.length), (blocks[b]).length = 8 * (s + if b < q then 0 else 1)) :
    ∀ c ∈ interleaved blocks s q, c.length = 8 := by
  intro c hc
  unfold interleaved at hc
  rcases List.mem_append.1 hc with h | h
  · obtain ⟨t, ht, h⟩ := List.mem_flatMap.1 h
    obtain ⟨b, hb, rfl⟩ := List.mem_map.1 h
    obtain ⟨i, hi, rfl⟩ := List.getElem_of_mem hb
    exact byteAt_length (hlen i hi) (by have := List.mem_range.1 ht; split <;> omega)
  · obtain ⟨b, hb, rfl⟩ := List.mem_map.1 h
    obtain ⟨i, hi, rfl⟩ := List.getElem_of_mem hb
    rw [List.length_drop] at hi
    rw [List.getElem_drop]
    exact byteAt_length (hlen (q + i) (by omega)) (by rw [if_neg (by omega)]; omega)

theorem interleaved_length (blocks : List Bits) (s q : Nat) :
    (interleaved blocks s q).length = s * blocks.length + (blocks.length - q) := by
  unfold interleaved
  rw [List.length_append, List.length_map, List.length_drop]
  congr 1
  induction s with
  | zero => simp
  | succ s ih =>
    rw [List.range_succ, List.flatMap_append, List.length_append, ih, Nat.succ_mul]
    simp

theorem interleaved_get (blocks : List Bits) (s q b t : Nat) (hb : b < blocks.length)
    (ht : t < s + if b < q then 0 else 1) :
    (interleaved blocks s q)[if t < s then t * blocks.length + b else s * blocks.length + (b - q)]? =
      some (byteAt t blocks[b]) := by
  have hl : ((List.range s).flatMap fun t => blocks.map (byteAt t)).length = s * blocks.length := by
    have := interleaved_length blocks s blocks.length
    unfold interleaved at this
    simpa using this
  unfold interleaved
  by_cases hts : t < s
  · rw [if_pos hts]
    have hlt : t * blocks.length + b < s * blocks.length := by
      calc t * blocks.length + b < t * blocks.length + blocks.length := by omega
        _ = (t + 1) * blocks.length := by ring
        _ ≤ s * blocks.length := Nat.mul_le_mul_right _ hts
    rw [List.getElem?_append_left (by rw [hl]; exact hlt)]
    rw [getElem?_flatMap_const _ blocks.length _ t b (fun a _ => by simp) hb]
    rw [List.getElem?_range hts]
    simp [hb]
  · rw [if_neg hts]
    have hbq : q ≤ b := by
      by_contra h
      rw [if_pos (by omega)] at ht
      omega
    rw [if_neg (by omega)] at ht
    have hts' : t = s := by omega
    subst hts'
    rw [List.getElem?_append_right (by omega), hl, Nat.add_sub_cancel_left, List.getElem?_map,
      List.getElem?_drop, show q + (b - q) = b by omega, List.getElem?_eq_getElem hb]
    rfl

end QR
