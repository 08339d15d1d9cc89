import Verif.Proof.Arrange
import Verif.Proof.Tables
/-!
# Blocks: splitting, error correction, interleaving, de-interleaving
-/
namespace QR
open Spec

theorem flatMap_congr' {α β : Type} {l : List α} {f g : α → List β} (h : ∀ a ∈ l, f a = g a) :
    l.flatMap f = l.flatMap g := by
  rw [List.flatMap_def, List.flatMap_def, List.map_congr_left h]

/-- Arithmetic of the block structure. -/
theorem block_arith {v : Nat} (h1 : 1 ≤ v) (h40 : v ≤ 40) (lv : Level) :
    0 < numBlocks v lv ∧ numShort v lv ≤ numBlocks v lv ∧
    shortLen v lv * numBlocks v lv + (numBlocks v lv - numShort v lv) = dataCodewords v lv ∧
    dataCodewords v lv + ecPerBlock v lv * numBlocks v lv = totalCodewords v ∧
    ((List.range (numBlocks v lv)).map (blockLen v lv)).sum = dataCodewords v lv ∧ 0 < shortLen v lv := by
  have h : ∀ v ∈ List.range 41, 1 ≤ v → ∀ lv ∈ Level.all, 0 < numBlocks v lv ∧ numShort v lv ≤ numBlocks v lv ∧
    shortLen v lv * numBlocks v lv + (numBlocks v lv - numShort v lv) = dataCodewords v lv ∧
    dataCodewords v lv + ecPerBlock v lv * numBlocks v lv = totalCodewords v ∧
    ((List.range (numBlocks v lv)).map (blockLen v lv)).sum = dataCodewords v lv ∧ 0 < shortLen v lv := by decide +kernel
  exact h v (List.mem_range.2 (by omega)) h1 lv (by cases lv <;> decide)

/-- The blocks cut off a stream. -/
def chunks : List (Nat × Nat) → Bits → List DataBlock
  | [], _ => []
  | (n, e) :: l, b => ⟨b.take (8 * n), n * 8, e⟩ :: chunks l (b.drop (8 * n))

theorem splitGroup_eq (bset : Bits) (total ndc ec : Nat) : ∀ (n id start : Nat), id + n ≤ total → start + n * (ndc * 8) ≤ bset.length →
    splitGroup bset total ndc ec n id start = .ok (chunks (List.replicate n (ndc, ec)) (bset.drop start)) := by
  intro n
  induction n with
  | zero => intro id start _ _; rfl
  | succ n ih =>
    intro id start hid h
    rw [Nat.succ_mul] at h
    rw [splitGroup, if_neg (by omega), subset, if_pos (by constructor <;> omega)]
    simp only
    rw [ih (id + 1) (start + ndc * 8) (by omega) (by omega)]
    simp only [Res.bind_ok, List.replicate_succ, chunks, List.drop_drop]
    rw [show start + ndc * 8 - start = 8 * ndc by omega, show start + 8 * ndc = start + ndc * 8 by omega]

theorem chunks_append (a b : List (Nat × Nat)) (bs : Bits) :
    chunks (a ++ b) bs = chunks a bs ++ chunks b (bs.drop (8 * (a.map (·.1)).sum)) := by
  induction a generalizing bs with
  | nil => simp [chunks]
  | cons x a ih =>
    obtain ⟨n, e⟩ := x
    simp only [List.cons_append, chunks, ih, List.drop_drop, List.map_cons, List.sum_cons]
    rw [show 8 * n + 8 * (a.map (·.1)).sum = 8 * (n + (a.map (·.1)).sum) by omega]

theorem sum_replicate_fst (n ndc ec : Nat) : ((List.replicate n (ndc, ec)).map (·.1)).sum = n * ndc := by
  simp

theorem splitBlocks_eq (bset : Bits) (total : Nat) : ∀ (gs : List Group) (id start : Nat), id + (blockList gs).length ≤ total →
    start + 8 * ((blockList gs).map (·.1)).sum ≤ bset.length →
    splitBlocks bset total gs id start = .ok (chunks (blockList gs) (bset.drop start)) := by
  intro gs
  induction gs with
  | nil => intro id start _ _; rfl
  | cons g gs ih =>
    intro id start hid h
    have hb : blockList (g :: gs) = List.replicate g.numBlocks (g.numDataCodewords, g.ecPerBlock) ++ blockList gs := rfl
    rw [hb] at hid h ⊢
    rw [List.length_append, List.length_replicate] at hid
    rw [List.map_append, List.sum_append, sum_replicate_fst] at h
    have e : g.numBlocks * (g.numDataCodewords * 8) = 8 * (g.numBlocks * g.numDataCodewords) := by ring
    rw [splitBlocks, splitGroup_eq _ _ _ _ _ _ _ (by omega) (by rw [e]; omega), Res.bind_ok, ih _ _ (by omega) (by rw [e]; omega), Res.bind_ok,
      chunks_append, sum_replicate_fst, List.drop_drop, e]

/-- The slices are as long as the number of blocks. -/
theorem totalNumBlocks_eq (V : Version) : V.totalNumBlocks = (blockList V.groups).length := by
  have h : ∀ (gs : List Group) (t : Nat), gs.foldl (fun t g => t + g.numBlocks) t = t + (blockList gs).length := by
    intro gs
    induction gs with
    | nil => intro t; rfl
    | cons g gs ih =>
      intro t
      have hb : blockList (g :: gs) = List.replicate g.numBlocks (g.numDataCodewords, g.ecPerBlock) ++ blockList gs := rfl
      rw [List.foldl_cons, ih, hb, List.length_append, List.length_replicate]
      omega
  have := h V.groups 0
  unfold Version.totalNumBlocks
  omega

theorem madeSlice_full {α : Type} {total : Nat} {l : List α} (h : l.length = total) : madeSlice total l = l.map some := by
  unfold madeSlice
  rw [h, Nat.sub_self, List.replicate_zero, List.append_nil]

theorem derefAll_map {α : Type} (l : List α) : derefAll (l.map some) = .ok l := by
  induction l with
  | nil => rfl
  | cons a l ih => rw [List.map_cons, derefAll, ih]; rfl

theorem arrangeBits_map (l : List Bits) : arrangeBits (l.map some) = arrange l := by
  unfold arrangeBits; rw [derefAll_map]; rfl

theorem map_data (l : List DataBlock) : (l.map some).map (Option.map (·.data)) = (l.map DataBlock.data).map some := by
  rw [List.map_map, List.map_map]; rfl

theorem chunks_length (l : List (Nat × Nat)) (b : Bits) : (chunks l b).length = l.length := by
  induction l generalizing b with
  | nil => rfl
  | cons x l ih => obtain ⟨n, e⟩ := x; simp [chunks, ih]

theorem chunks_flatten (l : List (Nat × Nat)) (b : Bits) :
    ((chunks l b).map DataBlock.data).flatten = b.take (8 * (l.map (·.1)).sum) := by
  induction l generalizing b with
  | nil => simp [chunks]
  | cons x l ih =>
    obtain ⟨n, e⟩ := x
    simp only [chunks, List.map_cons, List.flatten_cons, ih, List.sum_cons]
    rw [show 8 * (n + (l.map (·.1)).sum) = 8 * n + 8 * (l.map (·.1)).sum by omega, List.take_add]

theorem chunks_get (l : List (Nat × Nat)) (b : Bits) (i : Nat) (hi : i < (chunks l b).length)
    (hb : 8 * (l.map (·.1)).sum ≤ b.length) :
    ((chunks l b)[i]).data.length = 8 * (l[i]'(by rw [chunks_length] at hi; exact hi)).1 ∧
    ((chunks l b)[i]).startOffset = 8 * (l[i]'(by rw [chunks_length] at hi; exact hi)).1 ∧
    ((chunks l b)[i]).numEC = (l[i]'(by rw [chunks_length] at hi; exact hi)).2 := by
  induction l generalizing b i with
  | nil => simp [chunks] at hi
  | cons x l ih =>
    obtain ⟨n, e⟩ := x
    simp only [List.map_cons, List.sum_cons] at hb
    cases i with
    | zero =>
      simp only [chunks, List.getElem_cons_zero, List.length_take]
      exact ⟨by omega, by omega, trivial⟩
    | succ i =>
      simp only [chunks, List.getElem_cons_succ]
      exact ih (b.drop (8 * n)) i _ (by rw [List.length_drop]; omega)

/-! ## The coder -/

/-- What the code relies on from `reedsolomon.Encode`: the data bits followed by `8 n` parity bits. -/
def Ext.Systematic (E : Ext) : Prop :=
  ∀ d n, d.length % 8 = 0 → ∃ p, E.rs d n = d ++ p ∧ p.length = 8 * n

/-- The parity bits of a block. -/
def parity (E : Ext) (b : DataBlock) : Bits := (E.rs b.data b.numEC).drop b.data.length

theorem parity_length {E : Ext} (hE : E.Systematic) {b : DataBlock} (h : b.data.length % 8 = 0) :
    (parity E b).length = 8 * b.numEC := by
  obtain ⟨p, hp, hl⟩ := hE b.data b.numEC h
  unfold parity
  rw [hp, List.drop_left, hl]

theorem rs_eq {E : Ext} (hE : E.Systematic) {b : DataBlock} (h : b.data.length % 8 = 0) :
    E.rs b.data b.numEC = b.data ++ parity E b := by
  obtain ⟨p, hp, hl⟩ := hE b.data b.numEC h
  unfold parity
  rw [hp, List.drop_left]

theorem ecLoop_eq {E : Ext} (hE : E.Systematic) (total : Nat) : ∀ (bs : List DataBlock) (idx : Nat), idx + bs.length ≤ total →
    (∀ b ∈ bs, b.data.length % 8 = 0 ∧ b.startOffset = b.data.length) →
    ecLoop E total idx (bs.map some) = .ok (bs.map (parity E)) := by
  intro bs
  induction bs with
  | nil => intro idx _ _; rfl
  | cons b bs ih =>
    intro idx hid h
    rw [List.length_cons] at hid
    obtain ⟨h1, h2⟩ := h b (by simp)
    have := rs_eq hE h1
    have hl : (E.rs b.data b.numEC).length = b.data.length + (parity E b).length := by rw [this, List.length_append]
    rw [List.map_cons, ecLoop]
    simp only [subset, h2]
    rw [if_neg (by omega), if_pos (by omega)]
    simp only [ih (idx + 1) (by omega) (fun c hc => h c (by simp [hc])), Res.bind_ok, List.map_cons]
    rw [List.take_of_length_le (by rw [List.length_drop])]
    rfl

theorem ecEncoding_eq {E : Ext} (hE : E.Systematic) (V : Version) (bs : List DataBlock) (hn : bs.length = V.totalNumBlocks)
    (h : ∀ b ∈ bs, b.data.length % 8 = 0 ∧ b.startOffset = b.data.length) :
    errorCorrectionEncoding E V (bs.map some) = .ok ((bs.map (parity E)).map some) := by
  unfold errorCorrectionEncoding
  rw [ecLoop_eq hE _ bs 0 (by omega) h, Res.bind_ok, madeSlice_full (by rw [List.length_map, hn])]

/-! ## The final stream -/

/-- Data blocks and parity blocks of an encoded stream. -/
def dataBlks (v : Nat) (lv : Level) (bs : Bits) : List DataBlock :=
  chunks ((List.range (numBlocks v lv)).map fun b => (blockLen v lv b, ecPerBlock v lv)) bs

theorem dataBlks_length (v : Nat) (lv : Level) (bs : Bits) : (dataBlks v lv bs).length = numBlocks v lv := by
  simp [dataBlks, chunks_length]

theorem dataBlks_sum {v : Nat} (h1 : 1 ≤ v) (h40 : v ≤ 40) (lv : Level) :
    (((List.range (numBlocks v lv)).map fun b => (blockLen v lv b, ecPerBlock v lv)).map (·.1)).sum = dataCodewords v lv := by
  have := (block_arith h1 h40 lv).2.2.2.2.1
  rw [List.map_map]; exact this

theorem dataBlks_get {v : Nat} (h1 : 1 ≤ v) (h40 : v ≤ 40) (lv : Level) {bs : Bits}
    (hbs : bs.length = 8 * dataCodewords v lv) (i : Nat) (hi : i < (dataBlks v lv bs).length) :
    ((dataBlks v lv bs)[i]).data.length = 8 * blockLen v lv i ∧
    ((dataBlks v lv bs)[i]).startOffset = 8 * blockLen v lv i ∧
    ((dataBlks v lv bs)[i]).numEC = ecPerBlock v lv := by
  have := chunks_get ((List.range (numBlocks v lv)).map fun b => (blockLen v lv b, ecPerBlock v lv)) bs i hi
    (by rw [dataBlks_sum h1 h40, hbs])
  simp only [List.getElem_map, List.getElem_range] at this
  exact this

theorem dataBlks_flatten {v : Nat} (h1 : 1 ≤ v) (h40 : v ≤ 40) (lv : Level) {bs : Bits}
    (hbs : bs.length = 8 * dataCodewords v lv) : ((dataBlks v lv bs).map DataBlock.data).flatten = bs := by
  unfold dataBlks
  rw [chunks_flatten, dataBlks_sum h1 h40, List.take_of_length_le (by omega)]

/-- The interleaved codewords (as bytes of bits) of an encoded stream: data then error correction. -/
def dataCW (v : Nat) (lv : Level) (bs : Bits) : List Bits :=
  interleaved ((dataBlks v lv bs).map DataBlock.data) (shortLen v lv) (numShort v lv)
def ecCW (E : Ext) (v : Nat) (lv : Level) (bs : Bits) : List Bits :=
  interleaved ((dataBlks v lv bs).map (parity E)) (ecPerBlock v lv) (numBlocks v lv)

section
variable {E : Ext} (hE : E.Systematic) {v : Nat} (h1 : 1 ≤ v) (h40 : v ≤ 40) (lv : Level) {bs : Bits}
  (hbs : bs.length = 8 * dataCodewords v lv)
include h1 h40 hbs

theorem dblk_len : ∀ b (h : b < ((dataBlks v lv bs).map DataBlock.data).length),
    (((dataBlks v lv bs).map DataBlock.data)[b]).length = 8 * (shortLen v lv + if b < numShort v lv then 0 else 1) := by
  intro b h
  rw [List.getElem_map]
  exact (dataBlks_get h1 h40 lv hbs b (by simpa using h)).1

include hE in
theorem eblk_len : ∀ b (h : b < ((dataBlks v lv bs).map (parity E)).length),
    (((dataBlks v lv bs).map (parity E))[b]).length = 8 * (ecPerBlock v lv + if b < numBlocks v lv then 0 else 1) := by
  intro b h
  have h' : b < (dataBlks v lv bs).length := by simpa using h
  obtain ⟨a1, a2, a3⟩ := dataBlks_get h1 h40 lv hbs b h'
  rw [List.getElem_map, parity_length hE (by rw [a1]; omega), a3, if_pos (by rw [dataBlks_length] at h'; exact h')]
  omega

theorem arrange_data : arrange ((dataBlks v lv bs).map DataBlock.data) = .ok (dataCW v lv bs).flatten := by
  have ha := block_arith h1 h40 lv
  have hl : ((dataBlks v lv bs).map DataBlock.data).length = numBlocks v lv := by rw [List.length_map, dataBlks_length]
  rw [arrange_eq _ (shortLen v lv) (numShort v lv) (by rw [hl]; exact ha.2.1) (by rw [hl]; exact ha.1)
    (dblk_len h1 h40 lv hbs)]
  rw [dataCW, flatten_interleaved _ _ _ (by rw [hl]; exact ha.2.1) (dblk_len h1 h40 lv hbs)]

include hE in
theorem arrange_ec : arrange ((dataBlks v lv bs).map (parity E)) = .ok (ecCW E v lv bs).flatten := by
  have ha := block_arith h1 h40 lv
  have hl : ((dataBlks v lv bs).map (parity E)).length = numBlocks v lv := by rw [List.length_map, dataBlks_length]
  rw [arrange_eq _ (ecPerBlock v lv) (numBlocks v lv) (by rw [hl]) (by rw [hl]; exact ha.1)
    (eblk_len hE h1 h40 lv hbs)]
  rw [ecCW, flatten_interleaved _ _ _ (by rw [hl]) (eblk_len hE h1 h40 lv hbs)]

omit hbs in
theorem dataCW_length : (dataCW v lv bs).length = dataCodewords v lv := by
  have ha := block_arith h1 h40 lv
  rw [dataCW, interleaved_length, List.length_map, dataBlks_length]
  exact ha.2.2.1

omit h1 h40 hbs in
theorem ecCW_length : (ecCW E v lv bs).length = ecPerBlock v lv * numBlocks v lv := by
  rw [ecCW, interleaved_length, List.length_map, dataBlks_length]; omega

theorem dataCW_len8 : ∀ c ∈ dataCW v lv bs, c.length = 8 := interleaved_len8 _ _ _ (dblk_len h1 h40 lv hbs)
include hE in
theorem ecCW_len8 : ∀ c ∈ ecCW E v lv bs, c.length = 8 := interleaved_len8 _ _ _ (eblk_len hE h1 h40 lv hbs)

omit h1 h40 hbs in
theorem flatten_len8 {A : List Bits} (h : ∀ c ∈ A, c.length = 8) : A.flatten.length = 8 * A.length := by
  induction A with
  | nil => rfl
  | cons a A ih =>
    rw [List.flatten_cons, List.length_append, h a (by simp), ih (fun c hc => h c (by simp [hc])), List.length_cons]
    omega

/-- The stream placed into the symbol. -/
def finalStream (E : Ext) (v : Nat) (lv : Level) (bs : Bits) : Bits :=
  (dataCW v lv bs).flatten ++ (ecCW E v lv bs).flatten ++ zeroBits (rawModules v % 8)

include hE in
theorem finalStream_length : (finalStream E v lv bs).length = rawModules v := by
  have ha := block_arith h1 h40 lv
  have e1 := flatten_len8 (dataCW_len8 h1 h40 lv hbs)
  have e2 := flatten_len8 (ecCW_len8 hE h1 h40 lv hbs)
  have e3 := dataCW_length h1 h40 lv (bs := bs)
  have e4 : (ecCW E v lv bs).length = _ := ecCW_length lv
  have e5 := ha.2.2.2.1
  unfold totalCodewords at e5
  unfold finalStream zeroBits
  rw [List.length_append, List.length_append, List.length_replicate, e1, e2, e3, e4]
  omega

include hE in
/-- The codewords a reader sees. -/
theorem codewords_eq : toCodewords (totalCodewords v) (finalStream E v lv bs) =
    (dataCW v lv bs).map bitsToNat ++ (ecCW E v lv bs).map bitsToNat := by
  have ha := block_arith h1 h40 lv
  have e5 := ha.2.2.2.1
  have e3 := dataCW_length h1 h40 lv (bs := bs)
  have e4 : (ecCW E v lv bs).length = _ := ecCW_length lv
  unfold finalStream
  rw [List.append_assoc, ← e5, ← e3, ← e4,
    toCodewords_flatten _ (dataCW_len8 h1 h40 lv hbs)]
  have := toCodewords_flatten _ (ecCW_len8 hE h1 h40 lv hbs) 0 (zeroBits (rawModules v % 8))
  rw [Nat.add_zero] at this
  rw [this]
  simp [toCodewords]

omit h1 h40 hbs in
theorem map_getD {A B : List Bits} {i : Nat} {c : Bits} (h : A[i]? = some c) :
    (A.map bitsToNat ++ B.map bitsToNat).getD i 0 = bitsToNat c := by
  rw [List.getD_eq_getElem?_getD, List.getElem?_append_left, List.getElem?_map, h]
  · rfl
  · rw [List.length_map]
    by_contra hc
    rw [List.getElem?_eq_none (by omega)] at h
    simp at h

include hE in
/-- De-interleaving recovers each data block. -/
theorem deinterleave_block (b : Nat) (hb : b < numBlocks v lv) :
    ((List.range (blockLen v lv b)).map fun t =>
      (toCodewords (totalCodewords v) (finalStream E v lv bs)).getD (dataIndex v lv b t) 0).flatMap byteToBits =
    ((dataBlks v lv bs)[b]'(by rw [dataBlks_length]; exact hb)).data := by
  have hb' : b < ((dataBlks v lv bs).map DataBlock.data).length := by rw [List.length_map, dataBlks_length]; exact hb
  have hl := dblk_len h1 h40 lv hbs b hb'
  have hl2 : ((dataBlks v lv bs).map DataBlock.data).length = numBlocks v lv := by rw [List.length_map, dataBlks_length]
  rw [codewords_eq hE h1 h40 lv hbs, List.flatMap_map]
  have step : ∀ t ∈ List.range (blockLen v lv b), byteToBits (((dataCW v lv bs).map bitsToNat ++
      (ecCW E v lv bs).map bitsToNat).getD (dataIndex v lv b t) 0) =
      byteAt t (((dataBlks v lv bs).map DataBlock.data)[b]) := by
    intro t ht
    have ht' := List.mem_range.1 ht
    have := interleaved_get ((dataBlks v lv bs).map DataBlock.data) (shortLen v lv) (numShort v lv) b t hb' ht'
    rw [hl2] at this
    have hh := map_getD (A := dataCW v lv bs) (B := ecCW E v lv bs) (i := dataIndex v lv b t)
      (c := byteAt t (((dataBlks v lv bs).map DataBlock.data)[b])) this
    rw [hh]
    exact byteToBits_bitsToNat _ (byteAt_length hl ht')
  rw [flatMap_congr' step, bytes_join (blockLen v lv b) _ hl, List.getElem_map]

omit h1 h40 hbs in
theorem map_getD_right {A B : List Bits} {i : Nat} {c : Bits} (h : B[i]? = some c) :
    (A.map bitsToNat ++ B.map bitsToNat).getD (A.length + i) 0 = bitsToNat c := by
  rw [List.getD_eq_getElem?_getD, List.getElem?_append_right (by rw [List.length_map]; omega), List.length_map,
    Nat.add_sub_cancel_left, List.getElem?_map, h]
  rfl

include hE in
/-- The error correction codewords of each block are the parity computed from that block. -/
theorem ecBlock_eq (b : Nat) (hb : b < numBlocks v lv) :
    (ecBlock v lv (toCodewords (totalCodewords v) (finalStream E v lv bs)) b).flatMap byteToBits =
    parity E ((dataBlks v lv bs)[b]'(by rw [dataBlks_length]; exact hb)) := by
  have hb' : b < ((dataBlks v lv bs).map (parity E)).length := by rw [List.length_map, dataBlks_length]; exact hb
  have hl := eblk_len hE h1 h40 lv hbs b hb'
  have hl2 : ((dataBlks v lv bs).map (parity E)).length = numBlocks v lv := by rw [List.length_map, dataBlks_length]
  rw [if_pos hb, Nat.add_zero] at hl
  unfold ecBlock
  rw [codewords_eq hE h1 h40 lv hbs, List.flatMap_map]
  have step : ∀ t ∈ List.range (ecPerBlock v lv), byteToBits (((dataCW v lv bs).map bitsToNat ++
      (ecCW E v lv bs).map bitsToNat).getD (ecIndex v lv b t) 0) =
      byteAt t (((dataBlks v lv bs).map (parity E))[b]) := by
    intro t ht
    have ht' := List.mem_range.1 ht
    have := interleaved_get ((dataBlks v lv bs).map (parity E)) (ecPerBlock v lv) (numBlocks v lv) b t hb' (by omega)
    rw [hl2, if_pos ht'] at this
    unfold ecIndex
    have hh := map_getD_right (A := dataCW v lv bs) (B := ecCW E v lv bs)
      (c := byteAt t (((dataBlks v lv bs).map (parity E))[b])) this
    rw [← dataCW_length h1 h40 lv (bs := bs), Nat.add_assoc, hh]
    exact byteToBits_bitsToNat _ (byteAt_length hl ht')
  rw [flatMap_congr' step, bytes_join _ _ hl, List.getElem_map]

include hE in
/-- De-interleaving recovers the encoded stream. -/
theorem deinterleave_eq : (deinterleave v lv (toCodewords (totalCodewords v) (finalStream E v lv bs))).flatMap
    byteToBits = bs := by
  unfold deinterleave
  rw [List.flatMap_assoc]
  refine Eq.trans ?_ (dataBlks_flatten h1 h40 lv hbs)
  rw [List.flatMap_def]
  congr 1
  apply List.ext_getElem
  · simp [dataBlks_length]
  · intro b hb1 hb2
    have hb : b < numBlocks v lv := by simpa using hb1
    simp only [List.getElem_map, List.getElem_range]
    exact deinterleave_block hE h1 h40 lv hbs b hb

end
end QR
