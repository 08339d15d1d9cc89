import Verif.Spec.Encoder
import Verif.Proof.SymbolFacts
import Verif.Proof.Damage
/-!
# The reference encoder is the inverse of the reader
-/
namespace QR
open _root_.Spec

theorem numBits_bitsToNat (c : List Bool) : numBits c.length (bitsToNat c) = c := by
  apply List.ext_getElem
  · simp [numBits]
  · intro k h1 h2
    simp only [numBits, List.getElem_map, List.getElem_range]
    exact bitsToNat_testBit c k h2

theorem takeBits_inv {w x : Nat} {p r : List Bool} (h : takeBits w p = some (x, r)) : p = numBits w x ++ r := by
  unfold takeBits at h
  split at h
  · rename_i hw
    simp only [Option.some.injEq, Prod.mk.injEq] at h
    obtain ⟨rfl, rfl⟩ := h
    have := numBits_bitsToNat (p.take w)
    rw [List.length_take, Nat.min_eq_left hw] at this
    rw [this, List.take_append_drop]
  · cases h

theorem readNumeric_inv (n : Nat) (p : List Bool) : ∀ t r, readNumeric n p = some (t, r) → p = writeNumeric t ++ r := by
  fun_induction readNumeric n p <;> intro t r h
  · cases h; rfl
  · simp only [Option.bind_eq_bind, Option.bind_eq_some_iff] at h
    obtain ⟨⟨x, q⟩, hx, h⟩ := h
    simp only at h
    split at h
    · cases h
      rw [takeBits_inv hx]
      simp [writeNumeric]
    · cases h
  · simp only [Option.bind_eq_bind, Option.bind_eq_some_iff] at h
    obtain ⟨⟨x, q⟩, hx, h⟩ := h
    simp only at h
    split at h
    · cases h
      rw [takeBits_inv hx]
      simp only [writeNumeric]
      congr 2
      omega
    · cases h
  · rename_i n p ih
    simp only [Option.bind_eq_bind, Option.bind_eq_some_iff] at h
    obtain ⟨⟨x, q⟩, hx, h⟩ := h
    simp only at h
    split at h
    · simp only [Option.bind_eq_some_iff] at h
      obtain ⟨⟨t', q'⟩, ht, h⟩ := h
      simp only at h
      cases h
      rw [takeBits_inv hx, ih _ _ _ ht]
      simp only [writeNumeric, List.append_assoc]
      congr 2
      omega
    · cases h

theorem alnum_nodup : alnumChars.Nodup := by decide +kernel

theorem alnumValue_get {x c : Nat} (h : alnumChars[x]? = some c) : alnumValue c = x := by
  obtain ⟨hx, rfl⟩ := List.getElem?_eq_some_iff.1 h
  unfold alnumValue
  exact List.Nodup.idxOf_getElem alnum_nodup x hx

theorem readAlnum_inv (n : Nat) (p : List Bool) : ∀ t r, readAlnum n p = some (t, r) → p = writeAlnum t ++ r := by
  fun_induction readAlnum n p <;> intro t r h
  · cases h; rfl
  · simp only [Option.bind_eq_bind, Option.bind_eq_some_iff] at h
    obtain ⟨⟨x, q⟩, hx, c, hc, h⟩ := h
    cases h
    rw [takeBits_inv hx]
    simp [writeAlnum, alnumValue_get hc]
  · rename_i n p ih
    simp only [Option.bind_eq_bind, Option.bind_eq_some_iff] at h
    obtain ⟨⟨x, q⟩, hx, a, ha, b, hb, ⟨t', q'⟩, ht, h⟩ := h
    cases h
    simp only at ha hb ht ⊢
    rw [takeBits_inv hx, ih _ _ _ ht]
    simp only [writeAlnum, List.append_assoc, alnumValue_get ha, alnumValue_get hb]
    congr 2
    omega

theorem readBytes_inv (n : Nat) (p : List Bool) : ∀ t r, readBytes n p = some (t, r) → p = writeBytes t ++ r := by
  fun_induction readBytes n p <;> intro t r h
  · cases h; rfl
  · rename_i n p ih
    simp only [Option.bind_eq_bind, Option.bind_eq_some_iff] at h
    obtain ⟨⟨x, q⟩, hx, ⟨t', q'⟩, ht, h⟩ := h
    cases h
    simp only at ht ⊢
    rw [takeBits_inv hx, ih _ _ _ ht]
    simp [writeBytes]

theorem kanjiValue_code (x : Nat) : kanjiValue (kanjiCode x) = x := by
  have key : ∀ c, c / 256 * 192 + c % 256 = x → kanjiValue (if c + 0x8140 ≤ 0x9FFC then c + 0x8140 else c + 0xC140) = x := by
    intro c hc
    unfold kanjiValue
    by_cases hs : c + 0x8140 ≤ 0x9FFC
    · rw [if_pos hs]
      simp only
      rw [if_pos hs, Nat.add_sub_cancel]
      exact hc
    · rw [if_neg hs]
      simp only
      have hn : ¬ c + 0xC140 ≤ 0x9FFC := fun h' => hs (by generalize c = c at *; omega)
      rw [if_neg hn, Nat.add_sub_cancel]
      exact hc
  have e := key (x / 192 * 256 + x % 192) (by omega)
  simp only [kanjiCode]
  exact e

/-- `un` decodes only codes that `sjis` yields. -/
def ExactInverse (sjis : Nat → Option (List UInt8)) (un : Nat → Option Nat) : Prop :=
  ∀ c r, un c = some r → ∃ hi lo, sjis r = some [hi, lo] ∧ c = hi.toNat * 256 + lo.toNat

theorem readKanji_inv {sjis : Nat → Option (List UInt8)} {un : Nat → Option Nat} (hu : ExactInverse sjis un) (n : Nat) (p : List Bool) :
    ∀ t r, readKanji un n p = some (t, r) → ∃ rs : List Nat, t = rs.flatMap utf8 ∧ p = writeKanji (sjisCode sjis) rs ++ r := by
  fun_induction readKanji un n p <;> intro t r h
  · cases h; exact ⟨[], rfl, rfl⟩
  · rename_i n p ih
    simp only [Option.bind_eq_bind, Option.bind_eq_some_iff] at h
    obtain ⟨⟨x, q⟩, hx, c, hc, ⟨t', q'⟩, ht, h⟩ := h
    cases h
    obtain ⟨rs, rfl, e⟩ := ih _ _ _ ht
    refine ⟨c :: rs, rfl, ?_⟩
    simp only at hc e ⊢
    obtain ⟨hi, lo, h1, h2⟩ := hu _ _ hc
    have hs : sjisCode sjis c = kanjiCode x := by
      unfold sjisCode; rw [h1]; exact h2.symm
    rw [takeBits_inv hx, e]
    simp [writeKanji, hs, kanjiValue_code]

/-- A reader's table that decodes only what the encoder's table yields. -/
theorem exact_table {E : Ext} {unsjis : Nat → Option Nat} (hE : E.Ok unsjis) :
    ∃ un, E.Ok un ∧ ExactInverse E.sjis un := by
  classical
  refine ⟨fun c => if ∃ r hi lo, isCJK r = true ∧ E.sjis r = some [hi, lo] ∧ c = hi.toNat * 256 + lo.toNat then unsjis c else none,
    ⟨hE.rs, ⟨hE.sjis.trail, hE.sjis.noSpace, fun r hi lo hc hs => ?_⟩, hE.ascii⟩, fun c r h => ?_⟩
  · rw [if_pos ⟨r, hi, lo, hc, hs, rfl⟩]
    exact hE.sjis.inv r hi lo hc hs
  · simp only at h
    split at h
    · rename_i hex
      obtain ⟨r', hi, lo, hc, hs, rfl⟩ := hex
      rw [hE.sjis.inv r' hi lo hc hs] at h
      cases h
      exact ⟨hi, lo, hs, rfl⟩
    · cases h

theorem payload_inv {sjis : Nat → Option (List UInt8)} {un : Nat → Option Nat} (hu : ExactInverse sjis un) {m : Mode} {n : Nat}
    {t : List Nat} {p : List Bool} (h : ∀ rest, readPayload un m n (p ++ rest) = some (t, rest)) : Payload sjis m t p := by
  have h := h []
  rw [List.append_nil] at h
  cases m with
  | numeric => have := readNumeric_inv _ _ _ _ h; rw [List.append_nil] at this; exact this
  | alnum => have := readAlnum_inv _ _ _ _ h; rw [List.append_nil] at this; exact this
  | byte => have := readBytes_inv _ _ _ _ h; rw [List.append_nil] at this; exact this
  | kanji =>
    obtain ⟨rs, h1, h2⟩ := readKanji_inv hu _ _ _ _ h
    rw [List.append_nil] at h2
    exact ⟨rs, h1, h2⟩

theorem fillUp_eq {cap : Nat} {seg bits : List Bool} (h : Filled cap seg bits) : bits = fillUp cap seg := by
  obtain ⟨hl, t, p, k, e, ht, hp, hm⟩ := h
  subst ht
  have hp' : p = (8 - (seg.length + min 4 (cap - seg.length)) % 8) % 8 := by omega
  have hk : k = (cap - (seg.length + min 4 (cap - seg.length) + p)) / 8 := by
    rw [e] at hl
    simp only [List.length_append, List.length_replicate, padPattern_length] at hl
    omega
  unfold fillUp toBoundary
  simp only [List.length_append, List.length_replicate]
  rw [← hp', ← hk, e]


theorem byteToBits_len (n : Nat) : (byteToBits n).length = 8 := by simp [byteToBits]

theorem toCodewords_bits : ∀ (n : Nat) (bs : List Bool), 8 * n ≤ bs.length → (toCodewords n bs).flatMap byteToBits = bs.take (8 * n) := by
  intro n
  induction n with
  | zero => intro bs _; simp [toCodewords]
  | succ n ih =>
    intro bs h
    rw [toCodewords, List.flatMap_cons, ih _ (by rw [List.length_drop]; omega),
      byteToBits_bitsToNat _ (by rw [List.length_take]; omega)]
    rw [show 8 * (n + 1) = 8 + 8 * n from by omega, List.take_add]

theorem toCodewords_length' : ∀ (n : Nat) (bs : List Bool), (toCodewords n bs).length = n := by
  intro n
  induction n with
  | zero => intro bs; rfl
  | succ n ih => intro bs; rw [toCodewords, List.length_cons, ih]

theorem flatMap_byte_len (l : List Nat) : (l.flatMap byteToBits).length = 8 * l.length := by
  induction l with
  | nil => rfl
  | cons a l ih => rw [List.flatMap_cons, List.length_append, ih, byteToBits_len, List.length_cons]; omega

theorem flatMap_byte_inj {a b : List Nat} (ha : ∀ x ∈ a, x < 256) (hb : ∀ x ∈ b, x < 256)
    (h : a.flatMap byteToBits = b.flatMap byteToBits) : a = b := by
  have hl : a.length = b.length := by
    have := congrArg List.length h
    rw [flatMap_byte_len, flatMap_byte_len] at this
    omega
  have e1 := toCodewords_flatMap a ha
  have e2 := toCodewords_flatMap b hb
  rw [← e1, ← e2, h, hl]

theorem cut_flatten {α : Type} : ∀ (bl : List (List α)), cut (bl.map List.length) bl.flatten = bl := by
  intro bl
  induction bl with
  | nil => rfl
  | cons b bl ih =>
    rw [List.map_cons, List.flatten_cons, cut, List.take_left, List.drop_left, ih]

theorem range_rows {α : Type} (f : Nat → α) (n : Nat) : ∀ s, ((List.range s).flatMap fun t => (List.range n).map fun b => f (t * n + b)) =
    (List.range (s * n)).map f := by
  intro s
  induction s with
  | zero => simp
  | succ s ih =>
    rw [List.range_succ, List.flatMap_append, ih, Nat.succ_mul, List.range_add, List.map_append, List.map_map]
    simp [Function.comp_def]

theorem interleave_eq (n k : Nat) (L : Nat → Nat) (g : Nat → Nat → Nat) :
    interleave n ((List.range k).map fun b => (List.range (L b)).map (g b)) =
    (List.range n).flatMap fun t => ((List.range k).filter fun b => decide (t < L b)).map fun b => g b t := by
  unfold interleave
  apply flatMap_congr'
  intro t _
  rw [List.filterMap_map]
  have e : ((fun b : List Nat => b[t]?) ∘ fun b => (List.range (L b)).map (g b)) = fun b => if t < L b then some (g b t) else none := by
    funext b
    by_cases h : t < L b
    · simp [Function.comp, h]
    · simp [Function.comp, h]
  rw [e]
  induction List.range k with
  | nil => rfl
  | cons b l ih =>
    rw [List.filterMap_cons, List.filter_cons]
    by_cases h : t < L b
    · simp only [h, decide_true, if_true, List.map_cons, ih]
    · simp only [h, decide_false, Bool.false_eq_true, if_false, ih]

theorem filter_ge (k q : Nat) (h : q ≤ k) : ((List.range k).filter fun b => decide (q ≤ b)) = (List.range (k - q)).map (q + ·) := by
  conv_lhs => rw [show k = q + (k - q) from by omega, List.range_add, List.filter_append]
  have h1 : ((List.range q).filter fun b => decide (q ≤ b)) = [] := by
    rw [List.filter_eq_nil_iff]
    intro a ha
    have := List.mem_range.1 ha
    simp; omega
  rw [h1, List.nil_append, List.filter_eq_self]
  intro a ha
  obtain ⟨x, _, rfl⟩ := List.mem_map.1 ha
  simp

theorem map_getD_range (l : List Nat) : (List.range l.length).map (fun i => l.getD i 0) = l := by
  apply List.ext_getElem
  · simp
  · intro i h1 h2
    simp [h2]

theorem getD_lt' {cw : List Nat} (h : ∀ x ∈ cw, x < 256) (i : Nat) : cw.getD i 0 < 256 := by
  rw [List.getD_eq_getElem?_getD]
  cases e : cw[i]? with
  | none => simp
  | some a => simp only [Option.getD_some]; exact h a (List.mem_of_getElem? e)

/-- The stream of a symbol is the message of the reference encoder. -/
theorem message_eq {v : Nat} (h1 : 1 ≤ v) (h40 : v ≤ 40) {lv : Level} {bits stream : List Bool} (h : IsStream rsEncode v lv bits stream) :
    stream = message v lv bits := by
  have ha := block_arith h1 h40 lv
  obtain ⟨a1, a2, a3, a4, a5, a6⟩ := ha
  generalize hcw : toCodewords (totalCodewords v) stream = cw at *
  have hcl : cw.length = totalCodewords v := by rw [← hcw, toCodewords_length']
  have hclt : ∀ x ∈ cw, x < 256 := by rw [← hcw]; exact toCodewords_lt _ _
  have hT : 8 * totalCodewords v ≤ stream.length := by rw [h.length]; unfold totalCodewords; omega
  have hdata := h.data
  have hec := h.ec
  rw [hcw] at hdata
  simp only [hcw] at hec
  -- the blocks
  have hblocks : dataBlocks v lv bits = (List.range (numBlocks v lv)).map (dataBlock v lv cw) := by
    have e1 : toCodewords (dataCodewords v lv) bits = ((List.range (numBlocks v lv)).map (dataBlock v lv cw)).flatten := by
      have hlen : (((List.range (numBlocks v lv)).map (dataBlock v lv cw)).flatten).length = dataCodewords v lv := by
        rw [List.length_flatten, List.map_map, ← a5]
        congr 1
        apply List.map_congr_left
        intro b _
        simp [dataBlock]
      have := toCodewords_flatMap ((List.range (numBlocks v lv)).map (dataBlock v lv cw)).flatten (by
        intro x hx
        obtain ⟨l, hl, hx⟩ := List.mem_flatten.1 hx
        obtain ⟨b, _, rfl⟩ := List.mem_map.1 hl
        obtain ⟨t, _, rfl⟩ := List.mem_map.1 hx
        exact getD_lt' hclt _)
      rw [hlen] at this
      rw [← this]
      congr 1
      rw [← hdata, ← List.flatMap_def, List.flatMap_assoc]
    unfold dataBlocks
    rw [e1]
    have e2 := cut_flatten ((List.range (numBlocks v lv)).map (dataBlock v lv cw))
    rw [List.map_map] at e2
    rw [← e2]
    congr 1
    · apply List.map_congr_left
      intro b _
      simp [dataBlock]
    · rw [e2]
  have hpar : ∀ b < numBlocks v lv, parityOf (ecPerBlock v lv) (dataBlock v lv cw b) = ecBlock v lv cw b := by
    intro b hb
    have e := hec b hb
    unfold rsEncode at e
    have e := (List.append_cancel_left e)
    have hbl : ∀ x ∈ dataBlock v lv cw b, x < 256 := by
      intro x hx
      obtain ⟨t, _, rfl⟩ := List.mem_map.1 hx
      exact getD_lt' hclt _
    have e3 := toCodewords_flatMap (dataBlock v lv cw b) hbl
    rw [flatMap_byte_len, Nat.mul_div_cancel_left _ (by omega), e3] at e
    symm
    apply flatMap_byte_inj
    · intro x hx
      obtain ⟨t, _, rfl⟩ := List.mem_map.1 hx
      exact getD_lt' hclt _
    · intro x hx
      obtain ⟨g, _, rfl⟩ := List.mem_map.1 hx
      exact g.lt
    · rw [e, parityOf, List.flatMap_map]
  have hd : interleave (shortLen v lv + 1) (dataBlocks v lv bits) = (List.range (dataCodewords v lv)).map fun i => cw.getD i 0 := by
    rw [hblocks]
    have := interleave_eq (shortLen v lv + 1) (numBlocks v lv) (blockLen v lv) (fun b t => cw.getD (dataIndex v lv b t) 0)
    unfold dataBlock
    rw [this, List.range_succ, List.flatMap_append, List.flatMap_singleton]
    have r1 : ((List.range (shortLen v lv)).flatMap fun t => ((List.range (numBlocks v lv)).filter fun b => decide (t < blockLen v lv b)).map
        fun b => cw.getD (dataIndex v lv b t) 0) = (List.range (shortLen v lv * numBlocks v lv)).map fun i => cw.getD i 0 := by
      rw [← range_rows]
      apply flatMap_congr'
      intro t ht
      have ht := List.mem_range.1 ht
      rw [List.filter_eq_self.2 (fun b _ => by unfold blockLen; simp only [decide_eq_true_eq]; omega)]
      apply List.map_congr_left
      intro b _
      unfold dataIndex
      rw [if_pos ht]
    have r2 : (((List.range (numBlocks v lv)).filter fun b => decide (shortLen v lv < blockLen v lv b)).map
        fun b => cw.getD (dataIndex v lv b (shortLen v lv)) 0) =
        (List.range (numBlocks v lv - numShort v lv)).map fun i => cw.getD (shortLen v lv * numBlocks v lv + i) 0 := by
      have : ((List.range (numBlocks v lv)).filter fun b => decide (shortLen v lv < blockLen v lv b)) =
          (List.range (numBlocks v lv)).filter fun b => decide (numShort v lv ≤ b) := by
        apply List.filter_congr
        intro b _
        unfold blockLen
        split <;> simp <;> omega
      rw [this, filter_ge _ _ a2, List.map_map]
      apply List.map_congr_left
      intro i _
      simp only [Function.comp, dataIndex, Nat.lt_irrefl, if_false, Nat.add_sub_cancel_left]
    rw [r1, r2]
    rw [← a3, List.range_add, List.map_append, List.map_map]
    rfl
  have he : interleave (ecPerBlock v lv) ((dataBlocks v lv bits).map (parityOf (ecPerBlock v lv))) =
      (List.range (ecPerBlock v lv * numBlocks v lv)).map fun i => cw.getD (dataCodewords v lv + i) 0 := by
    rw [hblocks, List.map_map]
    have : (List.range (numBlocks v lv)).map (parityOf (ecPerBlock v lv) ∘ dataBlock v lv cw) =
        (List.range (numBlocks v lv)).map fun b => (List.range (ecPerBlock v lv)).map fun t => cw.getD (ecIndex v lv b t) 0 := by
      apply List.map_congr_left
      intro b hb
      rw [Function.comp, hpar b (List.mem_range.1 hb)]
      rfl
    rw [this, interleave_eq (ecPerBlock v lv) (numBlocks v lv) (fun _ => ecPerBlock v lv) (fun b t => cw.getD (ecIndex v lv b t) 0),
      ← range_rows (fun i => cw.getD (dataCodewords v lv + i) 0)]
    apply flatMap_congr'
    intro t ht
    have ht := List.mem_range.1 ht
    rw [List.filter_eq_self.2 (fun b _ => by simp only [decide_eq_true_eq]; omega)]
    apply List.map_congr_left
    intro b _
    unfold ecIndex
    rw [Nat.add_assoc]
  unfold message
  simp only
  rw [hd, he]
  have hall : ((List.range (dataCodewords v lv)).map fun i => cw.getD i 0) ++
      ((List.range (ecPerBlock v lv * numBlocks v lv)).map fun i => cw.getD (dataCodewords v lv + i) 0) = cw := by
    have := map_getD_range cw
    rw [hcl, ← a4, List.range_add, List.map_append, List.map_map] at this
    exact this
  rw [hall, ← h.remainder, ← hcw, toCodewords_bits _ _ hT, List.take_append_drop]


theorem writtenAt_map (cells : List (Nat × Nat)) (f : Nat × Nat → Bool) (p : Nat × Nat) :
    writtenAt cells (cells.map f) p = if p ∈ cells then some (f p) else none := by
  unfold writtenAt
  induction cells with
  | nil => rfl
  | cons c cells ih =>
    rw [List.map_cons, List.zip_cons_cons, List.lookup_cons]
    by_cases h : p = c
    · subst h; simp
    · have : (p == c) = false := by simpa using h
      rw [this]
      simp only [ih, List.mem_cons, h, false_or]

theorem writtenAt_nil (cells : List (Nat × Nat)) (p : Nat × Nat) : writtenAt cells [] p = none := by
  unfold writtenAt; simp

/-- A symbol is that of the reference encoder. -/
theorem symbol_eq {v : Nat} {lv : Level} {k : Nat} {s : List Bool} {bm : List (List Bool)} (h : IsSymbol v lv k s bm) :
    bm = symbol v lv k s := by
  have hv := h.version
  have px : ∀ i j, i < side v → j < side v → moduleAt v lv k s i j = pixel bm i j := by
    intro i j hi hj
    unfold moduleAt
    simp only
    cases hc : patternColour v i j with
    | some c => simp [h.pattern i j c hi hj hc]
    | none =>
      have f1 := writtenAt_map formatCells1 (fun p => pixel bm p.1 p.2) (i, j)
      rw [h.format1] at f1
      have f2 := writtenAt_map (formatCells2 v) (fun p => pixel bm p.1 p.2) (i, j)
      rw [h.format2] at f2
      rw [f1, f2]
      by_cases m1 : (i, j) ∈ formatCells1
      · simp [m1]
      by_cases m2 : (i, j) ∈ formatCells2 v
      · simp [m1, m2]
      have dat : isFunction v i j = false → (writtenAt (dataModules v) s (i, j)).map (· ^^ maskBit k i j) = some (pixel bm i j) := by
        intro hf
        rw [← h.data]
        unfold readStream
        rw [writtenAt_map (dataModules v) (fun p => pixel bm p.1 p.2 ^^ maskBit k p.1 p.2), if_pos ((mem_dataModules hv.1).2 ⟨hi, hj, hf⟩)]
        simp
      by_cases h7 : 7 ≤ v
      · have f3 := writtenAt_map (versionCells1 v) (fun p => pixel bm p.1 p.2) (i, j)
        rw [h.version1 h7] at f3
        have f4 := writtenAt_map (versionCells2 v) (fun p => pixel bm p.1 p.2) (i, j)
        rw [h.version2 h7] at f4
        rw [if_pos h7, f3, f4]
        by_cases m3 : (i, j) ∈ versionCells1 v
        · simp [m1, m2, m3]
        by_cases m4 : (i, j) ∈ versionCells2 v
        · simp [m1, m2, m3, m4]
        cases hf : isFunction v i j with
        | false => simp [m1, m2, m3, m4, dat hf]
        | true =>
          rcases function_covered hv.1 hi hj hf with ⟨c, e⟩ | e | e | ⟨_, e | e⟩
          · rw [hc] at e; cases e
          · exact absurd e m1
          · exact absurd e m2
          · exact absurd e m3
          · exact absurd e m4
      · rw [if_neg h7, writtenAt_nil, writtenAt_nil]
        cases hf : isFunction v i j with
        | false => simp [m1, m2, dat hf]
        | true =>
          rcases function_covered hv.1 hi hj hf with ⟨c, e⟩ | e | e | ⟨e, _⟩
          · rw [hc] at e; cases e
          · exact absurd e m1
          · exact absurd e m2
          · exact absurd e h7
  apply List.ext_getElem
  · simp [symbol, h.rows]
  · intro i h1 h2
    have hi : i < side v := by rw [← h.rows]; exact h1
    have hr := h.cols _ (List.getElem_mem h1)
    apply List.ext_getElem
    · simp [symbol, hr]
    · intro j h3 h4
      have hj : j < side v := by rw [← hr]; exact h3
      have := px i j hi hj
      simp only [symbol, List.getElem_map, List.getElem_range]
      rw [this]
      simp [pixel, h1, h3]

end QR
