import Verif.Proof.VersionInfo
/-!
# The finished symbol
-/
namespace QR
open Matrix Spec

/-- What the standard says about a finished symbol of version `v` with mask `k`, format word bits `fw`,
version word bits `vw` and data stream `bits`. -/
structure Symbol (v k : Nat) (fw vw bits : Bits) (M : Matrix) : Prop where
  sq : M.Sq (side v)
  pattern : ∀ i j c, i < side v → j < side v → patternColour v i j = some c → (M.at' (j : Int) (i : Int)).bit = c
  fmt1 : (formatCells1.map fun p => (M.at' (p.2 : Int) (p.1 : Int)).bit) = fw
  fmt2 : ((formatCells2 v).map fun p => (M.at' (p.2 : Int) (p.1 : Int)).bit) = fw
  ver1 : 7 ≤ v → ((versionCells1 v).map fun p => (M.at' (p.2 : Int) (p.1 : Int)).bit) = vw
  ver2 : 7 ≤ v → ((versionCells2 v).map fun p => (M.at' (p.2 : Int) (p.1 : Int)).bit) = vw
  data : ((dataModules v).map fun p => (M.at' (p.2 : Int) (p.1 : Int)).bit ^^ maskBit k p.1 p.2) = bits
  dataTy : ∀ i j, (i, j) ∈ dataModules v → (M.at' (j : Int) (i : Int)).ty = .data
  noInit : ∀ i j, i < side v → j < side v → (M.at' (j : Int) (i : Int)).ty ≠ .init

theorem side_eq (v : Nat) : v * 4 + 17 = side v := by unfold side; omega

theorem zigzag_complete {v i j : Nat} (hi : i < side v) (hj : j < side v) (h6 : j ≠ 6) :
    (i, j) ∈ zigzag v := by
  have hl := rightColumns_length v
  have hn : side v = 17 + 4 * v := rfl
  -- the index of the column pair
  obtain ⟨k, hk, hc⟩ : ∃ k, ∃ hk : k < (rightColumns v).length,
      j = (rightColumns v)[k] ∨ j = (rightColumns v)[k] - 1 := by
    by_cases h : 7 ≤ j
    · refine ⟨(side v - 1 - j) / 2, by omega, ?_⟩
      rw [rightColumns_get, if_pos (by omega)]
      omega
    · refine ⟨2 * v + 5 + (5 - j) / 2, by omega, ?_⟩
      rw [rightColumns_get, if_neg (by omega)]
      omega
  unfold zigzag
  rw [List.mem_flatMap]
  refine ⟨((rightColumns v)[k], k), ?_, ?_⟩
  · rw [List.mem_iff_getElem]
    exact ⟨k, by simpa using hk, by simp⟩
  · simp only [List.mem_flatMap]
    refine ⟨i, ?_, ?_⟩
    · split
      · simpa using hi
      · simpa using hi
    · simp only [List.mem_cons, Prod.mk.injEq, true_and, List.not_mem_nil, or_false]
      exact hc

theorem mem_dataModules {v i j : Nat} (hv : 1 ≤ v) :
    (i, j) ∈ dataModules v ↔ i < side v ∧ j < side v ∧ isFunction v i j = false := by
  unfold dataModules
  rw [List.mem_filter]
  constructor
  · rintro ⟨h1, h2⟩
    have := mem_zigzag hv i j h1
    exact ⟨this.1, this.2, by simpa using h2⟩
  · rintro ⟨h1, h2, h3⟩
    refine ⟨zigzag_complete h1 h2 ?_, by simp [h3]⟩
    rintro rfl
    simp [isFunction] at h3

/-- The matrix with the function patterns. -/
def prefilled (v : Nat) : Matrix := prefill (newMatrix (side v) (side v)) v (alignLocs v)

theorem prefilled_sq {v : Nat} (h1 : 1 ≤ v) : (prefilled v).Sq (side v) := prefill_sq (sq_new _) _ _ h1

theorem at_prefilled {v i j : Nat} (h1 : 1 ≤ v) (hi : i < side v) (hj : j < side v) :
    (prefilled v).at' j i = prefillV v (alignLocs v) j i := by
  have := at_prefill v (alignLocs v) (j : Int) (i : Int) (by rw [side_eq]; omega) h1
  rwa [side_eq] at this

theorem free_prefilled {v i j : Nat} (h1 : 1 ≤ v) (h40 : v ≤ 40) (hi : i < side v) (hj : j < side v) :
    free (prefilled v) (xy (i, j)) = !isFunction v i j := by
  unfold free xy
  simp only
  rw [at_prefilled h1 hi hj]
  have := prefillV_init h1 h40 hi hj
  cases hf : isFunction v i j with
  | false => rw [this.1 hf]; rfl
  | true => simp [this.2 hf]

theorem filter_free {v : Nat} (h1 : 1 ≤ v) (h40 : v ≤ 40) :
    ((zigzag v).map xy).filter (free (prefilled v)) = (dataModules v).map xy := by
  rw [List.filter_map]
  unfold dataModules
  congr 1
  apply List.filter_congr
  rintro ⟨i, j⟩ hp
  have := mem_zigzag h1 i j hp
  exact free_prefilled h1 h40 this.1 this.2

theorem fill_ok {v : Nat} (h1 : 1 ≤ v) (h40 : v ≤ 40) (bits : Bits) (hb : bits.length = rawModules v) :
    ∃ F, fillDataBinary (prefilled v) (side v) bits = some F ∧ F.Sq (side v) ∧
      ((dataModules v).map fun p => F.at' (p.2 : Int) (p.1 : Int)) = bits.map dataV ∧
      ∀ i j : Nat, i < side v → j < side v → isFunction v i j = true → F.at' j i = (prefilled v).at' j i := by
  have s := prefilled_sq h1
  have hin : ∀ p ∈ (zigzag v).map xy, In (side v) p.1 p.2 := by
    intro p hp
    obtain ⟨⟨i, j⟩, hq, rfl⟩ := List.mem_map.1 hp
    have := mem_zigzag h1 i j hq
    simp only [xy]
    omega
  have hnd : ((zigzag v).map xy).Nodup := (zigzag_nodup h1).map xy_injective
  have hff := filter_free h1 h40
  have hlen : (((zigzag v).map xy).filter (free (prefilled v))).length = bits.length := by
    rw [hff, List.length_map, dataModules_length h1 h40, hb]
  refine ⟨place (prefilled v) ((zigzag v).map xy) bits, ?_, place_sq s _ _, ?_, ?_⟩
  · unfold fillDataBinary
    have hvis := vis_zigzag h1
    have := fillLoop_place (d := side v) (2 * side v * (rightColumns v).length) (prefilled v) s bits
      ((side v : Int) - 1) ((side v : Int) - 1) true 0 (side v * side v + 1)
    rw [hvis] at this
    apply this hnd hin
    · rw [List.countP_eq_length_filter, hlen]
    · rw [rightColumns_length]
      have : side v = 2 * v + 8 + (2 * v + 8) + 1 := by unfold side; omega
      calc 2 * side v * (2 * v + 8) = side v * (2 * v + 8 + (2 * v + 8)) := by ring
        _ ≤ side v * side v := Nat.mul_le_mul_left _ (by omega)
        _ ≤ _ := by omega
  · have := place_read s ((zigzag v).map xy) bits hnd hin hlen.symm
    rw [hff, List.map_map] at this
    rw [← this]
    rfl
  · intro i j hi hj hf
    have := at_place_other s ((zigzag v).map xy) bits (xy (i, j)) (by
      rw [free_prefilled h1 h40 hi hj, hf]; simp)
    exact this

theorem formatCells1_area {v i j : Nat} (h1 : 1 ≤ v) (h : (i, j) ∈ formatCells1) :
    i < side v ∧ j < side v ∧ (inFormatArea v i j = true ∧ isDarkModule v i j = false ∧ i ≠ 6 ∧ j ≠ 6) := by
  have hn : side v = 17 + 4 * v := rfl
  have e : isDarkModule v i j = false ↔ ¬ (isDarkModule v i j = true) := by simp
  rw [e, isDarkModule_iff, inFormatArea_iff, hn]
  simp only [formatCells1, List.mem_cons, Prod.mk.injEq, List.not_mem_nil, or_false] at h
  omega

theorem formatCells2_area {v i j : Nat} (h1 : 1 ≤ v) (h : (i, j) ∈ formatCells2 v) :
    i < side v ∧ j < side v ∧ (inFormatArea v i j = true ∧ isDarkModule v i j = false ∧ i ≠ 6 ∧ j ≠ 6) := by
  have hn : side v = 17 + 4 * v := rfl
  have e : isDarkModule v i j = false ↔ ¬ (isDarkModule v i j = true) := by simp
  rw [e, isDarkModule_iff, inFormatArea_iff, hn]
  simp only [formatCells2, List.mem_cons, Prod.mk.injEq, List.not_mem_nil, or_false, hn] at h
  omega

theorem versionCells1_area {v i j : Nat} (h7 : 7 ≤ v) (h : (i, j) ∈ versionCells1 v) :
    i < side v ∧ j < side v ∧ inVersionArea v i j = true := by
  have hn : side v = 17 + 4 * v := rfl
  simp only [versionCells1, List.mem_map, List.mem_range, Prod.mk.injEq] at h
  obtain ⟨t, ht, rfl, rfl⟩ := h
  rw [inVersionArea_iff]
  omega

theorem versionCells2_area {v i j : Nat} (h7 : 7 ≤ v) (h : (i, j) ∈ versionCells2 v) :
    i < side v ∧ j < side v ∧ inVersionArea v i j = true := by
  have hn : side v = 17 + 4 * v := rfl
  simp only [versionCells2, List.mem_map, List.mem_range, Prod.mk.injEq] at h
  obtain ⟨t, ht, rfl, rfl⟩ := h
  rw [inVersionArea_iff]
  omega

theorem map_bit_fmt (bits : Bits) : (bits.map fmtV).map (·.bit) = bits := by
  rw [List.map_map]
  conv_rhs => rw [← List.map_id bits]
  apply List.map_congr_left
  intro b _; cases b <;> rfl

theorem map_bit_ver (bits : Bits) : (bits.map verV).map (·.bit) = bits := by
  rw [List.map_map]
  conv_rhs => rw [← List.map_id bits]
  apply List.map_congr_left
  intro b _; cases b <;> rfl

theorem fmtV_ty (b : Bool) : (fmtV b).ty = .format := by cases b <;> rfl
theorem verV_ty (b : Bool) : (verV b).ty = .version := by cases b <;> rfl
theorem dataV_ty (b : Bool) : (dataV b).ty = .data := by cases b <;> rfl
theorem dataV_bit (b : Bool) : (dataV b).bit = b := by cases b <;> rfl

/-- The matrix of a mask worker. -/
def workerMat (v : Nat) (F mask : Matrix) (fw vw : Bits) : Matrix :=
  let m := fillFormatInfo (xorMask F mask) fw (side v)
  if v ≥ 7 then fillVersionInfo m vw (side v) else m

theorem worker_symbol {v k : Nat} (h1 : 1 ≤ v) (h40 : v ≤ 40) (hk : k < 8) (fw vw bits : Bits)
    (hfw : fw.length = 15) (hvw : vw.length = 18) (F mask : Matrix) (sF : F.Sq (side v))
    (hdata : ((dataModules v).map fun p => F.at' (p.2 : Int) (p.1 : Int)) = bits.map dataV)
    (hfun : ∀ i j : Nat, i < side v → j < side v → isFunction v i j = true → F.at' j i = (prefilled v).at' j i)
    (hmask : newMask (prefilled v) k = .ok mask) :
    Symbol v k fw vw bits (workerMat v F mask fw vw) := by
  obtain ⟨f, hf, hfm⟩ := getModulo_eq hk
  obtain ⟨smask, hmaskv⟩ := at_newMask (prefilled_sq h1) f hf hmask
  obtain ⟨sx, hx⟩ := at_xorMask sF smask
  obtain ⟨sfm, ff1, ff2, ff3⟩ := fillFormat_spec h1 sx fw hfw
  have hn : side v = 17 + 4 * v := rfl
  -- cells of the xored matrix
  have xfun : ∀ i j : Nat, i < side v → j < side v → isFunction v i j = true →
      (xorMask F mask).at' j i = (prefilled v).at' j i := by
    intro i j hi hj hfn
    have hmv : mask.at' (j : Int) (i : Int) = INIT_V0 := by
      rw [hmaskv j i hj hi, maskV, if_neg]
      rw [at_prefilled h1 hi hj]
      exact (prefillV_init h1 h40 hi hj).2 hfn
    rw [hx j i hj hi, xorV, hmv, if_pos (show INIT_V0.ty = .init from rfl), hfun i j hi hj hfn]
  have xdata : ∀ i j : Nat, (i, j) ∈ dataModules v → ∀ b, F.at' j i = dataV b →
      (xorMask F mask).at' j i = dataV (b ^^ maskBit k i j) := by
    intro i j hij b hb
    obtain ⟨hi, hj, hfn⟩ := (mem_dataModules h1).1 hij
    have hty : ((prefilled v).at' (j : Int) (i : Int)).ty = .init := by
      rw [at_prefilled h1 hi hj, (prefillV_init h1 h40 hi hj).1 hfn]; rfl
    have hmv : mask.at' (j : Int) (i : Int) = dataV (maskBit k i j) := by
      rw [hmaskv j i hj hi, maskV, if_pos hty]
      simp only [hfm]
    rw [hx j i hj hi, xorV, hmv, hb, if_neg, dataV_xor]
    rw [dataV_ty]; decide
  -- cells outside the format and version areas are those of the xored matrix
  have other : ∀ i j : Nat, (i, j) ∉ formatCells1 → (i, j) ∉ formatCells2 v →
      (7 ≤ v → (i, j) ∉ versionCells1 v ∧ (i, j) ∉ versionCells2 v) →
      (workerMat v F mask fw vw).at' j i = (xorMask F mask).at' j i := by
    intro i j h2 h3 h4
    unfold workerMat
    by_cases h7 : v ≥ 7
    · simp only [h7, if_true]
      rw [(fillVersion_spec h7 sfm vw hvw).2.2.2 i j (h4 h7).1 (h4 h7).2, ff3 i j h2 h3]
    · simp only [h7, if_false]
      exact ff3 i j h2 h3
  have nf : ∀ i j, isFunction v i j = false → (i, j) ∉ formatCells1 ∧ (i, j) ∉ formatCells2 v ∧
      (7 ≤ v → (i, j) ∉ versionCells1 v ∧ (i, j) ∉ versionCells2 v) := by
    intro i j hfn
    have key : ∀ {P : Prop}, (P → inFormatArea v i j = true ∨ inVersionArea v i j = true) → ¬ P := by
      intro P hP hp
      have : isFunction v i j = true := by
        rw [isFunction_iff]
        rcases hP hp with h | h
        · exact Or.inr (Or.inl h)
        · exact Or.inr (Or.inr (Or.inr (Or.inr (Or.inl h))))
      rw [hfn] at this; exact absurd this (by decide)
    refine ⟨key fun h => Or.inl (formatCells1_area h1 h).2.2.1, key fun h => Or.inl (formatCells2_area h1 h).2.2.1,
      fun h7 => ⟨key fun h => Or.inr (versionCells1_area h7 h).2.2, key fun h => Or.inr (versionCells2_area h7 h).2.2⟩⟩
  have fmtNotVer : ∀ i j, inFormatArea v i j = true → i ≠ 6 → j ≠ 6 → 7 ≤ v → (i, j) ∉ versionCells1 v ∧ (i, j) ∉ versionCells2 v := by
    intro i j h2 _ _ h7
    have : ¬ inVersionArea v i j = true := by
      rw [inFormatArea_iff] at h2
      rw [inVersionArea_iff]; omega
    exact ⟨fun h => this (versionCells1_area h7 h).2.2, fun h => this (versionCells2_area h7 h).2.2⟩
  -- format cells survive the version fill
  have fmtKeep : ∀ i j, inFormatArea v i j = true → i ≠ 6 → j ≠ 6 → (workerMat v F mask fw vw).at' j i =
      (fillFormatInfo (xorMask F mask) fw (side v)).at' j i := by
    intro i j h2 h3 h4
    unfold workerMat
    by_cases h7 : v ≥ 7
    · simp only [h7, if_true]
      have := fmtNotVer i j h2 h3 h4 h7
      exact (fillVersion_spec h7 sfm vw hvw).2.2.2 i j this.1 this.2
    · simp only [h7, if_false]
  have dcell : ∀ i j, (i, j) ∈ dataModules v → ∃ b, F.at' (j : Int) (i : Int) = dataV b ∧
      (workerMat v F mask fw vw).at' (j : Int) (i : Int) = dataV (b ^^ maskBit k i j) := by
    intro i j hij
    have hm : F.at' (j : Int) (i : Int) ∈ (dataModules v).map fun p => F.at' (p.2 : Int) (p.1 : Int) :=
      List.mem_map.2 ⟨(i, j), hij, rfl⟩
    rw [hdata, List.mem_map] at hm
    obtain ⟨b, _, hb⟩ := hm
    refine ⟨b, hb.symm, ?_⟩
    obtain ⟨hi, hj, hfn⟩ := (mem_dataModules h1).1 hij
    obtain ⟨n1, n2, n3⟩ := nf i j hfn
    rw [other i j n1 n2 n3]
    exact xdata i j hij b hb.symm
  refine ⟨?_, ?_, ?_, ?_, ?_, ?_, ?_, ?_, ?_⟩
  · unfold workerMat
    by_cases h7 : v ≥ 7
    · simp only [h7, if_true]; exact (fillVersion_spec h7 sfm vw hvw).1
    · simp only [h7, if_false]; exact sfm
  · intro i j c hi hj hc
    obtain ⟨p1, p2, p3, p4⟩ := prefillV_pattern h1 h40 hi hj hc
    have hv : ¬ inVersionArea v i j = true := by rw [p3]; decide
    rw [other i j (fun h => p4 (formatCells1_area h1 h).2.2) (fun h => p4 (formatCells2_area h1 h).2.2)
      (fun h7 => ⟨fun h => hv (versionCells1_area h7 h).2.2, fun h => hv (versionCells2_area h7 h).2.2⟩),
      xfun i j hi hj p2, at_prefilled h1 hi hj]
    exact p1
  · refine Eq.trans ?_ (map_bit_fmt fw)
    rw [← ff1, List.map_map]
    apply List.map_congr_left
    rintro ⟨i, j⟩ hp
    have := formatCells1_area h1 hp
    simp only [Function.comp, fmtKeep i j this.2.2.1 this.2.2.2.2.1 this.2.2.2.2.2]
  · refine Eq.trans ?_ (map_bit_fmt fw)
    rw [← ff2, List.map_map]
    apply List.map_congr_left
    rintro ⟨i, j⟩ hp
    have := formatCells2_area h1 hp
    simp only [Function.comp, fmtKeep i j this.2.2.1 this.2.2.2.2.1 this.2.2.2.2.2]
  · intro h7
    have := (fillVersion_spec h7 sfm vw hvw).2.1
    refine Eq.trans ?_ (map_bit_ver vw)
    rw [← this, List.map_map]
    apply List.map_congr_left
    rintro ⟨i, j⟩ hp
    simp only [workerMat, ge_iff_le, h7, if_true, Function.comp]
  · intro h7
    have := (fillVersion_spec h7 sfm vw hvw).2.2.1
    refine Eq.trans ?_ (map_bit_ver vw)
    rw [← this, List.map_map]
    apply List.map_congr_left
    rintro ⟨i, j⟩ hp
    simp only [workerMat, ge_iff_le, h7, if_true, Function.comp]
  · have hd2 : ((dataModules v).map fun p => (F.at' (p.2 : Int) (p.1 : Int)).bit) = bits := by
      have := congrArg (List.map (·.bit)) hdata
      rw [List.map_map, List.map_map] at this
      rw [show ((fun x : QRValue => x.bit) ∘ dataV) = id from funext fun b => dataV_bit b, List.map_id] at this
      exact this
    rw [← hd2]
    apply List.map_congr_left
    rintro ⟨i, j⟩ hij
    obtain ⟨b, hb1, hb2⟩ := dcell i j hij
    simp only [hb1, hb2, dataV_bit, Bool.xor_assoc, Bool.xor_self, Bool.xor_false]
  · intro i j hij
    obtain ⟨b, hb1, hb2⟩ := dcell i j hij
    rw [hb2, dataV_ty]
  · intro i j hi hj
    by_cases hfn : isFunction v i j = true
    · by_cases hfm1 : (i, j) ∈ formatCells1
      · have a := formatCells1_area h1 hfm1
        rw [fmtKeep i j a.2.2.1 a.2.2.2.2.1 a.2.2.2.2.2]
        have hm : (fillFormatInfo (xorMask F mask) fw (side v)).at' (j : Int) (i : Int) ∈
            formatCells1.map fun p => (fillFormatInfo (xorMask F mask) fw (side v)).at' (p.2 : Int) (p.1 : Int) :=
          List.mem_map.2 ⟨(i, j), hfm1, rfl⟩
        rw [ff1, List.mem_map] at hm
        obtain ⟨b, _, hb⟩ := hm
        rw [← hb, fmtV_ty]; decide
      by_cases hfm2 : (i, j) ∈ formatCells2 v
      · have a := formatCells2_area h1 hfm2
        rw [fmtKeep i j a.2.2.1 a.2.2.2.2.1 a.2.2.2.2.2]
        have hm : (fillFormatInfo (xorMask F mask) fw (side v)).at' (j : Int) (i : Int) ∈
            (formatCells2 v).map fun p => (fillFormatInfo (xorMask F mask) fw (side v)).at' (p.2 : Int) (p.1 : Int) :=
          List.mem_map.2 ⟨(i, j), hfm2, rfl⟩
        rw [ff2, List.mem_map] at hm
        obtain ⟨b, _, hb⟩ := hm
        rw [← hb, fmtV_ty]; decide
      by_cases hv : 7 ≤ v ∧ (i, j) ∈ versionCells1 v
      · have e := (fillVersion_spec hv.1 sfm vw hvw).2.1
        have hm : (fillVersionInfo (fillFormatInfo (xorMask F mask) fw (side v)) vw (side v)).at' (j : Int) (i : Int) ∈
            (versionCells1 v).map fun p => (fillVersionInfo (fillFormatInfo (xorMask F mask) fw (side v)) vw (side v)).at' (p.2 : Int) (p.1 : Int) :=
          List.mem_map.2 ⟨(i, j), hv.2, rfl⟩
        rw [e, List.mem_map] at hm
        obtain ⟨b, _, hb⟩ := hm
        simp only [workerMat, ge_iff_le, hv.1, if_true]
        rw [← hb, verV_ty]; decide
      by_cases hv2 : 7 ≤ v ∧ (i, j) ∈ versionCells2 v
      · have e := (fillVersion_spec hv2.1 sfm vw hvw).2.2.1
        have hm : (fillVersionInfo (fillFormatInfo (xorMask F mask) fw (side v)) vw (side v)).at' (j : Int) (i : Int) ∈
            (versionCells2 v).map fun p => (fillVersionInfo (fillFormatInfo (xorMask F mask) fw (side v)) vw (side v)).at' (p.2 : Int) (p.1 : Int) :=
          List.mem_map.2 ⟨(i, j), hv2.2, rfl⟩
        rw [e, List.mem_map] at hm
        obtain ⟨b, _, hb⟩ := hm
        simp only [workerMat, ge_iff_le, hv2.1, if_true]
        rw [← hb, verV_ty]; decide
      rw [other i j hfm1 hfm2 (fun h7 => ⟨fun h => hv ⟨h7, h⟩, fun h => hv2 ⟨h7, h⟩⟩), xfun i j hi hj hfn,
        at_prefilled h1 hi hj]
      exact (prefillV_init h1 h40 hi hj).2 hfn
    · have hij : (i, j) ∈ dataModules v := (mem_dataModules h1).2 ⟨hi, hj, by simpa using hfn⟩
      obtain ⟨b, hb1, hb2⟩ := dcell i j hij
      rw [hb2, dataV_ty]; decide

end QR
