import Verif.Spec.Score
import Verif.Props.Penalty
/-!
# The score in terms of version and colours
-/
namespace QR
open _root_.Spec QR.Matrix

/-- The type of the library for a kind. -/
def kindTy : Kind → QRType
  | .data => .data | .finder => .finder | .separator => .splitter | .timing => .timing | .dark => .dark
  | .format => .format | .version => .version

def enc (p : Kind × Bool) : QRValue := ⟨kindTy p.1, p.2⟩

theorem enc_inj {p q : Kind × Bool} (h : enc p = enc q) : p = q := by
  obtain ⟨a, b⟩ := p
  obtain ⟨a', b'⟩ := q
  unfold enc at h
  simp only [QRValue.mk.injEq] at h
  obtain ⟨h1, rfl⟩ := h
  cases a <;> cases a' <;> first | rfl | (exact absurd h1 (by decide))

theorem occurrences_map {α β : Type} [DecidableEq α] [DecidableEq β] (f : α → β) (hf : ∀ a b, f a = f b → a = b) (p s : List α) :
    occurrences (p.map f) (s.map f) = occurrences p s := by
  unfold occurrences
  rw [List.length_map]
  apply List.countP_congr
  intro u _
  unfold occursAt
  rw [decide_eq_true_eq, decide_eq_true_eq, List.length_map, ← List.map_drop, ← List.map_take]
  exact ⟨fun h => List.map_injective_iff.2 (fun a b => hf a b) h, fun h => by rw [h]⟩

theorem pattern1_enc : pattern1 = (onData finderLike1).map enc := by decide
theorem pattern2_enc : pattern2 = (onData finderLike2).map enc := by decide

/-- The kinds of all modules are the standard's. -/
def Kinds (v : Nat) (m : Matrix) : Prop := ∀ i j : Nat, i < side v → j < side v → (m.at' (j : Int) (i : Int)).ty = kindTy (kindAt v i j)

theorem at_enc {v : Nat} {m : Matrix} (s : m.Sq (side v)) (hk : Kinds v m) {i j : Nat} (hi : i < side v) (hj : j < side v) :
    m.at' (j : Int) (i : Int) = enc (cell v (pixel m.bitmap) i j) := by
  unfold enc cell
  simp only
  rw [← hk i j hi hj, bitmap_at s hi hj]

theorem row_enc {v : Nat} {m : Matrix} (s : m.Sq (side v)) (hk : Kinds v m) {i : Nat} (hi : i < side v) :
    rowL m (side v) i = ((List.range (side v)).map fun j => cell v (pixel m.bitmap) i j).map enc := by
  unfold rowL
  rw [List.map_map]
  exact List.map_congr_left fun j hj => at_enc s hk hi (List.mem_range.1 hj)

theorem col_enc {v : Nat} {m : Matrix} (s : m.Sq (side v)) (hk : Kinds v m) {j : Nat} (hj : j < side v) :
    colL m (side v) j = ((List.range (side v)).map fun i => cell v (pixel m.bitmap) i j).map enc := by
  unfold colL
  rw [List.map_map]
  exact List.map_congr_left fun i hi => at_enc s hk (List.mem_range.1 hi) hj

theorem sameValue_cell {v : Nat} {m : Matrix} (s : m.Sq (side v)) (hk : Kinds v m) {i j : Nat} (hi : i + 1 < side v) (hj : j + 1 < side v) :
    SameValue m i j ↔ (cell v (pixel m.bitmap) i j = cell v (pixel m.bitmap) i (j + 1) ∧
      cell v (pixel m.bitmap) i j = cell v (pixel m.bitmap) (i + 1) j ∧
      cell v (pixel m.bitmap) i j = cell v (pixel m.bitmap) (i + 1) (j + 1)) := by
  have e1 : ((j + 1 : Nat) : Int) = (j : Int) + 1 := by omega
  have e2 : ((i + 1 : Nat) : Int) = (i : Int) + 1 := by omega
  unfold SameValue
  rw [← e1, ← e2, at_enc s hk (by omega) (by omega), at_enc s hk (by omega) (by omega), at_enc s hk (by omega) (by omega),
    at_enc s hk (by omega) (by omega)]
  constructor
  · rintro ⟨h1, h2, h3⟩
    have h1 := enc_inj h1
    have h2 := enc_inj h2
    have h3 := enc_inj h3
    exact ⟨h1, h1.trans h3, h1.trans (h3.trans h2)⟩
  · rintro ⟨h1, h2, h3⟩
    refine ⟨congrArg enc h1, congrArg enc (h2.symm.trans h3), congrArg enc (h1.symm.trans h2)⟩

/-- The evaluation of a matrix with the standard's kinds is the score of its colours. -/
theorem evaluation_score {v : Nat} {m : Matrix} (s : m.Sq (side v)) (h0 : 0 < side v) (hk : Kinds v m) :
    evaluation m = .ok (score v (pixel m.bitmap)) := by
  have h1 := C26_rule1 s
  have h3 := rule3_eq s
  have h4 := rule4_eq s h0
  have e2 : rule2 m = squares v (pixel m.bitmap) := by
    rw [rule2_values s]
    unfold squares
    congr 2
    apply List.map_congr_left
    intro i hi
    have hi := List.mem_range.1 hi
    apply List.countP_congr
    intro j hj
    have hj := List.mem_range.1 hj
    rw [decide_eq_true_eq, decide_eq_true_eq]
    exact sameValue_cell s hk (by omega) (by omega)
  have e3 : rule3 m = .ok (sequences v (pixel m.bitmap)) := by
    rw [h3]
    unfold sequences
    congr 3
    apply List.map_congr_left
    intro k hk'
    have hk' := List.mem_range.1 hk'
    rw [row_enc s hk hk', col_enc s hk hk', pattern1_enc, pattern2_enc,
      occurrences_map enc (fun _ _ => enc_inj), occurrences_map enc (fun _ _ => enc_inj),
      occurrences_map enc (fun _ _ => enc_inj), occurrences_map enc (fun _ _ => enc_inj)]
  have e4 : rule4 m = .ok (balance v (pixel m.bitmap)) := by
    rw [h4, darkCount_congr (colour_pixel s)]
    unfold balance rule4Of
    simp only
    rw [Nat.mul_comm (darkCount _ _) 100]
    generalize 100 * darkCount (side v) (pixel m.bitmap) / (side v * side v) = p
    congr 3
    omega
  unfold evaluation
  rw [h1, e3, e4, e2]
  rfl

/-! ## The kinds of a candidate -/

theorem localV_kind : ∀ i < 8, ∀ j < 8, (localV (j : Nat) (i : Nat)).ty = if cheb i j 3 3 = 4 then .splitter else .finder := by
  decide

theorem finderStage_kind {v i j : Nat} (h1 : 1 ≤ v) (hi : i < side v) (hj : j < side v) (ha : inFinderArea v i j = true) :
    (finderStage ((v * 4 + 17 : Nat) : Int) j i).ty = if onSeparator v i j then .splitter else .finder := by
  rw [inFinderArea_iff] at ha
  have hsep : (onSeparator v i j = true) ↔ min (cheb i j 3 3) (min (cheb i j 3 (side v - 4)) (cheb i j (side v - 4) 3)) = 4 := by
    unfold onSeparator; exact beq_iff_eq
  simp only [hsep]
  have hn : side v = 17 + 4 * v := rfl
  rcases ha with ha | ha | ha
  · have e1 : cheb i j 3 3 ≤ 4 := by unfold cheb dist; omega
    have e2 : 5 ≤ cheb i j 3 (side v - 4) := by unfold cheb dist; omega
    have e3 : 5 ≤ cheb i j (side v - 4) 3 := by unfold cheb dist; omega
    have e : min (cheb i j 3 3) (min (cheb i j 3 (side v - 4)) (cheb i j (side v - 4) 3)) = cheb i j 3 3 := by
      omega
    simp only [e]
    rw [finderStage_TL (by omega) (by omega) (by omega)]
    exact localV_kind i (by omega) j (by omega)
  · have e4 : cheb i j 3 (side v - 4) = cheb i (side v - 1 - j) 3 3 := by unfold cheb dist; omega
    have e1 : cheb i (side v - 1 - j) 3 3 ≤ 4 := by unfold cheb dist; omega
    have e2 : 5 ≤ cheb i j 3 3 := by unfold cheb dist; omega
    have e3 : 5 ≤ cheb i j (side v - 4) 3 := by unfold cheb dist; omega
    have e : min (cheb i j 3 3) (min (cheb i j 3 (side v - 4)) (cheb i j (side v - 4) 3)) =
        cheb i (side v - 1 - j) 3 3 := by omega
    simp only [e]
    rw [finderStage_TR (by omega) (by omega) (by omega)]
    have := localV_kind i (by omega) (side v - 1 - j) (by omega)
    have c : ((side v - 1 - j : Nat) : Int) = ((v * 4 + 17 : Nat) : Int) - 1 - j := by omega
    rw [c] at this
    exact this
  · have e4 : cheb i j (side v - 4) 3 = cheb (side v - 1 - i) j 3 3 := by unfold cheb dist; omega
    have e1 : cheb (side v - 1 - i) j 3 3 ≤ 4 := by unfold cheb dist; omega
    have e2 : 5 ≤ cheb i j 3 3 := by unfold cheb dist; omega
    have e3 : 5 ≤ cheb i j 3 (side v - 4) := by unfold cheb dist; omega
    have e : min (cheb i j 3 3) (min (cheb i j 3 (side v - 4)) (cheb i j (side v - 4) 3)) =
        cheb (side v - 1 - i) j 3 3 := by omega
    simp only [e]
    rw [finderStage_BL (by omega) (by omega) (by omega)]
    have := localV_kind (side v - 1 - i) (by omega) j (by omega)
    have c : ((side v - 1 - i : Nat) : Int) = ((v * 4 + 17 : Nat) : Int) - 1 - i := by omega
    rw [c] at this
    exact this

/-- The kind of a function module in the prefilled matrix. -/
theorem prefill_kind {v i j : Nat} (h1 : 1 ≤ v) (h40 : v ≤ 40) (hi : i < side v) (hj : j < side v) (hf : isFunction v i j = true) :
    ((prefilled v).at' (j : Int) (i : Int)).ty = kindTy (kindAt v i j) := by
  have hn : side v = 17 + 4 * v := rfl
  rw [at_prefilled h1 hi hj, prefillV_spec h1 h40 hi hj]
  unfold kindAt
  by_cases hV : inVersionArea v i j = true
  · rw [if_pos hV, if_pos hV]; rfl
  rw [if_neg hV, if_neg hV]
  by_cases hD : isDarkModule v i j = true
  · rw [if_pos hD, if_neg (by simp [hD]), if_pos hD]; rfl
  rw [if_neg hD, if_neg hD]
  have hD' : isDarkModule v i j = false := by simpa using hD
  by_cases hT : inTiming v i j = true
  · have hT' := (inTiming_iff v i j).1 hT
    rw [if_pos hT, if_pos hT, if_neg (fun h => by omega)]
    split <;> rfl
  rw [if_neg hT, if_neg hT]
  by_cases hF : inFormatArea v i j = true
  · have hF' := (inFormatArea_iff v i j).1 hF
    have hT' := mt (inTiming_iff v i j).2 hT
    rw [if_pos hF, if_pos ⟨hF, hD', by omega, by omega⟩]; rfl
  rw [if_neg hF, if_neg (fun h => hF h.1)]
  cases hA : alignAt v i j with
  | some p =>
    obtain ⟨a, b⟩ := p
    have f := alignAt_facts' h1 h40 hA
    have hnf : ¬ inFinderArea v i j = true := by
      rw [inFinderArea_iff]
      unfold dist at f
      omega
    rw [if_neg hnf]
    simp only
    split <;> rfl
  | none =>
    simp only
    by_cases ha : inFinderArea v i j = true
    · rw [if_pos ha, finderStage_kind h1 hi hj ha]
      split <;> rfl
    · exfalso
      have hf' := (isFunction_iff v i j).1 hf
      rw [hA] at hf'
      have hT' := mt (inTiming_iff v i j).2 hT
      have ha' := mt (inFinderArea_iff v i j).2 ha
      rcases hf' with h | h | h | h | h | h
      · exact ha h
      · exact hF h
      · omega
      · omega
      · exact hV h
      · cases h

theorem kind_of_data {v i j : Nat} (hf : isFunction v i j = false) : kindAt v i j = .data := by
  have h := mt (isFunction_iff v i j).2 (by rw [hf]; decide)
  simp only [not_or] at h
  obtain ⟨a1, a2, a3, a4, a5, a6⟩ := h
  unfold kindAt
  have hD : ¬ isDarkModule v i j = true := by
    rw [isDarkModule_iff]; intro h; apply a2; rw [inFormatArea_iff]; omega
  have hT : ¬ inTiming v i j = true := by
    rw [inTiming_iff]; omega
  rw [if_neg a5, if_neg hD, if_neg hT, if_neg a2, if_neg a1]

theorem kind_of_format {v i j : Nat} (h1 : 1 ≤ v) (h : inFormatArea v i j = true ∧ isDarkModule v i j = false ∧ i ≠ 6 ∧ j ≠ 6) :
    kindAt v i j = .format := by
  have hn : side v = 17 + 4 * v := rfl
  have hF := (inFormatArea_iff v i j).1 h.1
  unfold kindAt
  have hV : ¬ inVersionArea v i j = true := by rw [inVersionArea_iff]; omega
  have hT : ¬ inTiming v i j = true := by rw [inTiming_iff]; omega
  rw [if_neg hV, if_neg (by rw [h.2.1]; decide), if_neg hT, if_pos h.1]

theorem kind_of_version {v i j : Nat} (h : inVersionArea v i j = true) : kindAt v i j = .version := by
  unfold kindAt
  rw [if_pos h]

/-- Every candidate has the standard's kinds. -/
theorem worker_kinds {v k : Nat} (h1 : 1 ≤ v) (h40 : v ≤ 40) (hk : k < 8) (fw vw bits : Bits)
    (hfw : fw.length = 15) (hvw : vw.length = 18) (F mask : Matrix) (sF : F.Sq (side v))
    (hdata : ((dataModules v).map fun p => F.at' (p.2 : Int) (p.1 : Int)) = bits.map dataV)
    (hfun : ∀ i j : Nat, i < side v → j < side v → isFunction v i j = true → F.at' j i = (prefilled v).at' j i)
    (hmask : newMask (prefilled v) k = .ok mask) : Kinds v (workerMat v F mask fw vw) := by
  have hsym := worker_symbol h1 h40 hk fw vw bits hfw hvw F mask sF hdata hfun hmask
  obtain ⟨f, hf, hfm⟩ := getModulo_eq hk
  obtain ⟨smask, hmaskv⟩ := at_newMask (prefilled_sq h1) f hf hmask
  obtain ⟨sx, hx⟩ := at_xorMask sF smask
  obtain ⟨sfm, ff1, ff2, ff3⟩ := fillFormat_spec h1 sx fw hfw
  intro i j hi hj
  cases hfn : isFunction v i j with
  | false =>
    rw [hsym.dataTy i j ((mem_dataModules h1).2 ⟨hi, hj, hfn⟩), kind_of_data hfn]; rfl
  | true =>
    have xfun : (xorMask F mask).at' (j : Int) (i : Int) = (prefilled v).at' (j : Int) (i : Int) := by
      have hmv : mask.at' (j : Int) (i : Int) = INIT_V0 := by
        rw [hmaskv j i hj hi, maskV, if_neg]
        rw [at_prefilled h1 hi hj]
        exact (prefillV_init h1 h40 hi hj).2 hfn
      rw [hx j i hj hi, xorV, hmv, if_pos (show INIT_V0.ty = .init from rfl), hfun i j hi hj hfn]
    -- the format stage
    have hfmt : ((fillFormatInfo (xorMask F mask) fw (side v)).at' (j : Int) (i : Int)).ty = kindTy (kindAt v i j) := by
      by_cases hc1 : (i, j) ∈ formatCells1
      · have hm : (fillFormatInfo (xorMask F mask) fw (side v)).at' (j : Int) (i : Int) ∈
            formatCells1.map fun p => (fillFormatInfo (xorMask F mask) fw (side v)).at' (p.2 : Int) (p.1 : Int) :=
          List.mem_map.2 ⟨(i, j), hc1, rfl⟩
        rw [ff1, List.mem_map] at hm
        obtain ⟨b, _, hb⟩ := hm
        rw [← hb, fmtV_ty, kind_of_format h1 (formatCells1_area h1 hc1).2.2]; rfl
      by_cases hc2 : (i, j) ∈ formatCells2 v
      · have hm : (fillFormatInfo (xorMask F mask) fw (side v)).at' (j : Int) (i : Int) ∈
            (formatCells2 v).map fun p => (fillFormatInfo (xorMask F mask) fw (side v)).at' (p.2 : Int) (p.1 : Int) :=
          List.mem_map.2 ⟨(i, j), hc2, rfl⟩
        rw [ff2, List.mem_map] at hm
        obtain ⟨b, _, hb⟩ := hm
        rw [← hb, fmtV_ty, kind_of_format h1 (formatCells2_area h1 hc2).2.2]; rfl
      rw [ff3 i j hc1 hc2, xfun]
      exact prefill_kind h1 h40 hi hj hfn
    unfold workerMat
    by_cases h7 : v ≥ 7
    · simp only [h7, if_true]
      obtain ⟨_, g1, g2, g3⟩ := fillVersion_spec h7 sfm vw hvw
      by_cases hc1 : (i, j) ∈ versionCells1 v
      · have hm : (fillVersionInfo (fillFormatInfo (xorMask F mask) fw (side v)) vw (side v)).at' (j : Int) (i : Int) ∈
            (versionCells1 v).map fun p => (fillVersionInfo (fillFormatInfo (xorMask F mask) fw (side v)) vw (side v)).at' (p.2 : Int) (p.1 : Int) :=
          List.mem_map.2 ⟨(i, j), hc1, rfl⟩
        rw [g1, List.mem_map] at hm
        obtain ⟨b, _, hb⟩ := hm
        rw [← hb, verV_ty, kind_of_version (versionCells1_area h7 hc1).2.2]; rfl
      by_cases hc2 : (i, j) ∈ versionCells2 v
      · have hm : (fillVersionInfo (fillFormatInfo (xorMask F mask) fw (side v)) vw (side v)).at' (j : Int) (i : Int) ∈
            (versionCells2 v).map fun p => (fillVersionInfo (fillFormatInfo (xorMask F mask) fw (side v)) vw (side v)).at' (p.2 : Int) (p.1 : Int) :=
          List.mem_map.2 ⟨(i, j), hc2, rfl⟩
        rw [g2, List.mem_map] at hm
        obtain ⟨b, _, hb⟩ := hm
        rw [← hb, verV_ty, kind_of_version (versionCells2_area h7 hc2).2.2]; rfl
      rw [g3 i j hc1 hc2]
      exact hfmt
    · simp only [h7, if_false]
      exact hfmt

/-- The matrix of a mask worker of an initialised code, and its score. -/
theorem maskWorker_kinds {v ec k : Nat} (h1 : 1 ≤ v) (h40 : v ≤ 40) (he1 : 1 ≤ ec) (he4 : ec ≤ 4) (hk : k < 8) {q : QRCode}
    (hr : RowOk v ec q.v) (hm : q.mat = prefilled v) (hb : q.dataBSet.length = rawModules v) {F m : Matrix} {s : Nat}
    (hF : fillDataBinary q.mat.copy q.v.dimension q.dataBSet = some F) (h : maskWorker q F k = .ok (m, s)) : Kinds v m := by
  have hdim : q.v.dimension = side v := by unfold Version.dimension; rw [hr.ver, side_eq]
  obtain ⟨F', hF', sF, dF, fF⟩ := fill_ok h1 h40 q.dataBSet hb
  rw [hm, copy_eq (prefilled_sq h1), hdim, hF'] at hF
  cases hF
  obtain ⟨f, hf, _⟩ := getModulo_eq hk
  obtain ⟨mask, hmask⟩ : ∃ mask, newMask (prefilled v) k = .ok mask := by
    unfold newMask; rw [hf]; exact ⟨_, rfl⟩
  have hkinds := worker_kinds h1 h40 hk (natBits 15 (formatWord (levelOf ec) k)) (natBits 18 (versionWord v)) q.dataBSet
    (natBits_length _ _) (natBits_length _ _) F mask sF dF fF hmask
  unfold maskWorker at h
  rw [hm, hmask, Res.bind_ok, formatInfo_ok hr.level he1 he4 hk, Res.bind_ok, copy_eq sF, hdim] at h
  rw [hr.ver] at h
  have e : workerMat v F mask (natBits 15 (formatWord (levelOf ec) k)) (natBits 18 (versionWord v)) =
      if v ≥ 7 then fillVersionInfo (fillFormatInfo (xorMask F mask)
        (natBits 15 (formatWord (levelOf ec) k)) (side v)) (natBits 18 (versionWord v)) (side v) else
        fillFormatInfo (xorMask F mask) (natBits 15 (formatWord (levelOf ec) k)) (side v) := rfl
  rw [e] at hkinds
  by_cases h7 : v ≥ 7
  · rw [if_pos h7] at hkinds
    simp only [h7, if_true, verInfo_ok hr.ver h7 h40, Res.bind_ok] at h
    cases hev : evaluation (fillVersionInfo (fillFormatInfo (xorMask F mask)
        (natBits 15 (formatWord (levelOf ec) k)) (side v)) (natBits 18 (versionWord v)) (side v)) with
    | ok n => rw [hev] at h; cases h; exact hkinds
    | err e => rw [hev] at h; cases h
    | panic => rw [hev] at h; cases h
  · rw [if_neg h7] at hkinds
    simp only [h7, if_false, Res.bind_ok] at h
    cases hev : evaluation (fillFormatInfo (xorMask F mask) (natBits 15 (formatWord (levelOf ec) k)) (side v)) with
    | ok n => rw [hev] at h; cases h; exact hkinds
    | err e => rw [hev] at h; cases h
    | panic => rw [hev] at h; cases h

end QR
