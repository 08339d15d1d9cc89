import Verif.Proof.VersionSel
import Verif.Proof.Blocks
import Verif.Proof.Symbol
import Verif.Proof.Evaluation
import Mathlib.Tactic.Choose
/-!
# From text to symbol
-/
namespace QR
open Spec Matrix

/-! ## Alignment cache -/

/-- Every cached entry is the list computed for its version. -/
def CacheOk (c : AlignCache) : Prop := ∀ ver locs, c.lookup ver = some locs → calcAlignPatternLocs ver = .ok locs

theorem loadAlign_ok {c : AlignCache} (hc : CacheOk c) {v : Nat} (h40 : v ≤ 40) :
    ∃ c', loadAlignmentPatternLocV2 c v = .ok (if v < 2 then [] else alignLocs v, c') ∧ CacheOk c' := by
  unfold loadAlignmentPatternLocV2
  by_cases h2 : v < 2
  · rw [if_pos h2]; exact ⟨c, by rw [if_pos h2], hc⟩
  · rw [if_neg h2, if_neg h2]
    have hcalc := calcAlign_eq (v := v) (by omega) h40
    cases hl : c.lookup v with
    | some locs =>
      have := hc v locs hl
      rw [hcalc] at this
      cases this
      exact ⟨c, rfl, hc⟩
    | none =>
      rw [hcalc]
      refine ⟨(v, alignLocs v) :: c, rfl, ?_⟩
      intro ver locs h
      rw [List.lookup_cons] at h
      by_cases hv : ver = v
      · subst hv
        simp at h
        rw [← h]; exact hcalc
      · have : (ver == v) = false := by simp [hv]
        rw [this] at h
        exact hc ver locs h

theorem precalc_ok (vs : List Nat) (h : ∀ v ∈ vs, 2 ≤ v ∧ v ≤ 40) : ∀ c, CacheOk c →
    ∃ c', precalcLoop vs c = .ok c' ∧ CacheOk c' ∧ ∀ v, (v ∈ vs ∨ (c.lookup v).isSome) → (c'.lookup v).isSome := by
  induction vs with
  | nil => intro c hc; exact ⟨c, rfl, hc, fun v hv => by simpa using hv⟩
  | cons w vs ih =>
    intro c hc
    have hw := h w (by simp)
    have hcalc := calcAlign_eq hw.1 hw.2
    have hc' : CacheOk ((w, alignLocs w) :: c) := by
      intro ver locs hl
      rw [List.lookup_cons] at hl
      by_cases hv : ver = w
      · subst hv
        simp at hl
        rw [← hl]; exact hcalc
      · have : (ver == w) = false := by simp [hv]
        rw [this] at hl
        exact hc ver locs hl
    obtain ⟨c', h1, h2, h3⟩ := ih (fun v hv => h v (by simp [hv])) _ hc'
    refine ⟨c', by rw [precalcLoop, hcalc]; exact h1, h2, ?_⟩
    intro v hv
    apply h3
    by_cases hvw : v = w
    · right; subst hvw; simp [List.lookup_cons]
    · rcases hv with hv | hv
      · left; simpa [hvw] using hv
      · right
        rw [List.lookup_cons]
        have : (v == w) = false := by simp [hvw]
        rw [this]; exact hv

/-- Start-up fills the cache for every version that has alignment patterns. -/
theorem initialCache_ok : ∃ c, initialCache = .ok c ∧ CacheOk c ∧ ∀ v, 2 ≤ v → v ≤ 40 → (c.lookup v).isSome := by
  obtain ⟨c, h1, h2, h3⟩ := precalc_ok ((List.range 39).map (· + 2)) (by
    intro v hv
    obtain ⟨a, ha, rfl⟩ := List.mem_map.1 hv
    have := List.mem_range.1 ha
    omega) [] (by intro ver locs h; simp at h)
  exact ⟨c, h1, h2, fun v a b => h3 v (Or.inl (List.mem_map.2 ⟨v - 2, List.mem_range.2 (by omega), by omega⟩))⟩

theorem prefill_nolocs (v : Nat) (h : v ≤ 1) (m : Matrix) (l : List Loc) : prefill m v l = prefill m v [] := by
  unfold prefill
  simp only [show ¬ v > 1 by omega, if_false]

/-! ## Initialisation -/

/-- The code after `init`. -/
structure Inited (E : Ext) (v ec : Nat) (bs : Bits) (raw : Bytes) (q : QRCode) : Prop where
  row : RowOk v ec q.v
  mat : q.mat = prefilled v
  stream : q.dataBSet = finalStream E v (levelOf ec) bs
  text : q.sourceText = raw
  ver : q.opt.version = v
  lev : q.opt.ecLevel = ec

theorem newEncoder_ok (m : Mode) : newEncoder (modeNum m) = .ok () := by cases m <;> rfl

theorem init_ok {E : Ext} (hE : E.Systematic) {c : AlignCache} (hc : CacheOk c) {raw : Bytes} {opt : EncodingOption}
    (ho : OptOk opt) {m : Mode} (hm : chooseMode E raw opt = .ok (modeNum m)) {v : Nat} (h1 : 1 ≤ v) (h40 : v ≤ 40)
    (hv : calcVersionNumber raw { opt with encMode := modeNum m } = .ok (v : Int))
    {p : Bits} (hp : encodePayload E (modeNum m) raw = .ok p) :
    (4 + countWidth v m + p.length ≤ 8 * dataCodewords v (levelOf opt.ecLevel.toNat) →
      ∃ q bs, init E c raw opt = .ok q ∧ Inited E v opt.ecLevel.toNat bs raw q ∧
        Filled (8 * dataCodewords v (levelOf opt.ecLevel.toNat)) (segment v m (countOf m raw) p) bs) ∧
    (8 * dataCodewords v (levelOf opt.ecLevel.toNat) < 4 + countWidth v m + p.length →
      init E c raw opt = .err (.wrongVersionCap v (8 * dataCodewords v (levelOf opt.ecLevel.toNat))
        (4 + countWidth v m + p.length))) := by
  have hl := ho.level
  obtain ⟨V, hV, rV⟩ := loadVersion_ok (ec := opt.ecLevel.toNat) h1 h40 (by omega) (by omega)
  have he : ((opt.ecLevel.toNat : Nat) : Int) = opt.ecLevel := by omega
  rw [he] at hV
  have hseg := segment_length v m (countOf m raw) p
  constructor
  · intro hle
    obtain ⟨bs, hbs, hfill⟩ := breakUp_ok V (segment v m (countOf m raw) p) (by rw [rV.total, hseg]; exact hle)
    rw [rV.total] at hfill
    have hlen := hfill.1
    have htot : (blockList V.groups).length = V.totalNumBlocks := (totalNumBlocks_eq V).symm
    have hnum : (dataBlks v (levelOf opt.ecLevel.toNat) bs).length = V.totalNumBlocks := by
      rw [dataBlks_length, ← htot, rV.blocks, List.length_map, List.length_range]
    have hblocks : splitBlocks bs V.totalNumBlocks V.groups 0 0 = .ok (dataBlks v (levelOf opt.ecLevel.toNat) bs) := by
      have hsum : 0 + 8 * ((blockList V.groups).map (·.1)).sum ≤ bs.length := by
        rw [rV.blocks, dataBlks_sum h1 h40, hlen]; omega
      rw [splitBlocks_eq bs V.totalNumBlocks V.groups 0 0 (by omega) hsum, List.drop_zero, rV.blocks]
      rfl
    have hec : errorCorrectionEncoding E V ((dataBlks v (levelOf opt.ecLevel.toNat) bs).map some) =
        .ok (((dataBlks v (levelOf opt.ecLevel.toNat) bs).map (parity E)).map some) := by
      apply ecEncoding_eq hE V _ hnum
      intro b hb
      obtain ⟨i, hi, rfl⟩ := List.getElem_of_mem hb
      have := dataBlks_get h1 h40 _ hlen i hi
      rw [this.1, this.2.1]
      exact ⟨by omega, rfl⟩
    have henc : encode E V (modeNum m) raw = .ok bs := by
      rw [encode_eq E V m raw p hp, rV.ver]; exact hbs
    have hdata : dataEncoding E V (modeNum m) raw = .ok ((dataBlks v (levelOf opt.ecLevel.toNat) bs).map some) := by
      unfold dataEncoding; rw [henc, Res.bind_ok, hblocks, Res.bind_ok, madeSlice_full hnum]
    obtain ⟨c', hla, _⟩ := loadAlign_ok hc h40
    have hlocs : ∃ locs, (if V.ver > 1 then (do let r ← loadAlignmentPatternLocV2 c V.ver; .ok r.1) else .ok [] : Res (List Loc)) = .ok locs ∧
        prefill (newMatrix V.dimension V.dimension) V.ver locs = prefilled v := by
      rw [rV.ver]
      have hdim : V.dimension = side v := by unfold Version.dimension; rw [rV.ver, side_eq]
      rw [hdim]
      by_cases hgt : v > 1
      · refine ⟨alignLocs v, ?_, rfl⟩
        rw [if_pos hgt, hla, Res.bind_ok, if_neg (by omega)]
      · refine ⟨[], by rw [if_neg hgt], ?_⟩
        unfold prefilled
        rw [prefill_nolocs v (by omega) _ (alignLocs v)]
    obtain ⟨locs, hlo, hpre⟩ := hlocs
    refine ⟨{ sourceText := raw,
              dataBSet := (dataCW v (levelOf opt.ecLevel.toNat) bs).flatten ++
                (ecCW E v (levelOf opt.ecLevel.toNat) bs).flatten ++ zeroBits V.remainderBits,
              ecBSet := (ecCW E v (levelOf opt.ecLevel.toNat) bs).flatten,
              mat := prefill (newMatrix V.dimension V.dimension) V.ver locs,
              opt := { opt with encMode := modeNum m, version := v }, v := V }, bs, ?_, ?_, hfill⟩
    · unfold init
      rw [hm, Res.bind_ok]
      simp only [hv, Res.bind_ok, hV, newEncoder_ok, hdata, hec, map_data, arrangeBits_map, arrange_data h1 h40 _ hlen,
        arrange_ec hE h1 h40 _ hlen, hlo]
    · refine ⟨rV, hpre, ?_, rfl, rfl, he.symm⟩
      rw [finalStream, rV.rem]
  · intro hlt
    have henc : encode E V (modeNum m) raw = .err (.wrongVersionCap v (8 * dataCodewords v (levelOf opt.ecLevel.toNat))
        (4 + countWidth v m + p.length)) := by
      rw [encode_eq E V m raw p hp, breakUp_err V _ (by rw [rV.total, rV.ver, hseg]; exact hlt), rV.total, rV.ver, hseg]
    unfold init
    rw [hm, Res.bind_ok]
    simp only [hv, Res.bind_ok, hV, newEncoder_ok, dataEncoding, henc, Res.bind_err]

/-! ## Masking -/

theorem mapM'_ok {α β : Type} (f : α → Res β) (g : α → β) (l : List α) (h : ∀ a ∈ l, f a = .ok (g a)) :
    Res.mapM' f l = .ok (l.map g) := by
  induction l with
  | nil => rfl
  | cons a l ih =>
    rw [Res.mapM', h a (by simp), ih (fun b hb => h b (by simp [hb]))]
    rfl

theorem filterMap_some {α β : Type} {f : α → Option β} {g : α → β} {l : List α} (h : ∀ a ∈ l, f a = some (g a)) :
    l.filterMap f = l.map g := by
  induction l with
  | nil => rfl
  | cons a l ih => rw [List.filterMap_cons, h a (by simp), ih (fun b hb => h b (by simp [hb]))]; rfl

/-- The selection loop returns the first of the lowest scores in arrival order. -/
theorem select_fold (s : Nat → Nat) (l : List Nat) : ∀ (low mark : Nat),
    (l.map fun i => (s i, i)).foldl (fun (p : Nat × Nat) (x : Nat × Nat) => if x.1 < p.1 then (x.1, x.2) else (p.1, p.2)) (low, mark) = (low, mark) ∧
      (∀ j ∈ l, low ≤ s j) ∨
    ∃ a k b, l = a ++ k :: b ∧
      (l.map fun i => (s i, i)).foldl (fun (p : Nat × Nat) (x : Nat × Nat) => if x.1 < p.1 then (x.1, x.2) else (p.1, p.2)) (low, mark) = (s k, k) ∧
      s k < low ∧ (∀ j ∈ a, s k < s j) ∧ ∀ j ∈ b, s k ≤ s j := by
  induction l with
  | nil => intro low mark; left; exact ⟨rfl, by simp⟩
  | cons x l ih =>
    intro low mark
    simp only [List.map_cons, List.foldl_cons]
    by_cases h : s x < low
    · rw [if_pos h]
      rcases ih (s x) x with ⟨h1, h2⟩ | ⟨a, k, b, h1, h2, h3, h4, h5⟩
      · right; exact ⟨[], x, l, rfl, h1, h, by simp, h2⟩
      · right
        refine ⟨x :: a, k, b, by rw [h1]; rfl, h2, by omega, ?_, h5⟩
        intro j hj
        rcases List.mem_cons.1 hj with rfl | hj
        · exact h3
        · exact h4 j hj
    · rw [if_neg h]
      rcases ih low mark with ⟨h1, h2⟩ | ⟨a, k, b, h1, h2, h3, h4, h5⟩
      · left
        refine ⟨h1, ?_⟩
        intro j hj
        rcases List.mem_cons.1 hj with rfl | hj
        · omega
        · exact h2 j hj
      · right
        refine ⟨x :: a, k, b, by rw [h1]; rfl, h2, h3, ?_, h5⟩
        intro j hj
        rcases List.mem_cons.1 hj with rfl | hj
        · omega
        · exact h4 j hj

theorem selectMask_spec (s : Nat → Nat) (arrival : List Nat) (hne : arrival ≠ []) (hs : ∀ i ∈ arrival, s i < maxInt32) :
    ∃ a k b, arrival = a ++ k :: b ∧ selectMask (arrival.map fun i => (s i, i)) = k ∧
      (∀ j ∈ a, s k < s j) ∧ ∀ j ∈ b, s k ≤ s j := by
  unfold selectMask
  rcases select_fold s arrival maxInt32 0 with ⟨_, h2⟩ | ⟨a, k, b, h1, h2, h3, h4, h5⟩
  · obtain ⟨x, l, rfl⟩ := List.exists_cons_of_ne_nil hne
    have := h2 x (by simp)
    have := hs x (by simp)
    omega
  · exact ⟨a, k, b, h1, by rw [h2], h4, h5⟩

/-- The arrival orders that can occur: the eight workers each send once. -/
def Arrival (l : List Nat) : Prop := l.Perm (List.range 8)

/-- The worker chosen: its score is less than all that arrived before and at most all that arrived after. -/
def Chosen (s : Nat → Nat) (arrival : List Nat) (k : Nat) : Prop :=
  ∃ a b, arrival = a ++ k :: b ∧ (∀ j ∈ a, s k < s j) ∧ ∀ j ∈ b, s k ≤ s j

/-- The eight candidates of an initialised code and their scores. -/
structure Candidates (v ec : Nat) (bits : Bits) (M : Nat → Matrix) (s : Nat → Nat) : Prop where
  sym : ∀ k < 8, Symbol v k (natBits 15 (formatWord (levelOf ec) k)) (natBits 18 (versionWord v)) bits (M k)
  score : ∀ k < 8, evaluation (M k) = .ok (s k)
  small : ∀ k < 8, s k < maxInt32

theorem masking_spec {v ec : Nat} (h1 : 1 ≤ v) (h40 : v ≤ 40) (he1 : 1 ≤ ec) (he4 : ec ≤ 4) {q : QRCode}
    (hr : RowOk v ec q.v) (hm : q.mat = prefilled v) (hb : q.dataBSet.length = rawModules v) :
    ∃ M s cpy, Candidates v ec q.dataBSet M s ∧
      fillDataBinary q.mat.copy q.v.dimension q.dataBSet = some cpy ∧
      (∀ k < 8, maskWorker q cpy k = .ok (M k, s k)) ∧
      ∀ arrival, Arrival arrival → ∃ a k b, arrival = a ++ k :: b ∧ k < 8 ∧
        masking arrival q = .ok { q with mat := M k } ∧ (∀ j ∈ a, s k < s j) ∧ ∀ j ∈ b, s k ≤ s j := by
  have hdim : q.v.dimension = side v := by unfold Version.dimension; rw [hr.ver, side_eq]
  obtain ⟨F, hF, sF, dF, fF⟩ := fill_ok h1 h40 q.dataBSet hb
  have hmask : ∀ k < 8, ∃ mask, newMask (prefilled v) k = .ok mask := by
    intro k hk
    obtain ⟨f, hf, _⟩ := getModulo_eq hk
    unfold newMask
    rw [hf]
    exact ⟨_, rfl⟩
  choose mk hmk using fun k : Fin 8 => hmask k.1 k.2
  let M : Nat → Matrix := fun k => workerMat v F (mk (Fin.ofNat 8 k)) (natBits 15 (formatWord (levelOf ec) k))
    (natBits 18 (versionWord v))
  have hof : ∀ k, k < 8 → ((Fin.ofNat 8 k : Fin 8) : Nat) = k := fun k hk => Nat.mod_eq_of_lt hk
  have hsym : ∀ k < 8, Symbol v k (natBits 15 (formatWord (levelOf ec) k)) (natBits 18 (versionWord v)) q.dataBSet (M k) := by
    intro k hk
    have := hmk (Fin.ofNat 8 k)
    rw [hof k hk] at this
    exact worker_symbol h1 h40 hk _ _ _ (natBits_length _ _) (natBits_length _ _) F _ sF dF fF this
  have hsc : ∀ k < 8, ∃ n, evaluation (M k) = .ok n ∧ n < maxInt32 := by
    intro k hk
    have hside : side v ≤ 177 := by unfold side; omega
    exact evaluation_ok (hsym k hk).sq (by unfold side; omega) hside
  choose sc hsc1 hsc2 using fun k : Fin 8 => hsc k.1 k.2
  let s : Nat → Nat := fun k => sc (Fin.ofNat 8 k)
  have hs1 : ∀ k < 8, evaluation (M k) = .ok (s k) := by
    intro k hk
    have := hsc1 (Fin.ofNat 8 k)
    rw [hof k hk] at this
    exact this
  have hs2 : ∀ k < 8, s k < maxInt32 := fun k hk => hsc2 (Fin.ofNat 8 k)
  have hcpy : fillDataBinary q.mat.copy q.v.dimension q.dataBSet = some F := by
    rw [hm, copy_eq (prefilled_sq h1), hdim]; exact hF
  have hw : ∀ k < 8, maskWorker q F k = .ok (M k, s k) := by
    intro k hk
    have hmk' := hmk (Fin.ofNat 8 k)
    rw [hof k hk] at hmk'
    unfold maskWorker
    rw [hm, hmk', Res.bind_ok, formatInfo_ok hr.level he1 he4 hk, Res.bind_ok, copy_eq sF, hdim]
    have hMk : M k = if v ≥ 7 then fillVersionInfo (fillFormatInfo (xorMask F (mk (Fin.ofNat 8 k)))
        (natBits 15 (formatWord (levelOf ec) k)) (side v)) (natBits 18 (versionWord v)) (side v) else
        fillFormatInfo (xorMask F (mk (Fin.ofNat 8 k))) (natBits 15 (formatWord (levelOf ec) k)) (side v) := rfl
    have hev := hs1 k hk
    rw [hMk] at hev ⊢
    rw [hr.ver]
    by_cases h7 : v ≥ 7
    · rw [if_pos h7] at hev ⊢
      simp only [h7, if_true, verInfo_ok hr.ver h7 h40, Res.bind_ok, hev]
    · rw [if_neg h7] at hev ⊢
      simp only [h7, if_false, Res.bind_ok, hev]
  refine ⟨M, s, F, ⟨hsym, hs1, hs2⟩, hcpy, hw, ?_⟩
  intro arrival harr
  have hlt : ∀ i ∈ arrival, i < 8 := fun i hi => List.mem_range.1 (harr.mem_iff.1 hi)
  obtain ⟨a, k, b, e1, e2, e3, e4⟩ := selectMask_spec s arrival (by
    intro h; rw [h] at harr; exact absurd harr.length_eq (by decide)) (fun i hi => hs2 i (hlt i hi))
  have hk : k < 8 := hlt k (by rw [e1]; simp)
  refine ⟨a, k, b, e1, hk, ?_, e3, e4⟩
  unfold masking
  rw [hcpy]
  simp only [Res.bind_ok]
  rw [mapM'_ok _ (fun k => (M k, s k)) _ (fun k hk => hw k (List.mem_range.1 hk)), Res.bind_ok]
  rw [filterMap_some (g := fun i => (s i, i)) (h := by
    intro i hi
    have := hlt i hi
    rw [List.getElem?_map, List.getElem?_range this]
    rfl)]
  rw [e2, List.getElem?_map, List.getElem?_range hk]
  rfl

end QR
