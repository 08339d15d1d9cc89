import Verif.Props.Symbol
import Verif.Proof.Tie
/-!
# C17 - C19: masks
-/
namespace QR
open Spec

/-- Everything about one call that does not depend on the schedule. -/
theorem call_facts {E : Ext} {unsjis : Nat → Option Nat} (hE : E.Ok unsjis) {c : AlignCache} (hc : CacheReachable c)
    {arrival : List Nat} {t : TextType} {text : Bytes} {opts : List EncodeOption} {q : QRCode}
    (h : newWith E c arrival t text opts = .ok q) :
    ∃ m v p bs, 1 ≤ v ∧ v ≤ 40 ∧ Success E c t text opts v m p bs := by
  obtain ⟨ht, hs, _⟩ := newWith_ok h
  rw [mode_applied] at hs
  rcases outcome hE hc ht text hs with ⟨m, r, _, _, h3⟩ | ⟨m, _, _, _, h3⟩ | ⟨m, v, p, _, _, _, _, _, _, h3⟩ | ⟨m, v, p, bs, hm, h1, h2, hv, hp, _, hsu⟩
  · rw [h3] at h; cases h
  · rw [h3] at h; cases h
  · rw [h3] at h; cases h
  · exact ⟨m, v, p, bs, h1, h2, hsu⟩

/-- Exclusive or with the mask of a prefilled matrix, module by module. -/
theorem mask_modules {v k : Nat} (h1 : 1 ≤ v) (h40 : v ≤ 40) (hk : k < 8) (F : Matrix) (sF : F.Sq (side v))
    (hd : ∀ i j : Nat, i < side v → j < side v → isFunction v i j = false → ∃ b, F.at' j i = dataV b) :
    ∃ mask, newMask (prefilled v) k = .ok mask ∧ (xorMask F mask).Sq (side v) ∧
      ∀ i j : Nat, i < side v → j < side v →
        (isFunction v i j = true → (xorMask F mask).at' j i = F.at' j i) ∧
        (isFunction v i j = false → (xorMask F mask).at' j i = dataV ((F.at' j i).bit ^^ maskBit k i j)) := by
  obtain ⟨f, hf, hfm⟩ := getModulo_eq hk
  have hmask : ∃ mask, newMask (prefilled v) k = .ok mask := by
    unfold newMask
    rw [hf]
    exact ⟨_, rfl⟩
  obtain ⟨mask, hmask⟩ := hmask
  obtain ⟨smask, hmaskv⟩ := at_newMask (prefilled_sq h1) f hf hmask
  obtain ⟨sx, hx⟩ := at_xorMask sF smask
  refine ⟨mask, hmask, sx, fun i j hi hj => ⟨fun hfn => ?_, fun hfn => ?_⟩⟩
  · have hmv : mask.at' (j : Int) (i : Int) = INIT_V0 := by
      rw [hmaskv j i hj hi, maskV, if_neg]
      rw [at_prefilled h1 hi hj]
      exact (prefillV_init h1 h40 hi hj).2 hfn
    rw [hx j i hj hi, xorV, hmv, if_pos (show INIT_V0.ty = .init from rfl)]
  · obtain ⟨b, hb⟩ := hd i j hi hj hfn
    have hty : ((prefilled v).at' (j : Int) (i : Int)).ty = .init := by
      rw [at_prefilled h1 hi hj, (prefillV_init h1 h40 hi hj).1 hfn]; rfl
    have hmv : mask.at' (j : Int) (i : Int) = dataV (maskBit k i j) := by
      rw [hmaskv j i hj hi, maskV, if_pos hty]
      simp only [hfm]
    rw [hx j i hj hi, xorV, hmv, hb, if_neg, dataV_xor, dataV_bit]
    rw [dataV_ty]; decide

theorem bitmap_ext {d : Nat} {A B : Matrix} (hA : A.Sq d) (hB : B.Sq d)
    (h : ∀ i j : Nat, i < d → j < d → (A.at' (j : Int) (i : Int)).bit = (B.at' (j : Int) (i : Int)).bit) : A.bitmap = B.bitmap := by
  have ha := (bitmap_spec A).1
  have hb := (bitmap_spec B).1
  rw [hA.w, hA.h] at ha
  rw [hB.w, hB.h] at hb
  apply List.ext_getElem
  · rw [ha.1, hb.1]
  · intro i h1 h2
    apply List.ext_getElem
    · rw [ha.2 _ (List.getElem_mem h1), hb.2 _ (List.getElem_mem h2)]
    · intro j h3 h4
      have hi : i < d := by rw [ha.1] at h1; exact h1
      have hj : j < d := by rw [ha.2 _ (List.getElem_mem h1)] at h3; exact h3
      have e1 := bitmap_at hA hi hj
      have e2 := bitmap_at hB hi hj
      have p1 : pixel A.bitmap i j = A.bitmap[i][j] := by simp [pixel, h1, h3]
      have p2 : pixel B.bitmap i j = B.bitmap[i][j] := by simp [pixel, h2, h4]
      rw [← p1, ← p2, e1, e2]
      exact h i j hi hj

/-- **C17.** Let `q0` be the code before masking and `F` its matrix with the data bits filled in.  For each of the eight
masks `k`, masking `F` changes a module exactly if it is no function module and row and column satisfy formula `k`; doing
it twice gives back the bitmap of `F`.  The symbol that is returned is `F` with one of these masks on all modules except
the format and version modules. -/
theorem C17_mask {E : Ext} {unsjis : Nat → Option Nat} (hE : E.Ok unsjis) {c : AlignCache} (hc : CacheReachable c)
    {arrival : List Nat} (ha : Arrival arrival) {t : TextType} {text : Bytes} {opts : List EncodeOption} {q : QRCode}
    (h : newWith E c arrival t text opts = .ok q) {v : Nat} (hv : q.dimension = 17 + 4 * v) :
    ∃ q0 F, init E c text (applyOptions opts) = .ok q0 ∧
      fillDataBinary q0.mat.copy q0.v.dimension q0.dataBSet = some F ∧
      (∀ k < 8, ∃ mask, newMask q0.mat k = .ok mask ∧
        (∀ i j, i < 17 + 4 * v → j < 17 + 4 * v →
          pixel (xorMask F mask).bitmap i j = (pixel F.bitmap i j ^^ (maskBit k i j && !isFunction v i j))) ∧
        (xorMask (xorMask F mask) mask).bitmap = F.bitmap) ∧
      ∃ k lv, readFormat q.mat.bitmap = some (lv, k) ∧
        ∀ i j, i < 17 + 4 * v → j < 17 + 4 * v →
          (isFunction v i j = false → pixel q.mat.bitmap i j = (pixel F.bitmap i j ^^ maskBit k i j)) ∧
          (∀ colour, patternColour v i j = some colour → pixel q.mat.bitmap i j = pixel F.bitmap i j) := by
  obtain ⟨m, v', p, bs, h1, h40, hsu⟩ := call_facts hE hc h
  obtain ⟨q0, hq0, hi0⟩ := hsu.start
  obtain ⟨q', k, hq', hb⟩ := hsu.built arrival ha
  rw [h] at hq'
  cases hq'
  have hd : q.dimension = 17 + 4 * v' := hb.dimension
  obtain rfl : v' = v := by omega
  have hlen : q0.dataBSet.length = rawModules v' := by
    rw [hi0.stream]; exact finalStream_length hE.rs h1 h40 _ hb.len
  have hdim : q0.v.dimension = side v' := by unfold Version.dimension; rw [hi0.row.ver, side_eq]
  obtain ⟨F, hF, sF, dF, fF⟩ := fill_ok h1 h40 q0.dataBSet hlen
  have hdata : ∀ i j : Nat, i < side v' → j < side v' → isFunction v' i j = false → ∃ b, F.at' j i = dataV b := by
    intro i j hi hj hfn
    have hm : F.at' (j : Int) (i : Int) ∈ (dataModules v').map fun p => F.at' (p.2 : Int) (p.1 : Int) :=
      List.mem_map.2 ⟨(i, j), (mem_dataModules h1).2 ⟨hi, hj, hfn⟩, rfl⟩
    rw [dF, List.mem_map] at hm
    obtain ⟨b, _, hb⟩ := hm
    exact ⟨b, hb.symm⟩
  refine ⟨q0, F, hq0, ?_, ?_, k, _, (hb.read hE.rs).2.1, ?_⟩
  · rw [hi0.mat, Matrix.copy_eq (prefilled_sq h1), hdim]; exact hF
  · intro k hk
    obtain ⟨mask, hmask, sx, hx⟩ := mask_modules h1 h40 hk F sF hdata
    refine ⟨mask, by rw [hi0.mat]; exact hmask, fun i j hi hj => ?_, ?_⟩
    · rw [bitmap_at sx hi hj, bitmap_at sF hi hj]
      cases hfn : isFunction v' i j with
      | true => rw [(hx i j hi hj).1 hfn]; simp
      | false => rw [(hx i j hi hj).2 hfn, dataV_bit]; simp
    · have hdata2 : ∀ i j : Nat, i < side v' → j < side v' → isFunction v' i j = false → ∃ b, (xorMask F mask).at' j i = dataV b :=
        fun i j hi hj hfn => ⟨_, (hx i j hi hj).2 hfn⟩
      obtain ⟨mask', hmask', sx', hx'⟩ := mask_modules h1 h40 hk (xorMask F mask) sx hdata2
      rw [hmask] at hmask'
      cases hmask'
      refine bitmap_ext sx' sF fun i j hi hj => ?_
      cases hfn : isFunction v' i j with
      | true => rw [(hx' i j hi hj).1 hfn, (hx i j hi hj).1 hfn]
      | false =>
        rw [(hx' i j hi hj).2 hfn, (hx i j hi hj).2 hfn, dataV_bit, dataV_bit, Bool.xor_assoc, Bool.xor_self, Bool.xor_false]
  · have hs := isSymbol_of hE.rs hb
    intro i j hi hj
    constructor
    · intro hfn
      have hij : (i, j) ∈ dataModules v' := (mem_dataModules h1).2 ⟨hi, hj, hfn⟩
      have e1 : ((dataModules v').map fun p => (F.at' (p.2 : Int) (p.1 : Int)).bit) = q0.dataBSet := by
        have := congrArg (List.map (·.bit)) dF
        rw [List.map_map, List.map_map] at this
        rw [show ((fun x : QRValue => x.bit) ∘ dataV) = id from funext fun b => dataV_bit b, List.map_id] at this
        exact this
      have e2 : ((dataModules v').map fun p => pixel q.mat.bitmap p.1 p.2 ^^ maskBit k p.1 p.2) = q0.dataBSet := by
        rw [hi0.stream]; exact hs.data
      have e3 := (List.map_inj_left.1 (e2.trans e1.symm)) (i, j) hij
      simp only at e3
      rw [bitmap_at sF hi hj, ← e3, Bool.xor_assoc, Bool.xor_self, Bool.xor_false]
    · intro colour hcol
      rw [hs.pattern i j colour hi hj hcol, bitmap_at sF hi hj]
      obtain ⟨p1, p2, _, _⟩ := prefillV_pattern h1 h40 hi hj hcol
      rw [fF i j hi hj p2, at_prefilled h1 hi hj]
      exact p1.symm

/-- **C18.** There are eight candidate symbols, one for each mask, that do not depend on the schedule: they have the same
version, level and stream, and a score each below the sentinel the search starts with.  In every arrival order of the
scores the call succeeds with one of them, and no candidate has a lower score. -/
theorem C18_lowest_penalty {E : Ext} {unsjis : Nat → Option Nat} (hE : E.Ok unsjis) {c : AlignCache} (hc : CacheReachable c)
    {arrival : List Nat} {t : TextType} {text : Bytes} {opts : List EncodeOption} {q : QRCode}
    (h : newWith E c arrival t text opts = .ok q) :
    ∃ (v : Nat) (stream : List Bool) (M : Nat → Matrix) (score : Nat → Nat),
      (∀ k < 8, IsSymbol v (levelIn opts) k stream (M k).bitmap ∧ evaluation (M k) = .ok (score k) ∧ score k < 2 ^ 31 - 1) ∧
      ∀ arrival, Arrival arrival → ∃ q' k, newWith E c arrival t text opts = .ok q' ∧ k < 8 ∧ q'.mat = M k ∧
        ∀ j < 8, score k ≤ score j := by
  obtain ⟨m, v, p, bs, h1, h40, hsu⟩ := call_facts hE hc h
  obtain ⟨M, s, hcd, hsel⟩ := hsu.cands
  refine ⟨v, finalStream E v (levelIn opts) bs, M, s, fun k hk => ⟨?_, hcd.score k hk, hcd.small k hk⟩, ?_⟩
  · obtain ⟨q', k', _, hb, _⟩ := hsel inOrder inOrder_arrival
    have hb' : Built E v (applyOptions opts).ecLevel.toNat k bs text { q' with mat := M k } :=
      ⟨h1, h40, hk, hb.row, hb.len, by have := hcd.sym k hk; rw [level_applied] at this ⊢; exact this, hb.text, hb.stream⟩
    have := isSymbol_of hE.rs hb'
    rw [level_applied] at this
    exact this
  · intro a ha
    obtain ⟨q', k, h2, hb, h3, x, y, e, hx, hy⟩ := hsel a ha
    refine ⟨q', k, h2, hb.mask, h3, fun j hj => ?_⟩
    have : j ∈ a := ha.mem_iff.2 (List.mem_range.2 hj)
    rw [e] at this
    rcases List.mem_append.1 this with h4 | h4
    · exact Nat.le_of_lt (hx j h4)
    · rcases List.mem_cons.1 h4 with rfl | h4
      · exact Nat.le_refl _
      · exact hy j h4

/-- The eight workers of one call: matrix and score of each, computed from the code before masking. -/
def WorkerResult (E : Ext) (c : AlignCache) (text : Bytes) (opts : List EncodeOption) (k : Nat) (m : Matrix) (score : Nat) : Prop :=
  ∃ q0 F, init E c text (applyOptions opts) = .ok q0 ∧
    fillDataBinary q0.mat.copy q0.v.dimension q0.dataBSet = some F ∧ maskWorker q0 F k = .ok (m, score)

/-- The result of a call in terms of its workers. -/
theorem worker_facts {E : Ext} {unsjis : Nat → Option Nat} (hE : E.Ok unsjis) {c : AlignCache} (hc : CacheReachable c)
    {arrival : List Nat} {t : TextType} {text : Bytes} {opts : List EncodeOption} {q : QRCode}
    (h : newWith E c arrival t text opts = .ok q) :
    ∃ (M : Nat → Matrix) (s : Nat → Nat) (q0 : QRCode), (∀ k < 8, WorkerResult E c text opts k (M k) (s k)) ∧
      ∀ arrival, Arrival arrival → ∃ k, k < 8 ∧ newWith E c arrival t text opts = .ok { q0 with mat := M k } ∧
        Chosen s arrival k := by
  obtain ⟨m, v, p, bs, h1, h40, hsu⟩ := call_facts hE hc h
  obtain ⟨q0, hq0, hi0⟩ := hsu.start
  obtain ⟨q', _, _, hb⟩ := hsu.built inOrder inOrder_arrival
  have hlen : q0.dataBSet.length = rawModules v := by
    rw [hi0.stream]; exact finalStream_length hE.rs h1 h40 _ hb.len
  have hl := (optOk_applyOptions opts).level
  obtain ⟨M, s, F, hcd, hF, hw, hsel⟩ := masking_spec h1 h40 (by omega) (by omega) hi0.row hi0.mat hlen
  refine ⟨M, s, q0, fun k hk => ⟨q0, F, hq0, hF, hw k hk⟩, fun a ha => ?_⟩
  obtain ⟨x, k, y, e, hk, hm, hx, hy⟩ := hsel a ha
  refine ⟨k, hk, ?_, x, y, e, hx, hy⟩
  obtain ⟨ht, _, _⟩ := newWith_ok h
  rw [newWith_eq _ _ _ ht]
  unfold build
  rw [hq0, Res.bind_ok, hm]

theorem Chosen.le {s : Nat → Nat} {arrival : List Nat} {k : Nat} (ha : Arrival arrival) (h : Chosen s arrival k) :
    ∀ j < 8, s k ≤ s j := by
  obtain ⟨x, y, e, hx, hy⟩ := h
  intro j hj
  have : j ∈ arrival := ha.mem_iff.2 (List.mem_range.2 hj)
  rw [e] at this
  rcases List.mem_append.1 this with h4 | h4
  · exact Nat.le_of_lt (hx j h4)
  · rcases List.mem_cons.1 h4 with rfl | h4
    · exact Nat.le_refl _
    · exact hy j h4

/-- **C19**, the part that holds: if one mask has a lower score than the seven others, every schedule returns the same
code.  Missing: the case of a tie for the lowest score, where the claim is false (`C19_counterexample`). -/
theorem C19_deterministic_partial {E : Ext} {unsjis : Nat → Option Nat} (hE : E.Ok unsjis) {c : AlignCache} (hc : CacheReachable c)
    {a a' : List Nat} (ha : Arrival a) (ha' : Arrival a') {t : TextType} {text : Bytes} {opts : List EncodeOption} {q : QRCode}
    (h : newWith E c a t text opts = .ok q)
    (best : Nat) (hbest : best < 8)
    (hu : ∀ k < 8, k ≠ best → ∀ m s m' s', WorkerResult E c text opts best m s → WorkerResult E c text opts k m' s' → s < s') :
    newWith E c a' t text opts = .ok q := by
  obtain ⟨M, s, q0, hw, hsel⟩ := worker_facts hE hc h
  have key : ∀ a, Arrival a → newWith E c a t text opts = .ok { q0 with mat := M best } := by
    intro a ha
    obtain ⟨k, hk, h1, h2⟩ := hsel a ha
    by_cases hkb : k = best
    · rw [hkb] at h1; exact h1
    · have := hu k hk hkb _ _ _ _ (hw best hbest) (hw k hk)
      have := h2.le ha best hbest
      omega
  rw [key a ha] at h
  rw [key a' ha', h]

/-- **C19**, for every call: two schedules return codes with the same score, version, level and data stream; only the mask
can differ, and with the same mask the codes are the same. -/
theorem C19_up_to_mask {E : Ext} {unsjis : Nat → Option Nat} (hE : E.Ok unsjis) {c : AlignCache} (hc : CacheReachable c)
    {a a' : List Nat} (ha : Arrival a) (ha' : Arrival a') {t : TextType} {text : Bytes} {opts : List EncodeOption} {q : QRCode}
    (h : newWith E c a t text opts = .ok q) :
    ∃ q' v k k' stream, newWith E c a' t text opts = .ok q' ∧ evaluation q.mat = evaluation q'.mat ∧
      IsSymbol v (levelIn opts) k stream q.mat.bitmap ∧ IsSymbol v (levelIn opts) k' stream q'.mat.bitmap ∧
      (k = k' → q = q') := by
  obtain ⟨v, stream, M, s, h1, h2⟩ := C18_lowest_penalty hE hc h
  obtain ⟨M', s', q0, hw, hsel⟩ := worker_facts hE hc h
  obtain ⟨q1, k, e1, hk, hm, hl⟩ := h2 a ha
  obtain ⟨q2, k', e2, hk', hm', hl'⟩ := h2 a' ha'
  rw [h] at e1; cases e1
  obtain ⟨j, hj, f1, _⟩ := hsel a ha
  obtain ⟨j', hj', f2, _⟩ := hsel a' ha'
  rw [h] at f1
  rw [e2] at f2
  refine ⟨q2, v, k, k', stream, e2, ?_, ?_, ?_, ?_⟩
  · rw [hm, hm', (h1 k hk).2.1, (h1 k' hk').2.1]
    have := hl k' hk'
    have := hl' k hk
    congr 1; omega
  · rw [hm]; exact (h1 k hk).1
  · rw [hm']; exact (h1 k' hk').1
  · rintro rfl
    have hmat : q.mat = q2.mat := by rw [hm, hm']
    cases f1
    cases f2
    simp only at hmat
    rw [hmat]

theorem mapM'_get {α β : Type} {f : α → Res β} : ∀ {l : List α} {r : List β}, Res.mapM' f l = .ok r →
    ∀ {k : Nat} {a : α}, l[k]? = some a → ∃ b, r[k]? = some b ∧ f a = .ok b := by
  intro l
  induction l with
  | nil => intro r _ k a hk; simp at hk
  | cons x l ih =>
    intro r h k a hk
    rw [Res.mapM'] at h
    cases hx : f x with
    | err e => rw [hx] at h; cases h
    | panic e => rw [hx] at h; cases h
    | ok b =>
      cases hl : Res.mapM' f l with
      | err e => rw [hx, hl] at h; cases h
      | panic e => rw [hx, hl] at h; cases h
      | ok r' =>
        rw [hx, hl] at h
        cases h
        cases k with
        | zero => simp at hk; subst hk; exact ⟨b, rfl, hx⟩
        | succ k => exact ih hl hk

theorem scoresOf_get {E : Ext} {c : AlignCache} {text : Bytes} {opts : List EncodeOption} {l : List Nat}
    (h : scoresOf E c text opts = some l) {k : Nat} (hk : k < 8) {m : Matrix} {s : Nat}
    (hw : WorkerResult E c text opts k m s) : l[k]? = some s := by
  obtain ⟨q0, F, h1, h2, h3⟩ := hw
  unfold scoresOf at h
  simp only [h1, h2] at h
  split at h
  · rename_i r hr
    cases h
    obtain ⟨b, hb1, hb2⟩ := mapM'_get hr (List.getElem?_range hk)
    rw [h3] at hb2; cases hb2
    rw [List.getElem?_map, hb1]; rfl
  · cases h

/-- The hypotheses of `C19_deterministic_partial` are met: for the text `29` mask 0 has the lowest score (239, the next is 241). -/
theorem demo_unique : ∃ c, CacheReachable c ∧ ∀ k < 8, k ≠ 0 → ∀ m s m' s', WorkerResult demoExt c [50, 57] [] 0 m s →
    WorkerResult demoExt c [50, 57] [] k m' s' → s < s' := by
  obtain ⟨c, h1, h2⟩ := scoresAre_iff scores_check
  refine ⟨c, .start h1, fun k hk h0 m s m' s' a b => ?_⟩
  have e1 := scoresOf_get h2 (by omega) a
  have e2 := scoresOf_get h2 hk b
  have : k = 1 ∨ k = 2 ∨ k = 3 ∨ k = 4 ∨ k = 5 ∨ k = 6 ∨ k = 7 := by omega
  rcases this with rfl | rfl | rfl | rfl | rfl | rfl | rfl <;> cases e1 <;> cases e2 <;> decide

/-- **C19 is false in general**: with the standard's Reed-Solomon coder, two schedules of `New("19")` return different
bitmaps, because two masks tie for the lowest score and the first to arrive wins. -/
theorem C19_counterexample : ∃ c a a' q q', CacheReachable c ∧ Arrival a ∧ Arrival a' ∧
    newWith demoExt c a .string [49, 57] [] = .ok q ∧ newWith demoExt c a' .string [49, 57] [] = .ok q' ∧
    q.mat.bitmap ≠ q'.mat.bitmap := by
  obtain ⟨c, q, q', h1, h2, h3, h4⟩ := differ_iff tie_check
  exact ⟨c, _, _, q, q', .start h1, by unfold Arrival; decide, by unfold Arrival; decide, h2, h3, h4⟩

end QR
