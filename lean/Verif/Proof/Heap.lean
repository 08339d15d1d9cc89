import Verif.Model.Heap
import Verif.Spec.Provenance
import Verif.Proof.MatrixLemmas
/-!
# Memory: ownership invariant
-/
namespace QR.Heap
open QR Spec

/-- The event of an operation (forget the values). -/
def Op.event : Op → Event
  | .new _ _ => .create
  | .copy i => .copy i
  | .pass i => .pass i
  | .assign i j => .assign i j
  | .set i _ _ _ => .set i
  | .col i _ => .col i
  | .row i _ => .row i
  | .write j _ _ => .write j

theorem outer_alloc (H : Heap) (cs : List (List QRValue)) (o : Nat) :
    (H.alloc cs).1.outer o = if o = H.outers.length then (List.range cs.length).map (· + H.cols.length) else H.outer o := by
  unfold Heap.alloc Heap.outer
  simp only
  by_cases h : o = H.outers.length
  · subst h; simp
  · rw [if_neg h]
    by_cases h2 : o < H.outers.length
    · rw [List.getElem?_append_left h2]
    · rw [List.getElem?_append_right (by omega), List.getElem?_eq_none (by simp; omega), List.getElem?_eq_none (by omega)]

theorem col_alloc_old (H : Heap) (cs : List (List QRValue)) {a : Nat} (h : a < H.cols.length) :
    (H.alloc cs).1.col a = H.col a := by
  unfold Heap.alloc Heap.col
  simp only
  rw [List.getElem?_append_left h]

theorem col_alloc_new (H : Heap) (cs : List (List QRValue)) {i : Nat} (h : i < cs.length) :
    (H.alloc cs).1.col (i + H.cols.length) = cs[i] := by
  unfold Heap.alloc Heap.col
  simp only
  rw [List.getElem?_append_right (by omega), Nat.add_sub_cancel, List.getElem?_eq_getElem h]
  rfl

theorem map_col_new (H : Heap) (cs : List (List QRValue)) :
    ((List.range cs.length).map (· + H.cols.length)).map (H.alloc cs).1.col = cs := by
  rw [List.map_map]
  apply List.ext_getElem
  · simp
  · intro i h1 h2
    simp only [List.getElem_map, List.getElem_range, Function.comp_apply]
    exact col_alloc_new H cs h2

theorem outer_store (H : Heap) (a i : Nat) (c : QRValue) (o : Nat) : (H.store a i c).outer o = H.outer o := rfl

theorem col_store (H : Heap) (a i : Nat) (c : QRValue) (b : Nat) :
    (H.store a i c).col b = if a = b then (H.col b).set i c else H.col b := by
  unfold Heap.store Heap.col
  simp only [List.getElem?_modify]
  by_cases h : a = b
  · subst h
    simp only [if_true, Option.map_eq_map]
    cases H.cols[a]? <;> simp
  · simp only [if_neg h, Option.map_eq_map]
    cases H.cols[b]? <;> simp

theorem store_length (H : Heap) (a i : Nat) (c : QRValue) : (H.store a i c).cols.length = H.cols.length := by
  simp [Heap.store]

/-- Ownership: distinct objects have distinct columns. -/
structure HInv (W : World) (P : Objects) : Prop where
  mats : P.mats = W.mats.map (·.mat)
  count : P.count = W.heap.outers.length
  slen : P.slices.length = W.slices.length
  slices : ∀ (j a o : Nat), W.slices[j]? = some (some a) → P.slices[j]? = some o → a ∈ W.heap.outer o
  objs : ∀ m ∈ W.mats, m.mat < W.heap.outers.length ∧ (W.heap.outer m.mat).length = m.width ∧
    ∀ a ∈ W.heap.outer m.mat, (W.heap.col a).length = m.height
  disj : ∀ o o' a, a ∈ W.heap.outer o → a ∈ W.heap.outer o' → o = o'
  nodup : ∀ o, (W.heap.outer o).Nodup
  bound : ∀ o, ∀ a ∈ W.heap.outer o, a < W.heap.cols.length
  sbound : ∀ o ∈ P.slices, o < P.count

theorem outer_oob {H : Heap} {o : Nat} (h : H.outers.length ≤ o) : H.outer o = [] := by
  unfold Heap.outer; rw [List.getElem?_eq_none h]; rfl

/-- Adding a new object. -/
theorem inv_alloc {W : World} {P : Objects} (I : HInv W P) (cs : List (List QRValue)) (w h : Nat) (hw : cs.length = w)
    (hh : ∀ l ∈ cs, l.length = h) :
    HInv { W with heap := (W.heap.alloc cs).1, mats := W.mats ++ [⟨w, h, W.heap.outers.length⟩] }
      { P with mats := P.mats ++ [P.count], count := P.count + 1 } := by
  have hnew : ∀ a, a ∈ (List.range cs.length).map (· + W.heap.cols.length) ↔ ∃ i, i < cs.length ∧ a = i + W.heap.cols.length := by
    intro a
    rw [List.mem_map]
    constructor
    · rintro ⟨i, hi, rfl⟩; exact ⟨i, List.mem_range.1 hi, rfl⟩
    · rintro ⟨i, hi, rfl⟩; exact ⟨i, List.mem_range.2 hi, rfl⟩
  constructor
  · simp [I.mats, I.count]
  · simp [Heap.alloc, I.count]
  · exact I.slen
  · intro j a o h1 h2
    simp only
    rw [outer_alloc]
    have ho : o < P.count := I.sbound o (List.mem_of_getElem? h2)
    rw [if_neg (by have := I.count; omega)]
    exact I.slices j a o h1 h2
  · intro m hm
    rcases List.mem_append.1 hm with hm | hm
    · obtain ⟨h1, h2, h3⟩ := I.objs m hm
      simp only
      rw [outer_alloc, if_neg (by omega)]
      refine ⟨by simp [Heap.alloc]; omega, h2, ?_⟩
      intro a ha
      rw [col_alloc_old _ _ (I.bound _ a ha)]
      exact h3 a ha
    · simp only [List.mem_singleton] at hm
      subst hm
      simp only
      rw [outer_alloc, if_pos rfl]
      refine ⟨by simp [Heap.alloc], by simp [hw], ?_⟩
      intro a ha
      obtain ⟨i, hi, rfl⟩ := (hnew a).1 ha
      rw [col_alloc_new _ _ hi]
      exact hh _ (List.getElem_mem hi)
  · intro o o' a ha ha'
    simp only at ha ha'
    rw [outer_alloc] at ha ha'
    split at ha <;> split at ha'
    · omega
    · obtain ⟨i, hi, rfl⟩ := (hnew a).1 ha
      have := I.bound _ _ ha'
      omega
    · obtain ⟨i, hi, rfl⟩ := (hnew a).1 ha'
      have := I.bound _ _ ha
      omega
    · exact I.disj _ _ a ha ha'
  · intro o
    simp only
    rw [outer_alloc]
    split
    · rw [List.nodup_iff_pairwise_ne, List.pairwise_map]
      exact (List.nodup_iff_pairwise_ne.1 List.nodup_range).imp (fun h => by omega)
    · exact I.nodup o
  · intro o a ha
    simp only at ha ⊢
    rw [outer_alloc] at ha
    have hl : (W.heap.alloc cs).1.cols.length = W.heap.cols.length + cs.length := by simp [Heap.alloc]
    rw [hl]
    split at ha
    · obtain ⟨i, hi, rfl⟩ := (hnew a).1 ha; omega
    · have := I.bound _ a ha; omega
  · intro o ho
    have := I.sbound o ho
    simp only
    omega

/-- Storing into a column. -/
theorem inv_store {W : World} {P : Objects} (I : HInv W P) (a i : Nat) (c : QRValue) :
    HInv { W with heap := W.heap.store a i c } P := by
  constructor
  · exact I.mats
  · exact I.count
  · exact I.slen
  · exact I.slices
  · intro m hm
    obtain ⟨h1, h2, h3⟩ := I.objs m hm
    refine ⟨h1, h2, ?_⟩
    intro b hb
    simp only
    rw [col_store]
    split
    · rw [List.length_set]; exact h3 b hb
    · exact h3 b hb
  · exact I.disj
  · exact I.nodup
  · intro o b hb
    simp only
    rw [store_length]
    exact I.bound o b hb
  · exact I.sbound

theorem columnFrom_length (h : Nat) (l : List QRValue) : (columnFrom h l).length = h := by
  unfold columnFrom; simp; omega

/-- Adding a new array that no matrix variable shows. -/
theorem inv_fresh {W : World} {P : Objects} (I : HInv W P) (cs : List (List QRValue)) (h : Nat) (hh : ∀ l ∈ cs, l.length = h) :
    HInv { W with heap := (W.heap.alloc cs).1 } { P with count := P.count + 1 } := by
  have I' := inv_alloc I cs cs.length h rfl hh
  exact ⟨I.mats, I'.count, I.slen, I'.slices, fun m hm => I'.objs m (List.mem_append_left _ hm), I'.disj, I'.nodup, I'.bound,
    fun o ho => Nat.lt_succ_of_lt (I.sbound o ho)⟩

/-- Adding a slice of an object. -/
theorem inv_slice {W : World} {P : Objects} (I : HInv W P) (r : Option Nat) (o : Nat) (ho : o < P.count)
    (hr : ∀ a, r = some a → a ∈ W.heap.outer o) :
    HInv { W with slices := W.slices ++ [r] } { P with slices := P.slices ++ [o] } := by
  refine ⟨I.mats, I.count, by simp [I.slen], ?_, I.objs, I.disj, I.nodup, I.bound, ?_⟩
  · intro j a o' e1 e2
    simp only at e1 e2
    by_cases hj : j < W.slices.length
    · rw [List.getElem?_append_left hj] at e1
      rw [List.getElem?_append_left (by rw [I.slen]; exact hj)] at e2
      exact I.slices j a o' e1 e2
    · rw [List.getElem?_append_right (by omega)] at e1
      rw [List.getElem?_append_right (by rw [I.slen]; omega), I.slen] at e2
      cases hk : j - W.slices.length with
      | succ k => rw [hk] at e1; simp at e1
      | zero =>
        rw [hk] at e1 e2
        simp only [List.getElem?_cons_zero, Option.some.injEq] at e1 e2
        subst e2
        exact hr a e1
  · intro o' h'
    rcases List.mem_append.1 h' with h | h
    · exact I.sbound o' h
    · simp only [List.mem_singleton] at h
      subst h; exact ho

theorem inv_row {W : World} {P : Objects} (I : HInv W P) (m : Mat) (cur : Int) :
    HInv { W with heap := (W.heap.row m cur).1, slices := W.slices ++ [(W.heap.row m cur).2] }
      { P with slices := P.slices ++ [P.count], count := P.count + 1 } := by
  unfold Heap.row
  split
  · next vs _ =>
    refine inv_slice (inv_fresh I [vs] vs.length (by simp)) (some W.heap.cols.length) P.count (Nat.lt_succ_self _) ?_
    intro a ha
    cases ha
    simp only
    rw [outer_alloc, if_pos I.count]
    simp
  · exact inv_slice (inv_fresh I [] 0 (by simp)) none P.count (Nat.lt_succ_self _) (fun a ha => by cases ha)

theorem exec_inv {W : World} {P : Objects} (I : HInv W P) (op : Op) : HInv (exec W op) (P.step op.event) := by
  have hget : ∀ i : Nat, P.mats[i]? = (W.mats[i]?).map (·.mat) := by intro i; rw [I.mats, List.getElem?_map]
  cases op with
  | new w h =>
    exact inv_alloc I _ w h (by simp) (by intro l hl; rw [List.eq_of_mem_replicate hl]; simp)
  | copy i =>
    simp only [exec, Op.event, Objects.step]
    rw [hget]
    cases W.mats[i]? with
    | none => exact I
    | some m =>
      exact inv_alloc I _ m.width m.height (by simp) (by
        intro l hl
        obtain ⟨w, _, rfl⟩ := List.mem_map.1 hl
        exact columnFrom_length _ _)
  | pass i =>
    simp only [exec, Op.event, Objects.step]
    rw [hget]
    cases hm : W.mats[i]? with
    | none => exact I
    | some m =>
      refine ⟨by simp [I.mats], I.count, I.slen, I.slices, ?_, I.disj, I.nodup, I.bound, I.sbound⟩
      intro m' hm'
      rcases List.mem_append.1 hm' with h | h
      · exact I.objs m' h
      · simp only [List.mem_singleton] at h; subst h; exact I.objs _ (List.mem_of_getElem? hm)
  | assign i j =>
    simp only [exec, Op.event, Objects.step]
    rw [hget]
    cases hm : W.mats[j]? with
    | none => exact I
    | some m =>
      refine ⟨by simp [I.mats, List.map_set], I.count, I.slen, I.slices, ?_, I.disj, I.nodup, I.bound, I.sbound⟩
      intro m' hm'
      rcases List.mem_or_eq_of_mem_set hm' with h | h
      · exact I.objs m' h
      · subst h; exact I.objs _ (List.mem_of_getElem? hm)
  | set i w h c =>
    simp only [exec, Op.event, Objects.step]
    cases hm : W.mats[i]? with
    | none => exact I
    | some m =>
      simp only
      unfold Heap.set
      split
      · exact I
      split
      · exact I
      split
      · exact inv_store I _ _ _
      · exact I
  | col i cur =>
    simp only [exec, Op.event, Objects.step]
    rw [hget]
    cases hm : W.mats[i]? with
    | none => exact I
    | some m =>
      obtain ⟨h1, h2, h3⟩ := I.objs m (List.mem_of_getElem? hm)
      refine ⟨I.mats, I.count, by simp [I.slen], ?_, I.objs, I.disj, I.nodup, I.bound, ?_⟩
      · intro j a o e1 e2
        simp only [Option.map_some] at e1 e2
        by_cases hj : j < W.slices.length
        · rw [List.getElem?_append_left hj] at e1
          rw [List.getElem?_append_left (by rw [I.slen]; exact hj)] at e2
          exact I.slices j a o e1 e2
        · rw [List.getElem?_append_right (by omega)] at e1
          rw [List.getElem?_append_right (by rw [I.slen]; omega), I.slen] at e2
          cases hk : j - W.slices.length with
          | succ k => rw [hk] at e1; simp at e1
          | zero =>
            rw [hk] at e1 e2
            simp only [List.getElem?_cons_zero, Option.some.injEq] at e1 e2
            subst e2
            unfold Heap.colRef at e1
            split at e1
            · cases e1
            · exact List.mem_of_getElem? e1
      · intro o ho
        simp only [Option.map_some] at ho
        rcases List.mem_append.1 ho with h | h
        · exact I.sbound o h
        · simp only [List.mem_singleton] at h
          subst h; have := I.count; show m.mat < P.count; omega
  | row i cur =>
    simp only [exec, Op.event, Objects.step]
    rw [hget]
    cases hm : W.mats[i]? with
    | none => exact I
    | some m => exact inv_row I m cur
  | write j k c =>
    simp only [exec, Op.event, Objects.step]
    split
    · split
      · exact inv_store I _ _ _
      · exact I
    · exact I

theorem history_inv (ops : List Op) : ∀ {W : World} {P : Objects}, HInv W P →
    HInv (history W ops) ((ops.map Op.event).foldl Objects.step P) := by
  induction ops with
  | nil => intro W P I; exact I
  | cons op ops ih => intro W P I; exact ih (exec_inv I op)

theorem empty_inv : HInv empty ⟨[], [], 0⟩ := by
  have ho : ∀ o, empty.heap.outer o = [] := fun o => outer_oob (by simp [empty])
  refine ⟨rfl, rfl, rfl, ?_, ?_, ?_, ?_, ?_, ?_⟩
  · intro j a o h; simp [empty] at h
  · intro m hm; simp [empty] at hm
  · intro o o' a h; rw [ho] at h; cases h
  · intro o; rw [ho]; exact List.nodup_nil
  · intro o a h; rw [ho] at h; cases h
  · intro o h; cases h

/-! ## Frame -/

theorem view_alloc {W : World} {P : Objects} (I : HInv W P) (cs : List (List QRValue)) {m : Mat} (hm : m ∈ W.mats) :
    (W.heap.alloc cs).1.view m = W.heap.view m := by
  obtain ⟨h1, h2, h3⟩ := I.objs m hm
  unfold Heap.view
  rw [outer_alloc, if_neg (by omega)]
  congr 1
  apply List.map_congr_left
  intro a ha
  exact col_alloc_old _ _ (I.bound _ a ha)

theorem view_store {W : World} {a i : Nat} {c : QRValue} {m : Mat} (h : a ∉ W.heap.outer m.mat) :
    (W.heap.store a i c).view m = W.heap.view m := by
  unfold Heap.view
  rw [outer_store]
  congr 1
  apply List.map_congr_left
  intro b hb
  rw [col_store, if_neg (by intro e; subst e; exact h hb)]

/-- An operation that does not write to the object shown by variable `k` and does not assign `k` leaves what it shows. -/
theorem frame {W : World} {P : Objects} (I : HInv W P) (op : Op) {k : Nat} {m : Mat} (hk : W.mats[k]? = some m)
    (ha : ∀ j, op.event ≠ .assign k j) (hw : P.written op.event ≠ P.mats[k]?) :
    (exec W op).mats[k]? = some m ∧ (exec W op).heap.view m = W.heap.view m := by
  have hget : ∀ i : Nat, P.mats[i]? = (W.mats[i]?).map (·.mat) := by intro i; rw [I.mats, List.getElem?_map]
  have hmem := List.mem_of_getElem? hk
  have hkl : k < W.mats.length := (List.getElem?_eq_some_iff.1 hk).1
  have happ : ∀ m', (W.mats ++ [m'])[k]? = some m := fun m' => by rw [List.getElem?_append_left hkl]; exact hk
  rw [hget k, hk, Option.map_some] at hw
  cases op with
  | new w h => exact ⟨happ _, view_alloc I _ hmem⟩
  | copy i =>
    simp only [exec]
    cases hm : W.mats[i]? with
    | none => exact ⟨hk, rfl⟩
    | some m' => exact ⟨happ _, view_alloc I _ hmem⟩
  | pass i =>
    simp only [exec]
    cases hm : W.mats[i]? with
    | none => exact ⟨hk, rfl⟩
    | some m' => exact ⟨happ _, rfl⟩
  | assign i j =>
    simp only [exec]
    cases hm : W.mats[j]? with
    | none => exact ⟨hk, rfl⟩
    | some m' =>
      refine ⟨?_, rfl⟩
      simp only
      rw [List.getElem?_set_ne]
      · exact hk
      · intro e; subst e; exact ha j rfl
  | set i w h c =>
    simp only [exec]
    simp only [Op.event, Objects.written] at hw
    rw [hget i] at hw
    cases hm : W.mats[i]? with
    | none => exact ⟨hk, rfl⟩
    | some m' =>
      rw [hm, Option.map_some] at hw
      refine ⟨hk, ?_⟩
      simp only
      unfold Heap.set
      split
      · rfl
      split
      · rfl
      split
      · next a he =>
        apply view_store
        intro h
        exact hw (congrArg some (I.disj _ _ a (List.mem_of_getElem? he) h))
      · rfl
  | col i cur =>
    simp only [exec]
    cases hm : W.mats[i]? with
    | none => exact ⟨hk, rfl⟩
    | some m' => exact ⟨hk, rfl⟩
  | row i cur =>
    simp only [exec]
    cases hm : W.mats[i]? with
    | none => exact ⟨hk, rfl⟩
    | some m' =>
      refine ⟨hk, ?_⟩
      simp only [Heap.row]
      split <;> exact view_alloc I _ hmem
  | write j l c =>
    simp only [exec]
    simp only [Op.event, Objects.written] at hw
    split
    · next a he =>
      split
      · refine ⟨hk, view_store ?_⟩
        intro h
        have hj : j < W.slices.length := (List.getElem?_eq_some_iff.1 he).1
        obtain ⟨o, ho⟩ : ∃ o, P.slices[j]? = some o := ⟨_, List.getElem?_eq_getElem (by rw [I.slen]; exact hj)⟩
        have := I.slices j a o he ho
        have := I.disj _ _ a this h
        subst this
        exact hw ho
      · exact ⟨hk, rfl⟩
    · exact ⟨hk, rfl⟩

/-! ## The memory model refines the functional model -/

theorem view_set {W : World} {P : Objects} (I : HInv W P) {m : Mat} (hm : m ∈ W.mats) (w h : Int) (c : QRValue) :
    (W.heap.set m w h c).view m = (W.heap.view m).set w h c := by
  obtain ⟨h1, h2, h3⟩ := I.objs m hm
  unfold Heap.set Matrix.set Matrix.setE
  have e1 : (W.heap.view m).width = m.width := rfl
  have e2 : (W.heap.view m).height = m.height := rfl
  rw [e1, e2]
  split
  · rfl
  split
  · rfl
  next hw hh =>
  have hlt : w.toNat < (W.heap.outer m.mat).length := by rw [h2]; omega
  rw [List.getElem?_eq_getElem hlt]
  simp only
  unfold Matrix.rawSet Heap.view
  rw [outer_store]
  simp only [Matrix.mk.injEq, true_and]
  apply List.ext_getElem
  · simp
  · intro i i1 i2
    simp only [List.length_map] at i1
    rw [List.getElem_modify]
    simp only [List.getElem_map]
    rw [col_store]
    by_cases hi : w.toNat = i
    · subst hi; simp
    · rw [if_neg hi, if_neg]
      intro e
      exact hi ((List.getElem_inj (I.nodup m.mat)).1 e)

theorem view_copy {W : World} {P : Objects} (I : HInv W P) {m : Mat} (hm : m ∈ W.mats) :
    (W.heap.copy m).1.view (W.heap.copy m).2 = (W.heap.view m).copy := by
  obtain ⟨h1, h2, h3⟩ := I.objs m hm
  have key : ∀ cs : List (List QRValue), ((W.heap.alloc cs).1.outer W.heap.outers.length).map (W.heap.alloc cs).1.col = cs := by
    intro cs
    rw [outer_alloc, if_pos rfl, map_col_new]
  show Matrix.mk m.width m.height (((W.heap.alloc _).1.outer W.heap.outers.length).map (W.heap.alloc _).1.col) = _
  rw [key]
  unfold Matrix.copy
  have e1 : (W.heap.view m).width = m.width := rfl
  have e2 : (W.heap.view m).height = m.height := rfl
  rw [e1, e2]
  simp only [Matrix.mk.injEq, true_and]
  apply List.map_congr_left
  intro w hw
  have hwl : w < (W.heap.outer m.mat).length := by rw [h2]; exact List.mem_range.1 hw
  rw [List.getElem?_eq_getElem hwl]
  have hl := h3 _ (List.getElem_mem hwl)
  simp only [Option.getD_some]
  unfold columnFrom
  rw [hl, Nat.sub_self, List.replicate_zero, List.append_nil, List.take_of_length_le (by omega)]
  apply List.ext_getElem
  · simp [hl]
  · intro i i1 i2
    simp only [List.getElem_map, List.getElem_range]
    unfold Matrix.raw Heap.view
    simp only [List.getElem?_map, List.getElem?_eq_getElem hwl, Option.map_some, Option.getD_some]
    simp [List.getD, List.getElem?_eq_getElem i1]

end QR.Heap
