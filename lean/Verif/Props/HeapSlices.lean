import Verif.Proof.HeapCol
/-!
# C87: what `Row` returns is a copy; what `Col` returns is the column itself
-/
namespace QR.Heap
open QR Spec

/-- Only slice `s` refers to object `o`. -/
def Private (P : Objects) (s o : Nat) : Prop :=
  P.slices[s]? = some o ∧ o < P.count ∧ (∀ k : Nat, P.mats[k]? ≠ some o) ∧ ∀ j : Nat, j ≠ s → P.slices[j]? ≠ some o

theorem concat_ne {l : List Nat} {x o : Nat} (h : ∀ k : Nat, l[k]? ≠ some o) (hx : x ≠ o) : ∀ k : Nat, (l ++ [x])[k]? ≠ some o := by
  intro k hk
  by_cases hl : k < l.length
  · rw [List.getElem?_append_left hl] at hk; exact h k hk
  · have := List.mem_of_getElem? hk
    rcases List.mem_append.1 this with h' | h'
    · obtain ⟨i, hi⟩ := List.mem_iff_getElem?.1 h'
      exact h i hi
    · simp only [List.mem_singleton] at h'; exact hx h'.symm

theorem slices_concat {P : Objects} {s o x : Nat} (h1 : P.slices[s]? = some o) (h4 : ∀ j : Nat, j ≠ s → P.slices[j]? ≠ some o)
    (hx : x ≠ o) : (P.slices ++ [x])[s]? = some o ∧ ∀ j : Nat, j ≠ s → (P.slices ++ [x])[j]? ≠ some o := by
  refine ⟨(List.getElem?_append_left (List.getElem?_eq_some_iff.1 h1).1).trans h1, ?_⟩
  intro j hj he
  by_cases hl : j < P.slices.length
  · rw [List.getElem?_append_left hl] at he; exact h4 j hj he
  · rw [List.getElem?_append_right (by omega)] at he
    cases hk : j - P.slices.length with
    | succ k => rw [hk] at he; simp at he
    | zero => rw [hk] at he; simp at he; exact hx he

theorem private_step {P : Objects} {s o : Nat} (h : Private P s o) (e : Event) : Private (P.step e) s o := by
  obtain ⟨h1, h2, h3, h4⟩ := h
  cases e with
  | create => exact ⟨h1, Nat.lt_succ_of_lt h2, concat_ne h3 (by omega), h4⟩
  | copy i =>
    simp only [Objects.step]
    split
    · exact ⟨h1, Nat.lt_succ_of_lt h2, concat_ne h3 (by omega), h4⟩
    · exact ⟨h1, h2, h3, h4⟩
  | pass i =>
    simp only [Objects.step]
    split
    · next x hx => exact ⟨h1, h2, concat_ne h3 (fun e => h3 i (e ▸ hx)), h4⟩
    · exact ⟨h1, h2, h3, h4⟩
  | assign i j =>
    simp only [Objects.step]
    split
    · next x hx =>
      refine ⟨h1, h2, ?_, h4⟩
      intro k hk
      simp only at hk
      rw [List.getElem?_set] at hk
      split at hk
      · split at hk
        · cases hk; exact h3 j hx
        · cases hk
      · exact h3 k hk
    · exact ⟨h1, h2, h3, h4⟩
  | col i =>
    simp only [Objects.step]
    split
    · next x hx =>
      obtain ⟨q1, q2⟩ := slices_concat h1 h4 (fun e => h3 i (e ▸ hx))
      exact ⟨q1, h2, h3, q2⟩
    · exact ⟨h1, h2, h3, h4⟩
  | row i =>
    simp only [Objects.step]
    split
    · obtain ⟨q1, q2⟩ := slices_concat (x := P.count) h1 h4 (by omega)
      exact ⟨q1, Nat.lt_succ_of_lt h2, h3, q2⟩
    · exact ⟨h1, h2, h3, h4⟩
  | set i => exact ⟨h1, h2, h3, h4⟩
  | write j => exact ⟨h1, h2, h3, h4⟩

theorem private_after (es : List Event) : ∀ {P : Objects} {s o : Nat}, Private P s o → Private (es.foldl Objects.step P) s o := by
  induction es with
  | nil => intro P s o h; exact h
  | cons e es ih => intro P s o h; exact ih (private_step h e)

/-- One step that does not write through a private slice leaves what the slice shows. -/
theorem exec_reads {W : World} {P : Objects} (I : HInv W P) (op : Op) {s o : Nat} (hp : Private P s o)
    {v : Option (List QRValue)} (hr : Reads W s v) (hw : ∀ k c, op ≠ .write s k c) : Reads (exec W op) s v := by
  obtain ⟨r, r1, r2⟩ := hr
  obtain ⟨p1, p2, p3, p4⟩ := hp
  have hs : s < W.slices.length := (List.getElem?_eq_some_iff.1 r1).1
  have hin : ∀ a, r = some a → a ∈ W.heap.outer o := fun a ha => I.slices s a o (ha ▸ r1) p1
  have halloc : ∀ cs, r.map (W.heap.alloc cs).1.col = v := by
    intro cs
    cases r with
    | none => exact r2
    | some a =>
      rw [← r2]
      simp only [Option.map_some]
      rw [col_alloc_old _ _ (I.bound _ a (hin a rfl))]
  have hstore : ∀ a l c, (∀ b, r = some b → a ≠ b) → r.map (W.heap.store a l c).col = v := by
    intro a l c h
    cases r with
    | none => exact r2
    | some b =>
      rw [← r2]
      simp only [Option.map_some]
      rw [col_store, if_neg (h b rfl)]
  have hmo : ∀ (i : Nat) m, W.mats[i]? = some m → m.mat ≠ o := by
    intro i m hm e
    refine p3 i ?_
    rw [I.mats, List.getElem?_map, hm, ← e]; rfl
  cases op with
  | new w h => exact ⟨r, r1, halloc _⟩
  | copy k =>
    simp only [exec]
    split
    · exact ⟨r, r1, halloc _⟩
    · exact ⟨r, r1, r2⟩
  | pass k => simp only [exec]; split <;> exact ⟨r, r1, r2⟩
  | assign k j => simp only [exec]; split <;> exact ⟨r, r1, r2⟩
  | set k w h c =>
    simp only [exec]
    split
    · next m hm =>
      refine ⟨r, r1, ?_⟩
      simp only [Heap.set]
      split
      · exact r2
      split
      · exact r2
      split
      · next a ha =>
        apply hstore
        intro b hb e
        subst e
        exact hmo _ _ hm (I.disj _ _ a (List.mem_of_getElem? ha) (hin a hb))
      · exact r2
    · exact ⟨r, r1, r2⟩
  | col k cur =>
    simp only [exec]
    split
    · exact ⟨r, (List.getElem?_append_left hs).trans r1, r2⟩
    · exact ⟨r, r1, r2⟩
  | row k cur =>
    simp only [exec]
    split
    · refine ⟨r, (List.getElem?_append_left hs).trans r1, ?_⟩
      simp only [Heap.row]
      split <;> exact halloc _
    · exact ⟨r, r1, r2⟩
  | write j k c =>
    have hj : j ≠ s := fun e => hw k c (e ▸ rfl)
    simp only [exec]
    split
    · next a ha =>
      split
      · refine ⟨r, r1, hstore a k c ?_⟩
        intro b hb e
        subst e
        have hjl : j < W.slices.length := (List.getElem?_eq_some_iff.1 ha).1
        obtain ⟨o', ho'⟩ : ∃ o', P.slices[j]? = some o' := ⟨_, List.getElem?_eq_getElem (by rw [I.slen]; exact hjl)⟩
        have := I.slices j a o' ha ho'
        have := I.disj _ _ a this (hin a hb)
        subst this
        exact p4 j hj ho'
      · exact ⟨r, r1, r2⟩
    · exact ⟨r, r1, r2⟩

theorem history_reads (ops : List Op) : ∀ {W : World} {P : Objects}, HInv W P → ∀ {s o : Nat}, Private P s o →
    ∀ {v : Option (List QRValue)}, Reads W s v → (∀ k c, Op.write s k c ∉ ops) → Reads (history W ops) s v := by
  induction ops with
  | nil => intro W P _ s o _ v h _; exact h
  | cons op ops ih =>
    intro W P I s o hp v hr hw
    exact ih (exec_inv I op) (private_step hp _) (exec_reads I op hp hr (fun k c e => hw k c (by simp [e])))
      (fun k c h => hw k c (by simp [h]))

theorem rowVals_view {W : World} {P : Objects} (I : HInv W P) {m : Mat} (hm : m ∈ W.mats) {cur : Int}
    {v : Option (List QRValue)} (h : (W.heap.view m).row cur = .ok v) : W.heap.rowVals m cur = v := by
  unfold Matrix.row at h
  have e1 : (W.heap.view m).width = m.width := rfl
  have e2 : (W.heap.view m).height = m.height := rfl
  rw [e1, e2] at h
  unfold Heap.rowVals
  split at h
  · next hc => rw [if_pos hc]; exact Res.ok.inj h
  · next hc =>
    rw [if_neg hc]
    split at h
    · cases h
    · next hc2 =>
      rw [if_neg hc2, ← Res.ok.inj h]
      congr 2
      apply List.map_congr_left
      intro w hw
      have hwl : w < (W.heap.outer m.mat).length := by rw [(I.objs m hm).2.1]; exact List.mem_range.1 hw
      unfold Matrix.raw Heap.view
      simp only [List.getElem?_map]
      rw [List.getElem?_eq_getElem hwl]
      rfl

theorem step_row_private (ops : List Op) {i : Nat} {m : Mat} (h : (history empty ops).mats[i]? = some m) (cur : Int) :
    Private (objects (ops ++ [.row i cur])) (sliceVar ops) (objects ops).count := by
  have I := reach_inv ops
  have hobj : objects (ops ++ [.row i cur]) = (objects ops).step (.row i) := by
    unfold objects Objects.after
    rw [List.map_append, List.foldl_append]; rfl
  have hget : (objects ops).mats[i]? = some m.mat := by rw [I.mats, List.getElem?_map, h]; rfl
  rw [hobj]
  simp only [Objects.step, hget]
  refine ⟨by simp [sliceVar], Nat.lt_succ_self _, ?_, ?_⟩
  · intro k hk
    simp only at hk
    rw [I.mats, List.getElem?_map] at hk
    cases hm : (history empty ops).mats[k]? with
    | none => rw [hm] at hk; cases hk
    | some m' =>
      rw [hm] at hk
      have := (I.objs m' (List.mem_of_getElem? hm)).1
      simp only [Option.map_some, Option.some.injEq] at hk
      have := I.count
      omega
  · intro j hj he
    simp only at he
    by_cases hl : j < (objects ops).slices.length
    · rw [List.getElem?_append_left hl] at he
      have := I.sbound _ (List.mem_of_getElem? he)
      omega
    · rw [List.getElem?_eq_none (by simp; unfold sliceVar at hj; omega)] at he
      cases he

theorem objects_append (a b : List Op) : objects (a ++ b) = (b.map Op.event).foldl Objects.step (objects a) := by
  unfold objects Objects.after
  rw [List.map_append, List.foldl_append]

/-- **C87, a row is a snapshot.**  The slice returned by `Row` shows the row as it was when `Row` was called, whatever the
program does afterwards to the matrix or to anything else, short of writing through that slice. -/
theorem C87_row_snapshot (ops ops2 : List Op) {i : Nat} {M : Matrix} (h : Shows (history empty ops) i M) {cur : Int}
    {v : Option (List QRValue)} (hv : M.row cur = .ok v) (hw : ∀ k c, Op.write (sliceVar ops) k c ∉ ops2) :
    Reads (history empty (ops ++ .row i cur :: ops2)) (sliceVar ops) v := by
  obtain ⟨m, h1, h2⟩ := h
  have I := reach_inv ops
  have hs : sliceVar ops = (history empty ops).slices.length := I.slen
  have hh : ops ++ .row i cur :: ops2 = (ops ++ [.row i cur]) ++ ops2 := by simp
  rw [hh, history_append]
  refine history_reads ops2 (reach_inv _) (step_row_private ops h1 cur) ?_ hw
  rw [history_append]
  have hr := rowVals_view I (List.mem_of_getElem? h1) (h2 ▸ hv)
  show Reads (exec (history empty ops) (.row i cur)) _ v
  simp only [exec, h1, Heap.row, hr]
  cases v with
  | none => exact ⟨none, by rw [hs]; simp, rfl⟩
  | some vs =>
    refine ⟨some (history empty ops).heap.cols.length, by rw [hs]; simp, ?_⟩
    simp only [Option.map_some]
    congr 1
    have := col_alloc_new (history empty ops).heap [vs] (i := 0) (by simp)
    rw [Nat.zero_add] at this
    exact this

/-- **C87, a row is not a window.**  Writing through a slice that `Row` returned changes no matrix. -/
theorem C87_row_write (ops ops2 : List Op) {i : Nat} {M : Matrix} (h : Shows (history empty ops) i M) (cur : Int) {k : Nat}
    {M' : Matrix} (h' : Shows (history empty (ops ++ .row i cur :: ops2)) k M') (l : Nat) (c : QRValue) :
    Shows (history empty (ops ++ .row i cur :: ops2 ++ [.write (sliceVar ops) l c])) k M' := by
  obtain ⟨m, h1, _⟩ := h
  have hp : Private (objects (ops ++ .row i cur :: ops2)) (sliceVar ops) (objects ops).count := by
    have hh : ops ++ .row i cur :: ops2 = (ops ++ [.row i cur]) ++ ops2 := by simp
    rw [hh, objects_append]
    exact private_after _ (step_row_private ops h1 cur)
  refine C32_frame _ _ h' ⟨?_, ?_, trivial⟩
  · intro j hj; cases hj
  · simp only [Op.event, Objects.written]
    rw [hp.1]
    exact fun e => hp.2.2.1 k e.symm

/-- **C87, the columns.**  The slice returned by `Col` shows the column as it is at any later time, and writing element `k`
of it is setting the module in that column and row: `Row` and `Col` differ in this. -/
theorem C87_col_window (ops ops2 : List Op) {i : Nat} {M : Matrix} (h : Shows (history empty ops) i M) (cur : Int)
    (hn : NoAssign i (ops2.map Op.event)) :
    ∃ M', Shows (history empty (ops ++ .col i cur :: ops2)) i M' ∧ M'.width = M.width ∧ M'.height = M.height ∧
      Reads (history empty (ops ++ .col i cur :: ops2)) (sliceVar ops) (M'.col cur) ∧
      ∀ (k : Nat) c, Shows (history empty (ops ++ .col i cur :: ops2 ++ [.write (sliceVar ops) k c])) i (M'.set cur k c) := by
  obtain ⟨M', a, b, c, d⟩ := col_window ops ops2 h cur hn
  exact ⟨M', a, b, c, d, fun k v => col_write ops ops2 h cur hn a k v⟩

/-- The hypotheses are met: a row and a column taken before the matrix is written to; the row does not follow, the column
does. -/
example : Shows (history empty [.new 3 3]) 0 (newMatrix 3 3) ∧ NoAssign 0 ([Op.set 0 1 2 DATA_V1, .new 1 1].map Op.event) ∧
    (newMatrix 3 3).row 2 = .ok (some [INIT_V0, INIT_V0, INIT_V0]) ∧
    (∀ k c, Op.write 0 k c ∉ [Op.set 0 1 2 DATA_V1, .new 1 1]) ∧
    Reads (history empty ([.new 3 3] ++ .row 0 2 :: [.set 0 1 2 DATA_V1, .new 1 1])) 0 (some [INIT_V0, INIT_V0, INIT_V0]) ∧
    Reads (history empty ([.new 3 3] ++ .col 0 1 :: [.set 0 1 2 DATA_V1, .new 1 1])) 0 (some [INIT_V0, INIT_V0, DATA_V1]) := by
  refine ⟨⟨_, rfl, by decide⟩, ?_, by decide, by simp, ⟨_, rfl, by decide⟩, ⟨_, rfl, by decide⟩⟩
  intro e he j hj
  simp [Op.event] at he
  rcases he with rfl | rfl <;> cases hj

end QR.Heap
