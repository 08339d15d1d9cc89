import Verif.Props.Heap
/-!
# What `Col` returns is a window on the column asked for

`Reads W s v`: in the state `W` slice variable `s` shows `v` (`none` is nil).
-/
namespace QR.Heap
open QR Spec

def Reads (W : World) (s : Nat) (v : Option (List QRValue)) : Prop := ∃ r, W.slices[s]? = some r ∧ r.map W.heap.col = v

/-- The new slice variable after `Col`. -/
def sliceVar (ops : List Op) : Nat := (objects ops).slices.length

/-- One step keeps a matrix variable, a slice variable and the columns of the matrix where they are. -/
theorem exec_keeps {W : World} {P : Objects} (I : HInv W P) (op : Op) {i s : Nat} {m : Mat} {r : Option Nat}
    (h1 : W.mats[i]? = some m) (h2 : W.slices[s]? = some r) (ha : ∀ j, op.event ≠ .assign i j) :
    (exec W op).mats[i]? = some m ∧ (exec W op).slices[s]? = some r ∧ (exec W op).heap.outer m.mat = W.heap.outer m.mat := by
  have hl : i < W.mats.length := (List.getElem?_eq_some_iff.1 h1).1
  have hs : s < W.slices.length := (List.getElem?_eq_some_iff.1 h2).1
  have ho := (I.objs m (List.mem_of_getElem? h1)).1
  have halloc : ∀ cs, (W.heap.alloc cs).1.outer m.mat = W.heap.outer m.mat := by
    intro cs; rw [outer_alloc, if_neg (by omega)]
  cases op with
  | new w h => exact ⟨(List.getElem?_append_left hl).trans h1, h2, halloc _⟩
  | copy k =>
    simp only [exec]
    split
    · exact ⟨(List.getElem?_append_left hl).trans h1, h2, halloc _⟩
    · exact ⟨h1, h2, rfl⟩
  | pass k =>
    simp only [exec]
    split
    · exact ⟨(List.getElem?_append_left hl).trans h1, h2, rfl⟩
    · exact ⟨h1, h2, rfl⟩
  | assign k j =>
    simp only [exec]
    split
    · refine ⟨?_, h2, rfl⟩
      simp only
      rw [List.getElem?_set_ne]
      · exact h1
      · intro e; subst e; exact ha j rfl
    · exact ⟨h1, h2, rfl⟩
  | set k w h c =>
    simp only [exec]
    split
    · refine ⟨h1, h2, ?_⟩
      simp only [Heap.set]
      split
      · rfl
      split
      · rfl
      split <;> rfl
    · exact ⟨h1, h2, rfl⟩
  | col k cur =>
    simp only [exec]
    split
    · exact ⟨h1, (List.getElem?_append_left hs).trans h2, rfl⟩
    · exact ⟨h1, h2, rfl⟩
  | row k cur =>
    simp only [exec]
    split
    · refine ⟨h1, (List.getElem?_append_left hs).trans h2, ?_⟩
      simp only [Heap.row]
      split <;> exact halloc _
    · exact ⟨h1, h2, rfl⟩
  | write j k c =>
    simp only [exec]
    split
    · split
      · exact ⟨h1, h2, rfl⟩
      · exact ⟨h1, h2, rfl⟩
    · exact ⟨h1, h2, rfl⟩

theorem history_keeps (ops : List Op) : ∀ {W : World} {P : Objects}, HInv W P → ∀ {i s : Nat} {m : Mat} {r : Option Nat},
    W.mats[i]? = some m → W.slices[s]? = some r → NoAssign i (ops.map Op.event) →
    (history W ops).mats[i]? = some m ∧ (history W ops).slices[s]? = some r ∧
      (history W ops).heap.outer m.mat = W.heap.outer m.mat := by
  induction ops with
  | nil => intro W P _ i s m r h1 h2 _; exact ⟨h1, h2, rfl⟩
  | cons op ops ih =>
    intro W P I i s m r h1 h2 hn
    obtain ⟨k1, k2, k3⟩ := exec_keeps I op h1 h2 (hn _ (by simp))
    obtain ⟨q1, q2, q3⟩ := ih (exec_inv I op) k1 k2 (fun e he => hn e (by simp [he]))
    exact ⟨q1, q2, q3.trans k3⟩

theorem view_col (H : Heap) (m : Mat) (cur : Int) : (H.colRef m cur).map H.col = (H.view m).col cur := by
  unfold Heap.colRef Matrix.col Heap.view
  simp only
  split
  · rfl
  · rw [List.getElem?_map]

theorem after_col (ops ops2 : List Op) {i : Nat} {m : Mat} (h : (history empty ops).mats[i]? = some m) (cur : Int)
    (hn : NoAssign i (ops2.map Op.event)) :
    (history empty (ops ++ .col i cur :: ops2)).mats[i]? = some m ∧
    (history empty (ops ++ .col i cur :: ops2)).slices[sliceVar ops]? =
      some ((history empty (ops ++ .col i cur :: ops2)).heap.colRef m cur) := by
  have I := reach_inv ops
  have I1 := exec_inv I (.col i cur)
  have e : exec (history empty ops) (.col i cur) =
      { history empty ops with slices := (history empty ops).slices ++ [(history empty ops).heap.colRef m cur] } := by
    simp only [exec, h]
  have hs : sliceVar ops = (history empty ops).slices.length := I.slen
  have h1 : (exec (history empty ops) (.col i cur)).mats[i]? = some m := by rw [e]; exact h
  have h2 : (exec (history empty ops) (.col i cur)).slices[sliceVar ops]? = some ((history empty ops).heap.colRef m cur) := by
    rw [e, hs]; simp
  have hh : history empty (ops ++ .col i cur :: ops2) = history (exec (history empty ops) (.col i cur)) ops2 := by
    rw [history_append]; rfl
  rw [hh]
  obtain ⟨k1, k2, k3⟩ := history_keeps ops2 I1 h1 h2 hn
  refine ⟨k1, ?_⟩
  rw [k2]
  unfold Heap.colRef
  rw [k3, e]

/-- Whatever the program did before and does afterwards (short of assigning the variable), the slice that
`Col` returned shows the current contents of the column asked for, and is nil if there is none. -/
theorem col_window (ops ops2 : List Op) {i : Nat} {M : Matrix} (h : Shows (history empty ops) i M) (cur : Int)
    (hn : NoAssign i (ops2.map Op.event)) :
    ∃ M', Shows (history empty (ops ++ .col i cur :: ops2)) i M' ∧ M'.width = M.width ∧ M'.height = M.height ∧
      Reads (history empty (ops ++ .col i cur :: ops2)) (sliceVar ops) (M'.col cur) := by
  obtain ⟨m, h1, h2⟩ := h
  obtain ⟨k1, k2⟩ := after_col ops ops2 h1 cur hn
  refine ⟨_, ⟨m, k1, rfl⟩, ?_, ?_, _, k2, view_col _ _ _⟩
  · rw [← h2]; rfl
  · rw [← h2]; rfl

/-- Writing element `k` of such a slice is the same as setting the module in that column and
row; a write outside the slice changes nothing. -/
theorem col_write (ops ops2 : List Op) {i : Nat} {M M' : Matrix} (h : Shows (history empty ops) i M) (cur : Int)
    (hn : NoAssign i (ops2.map Op.event)) (h' : Shows (history empty (ops ++ .col i cur :: ops2)) i M') (k : Nat) (c : QRValue) :
    Shows (history empty (ops ++ .col i cur :: ops2 ++ [.write (sliceVar ops) k c])) i (M'.set cur k c) := by
  obtain ⟨m, h1, _⟩ := h
  obtain ⟨k1, k2⟩ := after_col ops ops2 h1 cur hn
  obtain ⟨m', h3, h4⟩ := h'
  rw [k1] at h3
  cases h3
  rw [history_append]
  generalize hW : history empty (ops ++ .col i cur :: ops2) = W at *
  have I : HInv W (objects (ops ++ .col i cur :: ops2)) := hW ▸ reach_inv _
  have hmem := List.mem_of_getElem? k1
  obtain ⟨_, g2, g3⟩ := I.objs m hmem
  refine ⟨m, ?_, ?_⟩
  · show (exec W (.write (sliceVar ops) k c)).mats[i]? = some m
    simp only [exec]
    split
    · split <;> exact k1
    · exact k1
  · show (exec W (.write (sliceVar ops) k c)).heap.view m = M'.set cur k c
    rw [← h4, ← view_set I hmem]
    simp only [exec, k2]
    unfold Heap.colRef Heap.set
    by_cases hc : cur ≥ m.width ∨ cur < 0
    · rw [if_pos hc, if_pos hc]
    · rw [if_neg hc, if_neg hc]
      have hlt : cur.toNat < (W.heap.outer m.mat).length := by omega
      rw [List.getElem?_eq_getElem hlt]
      simp only
      have hl := g3 _ (List.getElem_mem hlt)
      rw [hl]
      by_cases hk : k < m.height
      · rw [if_pos hk, if_neg (by omega)]; rfl
      · rw [if_neg hk, if_pos (by omega)]

end QR.Heap
