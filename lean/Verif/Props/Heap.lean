import Verif.Proof.Heap
import Verif.Proof.Bitmap
import Verif.Props.MatrixApi
/-!
# C32, C33: aliasing of matrices

A history is a list of operations of a program (`Model/Heap.lean`), starting with no variables.  `Shows W k M`: in the
state `W` matrix variable `k` shows the contents `M`.  Which object a variable shows and which object a write goes to is
bookkeeping on the text of the history alone (`Spec/Provenance.lean`).
-/
namespace QR.Heap
open QR Spec

def Shows (W : World) (k : Nat) (M : Matrix) : Prop := ∃ m, W.mats[k]? = some m ∧ W.heap.view m = M

/-- The objects after a history. -/
def objects (ops : List Op) : Objects := Objects.after (ops.map Op.event)

theorem reach_inv (ops : List Op) : HInv (history empty ops) (objects ops) := history_inv ops empty_inv

/-- In the events `es` variable `k` is not assigned, and no write goes to the object it shows. -/
def Quiet (k : Nat) : Objects → List Event → Prop
  | _, [] => True
  | P, e :: es => (∀ j, e ≠ .assign k j) ∧ P.written e ≠ P.mats[k]? ∧ Quiet k (P.step e) es

/-- Every write in the events `es` goes to object `o`. -/
def WritesOnly (o : Nat) : Objects → List Event → Prop
  | _, [] => True
  | P, e :: es => (P.written e = none ∨ P.written e = some o) ∧ WritesOnly o (P.step e) es

/-- Variable `k` is not assigned in the events `es`. -/
def NoAssign (k : Nat) (es : List Event) : Prop := ∀ e ∈ es, ∀ j, e ≠ .assign k j

theorem history_append (W : World) (a b : List Op) : history W (a ++ b) = history (history W a) b := by
  unfold history; rw [List.foldl_append]

theorem quiet_shows (ops2 : List Op) : ∀ {W : World} {P : Objects}, HInv W P → ∀ {k : Nat} {M : Matrix}, Shows W k M →
    Quiet k P (ops2.map Op.event) → Shows (history W ops2) k M := by
  induction ops2 with
  | nil => intro W P I k M h _; exact h
  | cons op ops ih =>
    intro W P I k M h hq
    obtain ⟨m, h1, h2⟩ := h
    obtain ⟨q1, q2, q3⟩ := hq
    obtain ⟨f1, f2⟩ := frame I op h1 q1 q2
    exact ih (exec_inv I op) ⟨m, f1, by rw [f2]; exact h2⟩ q3

/-- **C32, frame.**  After any history, what a matrix variable shows is not changed by any continuation that neither assigns
the variable nor writes to the object it shows. -/
theorem C32_frame (ops ops2 : List Op) {k : Nat} {M : Matrix} (h : Shows (history empty ops) k M)
    (hq : Quiet k (objects ops) (ops2.map Op.event)) : Shows (history empty (ops ++ ops2)) k M := by
  rw [history_append]; exact quiet_shows ops2 (reach_inv ops) h hq

theorem step_mats_lt (P : Objects) (e : Event) {k o : Nat} (h : P.mats[k]? = some o) (ha : ∀ j, e ≠ .assign k j) :
    (P.step e).mats[k]? = some o := by
  have hl : k < P.mats.length := (List.getElem?_eq_some_iff.1 h).1
  cases e with
  | create => simp only [Objects.step]; rw [List.getElem?_append_left hl]; exact h
  | copy i =>
    simp only [Objects.step]
    split
    · exact (List.getElem?_append_left hl).trans h
    · exact h
  | pass i =>
    simp only [Objects.step]
    split
    · exact (List.getElem?_append_left hl).trans h
    · exact h
  | assign i j =>
    simp only [Objects.step]
    split
    · simp only
      rw [List.getElem?_set_ne]
      · exact h
      · intro e; subst e; exact ha j rfl
    · exact h
  | col i => simp only [Objects.step]; split <;> exact h
  | row i => simp only [Objects.step]; split <;> exact h
  | set i => exact h
  | write j => exact h

theorem quiet_of_writesOnly {k o o' : Nat} (hne : o ≠ o') (es : List Event) : ∀ {P : Objects}, P.mats[k]? = some o →
    NoAssign k es → WritesOnly o' P es → Quiet k P es := by
  induction es with
  | nil => intro P _ _ _; trivial
  | cons e es ih =>
    intro P h hn hw
    have ha : ∀ j, e ≠ .assign k j := hn e (by simp)
    refine ⟨ha, ?_, ih (step_mats_lt P e h ha) (fun e' he' => hn e' (by simp [he'])) hw.2⟩
    rw [h]
    rcases hw.1 with h' | h' <;> rw [h']
    · simp
    · intro e; exact hne (Option.some.inj e).symm

theorem copy_wf {m : Matrix} (hm : m.WF) : m.copy = m := by
  obtain ⟨w, h, mat⟩ := m
  unfold Matrix.copy
  simp only [Matrix.mk.injEq, true_and]
  apply List.ext_getElem
  · simp; exact hm.1.symm
  · intro i h1 h2
    simp only [List.getElem_map, List.getElem_range]
    have hl : (mat[i]).length = h := hm.2 _ (List.getElem_mem h2)
    apply List.ext_getElem
    · simp [hl]
    · intro j j1 j2
      simp [Matrix.raw, List.getElem?_eq_getElem h2, List.getElem?_eq_getElem j2]

theorem view_wf {W : World} {P : Objects} (I : HInv W P) {m : Mat} (hm : m ∈ W.mats) : (W.heap.view m).WF := by
  obtain ⟨_, h2, h3⟩ := I.objs m hm
  constructor
  · simp [Heap.view, h2]
  · intro c hc
    obtain ⟨a, ha, rfl⟩ := List.mem_map.1 hc
    exact h3 a ha

/-- The new variable after `Copy`. -/
def copyVar (ops : List Op) : Nat := (objects ops).mats.length

/-- **C32, the copy.**  After `Copy` the new variable shows what the original shows, the original still does, and the new
variable shows a new object: no other variable or slice refers to it. -/
theorem C32_copy_equal (ops : List Op) {i : Nat} {M : Matrix} (h : Shows (history empty ops) i M) :
    Shows (history empty (ops ++ [.copy i])) (copyVar ops) M ∧ Shows (history empty (ops ++ [.copy i])) i M ∧
    ∃ o, (objects (ops ++ [.copy i])).mats[copyVar ops]? = some o ∧
      (∀ k : Nat, k ≠ copyVar ops → (objects (ops ++ [.copy i])).mats[k]? ≠ some o) ∧
      o ∉ (objects (ops ++ [.copy i])).slices := by
  have I := reach_inv ops
  obtain ⟨m, h1, h2⟩ := h
  have hmem := List.mem_of_getElem? h1
  have hget : (objects ops).mats[i]? = some m.mat := by rw [I.mats, List.getElem?_map, h1]; rfl
  have hobj : objects (ops ++ [.copy i]) = (objects ops).step (.copy i) := by
    unfold objects Objects.after
    rw [List.map_append, List.foldl_append]; rfl
  have hlen : copyVar ops = (history empty ops).mats.length := by unfold copyVar; rw [I.mats, List.length_map]
  refine ⟨?_, ?_, ?_⟩
  · rw [history_append]
    refine ⟨((history empty ops).heap.copy m).2, ?_, ?_⟩
    · show (exec (history empty ops) (.copy i)).mats[copyVar ops]? = _
      simp only [exec, h1]
      rw [hlen]; simp
    · show (exec (history empty ops) (.copy i)).heap.view _ = M
      simp only [exec, h1]
      rw [view_copy I hmem, copy_wf (view_wf I hmem), h2]
  · refine C32_frame ops [.copy i] ⟨m, h1, h2⟩ ⟨?_, ?_, trivial⟩
    · intro j hj; cases hj
    · rw [hget]; simp [Op.event, Objects.written]
  · rw [hobj]
    refine ⟨(objects ops).count, ?_, ?_, ?_⟩
    · simp only [Objects.step, hget]
      simp [copyVar]
    · intro k hk he
      simp only [Objects.step, hget] at he
      by_cases hl : k < (objects ops).mats.length
      · rw [List.getElem?_append_left hl, I.mats, List.getElem?_map] at he
        cases hm : (history empty ops).mats[k]? with
        | none => rw [hm] at he; cases he
        | some m' =>
          rw [hm] at he
          have := (I.objs m' (List.mem_of_getElem? hm)).1
          simp only [Option.map_some, Option.some.injEq] at he
          have := I.count
          omega
      · rw [List.getElem?_append_right (by omega)] at he
        have hk' : k ≠ (objects ops).mats.length := hk
        have : k - (objects ops).mats.length ≠ 0 := by omega
        rw [List.getElem?_eq_none (by simp; omega)] at he
        cases he
    · simp only [Objects.step, hget]
      intro h
      have := I.sbound _ h
      omega

/-- **C32, independence.**  After `Copy` (and any history before it), writes to the original - through `set` or through slices
returned by its `Col` - are never visible in the copy, and writes to the copy never in the original, in any continuation. -/
theorem C32_copy_independent (ops ops2 : List Op) {i : Nat} {M : Matrix} (h : Shows (history empty ops) i M) {o o' : Nat}
    (ho : (objects (ops ++ [.copy i])).mats[i]? = some o)
    (ho' : (objects (ops ++ [.copy i])).mats[copyVar ops]? = some o') :
    (NoAssign (copyVar ops) (ops2.map Op.event) → WritesOnly o (objects (ops ++ [.copy i])) (ops2.map Op.event) →
      Shows (history empty (ops ++ [.copy i] ++ ops2)) (copyVar ops) M) ∧
    (NoAssign i (ops2.map Op.event) → WritesOnly o' (objects (ops ++ [.copy i])) (ops2.map Op.event) →
      Shows (history empty (ops ++ [.copy i] ++ ops2)) i M) := by
  obtain ⟨h1, h2, o'', h3, h4, _⟩ := C32_copy_equal ops h
  rw [ho'] at h3
  cases h3
  have hne : o ≠ o' := by
    intro e
    subst e
    refine h4 i ?_ ho
    have I := reach_inv ops
    obtain ⟨m, hm, _⟩ := h
    have := (List.getElem?_eq_some_iff.1 hm).1
    unfold copyVar
    rw [I.mats, List.length_map]
    omega
  exact ⟨fun hn hw => C32_frame _ ops2 h1 (quiet_of_writesOnly (Ne.symm hne) _ ho' hn hw),
    fun hn hw => C32_frame _ ops2 h2 (quiet_of_writesOnly hne _ ho hn hw)⟩

/-- The memory model computes what the functional model does: `set` and `Copy` on variables show `Matrix.set` and
`Matrix.copy` of what was shown. -/
theorem C32_refines (ops : List Op) {i : Nat} {M : Matrix} (h : Shows (history empty ops) i M) (w h' : Int) (c : QRValue) :
    Shows (history empty (ops ++ [.set i w h' c])) i (M.set w h' c) ∧
    Shows (history empty (ops ++ [.copy i])) (copyVar ops) M.copy ∧ M.WF := by
  have I := reach_inv ops
  obtain ⟨m, h1, h2⟩ := h
  have hmem := List.mem_of_getElem? h1
  have hwf : M.WF := by rw [← h2]; exact view_wf I hmem
  refine ⟨?_, ?_, hwf⟩
  · rw [history_append]
    refine ⟨m, ?_, ?_⟩
    · show (exec (history empty ops) (.set i w h' c)).mats[i]? = _
      simp only [exec, h1]
    · show (exec (history empty ops) (.set i w h' c)).heap.view m = _
      simp only [exec, h1]
      rw [view_set I hmem, h2]
  · rw [copy_wf hwf]
    exact (C32_copy_equal ops ⟨m, h1, h2⟩).1

/-- Non-vacuity: a matrix, a copy, writes to the original through `set` and through `Col`. -/
example : WritesOnly 0 (objects [.new 2 3, .copy 0]) ([Op.set 0 1 2 DATA_V1, .col 0 1, .write 0 0 DATA_V1].map Op.event) ∧
    Shows (history empty [.new 2 3]) 0 (newMatrix 2 3) ∧
    ¬ Shows (history empty ([.new 2 3, .copy 0] ++ [.set 0 1 2 DATA_V1, .col 0 1, .write 0 0 DATA_V1])) 0 (newMatrix 2 3) := by
  refine ⟨⟨Or.inr rfl, Or.inl rfl, Or.inr rfl, trivial⟩, ⟨_, rfl, by decide⟩, ?_⟩
  rintro ⟨m, hm, hv⟩
  cases hm
  revert hv
  decide

/-! ## C33 -/

/-- What a writer in another package can do after `Save` passed it the matrix as variable `n` (and, before, no slices
existed that it could know): struct copies, `Copy`, `Col`, `Row`, assignments to its own variables, and writes to slices it got
from them.  (`set` and `newMatrix` are not exported; `s` is the number of slices made before.) -/
def External (n s : Nat) : Op → Prop
  | .new _ _ => False
  | .set _ _ _ _ => False
  | .copy i => n ≤ i
  | .pass i => n ≤ i
  | .assign i j => n ≤ i ∧ n ≤ j
  | .col i _ => n ≤ i
  | .row i _ => n ≤ i
  | .write j _ _ => s ≤ j

/-- **C33 holds for writers that do not write into columns of the matrix they got** (writing into columns of copies is
harmless): whatever else they do, the code's matrix shows the same as before.  Full statement: without the last hypothesis;
it is false (`C33_counterexample`). -/
theorem C33_writer_partial (ops prog : List Op) {k : Nat} {M : Matrix} (h : Shows (history empty ops) k M) {o : Nat}
    (ho : (objects ops).mats[k]? = some o)
    (hext : ∀ op ∈ prog, External (copyVar ops) (objects ops).slices.length op)
    (hcol : ∀ a e b, prog.map Op.event = a ++ e :: b → (Objects.written (a.foldl Objects.step ((objects ops).step (.pass k))) e) ≠ some o) :
    Shows (history empty (ops ++ .pass k :: prog)) k M := by
  have hlt : k < copyVar ops := (List.getElem?_eq_some_iff.1 ho).1
  have key : ∀ (es : List Event) (P : Objects), P.mats[k]? = some o → (∀ e ∈ es, ∀ j, e ≠ .assign k j) →
      (∀ a e b, es = a ++ e :: b → (Objects.written (a.foldl Objects.step P) e) ≠ some o) → Quiet k P es := by
    intro es
    induction es with
    | nil => intro P _ _ _; trivial
    | cons e es ih =>
      intro P hP hn hw
      refine ⟨hn e (by simp), by rw [hP]; exact hw [] e es rfl, ih _ (step_mats_lt P e hP (hn e (by simp)))
        (fun e' he' => hn e' (by simp [he'])) (fun a e' b hab => ?_)⟩
      exact hw (e :: a) e' b (by rw [hab]; rfl)
  refine C32_frame ops (.pass k :: prog) h ⟨(by intro j hj; cases hj), (by rw [ho]; simp [Op.event, Objects.written]), ?_⟩
  refine key _ _ (step_mats_lt _ _ ho (by intro j hj; cases hj)) ?_ hcol
  intro e he j hj
  obtain ⟨op, hop, rfl⟩ := List.mem_map.1 he
  have := hext op hop
  cases op <;> simp only [Op.event] at hj <;> cases hj
  simp only [External] at this
  omega

theorem poke {W : World} {k : Nat} {m : Mat} (h1 : W.mats[k]? = some m) (hw : 0 < m.width) (hol : 0 < (W.heap.outer m.mat).length)
    (hc : 0 < (W.heap.col (W.heap.outer m.mat)[0]).length) (c : QRValue) :
    history W [.pass k, .col W.mats.length 0, .write W.slices.length 0 c] =
        { W with
          heap := W.heap.store (W.heap.outer m.mat)[0] 0 c
          mats := W.mats ++ [m]
          slices := W.slices ++ [some (W.heap.outer m.mat)[0]] } := by
  unfold history
  simp only [List.foldl_cons, List.foldl_nil]
  have e1 : exec W (.pass k) = { W with mats := W.mats ++ [m] } := by simp only [exec, h1]
  rw [e1]
  have e2 : exec { W with mats := W.mats ++ [m] } (.col W.mats.length 0) =
      { W with mats := W.mats ++ [m], slices := W.slices ++ [some (W.heap.outer m.mat)[0]] } := by
    simp only [exec]
    simp only [List.getElem?_concat_length]
    unfold Heap.colRef
    rw [if_neg (by omega), Int.toNat_zero, List.getElem?_eq_getElem hol]
  rw [e2]
  simp only [exec]
  simp only [List.getElem?_concat_length]
  rw [if_pos hc]

/-- **C33 is false**: `Col` returns the matrix's own column, so for every code (every matrix with at least one module) a
writer that takes `Col(0)` of the matrix it was given and writes its first element changes the code: its bitmap is
different afterwards. -/
theorem C33_counterexample (ops : List Op) {k : Nat} {M : Matrix} (h : Shows (history empty ops) k M) (hw : 0 < M.width)
    (hh : 0 < M.height) : ∃ prog M', (∀ op ∈ prog, External (copyVar ops) (objects ops).slices.length op) ∧
      Shows (history empty (ops ++ .pass k :: prog)) k M' ∧ M'.bitmap ≠ M.bitmap := by
  have I := reach_inv ops
  obtain ⟨m, h1, h2⟩ := h
  have hmem := List.mem_of_getElem? h1
  obtain ⟨g1, g2, g3⟩ := I.objs m hmem
  have hlen : copyVar ops = (history empty ops).mats.length := by unfold copyVar; rw [I.mats, List.length_map]
  have hwm : m.width = M.width := by rw [← h2]; rfl
  have hhm : m.height = M.height := by rw [← h2]; rfl
  have hol : 0 < ((history empty ops).heap.outer m.mat).length := by rw [g2]; omega
  let c : QRValue := ⟨.data, !(M.raw 0 0).bit⟩
  refine ⟨[.col (copyVar ops) 0, .write (objects ops).slices.length 0 c], M.set 0 0 c, ?_, ?_, ?_⟩
  · intro op hop
    simp only [List.mem_cons, List.not_mem_nil, or_false] at hop
    rcases hop with rfl | rfl
    · exact Nat.le_refl _
    · exact Nat.le_refl _
  · rw [history_append]
    have hst := poke h1 (by omega) hol (by have := g3 _ (List.getElem_mem hol); omega) c
    rw [← hlen, ← I.slen] at hst
    rw [hst]
    refine ⟨m, ?_, ?_⟩
    · have hkl := (List.getElem?_eq_some_iff.1 h1).1
      simp only
      rw [List.getElem?_append_left hkl]; exact h1
    · have := view_set I hmem 0 0 c
      rw [h2] at this
      rw [← this]
      unfold Heap.set
      rw [if_neg (by omega), if_neg (by omega), Int.toNat_zero, List.getElem?_eq_getElem hol]
  · intro he
    have hwf : M.WF := by rw [← h2]; exact view_wf I hmem
    have hat := ((C31_access hwf 0 0 c).2 (by omega) (by omega) (by omega) (by omega)).2.2.1
    have hraw : (M.set 0 0 c).raw 0 0 = c := by
      have : ((M.set 0 0 c).atE 0 0).1 = c := by
        unfold Matrix.set
        rw [hat]
      unfold Matrix.atE at this
      have hw2 : (M.set 0 0 c).width = M.width := by
        unfold Matrix.set Matrix.setE; split
        · rfl
        split <;> rfl
      have hh2 : (M.set 0 0 c).height = M.height := by
        unfold Matrix.set Matrix.setE; split
        · rfl
        split <;> rfl
      rw [if_neg (by omega), if_neg (by omega)] at this
      exact this
    have hw2 : (M.set 0 0 c).width = M.width := by
      unfold Matrix.set Matrix.setE; split
      · rfl
      split <;> rfl
    have hh2 : (M.set 0 0 c).height = M.height := by
      unfold Matrix.set Matrix.setE; split
      · rfl
      split <;> rfl
    have p1 := (bitmap_spec (M.set 0 0 c)).2 0 0 (by omega) (by omega)
    have p2 := (bitmap_spec M).2 0 0 hh hw
    rw [he, p2, hraw] at p1
    simp [c] at p1

end QR.Heap
