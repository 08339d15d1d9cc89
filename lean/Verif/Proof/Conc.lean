import Verif.Model.Conc
import Verif.Proof.Build
import Mathlib.Data.List.Perm.Subperm
/-!
# The mask goroutines: invariant, progress, termination, all arrival orders
-/
namespace QR.Conc
open QR.Matrix

/-- What the workers do one after the other: their masks, final matrices and scores. -/
structure Job (q : QRCode) (cpy : Matrix) (masks M : Nat → Matrix) (sc : Nat → Nat) : Prop where
  mask : ∀ i < 8, newMask q.mat i = .ok (masks i)
  work : ∀ i < 8, maskWorker q cpy i = .ok (M i, sc i)

def cellsOf (m : Matrix) : List (Nat × Nat) := coords m.width m.height .column

variable {q : QRCode} {cpy : Matrix} {masks M : Nat → Matrix} {sc : Nat → Nat}

/-- Result of `fillVersionInfo` stage. -/
theorem Job.stages (J : Job q cpy masks M sc) {i : Nat} (hi : i < 8) : ∃ fmt, formatInfo q.v i = .ok fmt ∧
    ((q.v.ver ≥ 7 ∧ ∃ vb, verInfo q.v = .ok (some vb) ∧
        M i = fillVersionInfo (fillFormatInfo (xorMask cpy.copy (masks i)) fmt q.v.dimension) vb q.v.dimension) ∨
     (¬ q.v.ver ≥ 7 ∧ M i = fillFormatInfo (xorMask cpy.copy (masks i)) fmt q.v.dimension)) ∧
    evaluation (M i) = .ok (sc i) := by
  have h := J.work i hi
  unfold maskWorker at h
  rw [J.mask i hi, Res.bind_ok] at h
  cases hf : formatInfo q.v i with
  | err e => rw [hf] at h; cases h
  | panic p => rw [hf] at h; cases h
  | ok fmt =>
    rw [hf, Res.bind_ok] at h
    refine ⟨fmt, rfl, ?_⟩
    by_cases h7 : q.v.ver ≥ 7
    · simp only [h7, if_true] at h
      cases hv : verInfo q.v with
      | err e => rw [hv] at h; cases h
      | panic p => rw [hv] at h; cases h
      | ok o =>
        rw [hv] at h
        cases o with
        | none => cases h
        | some vb =>
          simp only [Res.bind_ok] at h
          cases he : evaluation (fillVersionInfo (fillFormatInfo (xorMask cpy.copy (masks i)) fmt q.v.dimension) vb q.v.dimension) with
          | err e => rw [he] at h; cases h
          | panic p => rw [he] at h; cases h
          | ok s =>
            rw [he] at h
            simp only [Res.bind_ok, Res.ok.injEq, Prod.mk.injEq] at h
            obtain ⟨h1, h2⟩ := h
            exact ⟨Or.inl ⟨h7, vb, rfl, h1.symm⟩, by rw [← h1, ← h2]; exact he⟩
    · simp only [h7, if_false, Res.bind_ok] at h
      cases he : evaluation (fillFormatInfo (xorMask cpy.copy (masks i)) fmt q.v.dimension) with
      | err e => rw [he] at h; cases h
      | panic p => rw [he] at h; cases h
      | ok s =>
        rw [he] at h
        simp only [Res.bind_ok, Res.ok.injEq, Prod.mk.injEq] at h
        obtain ⟨h1, h2⟩ := h
        exact ⟨Or.inr ⟨h7, h1.symm⟩, by rw [← h1, ← h2]; exact he⟩

/-- What worker `i`'s matrix is at each point. -/
def WInv (q : QRCode) (cpy : Matrix) (masks M : Nat → Matrix) (sc : Nat → Nat) (i : Nat) : Pc → Matrix → Prop
  | .unborn, m => m = cpy.copy
  | .xor rest, m => ∃ dn, cellsOf (masks i) = dn ++ rest ∧ m = dn.foldl (xorStep (masks i)) cpy.copy
  | .format, m => m = xorMask cpy.copy (masks i)
  | .version, m => ∃ fmt, formatInfo q.v i = .ok fmt ∧ m = fillFormatInfo (xorMask cpy.copy (masks i)) fmt q.v.dimension
  | .eval, m => m = M i
  | .send s, m => m = M i ∧ s = sc i
  | .wgDone, m => m = M i
  | .dead, m => m = M i

def live : Pc → Bool
  | .unborn => false
  | .dead => false
  | _ => true

def sentPc : Pc → Bool
  | .wgDone => true
  | .dead => true
  | _ => false

def isGo : MainPc → Nat
  | .go _ => 1
  | _ => 0

/-- How many workers have been started. -/
def spawned : MainPc → Nat
  | .add i => i
  | .go i => i
  | _ => 8

def sel (p c : Nat × Nat) : Nat × Nat := if c.1 < p.1 then c else p

def MainInv (sc : Nat → Nat) (s : St) : Prop :=
  match s.main with
  | .add i => i < 8 ∧ s.closed = false ∧ s.chan = s.sent.map fun i => (sc i, i)
  | .go i => i < 8 ∧ s.closed = false ∧ s.chan = s.sent.map fun i => (sc i, i)
  | .wait => s.closed = false ∧ s.chan = s.sent.map fun i => (sc i, i)
  | .close => s.closed = false ∧ (s.chan = s.sent.map fun i => (sc i, i)) ∧ ∀ i < 8, s.pc i = .dead
  | .drain low mark => s.closed = true ∧ (∀ i < 8, s.pc i = .dead) ∧
      ∃ recv, (s.sent.map fun i => (sc i, i)) = recv ++ s.chan ∧ (low, mark) = recv.foldl sel (maxInt32, 0)
  | .finished mark => s.closed = true ∧ (∀ i < 8, s.pc i = .dead) ∧ s.chan = [] ∧
      mark = ((s.sent.map fun i => (sc i, i)).foldl sel (maxInt32, 0)).2

structure Inv (q : QRCode) (cpy : Matrix) (masks M : Nat → Matrix) (sc : Nat → Nat) (s : St) : Prop where
  crash : s.crash = none
  work : ∀ i < 8, WInv q cpy masks M sc i (s.pc i) (s.heap (matPtr i))
  masks : ∀ i < 8, s.heap (maskPtr i) = masks i
  nodup : s.sent.Nodup
  sentIff : ∀ i, i ∈ s.sent ↔ i < 8 ∧ sentPc (s.pc i) = true
  wg : s.wg = (List.range 8).countP (fun j => live (s.pc j)) + isGo s.main
  born : ∀ j < 8, s.pc j = .unborn ↔ spawned s.main ≤ j
  mainInv : MainInv sc s

theorem upd_same {α : Type} (f : Nat → α) (i : Nat) (v : α) : upd f i v i = v := by simp [upd]
theorem upd_other {α : Type} (f : Nat → α) {i j : Nat} (v : α) (h : j ≠ i) : upd f i v j = f j := by simp [upd, h]

theorem countP_upd (f : Nat → Pc) (i : Nat) (v : Pc) (n : Nat) :
    (List.range n).countP (fun j => live (upd f i v j)) + (if i < n ∧ live (f i) = true then 1 else 0) =
    (List.range n).countP (fun j => live (f j)) + (if i < n ∧ live v = true then 1 else 0) := by
  induction n with
  | zero => simp
  | succ n ih =>
    rw [List.range_succ, List.countP_append, List.countP_append]
    simp only [List.countP_cons, List.countP_nil, Nat.zero_add]
    by_cases h : i = n
    · subst h
      simp only [Nat.lt_irrefl, false_and, if_false, Nat.add_zero] at ih
      simp only [Nat.lt_succ_self, true_and, upd_same]
      omega
    · rw [upd_other f v (Ne.symm h)]
      have : i < n + 1 ↔ i < n := by omega
      simp only [this]
      omega

theorem ptr_ne {i j : Nat} : maskPtr i ≠ matPtr j := by unfold maskPtr matPtr; omega
theorem ptr_inj {i j : Nat} (h : i ≠ j) : matPtr i ≠ matPtr j := by unfold matPtr; omega

/-! ## The invariant is preserved by worker steps -/

/-- A worker step that only changes its own pc and matrix (not the channel and the counter). -/
theorem inv_local {s : St} (I : Inv q cpy masks M sc s) {i : Nat} (hi : i < 8) {pc' : Pc} {m' : Matrix}
    (hl : live (s.pc i) = true) (hs : sentPc (s.pc i) = false) (hl' : live pc' = true) (hs' : sentPc pc' = false)
    (hu : pc' ≠ .unborn) (hw : WInv q cpy masks M sc i pc' m') :
    Inv q cpy masks M sc { s with heap := upd s.heap (matPtr i) m', pc := upd s.pc i pc' } := by
  have hne : s.pc i ≠ .dead := by intro h; rw [h] at hl; cases hl
  have hnu : s.pc i ≠ .unborn := by intro h; rw [h] at hl; cases hl
  constructor
  · exact I.crash
  · intro j hj
    by_cases hji : j = i
    · subst hji; simp only [upd_same]; exact hw
    · simp only [upd_other _ _ hji, upd_other _ _ (ptr_inj hji)]; exact I.work j hj
  · intro j hj
    simp only [upd_other _ _ ptr_ne]; exact I.masks j hj
  · exact I.nodup
  · intro j
    by_cases hji : j = i
    · subst hji
      simp only [upd_same, hs', Bool.false_eq_true, and_false, iff_false]
      have := I.sentIff j
      rw [hs] at this
      simpa using this
    · simp only [upd_other _ _ hji]; exact I.sentIff j
  · have := countP_upd s.pc i pc' 8
    simp only [hi, hl, hl', true_and, if_true] at this
    have := I.wg
    simp only at *
    omega
  · intro j hj
    by_cases hji : j = i
    · subst hji
      simp only [upd_same]
      constructor
      · intro h; exact absurd h hu
      · intro h; exact absurd ((I.born j hj).2 h) hnu
    · simp only [upd_other _ _ hji]; exact I.born j hj
  · have hm := I.mainInv
    unfold MainInv at hm ⊢
    revert hm
    cases hmain : s.main with
    | add _ | go _ | wait => simp
    | close =>
      simp only
      intro h; exact absurd (h.2.2 i hi) hne
    | drain _ _ =>
      simp only
      intro h; exact absurd (h.2.1 i hi) hne
    | finished _ =>
      simp only
      intro h; exact absurd (h.2.1 i hi) hne

theorem upd_self {α : Type} (f : Nat → α) (i : Nat) : upd f i (f i) = f := by
  funext j; unfold upd; split
  · subst_vars; rfl
  · rfl

theorem inv_local' {s : St} (I : Inv q cpy masks M sc s) {i : Nat} (hi : i < 8) {pc' : Pc}
    (hl : live (s.pc i) = true) (hs : sentPc (s.pc i) = false) (hl' : live pc' = true) (hs' : sentPc pc' = false)
    (hu : pc' ≠ .unborn) (hw : WInv q cpy masks M sc i pc' (s.heap (matPtr i))) :
    Inv q cpy masks M sc { s with pc := upd s.pc i pc' } := by
  have := inv_local I hi hl hs hl' hs' hu hw
  rw [upd_self] at this
  exact this

/-- As long as some worker is not dead, the main goroutine has not passed `Wait`. -/
theorem waiting {s : St} (I : Inv q cpy masks M sc s) {i : Nat} (hi : i < 8) (hne : s.pc i ≠ .dead) :
    s.closed = false ∧ (s.chan = s.sent.map fun i => (sc i, i)) ∧ spawned s.main ≤ 8 ∧
      (∃ k, s.main = .add k ∧ k < 8 ∨ s.main = .go k ∧ k < 8 ∨ s.main = .wait) := by
  have hm := I.mainInv
  unfold MainInv at hm
  revert hm
  cases hmain : s.main with
  | add k => intro h; simp only at h; exact ⟨h.2.1, h.2.2, by simp [spawned]; omega, k, Or.inl ⟨rfl, h.1⟩⟩
  | go k => intro h; simp only at h; exact ⟨h.2.1, h.2.2, by simp [spawned]; omega, k, Or.inr (Or.inl ⟨rfl, h.1⟩)⟩
  | wait => intro h; simp only at h; exact ⟨h.1, h.2, by simp [spawned], 0, Or.inr (Or.inr rfl)⟩
  | close => intro h; exact absurd (h.2.2 i hi) hne
  | drain _ _ => intro h; exact absurd (h.2.1 i hi) hne
  | finished _ => intro h; exact absurd (h.2.1 i hi) hne

theorem nodup_length {l : List Nat} (hn : l.Nodup) (hl : ∀ i ∈ l, i < 8) : l.length ≤ 8 := by
  have : l.Subperm (List.range 8) := List.subperm_of_subset hn (fun i hi => List.mem_range.2 (hl i hi))
  simpa using this.length_le

/-- A worker that has not sent finds room in the channel. -/
theorem room {s : St} (I : Inv q cpy masks M sc s) {i : Nat} (hi : i < 8) (hs : sentPc (s.pc i) = false) :
    s.chan.length < chanCap := by
  have hne : s.pc i ≠ .dead := by intro h; rw [h] at hs; cases hs
  obtain ⟨_, hc, _⟩ := waiting I hi hne
  rw [hc, List.length_map]
  have hni : i ∉ s.sent := by rw [I.sentIff]; rw [hs]; simp
  have := nodup_length (l := i :: s.sent) (List.nodup_cons.2 ⟨hni, I.nodup⟩) (by
    intro j hj
    rcases List.mem_cons.1 hj with rfl | hj
    · exact hi
    · exact ((I.sentIff j).1 hj).1)
  simp at this
  unfold chanCap
  omega

theorem live_pos {s : St} {i : Nat} (hi : i < 8) (hl : live (s.pc i) = true) :
    0 < (List.range 8).countP (fun j => live (s.pc j)) :=
  List.countP_pos_iff.2 ⟨i, List.mem_range.2 hi, hl⟩

/-- Every live worker can move, and moving preserves the invariant. -/
theorem worker_step (J : Job q cpy masks M sc) {s : St} (I : Inv q cpy masks M sc s) {i : Nat} (hi : i < 8)
    (hl : live (s.pc i) = true) :
    ∃ s', stepWorker q i s = some s' ∧ Inv q cpy masks M sc s' ∧ s'.main = s.main ∧
      (∀ j, j ≠ i → s'.pc j = s.pc j) ∧ (∀ a, a ≠ matPtr i → s'.heap a = s.heap a) ∧
      ((∃ x, s.pc i = .send x) ∧ s'.pc i = .wgDone ∧ s'.sent = s.sent ++ [i] ∨
       (sentPc (s.pc i) = sentPc (s'.pc i) ∧ s'.sent = s.sent ∧ s'.pc i ≠ .unborn ∧
        (sentPc (s.pc i) = true → s'.pc i = .dead) ∧ (sentPc (s.pc i) = false → live (s'.pc i) = true))) ∧
      (match s.pc i, s'.pc i with
        | .xor (_ :: a), .xor b => a = b
        | .xor [], .format => True | .format, .version => True | .version, .eval => True
        | .eval, .send _ => True | .send _, .wgDone => True | .wgDone, .dead => True | _, _ => False) := by
  have hw := I.work i hi
  obtain ⟨fmt, f1, f2, f3⟩ := J.stages hi
  cases hpc : s.pc i with
  | unborn => rw [hpc] at hl; cases hl
  | dead => rw [hpc] at hl; cases hl
  | xor rest =>
    rw [hpc] at hw
    obtain ⟨dn, h1, h2⟩ := hw
    cases rest with
    | nil =>
      refine ⟨{ s with pc := upd s.pc i .format }, by unfold stepWorker; rw [hpc], ?_, rfl, fun j hj => upd_other _ _ hj, fun _ _ => rfl, ?_, ?_⟩
      · refine inv_local' I hi (by rw [hpc]; rfl) (by rw [hpc]; rfl) rfl rfl (by simp) ?_
        show _ = xorMask cpy.copy (masks i)
        rw [h2]
        unfold xorMask
        have : coords (masks i).width (masks i).height .column = dn := by
          have := h1; unfold cellsOf at this; simpa using this
        rw [this]
      · right; simp only [upd_same]; simp [sentPc, live]
      · simp only [upd_same]
    | cons p ps =>
      refine ⟨{ s with heap := upd s.heap (matPtr i) (xorStep (s.heap (maskPtr i)) (s.heap (matPtr i)) p), pc := upd s.pc i (.xor ps) }, by unfold stepWorker; rw [hpc], ?_, rfl, fun j hj => upd_other _ _ hj, fun a ha => upd_other _ _ ha, ?_, ?_⟩
      · refine inv_local I hi (by rw [hpc]; rfl) (by rw [hpc]; rfl) rfl rfl (by simp) ?_
        refine ⟨dn ++ [p], by simp [h1], ?_⟩
        rw [List.foldl_append, ← h2, I.masks i hi]
        rfl
      · right; simp only [upd_same]; simp [sentPc, live]
      · simp only [upd_same]
  | format =>
    rw [hpc] at hw
    refine ⟨{ s with heap := upd s.heap (matPtr i) (fillFormatInfo (s.heap (matPtr i)) fmt q.v.dimension), pc := upd s.pc i .version }, by unfold stepWorker; rw [hpc]; simp only [f1], ?_, rfl, fun j hj => upd_other _ _ hj, fun a ha => upd_other _ _ ha, ?_, ?_⟩
    · refine inv_local I hi (by rw [hpc]; rfl) (by rw [hpc]; rfl) rfl rfl (by simp) ?_
      refine ⟨fmt, f1, ?_⟩
      rw [show s.heap (matPtr i) = _ from hw]
    · right; simp only [upd_same]; simp [sentPc, live]
    · simp only [upd_same]
  | version =>
    rw [hpc] at hw
    obtain ⟨fmt', g1, g2⟩ := hw
    rw [f1] at g1; cases g1
    rcases f2 with ⟨h7, vb, hv, hM⟩ | ⟨h7, hM⟩
    · refine ⟨{ s with heap := upd s.heap (matPtr i) (fillVersionInfo (s.heap (matPtr i)) vb q.v.dimension), pc := upd s.pc i .eval }, by unfold stepWorker; rw [hpc]; simp only [h7, if_true, hv], ?_, rfl, fun j hj => upd_other _ _ hj, fun a ha => upd_other _ _ ha, ?_, ?_⟩
      · refine inv_local I hi (by rw [hpc]; rfl) (by rw [hpc]; rfl) rfl rfl (by simp) ?_
        show _ = M i
        rw [hM, g2]
      · right; simp only [upd_same]; simp [sentPc, live]
      · simp only [upd_same]
    · refine ⟨{ s with pc := upd s.pc i .eval }, by unfold stepWorker; rw [hpc]; simp only [h7, if_false], ?_, rfl, fun j hj => upd_other _ _ hj, fun _ _ => rfl, ?_, ?_⟩
      · refine inv_local' I hi (by rw [hpc]; rfl) (by rw [hpc]; rfl) rfl rfl (by simp) ?_
        show _ = M i
        rw [hM, g2]
      · right; simp only [upd_same]; simp [sentPc, live]
      · simp only [upd_same]
  | eval =>
    rw [hpc] at hw
    have he : evaluation (s.heap (matPtr i)) = .ok (sc i) := by rw [show s.heap (matPtr i) = _ from hw]; exact f3
    refine ⟨{ s with pc := upd s.pc i (.send (sc i)) }, by unfold stepWorker; rw [hpc]; simp only [he], ?_, rfl, fun j hj => upd_other _ _ hj, fun _ _ => rfl, ?_, ?_⟩
    · exact inv_local' I hi (by rw [hpc]; rfl) (by rw [hpc]; rfl) rfl rfl (by simp) ⟨hw, rfl⟩
    · right; simp only [upd_same]; simp [sentPc, live]
    · simp only [upd_same]
  | send x =>
    rw [hpc] at hw
    obtain ⟨hM, hx⟩ := hw
    subst hx
    have hne : s.pc i ≠ .dead := by rw [hpc]; simp
    obtain ⟨hcl, hch, _, hmain⟩ := waiting I hi hne
    have hroom := room I hi (by rw [hpc]; rfl)
    refine ⟨{ s with chan := s.chan ++ [(sc i, i)], sent := s.sent ++ [i], pc := upd s.pc i .wgDone }, by unfold stepWorker; rw [hpc]; simp only [hcl, Bool.false_eq_true, if_false, hroom, if_true], ?_, rfl,
      fun j hj => upd_other _ _ hj, fun _ _ => rfl, ?_, ?_⟩
    · have hni : i ∉ s.sent := by rw [I.sentIff, hpc]; simp [sentPc]
      constructor
      · exact I.crash
      · intro j hj
        by_cases hji : j = i
        · subst hji; simp only [upd_same]; exact hM
        · simp only [upd_other _ _ hji]; exact I.work j hj
      · exact I.masks
      · simp only
        rw [List.nodup_append]
        refine ⟨I.nodup, by simp, ?_⟩
        intro a ha b hb hab
        simp only [List.mem_singleton] at hb
        subst hb; subst hab; exact hni ha
      · intro j
        simp only [List.mem_append, List.mem_singleton]
        by_cases hji : j = i
        · subst hji; simp [upd_same, sentPc, hi]
        · simp only [upd_other _ _ hji, hji, or_false]; exact I.sentIff j
      · have := countP_upd s.pc i .wgDone 8
        simp only [hi, hl, show live .wgDone = true from rfl, true_and, if_true] at this
        have := I.wg
        simp only at *
        omega
      · intro j hj
        by_cases hji : j = i
        · subst hji
          simp only [upd_same]
          constructor
          · intro h; cases h
          · intro h; have := (I.born j hj).2 h; rw [hpc] at this; cases this
        · simp only [upd_other _ _ hji]; exact I.born j hj
      · have hm := I.mainInv
        unfold MainInv at hm ⊢
        obtain ⟨k, hk | hk | hk⟩ := hmain <;> (simp only [hk] at hm ⊢; simp [hm])
    · left
      exact ⟨⟨_, rfl⟩, by simp only [upd_same], rfl⟩
    · simp only [upd_same]
  | wgDone =>
    rw [hpc] at hw
    have hwg : s.wg ≠ 0 := by
      have h1 := live_pos (s := s) hi hl
      have h2 := I.wg
      omega
    have hne : s.pc i ≠ .dead := by rw [hpc]; simp
    obtain ⟨hcl, hch, _, hmain⟩ := waiting I hi hne
    refine ⟨{ s with wg := s.wg - 1, pc := upd s.pc i .dead }, by unfold stepWorker; rw [hpc]; simp only [hwg, if_false], ?_, rfl,
      fun j hj => upd_other _ _ hj, fun _ _ => rfl, ?_, ?_⟩
    · constructor
      · exact I.crash
      · intro j hj
        by_cases hji : j = i
        · subst hji; simp only [upd_same]; exact hw
        · simp only [upd_other _ _ hji]; exact I.work j hj
      · exact I.masks
      · exact I.nodup
      · intro j
        by_cases hji : j = i
        · subst hji
          have := I.sentIff j
          rw [hpc] at this
          simp only [upd_same]
          exact this
        · simp only [upd_other _ _ hji]; exact I.sentIff j
      · have h1 := countP_upd s.pc i .dead 8
        simp only [hi, hl, show live .dead = false from rfl, true_and, if_true, Bool.false_eq_true, if_false] at h1
        have h2 := I.wg
        simp only at *
        omega
      · intro j hj
        by_cases hji : j = i
        · subst hji
          simp only [upd_same]
          constructor
          · intro h; cases h
          · intro h; have := (I.born j hj).2 h; rw [hpc] at this; cases this
        · simp only [upd_other _ _ hji]; exact I.born j hj
      · have hm := I.mainInv
        unfold MainInv at hm ⊢
        obtain ⟨k, hk | hk | hk⟩ := hmain <;> (simp only [hk] at hm ⊢; simp [hm])
    · right
      simp only [upd_same]
      simp [sentPc]
    · simp only [upd_same]

/-! ## The main goroutine -/

theorem inv_initial (cpy : Matrix) (masks M : Nat → Matrix) (sc : Nat → Nat) (q : QRCode) :
    Inv q cpy masks M sc (initial cpy masks) := by
  constructor
  · rfl
  · intro i _
    show (initial cpy masks).heap (matPtr i) = cpy.copy
    simp [initial, matPtr]
  · intro i _
    simp only [initial, maskPtr]
    rw [if_neg (by omega)]
    congr 1; omega
  · simp [initial]
  · intro i; simp [initial, sentPc]
  · simp [initial, live, isGo]
  · intro j hj; simp [initial, spawned]
  · simp [MainInv, initial]

/-- All workers have ended exactly if none is live, once all have been started. -/
theorem all_dead {s : St} (I : Inv q cpy masks M sc s) (h8 : spawned s.main = 8) (h0 : s.wg = 0) : ∀ i < 8, s.pc i = .dead := by
  intro i hi
  have hnl : live (s.pc i) = false := by
    cases h : live (s.pc i) with
    | false => rfl
    | true =>
      have h1 := live_pos (s := s) hi h
      have h2 := I.wg
      omega
  have hnu : s.pc i ≠ .unborn := by
    intro h
    have := (I.born i hi).1 h
    omega
  cases hpc : s.pc i <;> rw [hpc] at hnl hnu <;> simp_all [live]

theorem main_inv {s : St} (I : Inv q cpy masks M sc s) {s' : St} (h : stepMain s = some s') :
    Inv q cpy masks M sc s' ∧ s'.sent = s.sent ∧ s'.heap = s.heap := by
  have hm := I.mainInv
  have hb := I.born
  have hwg := I.wg
  unfold stepMain at h
  cases hmain : s.main with
  | add i =>
    simp only [hmain, Option.some.injEq] at h
    subst h
    rw [hmain] at hb hwg
    simp only [MainInv, hmain] at hm
    refine ⟨⟨I.crash, I.work, I.masks, I.nodup, I.sentIff, ?_, hb, ?_⟩, rfl, rfl⟩
    · simp only [isGo] at hwg ⊢; omega
    · exact hm
  | go i =>
    simp only [hmain, Option.some.injEq] at h
    subst h
    rw [hmain] at hb hwg
    simp only [MainInv, hmain] at hm
    have hi := hm.1
    have hun : s.pc i = .unborn := (hb i hi).2 (Nat.le_refl _)
    have hwk := I.work i hi
    rw [hun] at hwk
    refine ⟨⟨I.crash, ?_, I.masks, I.nodup, ?_, ?_, ?_, ?_⟩, rfl, rfl⟩
    · intro j hj
      by_cases hji : j = i
      · subst hji
        simp only [upd_same]
        refine ⟨[], ?_, hwk⟩
        rw [I.masks j hj]; rfl
      · simp only [upd_other _ _ hji]; exact I.work j hj
    · intro j
      by_cases hji : j = i
      · subst hji
        have := I.sentIff j
        rw [hun] at this
        simp only [upd_same]
        exact this
      · simp only [upd_other _ _ hji]; exact I.sentIff j
    · have h1 := countP_upd s.pc i (.xor (coords (s.heap (maskPtr i)).width (s.heap (maskPtr i)).height .column)) 8
      rw [hun] at h1
      simp only [hi, show live .unborn = false from rfl, show ∀ r, live (.xor r) = true from fun _ => rfl, true_and, if_true,
        Bool.false_eq_true, if_false] at h1
      simp only [isGo] at hwg
      have h3 : isGo (if i + 1 < 8 then .add (i + 1) else .wait) = 0 := by split <;> rfl
      simp only [h3]
      omega
    · intro j hj
      have hsp : spawned (if i + 1 < 8 then .add (i + 1) else .wait) = i + 1 := by
        split
        · rfl
        · simp only [spawned]; omega
      simp only [hsp]
      by_cases hji : j = i
      · subst hji
        simp only [upd_same]
        constructor
        · intro h; cases h
        · intro h; omega
      · simp only [upd_other _ _ hji]
        rw [hb j hj]
        simp only [spawned]
        omega
    · unfold MainInv
      by_cases h7 : i + 1 < 8
      · simp only [h7, if_true]; exact ⟨trivial, hm.2⟩
      · simp only [h7, if_false]; exact hm.2
  | wait =>
    simp only [hmain] at h
    split at h
    · next h0 =>
      simp only [Option.some.injEq] at h
      subst h
      rw [hmain] at hb hwg
      have hdead := all_dead I (by rw [hmain]; rfl) h0
      simp only [MainInv, hmain] at hm
      refine ⟨⟨I.crash, I.work, I.masks, I.nodup, I.sentIff, hwg, hb, ?_⟩, rfl, rfl⟩
      exact ⟨hm.1, hm.2, hdead⟩
    · cases h
  | close =>
    simp only [hmain, Option.some.injEq] at h
    subst h
    rw [hmain] at hb hwg
    simp only [MainInv, hmain] at hm
    refine ⟨⟨I.crash, I.work, I.masks, I.nodup, I.sentIff, hwg, hb, ?_⟩, rfl, rfl⟩
    exact ⟨rfl, hm.2.2, [], by simp [hm.2.1], rfl⟩
  | drain low mark =>
    simp only [hmain] at h
    rw [hmain] at hb hwg
    simp only [MainInv, hmain] at hm
    obtain ⟨hcl, hdead, recv, h1, h2⟩ := hm
    cases hch : s.chan with
    | nil =>
      simp only [hch, hcl, if_true, Option.some.injEq] at h
      subst h
      refine ⟨⟨I.crash, I.work, I.masks, I.nodup, I.sentIff, hwg, hb, ?_⟩, rfl, rfl⟩
      rw [hch, List.append_nil] at h1
      refine ⟨rfl, hdead, rfl, ?_⟩
      simp only
      rw [h1, ← h2]
    | cons c rest =>
      obtain ⟨score, idx⟩ := c
      simp only [hch, Option.some.injEq] at h
      subst h
      rw [hch] at h1
      have e : (if score < low then MainPc.drain score idx else .drain low mark) =
          .drain (sel (low, mark) (score, idx)).1 (sel (low, mark) (score, idx)).2 := by
        unfold sel; split <;> rfl
      rw [e]
      refine ⟨⟨I.crash, I.work, I.masks, I.nodup, I.sentIff, hwg, hb, ?_⟩, rfl, rfl⟩
      refine ⟨hcl, hdead, recv ++ [(score, idx)], by simpa using h1, ?_⟩
      rw [List.foldl_append, ← h2]
      rfl
  | finished mark =>
    simp only [hmain] at h
    cases h

/-! ## Number of steps -/

def wsize (masks : Nat → Matrix) (i : Nat) : Pc → Nat
  | .unborn => (cellsOf (masks i)).length + 6
  | .xor rest => rest.length + 6
  | .format => 5
  | .version => 4
  | .eval => 3
  | .send _ => 2
  | .wgDone => 1
  | .dead => 0

def msize (s : St) : Nat :=
  match s.main with
  | .add i => 2 * (8 - i) + 11
  | .go i => 2 * (8 - i) + 10
  | .wait => 11
  | .close => 10
  | .drain _ _ => s.chan.length + 1
  | .finished _ => 0

/-- Steps still to be made. -/
def todo (masks : Nat → Matrix) (s : St) : Nat := ((List.range 8).map fun i => wsize masks i (s.pc i)).sum + msize s

theorem sum_upd (masks : Nat → Matrix) (f : Nat → Pc) (g : Nat → Pc) (i : Nat) (h : ∀ j, j ≠ i → g j = f j) (n : Nat) (hi : i < n) :
    ((List.range n).map fun j => wsize masks j (g j)).sum + wsize masks i (f i) =
    ((List.range n).map fun j => wsize masks j (f j)).sum + wsize masks i (g i) := by
  induction n with
  | zero => omega
  | succ n ih =>
    rw [List.range_succ, List.map_append, List.map_append, List.sum_append, List.sum_append]
    simp only [List.map_cons, List.map_nil, List.sum_cons, List.sum_nil, Nat.add_zero]
    by_cases hin : i = n
    · subst hin
      have : ((List.range i).map fun j => wsize masks j (g j)) = (List.range i).map fun j => wsize masks j (f j) := by
        apply List.map_congr_left
        intro j hj
        have := List.mem_range.1 hj
        rw [h j (by omega)]
      rw [this]
      omega
    · have := ih (by omega)
      rw [h n (by omega)]
      omega

theorem sent_length {s : St} (I : Inv q cpy masks M sc s) (hd : ∀ i < 8, s.pc i = .dead) : s.sent.Perm (List.range 8) := by
  refine (List.perm_ext_iff_of_nodup I.nodup List.nodup_range).2 ?_
  intro i
  rw [I.sentIff, List.mem_range]
  constructor
  · exact fun h => h.1
  · intro h; refine ⟨h, ?_⟩; rw [hd i h]; rfl

theorem main_todo {s : St} (I : Inv q cpy masks M sc s) {s' : St} (h : stepMain s = some s') :
    todo masks s' + 1 = todo masks s := by
  have hm := I.mainInv
  have hb := I.born
  unfold stepMain at h
  unfold todo msize
  cases hmain : s.main with
  | add i =>
    simp only [hmain, Option.some.injEq] at h
    subst h
    simp only
    omega
  | go i =>
    simp only [hmain, Option.some.injEq] at h
    subst h
    rw [hmain] at hb
    simp only [MainInv, hmain] at hm
    have hi := hm.1
    have hun : s.pc i = .unborn := (hb i hi).2 (Nat.le_refl _)
    have h1 := sum_upd masks s.pc (upd s.pc i (.xor (coords (s.heap (maskPtr i)).width (s.heap (maskPtr i)).height .column))) i
      (fun j hj => upd_other _ _ hj) 8 hi
    rw [hun, upd_same, I.masks i hi] at h1
    have h2 : wsize masks i .unborn = wsize masks i (.xor (coords (masks i).width (masks i).height .column)) := rfl
    simp only
    rw [I.masks i hi]
    by_cases h7 : i + 1 < 8
    · simp only [h7, if_true]; omega
    · simp only [h7, if_false]; omega
  | wait =>
    simp only [hmain] at h
    split at h
    · simp only [Option.some.injEq] at h
      subst h
      simp only
    · cases h
  | close =>
    simp only [hmain, Option.some.injEq] at h
    subst h
    simp only [MainInv, hmain] at hm
    have := (sent_length I hm.2.2).length_eq
    simp only [List.length_range] at this
    simp only [hm.2.1, List.length_map, this]
  | drain low mark =>
    simp only [hmain] at h
    simp only [MainInv, hmain] at hm
    cases hch : s.chan with
    | nil =>
      simp only [hch, hm.1, if_true, Option.some.injEq] at h
      subst h
      simp
    | cons c rest =>
      obtain ⟨score, idx⟩ := c
      simp only [hch, Option.some.injEq] at h
      subst h
      simp only [List.length_cons]
      by_cases hlt : score < low
      · simp only [hlt, if_true]; omega
      · simp only [hlt, if_false]; omega
  | finished mark =>
    simp only [hmain] at h
    cases h

/-! ## All steps -/

/-- One step of the machine. -/
theorem step_inv (J : Job q cpy masks M sc) {s : St} (I : Inv q cpy masks M sc s) {a : Actor} {s' : St} (h : step q s a = some s') :
    Inv q cpy masks M sc s' ∧ todo masks s' + 1 = todo masks s ∧ s.sent <+: s'.sent ∧
      (∀ i b, a = .worker i → b ≠ matPtr i → s'.heap b = s.heap b) ∧ (a = .main → s'.heap = s.heap) := by
  unfold step at h
  rw [I.crash] at h
  simp only [Option.isSome_none, Bool.false_eq_true, if_false] at h
  cases a with
  | main =>
    simp only at h
    obtain ⟨h1, h2, h3⟩ := main_inv I h
    exact ⟨h1, main_todo I h, by rw [h2]; exact List.prefix_rfl, by simp, fun _ => h3⟩
  | worker i =>
    simp only at h
    split at h
    · next hi =>
      have hl : live (s.pc i) = true := by
        cases hpc : s.pc i <;> simp only [live]
        · unfold stepWorker at h; rw [hpc] at h; cases h
        · unfold stepWorker at h; rw [hpc] at h; cases h
      obtain ⟨s'', h1, h2, h3, h4, h5, h6, h7⟩ := worker_step J I hi hl
      rw [h1] at h
      cases h
      refine ⟨h2, ?_, ?_, ?_, by simp⟩
      · have hs := sum_upd masks s.pc s'.pc i h4 8 hi
        have hw : wsize masks i (s'.pc i) + 1 = wsize masks i (s.pc i) := by
          revert h7
          cases s.pc i with
          | xor r =>
            cases r with
            | nil => cases s'.pc i <;> simp [wsize]
            | cons p ps =>
              cases s'.pc i <;> intro h <;> first | (exact h.elim) | skip
              simp only at h
              subst h; rfl
          | _ => cases s'.pc i <;> simp [wsize]
        have hms : msize s' = msize s := by
          have hch : s.pc i ≠ .dead := by intro hd; rw [hd] at hl; cases hl
          obtain ⟨_, _, _, k, hk | hk | hk⟩ := waiting I hi hch <;> (unfold msize; rw [h3]; first | rw [hk.1] | rw [hk])
        unfold todo
        omega
      · rcases h6 with ⟨_, _, h⟩ | ⟨_, h, _⟩ <;> rw [h]
        · exact List.prefix_append _ _
        · exact List.prefix_rfl
      · intro j b hj hb
        cases hj
        exact h5 b hb
    · cases h

theorem run_inv (J : Job q cpy masks M sc) (sched : List Actor) : ∀ {s : St}, Inv q cpy masks M sc s → ∀ {s' : St},
    run q s sched = some s' → Inv q cpy masks M sc s' ∧ todo masks s' + sched.length = todo masks s ∧ s.sent <+: s'.sent := by
  induction sched with
  | nil => intro s I s' h; cases h; exact ⟨I, rfl, List.prefix_rfl⟩
  | cons a as ih =>
    intro s I s' h
    rw [run] at h
    cases hst : step q s a with
    | none => rw [hst] at h; cases h
    | some s1 =>
      rw [hst] at h
      obtain ⟨h1, h2, h3, _⟩ := step_inv J I hst
      obtain ⟨g1, g2, g3⟩ := ih h1 h
      refine ⟨g1, ?_, h3.trans g3⟩
      rw [List.length_cons]; omega

/-- Unless the main goroutine has ended, somebody can move. -/
theorem progress (J : Job q cpy masks M sc) {s : St} (I : Inv q cpy masks M sc s) (hf : ∀ k, s.main ≠ .finished k) :
    ∃ a s', step q s a = some s' := by
  by_cases hl : ∃ i, i < 8 ∧ live (s.pc i) = true
  · obtain ⟨i, hi, hl⟩ := hl
    obtain ⟨s', h, _⟩ := worker_step J I hi hl
    refine ⟨.worker i, s', ?_⟩
    unfold step
    rw [I.crash]
    simp [hi, h]
  · refine ⟨.main, ?_⟩
    unfold step
    rw [I.crash]
    simp only [Option.isSome_none, Bool.false_eq_true, if_false]
    unfold stepMain
    cases hmain : s.main with
    | add i => exact ⟨_, rfl⟩
    | go i => exact ⟨_, rfl⟩
    | wait =>
      have h0 : s.wg = 0 := by
        have := I.wg
        rw [hmain] at this
        have h2 : (List.range 8).countP (fun j => live (s.pc j)) = 0 := by
          rw [List.countP_eq_zero]
          intro j hj hlj
          exact hl ⟨j, List.mem_range.1 hj, hlj⟩
        rw [h2] at this
        exact this
      simp only [h0, if_true]
      exact ⟨_, rfl⟩
    | close => exact ⟨_, rfl⟩
    | drain low mark =>
      have hm := I.mainInv
      simp only [MainInv, hmain] at hm
      cases hch : s.chan with
      | nil => simp only [hm.1, if_true]; exact ⟨_, rfl⟩
      | cons c r => exact ⟨_, rfl⟩
    | finished k => exact absurd hmain (hf k)

theorem run_append (q : QRCode) (s : St) (a b : List Actor) : run q s (a ++ b) = (run q s a).bind fun s' => run q s' b := by
  induction a generalizing s with
  | nil => rfl
  | cons x xs ih =>
    rw [List.cons_append, run, run]
    cases step q s x with
    | none => rfl
    | some s1 => exact ih s1

/-- Every started execution can be completed. -/
theorem completes (J : Job q cpy masks M sc) (n : Nat) : ∀ {s : St}, Inv q cpy masks M sc s → todo masks s = n →
    ∃ sched s' k, run q s sched = some s' ∧ s'.main = .finished k := by
  induction n with
  | zero =>
    intro s I h
    by_cases hf : ∃ k, s.main = .finished k
    · obtain ⟨k, hk⟩ := hf
      exact ⟨[], s, k, rfl, hk⟩
    · obtain ⟨a, s', hs⟩ := progress J I (fun k hk => hf ⟨k, hk⟩)
      have := (step_inv J I hs).2.1
      omega
  | succ n ih =>
    intro s I h
    by_cases hf : ∃ k, s.main = .finished k
    · obtain ⟨k, hk⟩ := hf
      exact ⟨[], s, k, rfl, hk⟩
    · obtain ⟨a, s1, hs⟩ := progress J I (fun k hk => hf ⟨k, hk⟩)
      obtain ⟨h1, h2, _⟩ := step_inv J I hs
      obtain ⟨sched, s', k, h3, h4⟩ := ih h1 (by omega)
      exact ⟨a :: sched, s', k, by rw [run, hs]; exact h3, h4⟩

/-! ## Every order of arrival happens -/

theorem step_main {s : St} (h : s.crash = none) : step q s .main = stepMain s := by
  unfold step; rw [h]; rfl

theorem start_all (J : Job q cpy masks M sc) (n : Nat) : ∀ {s : St}, Inv q cpy masks M sc s → s.sent = [] →
    ((∃ i, i + n = 8 ∧ s.main = .add i)) →
    (∀ i, sentPc (s.pc i) = false) →
    ∃ sched s', run q s sched = some s' ∧ s'.main = .wait ∧ s'.sent = [] ∧ ∀ i, sentPc (s'.pc i) = false := by
  induction n with
  | zero =>
    intro s I _ h _
    obtain ⟨i, hi, hm⟩ := h
    have := I.mainInv
    simp only [MainInv, hm] at this
    omega
  | succ n ih =>
    intro s I h0 h hs
    obtain ⟨i, hi, hm⟩ := h
    have h1 : ∃ s1, step q s .main = some s1 ∧ s1.main = .go i ∧ s1.pc = s.pc := by
      exact ⟨{ s with wg := s.wg + 1, main := .go i }, by rw [step_main I.crash]; unfold stepMain; rw [hm], rfl, rfl⟩
    obtain ⟨s1, e1, m1, p1⟩ := h1
    obtain ⟨I1, -, -⟩ := step_inv J I e1
    have hsent1 : s1.sent = [] := by
      have := (main_inv I (by unfold step at e1; rw [I.crash] at e1; exact e1)).2.1
      rw [this, h0]
    have h2 : ∃ s2, step q s1 .main = some s2 ∧ s2.main = (if i + 1 < 8 then .add (i + 1) else .wait) ∧
        ∃ r, s2.pc = upd s1.pc i (.xor r) := by
      exact ⟨{ s1 with
          pc := upd s1.pc i (.xor (coords (s1.heap (maskPtr i)).width (s1.heap (maskPtr i)).height .column))
          main := if i + 1 < 8 then .add (i + 1) else .wait }, by rw [step_main I1.crash]; unfold stepMain; rw [m1], rfl, ⟨_, rfl⟩⟩
    obtain ⟨s2, e2, m2, r, p2⟩ := h2
    obtain ⟨I2, -, -⟩ := step_inv J I1 e2
    have hsent2 : s2.sent = [] := by
      have := (main_inv I1 (by unfold step at e2; rw [I1.crash] at e2; exact e2)).2.1
      rw [this, hsent1]
    have hs2 : ∀ j, sentPc (s2.pc j) = false := by
      intro j
      rw [p2, p1]
      by_cases hj : j = i
      · subst hj; rw [upd_same]; rfl
      · rw [upd_other _ _ hj]; exact hs j
    by_cases h7 : i + 1 < 8
    · rw [if_pos h7] at m2
      obtain ⟨sched, s', g1, g2⟩ := ih I2 hsent2 ⟨i + 1, by omega, m2⟩ hs2
      exact ⟨.main :: .main :: sched, s', by simp only [run, e1, e2]; exact g1, g2⟩
    · rw [if_neg h7] at m2
      exact ⟨[.main, .main], s2, by simp only [run, e1, e2], m2, hsent2, hs2⟩

/-- A live worker that has not sent yet can run to its end while the others rest. -/
theorem run_worker (J : Job q cpy masks M sc) {i : Nat} (hi : i < 8) (n : Nat) : ∀ {s : St}, Inv q cpy masks M sc s →
    wsize masks i (s.pc i) = n → s.pc i ≠ .unborn →
    ∃ sched s', run q s sched = some s' ∧ s'.main = s.main ∧ (∀ j, j ≠ i → s'.pc j = s.pc j) ∧ s'.pc i = .dead ∧
      s'.sent = s.sent ++ (if sentPc (s.pc i) = true then [] else [i]) := by
  induction n with
  | zero =>
    intro s I hn hu
    have : s.pc i = .dead := by
      cases h : s.pc i <;> rw [h] at hn hu <;> simp [wsize] at hn hu ⊢
    exact ⟨[], s, rfl, rfl, fun _ _ => rfl, this, by rw [this]; simp [sentPc]⟩
  | succ n ih =>
    intro s I hn hu
    have hl : live (s.pc i) = true := by
      cases h : s.pc i <;> rw [h] at hn hu <;> simp [wsize, live] at hn hu ⊢
    obtain ⟨s1, h1, h2, h3, h4, h5, h6, h7⟩ := worker_step J I hi hl
    have hst : step q s (.worker i) = some s1 := by
      unfold step; rw [I.crash]; simp [hi, h1]
    have hu1 : s1.pc i ≠ .unborn := by
      rcases h6 with ⟨_, h, _⟩ | ⟨_, _, h, _⟩
      · rw [h]; simp
      · exact h
    have hw : wsize masks i (s1.pc i) = n := by
      have htodo := (step_inv J I hst).2.1
      have hs := sum_upd masks s.pc s1.pc i h4 8 hi
      have hms : msize s1 = msize s := by
        have hch : s.pc i ≠ .dead := by intro hd; rw [hd] at hl; cases hl
        obtain ⟨_, _, _, k, hk | hk | hk⟩ := waiting I hi hch <;> (unfold msize; rw [h3]; first | rw [hk.1] | rw [hk])
      unfold todo at htodo
      omega
    obtain ⟨sched, s', g1, g2, g3, g4, g5⟩ := ih h2 hw hu1
    refine ⟨.worker i :: sched, s', by rw [run, hst]; exact g1, by rw [g2, h3], fun j hj => by rw [g3 j hj, h4 j hj], g4, ?_⟩
    rw [g5]
    rcases h6 with ⟨⟨x, hx⟩, h, hs⟩ | ⟨h, hs, _⟩
    · rw [hs, h, hx]; simp [sentPc]
    · rw [hs, ← h]

theorem run_workers (J : Job q cpy masks M sc) (l : List Nat) (hl8 : ∀ i ∈ l, i < 8) (hnd : l.Nodup) :
    ∀ {s : St}, Inv q cpy masks M sc s → s.main = .wait → (∀ i ∈ l, sentPc (s.pc i) = false) →
    ∃ sched s', run q s sched = some s' ∧ s'.sent = s.sent ++ l := by
  induction l with
  | nil => intro s I _ _; exact ⟨[], s, rfl, by simp⟩
  | cons i l ih =>
    intro s I hm hs
    have hi := hl8 i (by simp)
    have hu : s.pc i ≠ .unborn := by
      intro h
      have := (I.born i hi).1 h
      rw [hm] at this
      simp only [spawned] at this
      omega
    obtain ⟨sched, s1, g1, g2, g3, g4, g5⟩ := run_worker J hi _ I rfl hu
    rw [hs i (by simp)] at g5
    obtain ⟨I1, -, -⟩ := run_inv J sched I g1
    obtain ⟨sched2, s', k1, k2⟩ := ih (fun j hj => hl8 j (by simp [hj])) (List.nodup_cons.1 hnd).2 I1 (by rw [g2, hm]) (by
      intro j hj
      have : j ≠ i := by intro h; subst h; exact (List.nodup_cons.1 hnd).1 hj
      rw [g3 j this]; exact hs j (by simp [hj]))
    refine ⟨sched ++ sched2, s', ?_, by rw [k2, g5]; simp⟩
    rw [run_append, g1]; exact k1

theorem all_orders (J : Job q cpy masks M sc) {l : List Nat} (hl : l.Perm (List.range 8)) :
    ∃ sched s' k, run q (initial cpy masks) sched = some s' ∧ s'.main = .finished k ∧ s'.sent = l := by
  have I := inv_initial cpy masks M sc q
  obtain ⟨sc1, s1, a1, a2, a3, a4⟩ := start_all J 8 I rfl ⟨0, rfl, rfl⟩ (by intro i; rfl)
  obtain ⟨I1, -, -⟩ := run_inv J sc1 I a1
  have h8 : ∀ i ∈ l, i < 8 := fun i hi => List.mem_range.1 (hl.mem_iff.1 hi)
  obtain ⟨sc2, s2, b1, b2⟩ := run_workers J l h8 (hl.nodup_iff.2 List.nodup_range) I1 a2 (fun i _ => a4 i)
  obtain ⟨I2, -, -⟩ := run_inv J sc2 I1 b1
  obtain ⟨sc3, s3, k, c1, c2⟩ := completes J _ I2 rfl
  obtain ⟨I3, -, pre⟩ := run_inv J sc3 I2 c1
  have hd : ∀ i < 8, s3.pc i = .dead := by
    have := I3.mainInv
    simp only [MainInv, c2] at this
    exact this.2.1
  refine ⟨sc1 ++ (sc2 ++ sc3), s3, k, ?_, c2, ?_⟩
  · rw [run_append, a1]
    show run q s1 (sc2 ++ sc3) = _
    rw [run_append, b1]; exact c1
  · rw [b2, a3, List.nil_append] at pre
    have h1 := (sent_length I3 hd).length_eq
    have h2 := hl.length_eq
    exact (pre.eq_of_length (by omega)).symm

end QR.Conc
