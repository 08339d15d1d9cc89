import Verif.Props.Shared
/-!
# C73 without the start-up: what the mutex alone guarantees

Package initialisation fills the map, so that the mutex is never taken (`C73_safe`).  Here the map may be empty, or hold any correct entries: the code after `Lock` runs, too.
-/
namespace QR
open Spec QR.Matrix

namespace Shared

/-- Every entry of the map is what `calcAlignPatternLocs` computes for its version. -/
def Sound (c : AlignCache) : Prop := ∀ v locs, c.lookup v = some locs → calcAlignPatternLocs v = .ok locs

/-- Between `Lock` and `Unlock`. -/
def Locked : Pc → Prop
  | .write _ _ | .writing _ _ | .unlock _ _ => True
  | _ => False

/-- Where a goroutine can be after `n` steps of its own, and with what in hand. -/
def GoodC (E : Ext) (c : AlignCache) (k : Call) (n : Nat) : Pc → Prop
  | .begin => n = 0
  | .lookup q => n = 1 ∧ prepare E k = .ok q ∧ q.v.ver > 1
  | .reading q => n = 2 ∧ prepare E k = .ok q ∧ q.v.ver > 1
  | .lock q locs => n = 3 ∧ calcAlignPatternLocs q.v.ver = .ok locs ∧ complete k q locs = alone E c k
  | .write q locs => n = 4 ∧ calcAlignPatternLocs q.v.ver = .ok locs ∧ complete k q locs = alone E c k
  | .writing q locs => n = 5 ∧ calcAlignPatternLocs q.v.ver = .ok locs ∧ complete k q locs = alone E c k
  | .unlock q locs => n = 6 ∧ complete k q locs = alone E c k
  | .rest q locs => n ≤ 7 ∧ complete k q locs = alone E c k
  | .returned r => n ≤ 8 ∧ r = alone E c k

structure InvC (E : Ext) (calls : Nat → Call) (c : AlignCache) (cnt : Nat → Nat) (s : St) : Prop where
  sound : Sound s.cache
  keeps : ∀ v locs, c.lookup v = some locs → s.cache.lookup v = some locs
  locked : ∀ i, Locked (s.pc i) ↔ s.holder = some i
  writers : s.writers = 0 ∨ s.writers = 1 ∧ ∃ i q locs, s.holder = some i ∧ s.pc i = .writing q locs
  good : ∀ i, GoodC E c (calls i) (cnt i) (s.pc i)

theorem alone_sound {E : Ext} {c : AlignCache} (hc : Sound c) {k : Call} {q : QRCode} (hq : prepare E k = .ok q) (hv : q.v.ver > 1) :
    alone E c k = (calcAlignPatternLocs q.v.ver >>= fun locs => complete k q locs) ∨ ∃ locs, calcAlignPatternLocs q.v.ver = .ok locs ∧ alone E c k = complete k q locs := by
  rw [alone_eq, hq, Res.bind_ok, if_pos hv]
  unfold loadAlignmentPatternLocV2
  rw [if_neg (by omega)]
  cases hl : c.lookup q.v.ver with
  | some locs => exact .inr ⟨locs, hc _ _ hl, rfl⟩
  | none =>
    left
    cases calcAlignPatternLocs q.v.ver <;> rfl

theorem alone_of_calc {E : Ext} {c : AlignCache} (hc : Sound c) {k : Call} {q : QRCode} (hq : prepare E k = .ok q) (hv : q.v.ver > 1) :
    alone E c k = (calcAlignPatternLocs q.v.ver >>= fun locs => complete k q locs) := by
  rcases alone_sound hc hq hv with h | ⟨locs, h1, h2⟩
  · exact h
  · rw [h1, h2]; rfl

/-- One step, as long as the process is not killed. -/
theorem stepC {E : Ext} {calls : Nat → Call} {c : AlignCache} (hc : Sound c) {cnt : Nat → Nat} {s s' : St}
    (I : InvC E calls c cnt s) (i : Nat) (h : step E calls i s = some s') (hk : s'.crashed = false) :
    s.crashed = false ∧ InvC E calls c (fun j => if j = i then cnt j + 1 else cnt j) s' := by
  have hg := I.good i
  have hal := alone_eq E c (calls i)
  have goodOf : ∀ {p : Pc}, GoodC E c (calls i) (cnt i + 1) p → ∀ j, GoodC E c (calls j) (if j = i then cnt j + 1 else cnt j) (if j = i then p else s.pc j) := by
    intro p hp j
    by_cases e : j = i
    · subst e; simpa using hp
    · simpa [e] using I.good j
  -- a step between two places outside the critical section
  have plain : ∀ {p : Pc} {cr : Bool} (r : Nat), ¬ Locked (s.pc i) → ¬ Locked p → GoodC E c (calls i) (cnt i + 1) p →
      InvC E calls c (fun j => if j = i then cnt j + 1 else cnt j) { s.goto i p with readers := r, crashed := cr } := by
    intro p cr r h1 h2 hp
    refine ⟨I.sound, I.keeps, ?_, ?_, goodOf hp⟩
    · intro j
      simp only [St.goto]
      by_cases e : j = i
      · subst e
        simp only [if_true]
        exact ⟨fun h => (h2 h).elim, fun h => (h1 ((I.locked j).2 h)).elim⟩
      · simp only [e, if_false]; exact I.locked j
    · rcases I.writers with h | ⟨h, j, q, locs, hj, hp'⟩
      · exact .inl h
      · refine .inr ⟨h, j, q, locs, hj, ?_⟩
        have e : j ≠ i := by rintro rfl; exact h1 ((I.locked j).2 hj)
        simp only [St.goto, e, if_false]; exact hp'
  have nl : ∀ {j : Nat}, s.holder = some i → j ≠ i → ¬ Locked (s.pc j) := by
    intro j hh e hl
    have := (I.locked j).1 hl
    rw [hh] at this
    exact e (Option.some.inj this).symm
  unfold step at h
  cases hcr : s.crashed with
  | true => rw [hcr] at h; cases h
  | false =>
  refine ⟨rfl, ?_⟩
  rw [hcr] at h
  simp only [Bool.false_eq_true, if_false] at h
  cases hpc : s.pc i with
  | begin =>
    rw [hpc] at hg h
    have h0 : cnt i = 0 := hg
    simp only at h
    cases hq : prepare E (calls i) with
    | ok q =>
      rw [hq, Res.bind_ok] at hal
      rw [hq] at h
      simp only at h
      by_cases hv : q.v.ver > 1
      · rw [if_pos hv] at h
        cases h
        exact plain s.readers (by rw [hpc]; exact id) id ⟨by omega, hq, hv⟩
      · rw [if_neg hv] at hal h
        cases h
        exact plain s.readers (by rw [hpc]; exact id) id ⟨by omega, hal.symm⟩
    | err e =>
      rw [hq, Res.bind_err] at hal
      rw [hq] at h
      cases h
      exact plain s.readers (by rw [hpc]; exact id) id ⟨by omega, hal.symm⟩
    | panic e =>
      rw [hq, Res.bind_panic] at hal
      rw [hq] at h
      cases h
      exact plain s.readers (by rw [hpc]; exact id) id ⟨by omega, hal.symm⟩
  | lookup q =>
    rw [hpc] at hg h
    obtain ⟨h1, h2, h3⟩ := hg
    simp only at h
    by_cases hw : s.writers > 0
    · rw [if_pos hw] at h; cases h; cases hk
    · rw [if_neg hw] at h
      cases h
      exact plain (s.readers + 1) (by rw [hpc]; exact id) id ⟨by omega, h2, h3⟩
  | reading q =>
    rw [hpc] at hg h
    obtain ⟨h1, h2, h3⟩ := hg
    have ha := alone_of_calc hc h2 h3
    simp only at h
    cases hl : s.cache.lookup q.v.ver with
    | some locs =>
      rw [hl] at h
      cases h
      rw [I.sound _ _ hl] at ha
      exact plain (p := .rest q locs) (s.readers - 1) (by rw [hpc]; exact id) id ⟨by omega, ha.symm⟩
    | none =>
      rw [hl] at h
      simp only at h
      cases hcalc : calcAlignPatternLocs q.v.ver with
      | ok locs =>
        rw [hcalc] at h ha
        cases h
        exact plain (p := .lock q locs) (s.readers - 1) (by rw [hpc]; exact id) id ⟨by omega, hcalc, ha.symm⟩
      | err e =>
        rw [hcalc] at h ha
        cases h
        exact plain (p := .returned (.err e)) (s.readers - 1) (by rw [hpc]; exact id) id ⟨by omega, ha.symm⟩
      | panic e =>
        rw [hcalc] at h ha
        cases h
        exact plain (p := .returned (.panic e)) (s.readers - 1) (by rw [hpc]; exact id) id ⟨by omega, ha.symm⟩
  | lock q locs =>
    rw [hpc] at hg h
    obtain ⟨h1, h2, h3⟩ := hg
    simp only at h
    cases hh : s.holder with
    | some j => rw [hh] at h; cases h
    | none =>
      rw [hh] at h
      cases h
      refine ⟨I.sound, I.keeps, ?_, ?_, goodOf (p := .write q locs) ⟨by omega, h2, h3⟩⟩
      · intro j
        simp only [St.goto]
        by_cases e : j = i
        · subst e; simp [Locked]
        · simp only [e, if_false, Option.some.injEq]
          refine ⟨fun hl => ?_, fun hl => (e hl.symm).elim⟩
          have := (I.locked j).1 hl
          rw [hh] at this; cases this
      · rcases I.writers with hw | ⟨_, j, _, _, hj, _⟩
        · exact .inl hw
        · rw [hh] at hj; cases hj
  | write q locs =>
    have hh : s.holder = some i := (I.locked i).1 (by rw [hpc]; trivial)
    rw [hpc] at hg h
    obtain ⟨h1, h2, h3⟩ := hg
    simp only at h
    by_cases hw : s.readers > 0 ∨ s.writers > 0
    · rw [if_pos hw] at h; cases h; cases hk
    · rw [if_neg hw] at h
      cases h
      refine ⟨I.sound, I.keeps, ?_, ?_, goodOf (p := .writing q locs) ⟨by omega, h2, h3⟩⟩
      · intro j
        simp only [St.goto]
        by_cases e : j = i
        · subst e; simp [Locked, hh]
        · simp only [e, if_false]; exact I.locked j
      · right
        refine ⟨by simp only; omega, i, q, locs, hh, by simp [St.goto]⟩
  | writing q locs =>
    have hh : s.holder = some i := (I.locked i).1 (by rw [hpc]; trivial)
    rw [hpc] at hg h
    obtain ⟨h1, h2, h3⟩ := hg
    cases h
    refine ⟨?_, ?_, ?_, ?_, goodOf (p := .unlock q locs) ⟨by omega, h3⟩⟩
    · intro v l hl
      by_cases e : v = q.v.ver
      · subst e
        simp only [List.lookup_cons, beq_self_eq_true] at hl
        cases hl; exact h2
      · simp only [List.lookup_cons, beq_eq_false_iff_ne.2 e] at hl
        exact I.sound v l hl
    · intro v l hl
      by_cases e : v = q.v.ver
      · subst e
        simp only [List.lookup_cons, beq_self_eq_true]
        rw [← h2.symm.trans (hc _ _ hl) |> Res.ok.inj]
      · simp only [List.lookup_cons, beq_eq_false_iff_ne.2 e]
        exact I.keeps v l hl
    · intro j
      simp only [St.goto]
      by_cases e : j = i
      · subst e; simp [Locked, hh]
      · simp only [e, if_false]; exact I.locked j
    · left
      simp only
      rcases I.writers with hw | ⟨hw, _⟩ <;> omega
  | unlock q locs =>
    have hh : s.holder = some i := (I.locked i).1 (by rw [hpc]; trivial)
    rw [hpc] at hg h
    obtain ⟨h1, h3⟩ := hg
    cases h
    refine ⟨I.sound, I.keeps, ?_, ?_, goodOf (p := .rest q locs) ⟨by omega, h3⟩⟩
    · intro j
      simp only [St.goto]
      by_cases e : j = i
      · subst e; simp [Locked]
      · simp only [e, if_false]
        exact ⟨fun h => (nl hh e h).elim, fun h => by cases h⟩
    · rcases I.writers with hw | ⟨_, j, _, _, hj, hp⟩
      · exact .inl hw
      · rw [hh] at hj; cases hj; rw [hpc] at hp; cases hp
  | rest q locs =>
    rw [hpc] at hg h
    obtain ⟨h1, h2⟩ := hg
    cases h
    exact plain s.readers (by rw [hpc]; exact id) id ⟨by omega, h2⟩
  | returned r => rw [hpc] at h; cases h

theorem step_crashed {E : Ext} {calls : Nat → Call} {i : Nat} {s : St} (h : s.crashed = true) : step E calls i s = none := by
  unfold step; rw [h]; rfl

theorem runC {E : Ext} {calls : Nat → Call} {c : AlignCache} (hc : Sound c) :
    ∀ (sched : List Nat) {cnt : Nat → Nat} {s s' : St}, InvC E calls c cnt s → run E calls sched s = some s' → s'.crashed = false →
      InvC E calls c (fun j => cnt j + sched.count j) s' := by
  intro sched
  induction sched with
  | nil => intro cnt s s' I h _; cases h; simpa using I
  | cons i is ih =>
    intro cnt s s' I h hk
    unfold run at h
    cases hs : step E calls i s with
    | none => rw [hs] at h; cases h
    | some s1 =>
      rw [hs] at h
      have hk1 : s1.crashed = false := by
        cases e : s1.crashed with
        | false => rfl
        | true =>
          cases is with
          | nil => cases h; rw [hk] at e; cases e
          | cons j js => simp only [run, step_crashed e] at h; cases h
      have J := ih (stepC hc I i hs hk1).2 h hk
      have e : (fun j => (if j = i then cnt j + 1 else cnt j) + is.count j) = fun j => cnt j + (i :: is).count j := by
        funext j
        rw [List.count_cons]
        by_cases e : j = i
        · subst e; simp; omega
        · have : ¬ (i == j) = true := by simpa using fun h => e h.symm
          simp [e, this]
      rwa [e] at J

end Shared

open Shared

/-- **C73, what the mutex alone guarantees.**  The map starts empty, or with any correct entries.  Any number of goroutines call `NewWith`, in any interleaving; unless the process has been killed
(which `C73_counterexample` shows can happen then):
a call that has returned has returned exactly what it returns when it is the only one; two goroutines are never both between `Lock` and `Unlock`, and no more than one write of the map is under way;
every entry of the map is what `calcAlignPatternLocs` computes for its version, and nothing is lost from it; a goroutine that cannot go on has returned or waits for the lock, and then the goroutine
that has the lock can go on; and a call takes at most eight steps of its own. -/
theorem C73_cold {E : Ext} {calls : Nat → Call} {c : AlignCache} (hc : ∀ v locs, c.lookup v = some locs → calcAlignPatternLocs v = .ok locs) {sched : List Nat} {s : St}
    (h : run E calls sched (start c) = some s) (hk : s.crashed = false) :
    (∀ i r, s.pc i = .returned r → r = newWith E c (calls i).arrival (calls i).t (calls i).text (calls i).opts) ∧
    (∀ i j, Locked (s.pc i) → Locked (s.pc j) → i = j) ∧ s.writers ≤ 1 ∧
    (∀ v locs, s.cache.lookup v = some locs → calcAlignPatternLocs v = .ok locs) ∧
    (∀ v locs, c.lookup v = some locs → s.cache.lookup v = some locs) ∧
    (∀ i, step E calls i s = none → (∃ r, s.pc i = .returned r) ∨
      (∃ q locs, s.pc i = .lock q locs) ∧ ∃ j, s.holder = some j ∧ Locked (s.pc j) ∧ step E calls j s ≠ none) ∧
    ∀ i, sched.count i ≤ 8 := by
  have I0 : InvC E calls c (fun _ => 0) (start c) :=
    ⟨hc, fun _ _ h => h, fun i => ⟨fun h => h.elim, fun h => by cases h⟩, .inl rfl, fun _ => rfl⟩
  have I := runC hc sched I0 h hk
  have hmov : ∀ j, Locked (s.pc j) → step E calls j s ≠ none := by
    intro j hl hn
    unfold step at hn
    rw [hk] at hn
    simp only [Bool.false_eq_true, if_false] at hn
    cases hp : s.pc j <;> rw [hp] at hl hn <;> first | exact hl | (simp only at hn; split at hn <;> cases hn) | cases hn
  refine ⟨?_, ?_, ?_, I.sound, I.keeps, ?_, ?_⟩
  · intro i r hr
    have := I.good i
    rw [hr] at this
    exact this.2
  · intro i j hi hj
    have h1 := (I.locked i).1 hi
    rw [(I.locked j).1 hj] at h1
    exact (Option.some.inj h1).symm
  · rcases I.writers with hw | ⟨hw, _⟩ <;> omega
  · intro i hn
    cases hp : s.pc i with
    | returned r => exact .inl ⟨r, rfl⟩
    | lock q locs =>
      right
      refine ⟨⟨q, locs, rfl⟩, ?_⟩
      unfold step at hn
      rw [hk, hp] at hn
      simp only [Bool.false_eq_true, if_false] at hn
      cases hh : s.holder with
      | none => rw [hh] at hn; cases hn
      | some j =>
        have hl := (I.locked j).2 hh
        exact ⟨j, rfl, hl, hmov j hl⟩
    | write q locs => exact (hmov i (by rw [hp]; trivial) hn).elim
    | writing q locs => exact (hmov i (by rw [hp]; trivial) hn).elim
    | unlock q locs => exact (hmov i (by rw [hp]; trivial) hn).elim
    | _ =>
      exfalso
      unfold step at hn
      rw [hk, hp] at hn
      simp only [Bool.false_eq_true, if_false] at hn
      (repeat' split at hn) <;> cases hn
  · intro i
    have hg := I.good i
    cases hp : s.pc i <;> rw [hp] at hg <;> simp only [GoodC] at hg <;> omega

/-- The map starts empty, two calls that need version 5: one at a time, both return, the second finds what the first stored, and the mutex was used. -/
example : ∃ sched s q, run demoExt (fun _ => demoCall) sched (start []) = some s ∧ s.crashed = false ∧ s.pc 0 = .returned (.ok q) ∧ s.pc 1 = .returned (.ok q) ∧
    (s.cache.lookup q.v.ver).isSome = true := by
  obtain ⟨c, hc, hsound, _⟩ := initialCache_ok
  obtain ⟨q, hq, hv⟩ := demoCall_ok (.start hc)
  have hq' : alone demoExt c demoCall = .ok q := hq
  have hp : ∃ p, prepare demoExt demoCall = .ok p ∧ q.v = p.v := by
    have h' := hq'
    rw [alone_eq] at h'
    simp only [bind_ok_iff] at h'
    obtain ⟨p, hp, locs, hlocs, hc⟩ := h'
    refine ⟨p, hp, ?_⟩
    simp only [complete, masking, bind_ok_iff] at hc
    obtain ⟨_, _, _, _, hc⟩ := hc
    split at hc
    · cases hc; rfl
    · cases hc
  obtain ⟨p, hp, hpv⟩ := hp
  have h1 : p.v.ver > 1 := by rw [← hpv]; exact hv
  rw [alone_of_calc hsound hp h1, bind_ok_iff] at hq'
  obtain ⟨locs, hl, hcomp⟩ := hq'
  refine ⟨[0, 0, 0, 0, 0, 0, 0, 0, 1, 1, 1, 1], ?_⟩
  simp [run, step, start, St.goto, hp, h1, hl, hcomp, hpv]

end QR
