import Verif.Props.Align
import Verif.Props.Total
import Verif.Model.Shared
/-!
# C73: concurrent calls of `NewWith` do not affect each other
-/
namespace QR
open Spec QR.Matrix

namespace Shared

/-- What call `k` returns when it is the only one, with the cache as start-up left it. -/
def alone (E : Ext) (c : AlignCache) (k : Call) : Res QRCode := newWith E c k.arrival k.t k.text k.opts

theorem bind_assoc {α β γ : Type} (x : Res α) (f : α → Res β) (g : β → Res γ) :
    ((x >>= f) >>= g) = (x >>= fun a => f a >>= g) := by cases x <;> rfl

/-- The machine's pieces put together are the sequential `NewWith`. -/
theorem alone_eq (E : Ext) (c : AlignCache) (k : Call) : alone E c k = (do
    let q ← prepare E k
    let locs ← (if q.v.ver > 1 then (do let r ← loadAlignmentPatternLocV2 c q.v.ver; .ok r.1) else .ok [])
    complete k q locs) := by
  simp only [alone, newWith, build, init, prepare, complete, bind_assoc, Res.bind_ok]

theorem loadVersion_mem {ec : Int} : ∀ {n : Nat} {i : Int} {v : Version}, loadVersionLoop ec n i = .ok v → v ∈ versions := by
  intro n
  induction n with
  | zero => intro i v h; cases h
  | succ n ih =>
    intro i v h
    unfold loadVersionLoop at h
    split at h
    · cases h
    · split at h
      · cases h
      · rename_i w hw
        split at h
        · cases h; exact List.mem_of_getElem? hw
        · exact ih h

theorem versions_le : ∀ v ∈ versions, v.ver ≤ 40 := by decide +kernel

theorem bind_ok_iff {α β : Type} {x : Res α} {f : α → Res β} {b : β} :
    (x >>= f) = .ok b ↔ ∃ a, x = .ok a ∧ f a = .ok b := by
  cases x <;> simp

theorem prepare_le {E : Ext} {k : Call} {q : QRCode} (h : prepare E k = .ok q) : q.v.ver ≤ 40 := by
  simp only [prepare, bind_ok_iff] at h
  obtain ⟨_, _, _, _, _, _, v, hv, _, _, _, _, _, _, _, _, _, _, h⟩ := h
  cases h
  exact versions_le _ (loadVersion_mem hv)

/-- Where goroutine `i` can be after `n` steps of its own, and with what in hand. -/
def Good (E : Ext) (c : AlignCache) (k : Call) (n : Nat) : Pc → Prop
  | .begin => n = 0
  | .lookup q => n = 1 ∧ prepare E k = .ok q ∧ q.v.ver > 1
  | .reading q => n = 2 ∧ prepare E k = .ok q ∧ q.v.ver > 1
  | .rest q locs => n ≤ 3 ∧ complete k q locs = alone E c k
  | .returned r => n ≤ 4 ∧ r = alone E c k
  | _ => False

structure Inv (E : Ext) (calls : Nat → Call) (c : AlignCache) (cnt : Nat → Nat) (s : St) : Prop where
  crashed : s.crashed = false
  cache : s.cache = c
  holder : s.holder = none
  writers : s.writers = 0
  good : ∀ i, Good E c (calls i) (cnt i) (s.pc i)

theorem good_goto {E : Ext} {calls : Nat → Call} {c : AlignCache} {cnt : Nat → Nat} {s : St} (I : Inv E calls c cnt s)
    {i : Nat} {p : Pc} (hp : Good E c (calls i) (cnt i + 1) p) (j : Nat) :
    Good E c (calls j) (if j = i then cnt j + 1 else cnt j) (if j = i then p else s.pc j) := by
  by_cases h : j = i
  · subst h; simpa using hp
  · simpa [h] using I.good j

theorem step_inv {E : Ext} {calls : Nat → Call} {c : AlignCache} (hi : initialCache = .ok c) {cnt : Nat → Nat} {s : St}
    (I : Inv E calls c cnt s) (i : Nat) (hnr : ∀ r, s.pc i ≠ .returned r) :
    ∃ s', step E calls i s = some s' ∧ Inv E calls c (fun j => if j = i then cnt j + 1 else cnt j) s' := by
  have hg := I.good i
  have hcr := I.crashed
  have hca := I.cache
  have hho := I.holder
  have hwr := I.writers
  have hal := alone_eq E c (calls i)
  have mk : ∀ (p : Pc) (r : Nat), Good E c (calls i) (cnt i + 1) p →
      Inv E calls c (fun j => if j = i then cnt j + 1 else cnt j) { s.goto i p with readers := r } :=
    fun p r hp => ⟨hcr, hca, hho, hwr, good_goto I hp⟩
  unfold step
  rw [hcr]
  simp only [Bool.false_eq_true, if_false]
  cases hpc : s.pc i with
  | begin =>
    rw [hpc] at hg
    have h0 : cnt i = 0 := hg
    simp only
    cases hq : prepare E (calls i) with
    | ok q =>
      rw [hq, Res.bind_ok] at hal
      simp only
      by_cases hv : q.v.ver > 1
      · rw [if_pos hv]
        exact ⟨_, rfl, mk _ s.readers ⟨by omega, hq, hv⟩⟩
      · rw [if_neg hv] at hal ⊢
        exact ⟨_, rfl, mk _ s.readers ⟨by omega, hal.symm⟩⟩
    | err e =>
      rw [hq, Res.bind_err] at hal
      exact ⟨_, rfl, mk _ s.readers ⟨by omega, hal.symm⟩⟩
    | panic e =>
      rw [hq, Res.bind_panic] at hal
      exact ⟨_, rfl, mk _ s.readers ⟨by omega, hal.symm⟩⟩
  | lookup q =>
    rw [hpc] at hg
    obtain ⟨h1, h2, h3⟩ := hg
    simp only [hwr]
    rw [if_neg (by omega)]
    exact ⟨_, rfl, ⟨hcr, hca, hho, hwr, good_goto I (p := .reading q) ⟨by omega, h2, h3⟩⟩⟩
  | reading q =>
    rw [hpc] at hg
    obtain ⟨h1, h2, h3⟩ := hg
    obtain ⟨_, _, hs⟩ := history_facts (.start hi)
    have hsome := hs q.v.ver (by omega) (prepare_le h2)
    cases hl : c.lookup q.v.ver with
    | none => rw [hl] at hsome; cases hsome
    | some locs =>
      simp only [hca, hl]
      refine ⟨_, rfl, ⟨rfl, rfl, hho, hwr, good_goto I (p := .rest q locs) ⟨by omega, ?_⟩⟩⟩
      rw [hal, h2, Res.bind_ok, if_pos h3]
      unfold loadAlignmentPatternLocV2
      rw [if_neg (by omega), hl]
      rfl
  | lock q locs => rw [hpc] at hg; exact hg.elim
  | write q locs => rw [hpc] at hg; exact hg.elim
  | writing q locs => rw [hpc] at hg; exact hg.elim
  | unlock q locs => rw [hpc] at hg; exact hg.elim
  | rest q locs =>
    rw [hpc] at hg
    obtain ⟨h1, h2⟩ := hg
    exact ⟨_, rfl, mk _ s.readers ⟨by omega, h2⟩⟩
  | returned r => exact (hnr r hpc).elim

theorem run_inv {E : Ext} {calls : Nat → Call} {c : AlignCache} (hi : initialCache = .ok c) :
    ∀ (sched : List Nat) {cnt : Nat → Nat} {s s' : St}, Inv E calls c cnt s → run E calls sched s = some s' →
      Inv E calls c (fun j => cnt j + sched.count j) s' := by
  intro sched
  induction sched with
  | nil => intro cnt s s' I h; cases h; simpa using I
  | cons i is ih =>
    intro cnt s s' I h
    by_cases hr : ∃ r, s.pc i = .returned r
    · obtain ⟨r, hr⟩ := hr
      unfold run step at h
      rw [I.crashed, hr] at h
      cases h
    · obtain ⟨s1, h1, I1⟩ := step_inv hi I i (fun r h => hr ⟨r, h⟩)
      unfold run at h
      rw [h1] at h
      have := ih I1 h
      have e : (fun j => (if j = i then cnt j + 1 else cnt j) + is.count j) = fun j => cnt j + (i :: is).count j := by
        funext j
        rw [List.count_cons]
        by_cases hj : j = i
        · subst hj; simp; omega
        · have : (i == j) = false := by simp; omega
          simp [hj, this]
      rw [e] at this
      exact this

theorem start_inv (E : Ext) (calls : Nat → Call) (c : AlignCache) : Inv E calls c (fun _ => 0) (start c) :=
  ⟨rfl, rfl, rfl, rfl, fun _ => rfl⟩

theorem reachable_inv {E : Ext} {calls : Nat → Call} {c : AlignCache} (hi : initialCache = .ok c) {sched : List Nat} {s : St}
    (h : run E calls sched (start c) = some s) : Inv E calls c (fun j => sched.count j) s := by
  have := run_inv hi sched (start_inv E calls c) h
  simpa using this

end Shared

open Shared

/-- **C73, safety.**  Any number of goroutines call `NewWith` with any texts and options, in any interleaving: the map
they share is never written while someone else is at it (the process is not killed), it keeps the contents start-up gave
it, and its mutex is never taken. -/
theorem C73_safe {E : Ext} {calls : Nat → Call} {c : AlignCache} (hi : initialCache = .ok c) {sched : List Nat} {s : St}
    (h : run E calls sched (start c) = some s) : s.crashed = false ∧ s.cache = c ∧ s.holder = none ∧ s.writers = 0 :=
  have I := reachable_inv hi h
  ⟨I.crashed, I.cache, I.holder, I.writers⟩

/-- **C73, isolation.**  Whatever the others do, a call that returns has returned exactly what it returns when it is
the only one. -/
theorem C73_isolated {E : Ext} {calls : Nat → Call} {c : AlignCache} (hi : initialCache = .ok c) {sched : List Nat} {s : St}
    (h : run E calls sched (start c) = some s) {i : Nat} {r : Res QRCode} (hr : s.pc i = .returned r) :
    r = newWith E c (calls i).arrival (calls i).t (calls i).text (calls i).opts := by
  have := (reachable_inv hi h).good i
  rw [hr] at this
  exact this.2

/-- **C73, no waiting.**  A call that has not returned can take its next step whatever the others are doing, and it has
returned after at most four steps of its own: no goroutine can delay another. -/
theorem C73_wait_free {E : Ext} {calls : Nat → Call} {c : AlignCache} (hi : initialCache = .ok c) {sched : List Nat} {s : St}
    (h : run E calls sched (start c) = some s) (i : Nat) :
    ((∃ r, s.pc i = .returned r) ↔ step E calls i s = none) ∧ sched.count i ≤ 4 ∧
      (sched.count i = 4 → ∃ r, s.pc i = .returned r) := by
  have I := reachable_inv hi h
  have hg := I.good i
  refine ⟨⟨?_, ?_⟩, ?_, ?_⟩
  · rintro ⟨r, hr⟩
    unfold step
    rw [I.crashed, hr]
    rfl
  · intro hn
    apply Classical.byContradiction
    intro hr
    obtain ⟨s', h', _⟩ := step_inv hi I i (fun r h => hr ⟨r, h⟩)
    rw [hn] at h'
    cases h'
  · cases hp : s.pc i <;> rw [hp] at hg <;> simp only [Good] at hg <;> omega
  · intro h4
    cases hp : s.pc i <;> rw [hp] at hg <;> simp only [Good] at hg <;> first | omega | exact ⟨_, rfl⟩

/-- Any number of calls can all be driven to their end, from any point of any interleaving. -/
theorem C73_completes {E : Ext} {calls : Nat → Call} {c : AlignCache} (hi : initialCache = .ok c) {sched : List Nat} {s : St}
    (h : run E calls sched (start c) = some s) (n : Nat) :
    ∃ more s', run E calls more s = some s' ∧ ∀ i < n, s'.pc i =
      .returned (newWith E c (calls i).arrival (calls i).t (calls i).text (calls i).opts) := by
  have I := reachable_inv hi h
  generalize (fun j => sched.count j) = cnt at I
  clear h
  induction n with
  | zero => exact ⟨[], s, rfl, fun i hi => by omega⟩
  | succ n ih =>
    obtain ⟨m1, s1, h1, hall⟩ := ih
    have I1 := run_inv hi m1 I h1
    have drive : ∀ (k : Nat) {cnt' : Nat → Nat} {t : St}, Inv E calls c cnt' t → 4 - cnt' n ≤ k →
        (∀ i < n, t.pc i = .returned (newWith E c (calls i).arrival (calls i).t (calls i).text (calls i).opts)) →
        ∃ more s', run E calls more t = some s' ∧ ∀ i < n + 1, s'.pc i =
          .returned (newWith E c (calls i).arrival (calls i).t (calls i).text (calls i).opts) := by
      intro k
      induction k with
      | zero =>
        intro cnt' t J hk ht
        have hg := J.good n
        cases hp : t.pc n <;> rw [hp] at hg <;> simp only [Good] at hg <;> try omega
        refine ⟨[], t, rfl, fun i hin => ?_⟩
        by_cases e : i = n
        · subst e; rw [hp, hg.2]; rfl
        · exact ht i (by omega)
      | succ k ihk =>
        intro cnt' t J hk ht
        by_cases hr : ∃ r, t.pc n = .returned r
        · obtain ⟨r, hr⟩ := hr
          have hg := J.good n
          rw [hr] at hg
          refine ⟨[], t, rfl, fun i hin => ?_⟩
          by_cases e : i = n
          · subst e; rw [hr, hg.2]; rfl
          · exact ht i (by omega)
        · obtain ⟨t', hs, J'⟩ := step_inv hi J n (fun r h => hr ⟨r, h⟩)
          have hsame : ∀ i < n, t'.pc i = t.pc i := by
            intro i hin
            have hne : i ≠ n := by omega
            have hg := J.good n
            have hgi := ht i hin
            unfold step at hs
            rw [J.crashed] at hs
            simp only [Bool.false_eq_true, if_false] at hs
            (repeat' split at hs) <;> first | (cases hs; done) | (cases hs; simp [St.goto, hne])
          obtain ⟨m, s', hm, hall'⟩ := ihk J' (by simp only [if_pos]; omega) (fun i hin => by rw [hsame i hin]; exact ht i hin)
          refine ⟨n :: m, s', ?_, hall'⟩
          unfold run
          rw [hs]
          exact hm
    obtain ⟨m2, s2, h2, hall2⟩ := drive 4 I1 (by omega) hall
    refine ⟨m1 ++ m2, s2, ?_, hall2⟩
    have app : ∀ (a b : List Nat) (t t' : St), run E calls a t = some t' → run E calls (a ++ b) t = run E calls b t' := by
      intro a
      induction a with
      | nil => intro b t t' h; cases h; rfl
      | cons x a ih =>
        intro b t t' h
        simp only [List.cons_append, run] at h ⊢
        cases hx : step E calls x t with
        | none => rw [hx] at h; cases h
        | some u => rw [hx] at h; exact ih b u t' h
    rw [app m1 m2 s s1 h1]
    exact h2

/-- **C73, why start-up matters.**  Without the precomputation at package initialisation the same code would not be safe:
starting from an empty map, two goroutines whose calls need a version above 1 have an interleaving in which the process is
killed (an unlocked read while the other writes). -/
theorem C73_counterexample {E : Ext} {calls : Nat → Call} {c : AlignCache} {i j : Nat} (hij : i ≠ j) {q q' : QRCode}
    (hq : newWith E c (calls i).arrival (calls i).t (calls i).text (calls i).opts = .ok q) (hv : q.v.ver > 1)
    (hq' : newWith E c (calls j).arrival (calls j).t (calls j).text (calls j).opts = .ok q') (hv' : q'.v.ver > 1) :
    ∃ sched s, run E calls sched (start []) = some s ∧ s.crashed = true := by
  have key : ∀ {l : Nat} {r : QRCode}, newWith E c (calls l).arrival (calls l).t (calls l).text (calls l).opts = .ok r →
      r.v.ver > 1 → ∃ p locs, prepare E (calls l) = .ok p ∧ p.v.ver > 1 ∧ calcAlignPatternLocs p.v.ver = .ok locs := by
    intro l r h hr
    have h' : alone E c (calls l) = .ok r := h
    rw [alone_eq] at h'
    simp only [bind_ok_iff] at h'
    obtain ⟨p, hp, locs, hlocs, hc⟩ := h'
    have hver : r.v = p.v := by
      simp only [complete, masking, bind_ok_iff] at hc
      obtain ⟨_, _, _, _, hc⟩ := hc
      split at hc
      · cases hc; rfl
      · cases hc
    rw [hver] at hr
    obtain ⟨c0, i1, _, _⟩ := initialCache_ok
    obtain ⟨locs', hl, _⟩ := C49_history_irrelevant (.start i1) (prepare_le hp)
    exact ⟨p, locs', hp, hr, hl⟩
  obtain ⟨p, locs, hp, h1, hl⟩ := key hq hv
  obtain ⟨p', locs', hp', h1', hl'⟩ := key hq' hv'
  have hji : j ≠ i := fun h => hij h.symm
  refine ⟨[i, i, i, i, i, j, j], ?_⟩
  simp [run, step, start, St.goto, hp, h1, hl, hp', h1', hji]

/-- The hypotheses are met: start-up succeeds, and the empty text with version 5 asked for is such a call. -/
def demoCall : Call := ⟨.string, [], [.withVersion 5], inOrder⟩

theorem demoCall_ok {c : AlignCache} (hc : CacheReachable c) : ∃ q,
    newWith demoExt c demoCall.arrival demoCall.t demoCall.text demoCall.opts = .ok q ∧ q.v.ver > 1 := by
  have hx : ¬ (modeIn demoCall.opts = encAuto ∧ AlnumThenKanji demoExt.sjis (nats demoCall.text)) := by
    rintro ⟨_, a, b, hab, ha0, _⟩
    exact ha0 (List.append_eq_nil_iff.1 hab.symm).1
  rcases outcome demo_ok hc (t := .string) (by simp) demoCall.text (opts := demoCall.opts) (Or.inl rfl) with
    ⟨m', r, h1, h2, h3⟩ | ⟨m', h1, h0, h2, h3⟩ | ⟨m', v, p, h1, hv1, h40, hvc, hp, hlt, h3⟩ | ⟨m', v, p, bs, h1, hv1, h40, hvc, hp, hle, hsu⟩
  · cases m' <;> cases h1
  · cases h0
  · exfalso
    rcases hvc with hvc | ⟨h0, _⟩
    · have hv5 : v = 5 := by
        have e : versionIn demoCall.opts = some 5 := rfl
        rw [e] at hvc; exact (Option.some.inj hvc).symm
      subst hv5
      have hp' := payload_le hp
      have h0 : payloadBits m' (wantOf m' demoCall.text) = 0 := by cases m' <;> rfl
      have hl : levelIn demoCall.opts = .Q := rfl
      rw [hl] at hlt
      rw [h0] at hp'
      have : 4 + countWidth 5 m' ≤ 8 * dataCodewords 5 .Q := by cases m' <;> decide
      omega
    · cases h0
  · obtain ⟨q, k, hq, hb⟩ := hsu.built inOrder inOrder_arrival
    refine ⟨q, hq, ?_⟩
    rcases hvc with hvc | ⟨h0, _⟩
    · have hv5 : v = 5 := by
        have e : versionIn demoCall.opts = some 5 := rfl
        rw [e] at hvc; exact (Option.some.inj hvc).symm
      rw [hb.row.ver, hv5]; omega
    · cases h0

/-- Two such calls: started from the start-up cache both return, and from an empty cache they can kill the process. -/
example : ∃ c, initialCache = .ok c ∧
    (∃ sched s q, run demoExt (fun _ => demoCall) sched (start c) = some s ∧ s.pc 0 = .returned (.ok q) ∧ s.pc 1 = .returned (.ok q)) ∧
    ∃ sched s, run demoExt (fun _ => demoCall) sched (start []) = some s ∧ s.crashed = true := by
  obtain ⟨c, hc, _⟩ := initialCache_ok
  obtain ⟨q, hq, hv⟩ := demoCall_ok (.start hc)
  refine ⟨c, hc, ?_, C73_counterexample (calls := fun _ => demoCall) (i := 0) (j := 1) (by decide) hq hv hq hv⟩
  obtain ⟨m, s, h1, h2⟩ := C73_completes (E := demoExt) (calls := fun _ => demoCall) hc (sched := []) rfl 2
  exact ⟨m, s, q, h1, by rw [h2 0 (by omega)]; exact congrArg _ hq, by rw [h2 1 (by omega)]; exact congrArg _ hq⟩

end QR
