import Verif.Props.Mask
import Verif.Proof.Conc
/-!
# C20: the mask goroutines

A call whose `init` succeeded starts eight goroutines.  `Conc.run q (initial cpy masks) sched = some s` says that the machine
of `Model/Conc.lean` can follow the schedule `sched` (a list of actors: the main goroutine and the workers 0..7) and is then
in state `s`; every interleaving is such a list.
-/
namespace QR.Conc
open QR Spec

/-- The goroutines of the call `NewWith(text, opts...)` are about to be started: `q` is the initialised code, `cpy` its
matrix with the data filled in, `masks` the eight mask matrices. -/
structure Started (E : Ext) (c : AlignCache) (text : Bytes) (opts : List EncodeOption) (q : QRCode) (cpy : Matrix)
    (masks : Nat → Matrix) : Prop where
  init : QR.init E c text (applyOptions opts) = .ok q
  fill : fillDataBinary q.mat.copy q.v.dimension q.dataBSet = some cpy
  masks : ∀ i < 8, newMask q.mat i = .ok (masks i)

/-- The main goroutine has passed `wg.Wait()`. -/
def Released (s : St) : Prop := s.main = .close ∨ (∃ low mark, s.main = .drain low mark) ∨ ∃ mark, s.main = .finished mark

theorem init_inited {E : Ext} {unsjis : Nat → Option Nat} (hE : E.Ok unsjis) {c : AlignCache} (hc : CacheOk c)
    {raw : Bytes} {opt : EncodingOption} (ho : OptOk opt) {q : QRCode} (h : QR.init E c raw opt = .ok q) :
    ∃ v bs, 1 ≤ v ∧ v ≤ 40 ∧ bs.length = 8 * dataCodewords v (levelOf opt.ecLevel.toNat) ∧
      Inited E v opt.ecLevel.toNat bs raw q := by
  have go : ∀ {m : Mode} {v : Nat} {p : Bits}, chooseMode E raw opt = .ok (modeNum m) → 1 ≤ v → v ≤ 40 →
      calcVersionNumber raw { opt with encMode := modeNum m } = .ok (v : Int) → encodePayload E (modeNum m) raw = .ok p →
      ∃ v bs, 1 ≤ v ∧ v ≤ 40 ∧ bs.length = 8 * dataCodewords v (levelOf opt.ecLevel.toNat) ∧
        Inited E v opt.ecLevel.toNat bs raw q := by
    intro m v p hm h1 h40 hv hp
    by_cases hle : 4 + countWidth v m + p.length ≤ 8 * dataCodewords v (levelOf opt.ecLevel.toNat)
    · obtain ⟨q', bs, hq, hi, hf⟩ := (init_ok hE.rs hc ho hm h1 h40 hv hp).1 hle
      rw [hq] at h; cases h
      exact ⟨v, bs, h1, h40, hf.1, hi⟩
    · have := (init_ok hE.rs hc ho hm h1 h40 hv hp).2 (by omega)
      rw [this] at h; cases h
  rcases chooseMode_spec E raw opt (init_supported h) with ⟨m, hcm, hm⟩ | ⟨m, r, h1, h2, _, h3⟩
  · have ho' : OptOk { opt with encMode := modeNum m } := ⟨ho.1, ho.2, ho.3⟩
    obtain ⟨p, hp, _⟩ := payload_cases hE hcm
    rcases calcVersion_spec ho' m rfl raw with ⟨h1, h2⟩ | ⟨h0, u, h1, h2, h3, h4, h5⟩ | ⟨h0, h1, h2⟩
    · simp only at h1 h2
      have hver := ho.version
      have hvn : opt.version = ((opt.version.toNat : Nat) : Int) := by omega
      replace h2 := h2.trans (congrArg Res.ok hvn)
      exact go hm (by omega) (by omega) h2 hp
    · simp only at h0 h3 h4 h5
      have hmn := ho.minimum
      obtain ⟨v, hv⟩ : ∃ v : Nat, (v : Int) = max (u : Int) opt.minimumVersion := ⟨(max (u : Int) opt.minimumVersion).toNat, by omega⟩
      rw [← hv] at h5
      exact go hm (by omega) (by omega) h5 hp
    · exfalso
      unfold QR.init at h
      rw [hm, Res.bind_ok] at h
      simp only [h2, Res.bind_err] at h
      cases h
  · exfalso
    unfold QR.init at h
    rw [h3] at h
    cases h

section
variable {E : Ext} {unsjis : Nat → Option Nat} (hE : E.Ok unsjis) {c : AlignCache} (hc : CacheReachable c)
  {text : Bytes} {opts : List EncodeOption} {q : QRCode} {cpy : Matrix} {masks : Nat → Matrix}
  (P : Started E c text opts q cpy masks)
include hE hc P

/-- What the workers compute when they run one after the other. -/
theorem Started.job : ∃ M sc, Job q cpy masks M sc ∧ (∀ i < 8, (masks i).width = q.v.dimension ∧ (masks i).height = q.v.dimension) ∧
    ∀ arrival, Arrival arrival → ∃ a k b, arrival = a ++ k :: b ∧ k < 8 ∧
        (∀ t, t ≠ .defined → newWith E c arrival t text opts = .ok { q with mat := M k }) ∧
        selectMask (arrival.map fun i => (sc i, i)) = k := by
  have ho := optOk_applyOptions opts
  have hl := ho.level
  obtain ⟨v, bs, h1, h40, hlen, hi⟩ := init_inited hE hc.ok ho P.init
  have hdl : q.dataBSet.length = rawModules v := by
    rw [hi.stream]; exact finalStream_length hE.rs h1 h40 _ hlen
  obtain ⟨M, s, cpy', hcand, hf, hw, hsel⟩ := masking_spec h1 h40 (by omega) (by omega) hi.row hi.mat hdl
  have hcpy : cpy' = cpy := by have := hf.symm.trans P.fill; exact Option.some.inj this
  subst hcpy
  have hdim : q.v.dimension = side v := by unfold Version.dimension; rw [hi.row.ver, side_eq]
  refine ⟨M, s, ⟨P.masks, hw⟩, ?_, ?_⟩
  · intro i hi8
    obtain ⟨f, hf, _⟩ := getModulo_eq hi8
    have hm := P.masks i hi8
    rw [hi.mat] at hm
    have := (at_newMask (prefilled_sq h1) f hf hm).1
    rw [hdim]; exact ⟨this.w, this.h⟩
  · intro arrival harr
    obtain ⟨a, k, b, e1, hk, hmask, e2, e3⟩ := hsel arrival harr
    refine ⟨a, k, b, e1, hk, ?_, ?_⟩
    · intro t ht
      rw [newWith_eq E c arrival ht text opts]
      unfold build
      rw [P.init, Res.bind_ok, hmask]
    · have hlt : ∀ i ∈ arrival, i < 8 := fun i hi => List.mem_range.1 (harr.mem_iff.1 hi)
      obtain ⟨a', k', b', g1, g2, g3, g4⟩ := selectMask_spec s arrival (by
        intro h; rw [h] at harr; exact absurd harr.length_eq (by decide)) (fun i hi => hcand.small i (hlt i hi))
      rw [g2]
      -- the first of the lowest scores is unique
      rw [e1] at g1
      rcases List.append_eq_append_iff.1 g1 with ⟨l, r1, r2⟩ | ⟨l, r1, r2⟩
      · cases l with
        | nil => simp at r2; exact r2.1.symm
        | cons x l =>
          simp only [List.cons_append, List.cons.injEq] at r2
          have hk' : k' ∈ b := by rw [r2.2]; simp
          have hka : k ∈ a' := by rw [r1, r2.1]; simp
          have := e3 k' hk'
          have := g3 k hka
          omega
      · cases l with
        | nil => simp at r2; exact r2.1
        | cons x l =>
          simp only [List.cons_append, List.cons.injEq] at r2
          have hk' : k ∈ b' := by rw [r2.2]; simp
          have hka : k' ∈ a := by rw [r1, r2.1]; simp
          have := e2 k' hka
          have := g4 k hk'
          omega

/-- **C20, termination.**  Every interleaving, whatever it is, can be continued until `masking` returns, never gets stuck
before, and has then made exactly `8 * (side * side + 6) + 27` steps; no step crashes (panic, send on a closed channel,
negative WaitGroup counter). -/
theorem C20_terminates {sched : List Actor} {s : St} (h : run q (initial cpy masks) sched = some s) :
    s.crash = none ∧
    sched.length ≤ 8 * (q.v.dimension * q.v.dimension + 6) + 27 ∧
    (sched.length = 8 * (q.v.dimension * q.v.dimension + 6) + 27 ↔ ∃ k, s.main = .finished k) ∧
    ((∀ a, step q s a = none) ↔ ∃ k, s.main = .finished k) ∧
    ∃ rest s' k, run q s rest = some s' ∧ s'.main = .finished k := by
  obtain ⟨M, sc, J, hdim, _⟩ := P.job hE hc
  obtain ⟨I, hlen, _⟩ := run_inv J sched (inv_initial cpy masks M sc q) h
  have hcells : ∀ i < 8, (cellsOf (masks i)).length = q.v.dimension * q.v.dimension := by
    intro i hi
    unfold cellsOf
    rw [(hdim i hi).1, (hdim i hi).2]
    simp [Matrix.coords, List.length_flatMap, List.sum_const_nat, List.map_const']
  have hN : todo masks (initial cpy masks) = 8 * (q.v.dimension * q.v.dimension + 6) + 27 := by
    have : todo masks (initial cpy masks) = ((List.range 8).map fun i => (cellsOf (masks i)).length + 6).sum + 27 := rfl
    rw [this, List.map_congr_left (g := fun _ => q.v.dimension * q.v.dimension + 6) (fun i hi => by
      rw [hcells i (List.mem_range.1 hi)])]
    simp [List.map_const']
    omega
  rw [hN] at hlen
  have hfin : (∃ k, s.main = .finished k) → todo masks s = 0 ∧ ∀ a, step q s a = none := by
    rintro ⟨k, hk⟩
    have hm := I.mainInv
    simp only [MainInv, hk] at hm
    constructor
    · unfold todo msize
      rw [hk, List.map_congr_left (g := fun _ => 0) (fun i hi => by rw [hm.2.1 i (List.mem_range.1 hi)]; rfl)]
      simp [List.map_const']
    · intro a
      unfold step
      rw [I.crash]
      cases a with
      | main => simp only [Option.isSome_none, Bool.false_eq_true, if_false]; unfold stepMain; rw [hk]
      | worker i =>
        simp only [Option.isSome_none, Bool.false_eq_true, if_false]
        by_cases hi : i < 8
        · rw [if_pos hi]; unfold stepWorker; rw [hm.2.1 i hi]
        · rw [if_neg hi]
  refine ⟨I.crash, by omega, ⟨?_, ?_⟩, ⟨?_, fun h => (hfin h).2⟩, completes J _ I rfl⟩
  · intro he
    have h0 : todo masks s = 0 := by omega
    apply Classical.byContradiction
    intro hn
    obtain ⟨a, s', hs⟩ := progress J I (fun k hk => hn ⟨k, hk⟩)
    have := (step_inv J I hs).2.1
    omega
  · intro hk
    have := (hfin hk).1
    omega
  · intro hn
    apply Classical.byContradiction
    intro hf
    obtain ⟨a, s', hs⟩ := progress J I (fun k hk => hf ⟨k, hk⟩)
    rw [hn a] at hs; cases hs

/-- **C20, no blocking.**  In every reachable state every started worker that has not ended can make a step; in particular
none waits at the channel. -/
theorem C20_never_blocked {sched : List Actor} {s : St} (h : run q (initial cpy masks) sched = some s) {i : Nat} (hi : i < 8)
    (hb : s.pc i ≠ .unborn) (hd : s.pc i ≠ .dead) : ∃ s', step q s (.worker i) = some s' := by
  obtain ⟨M, sc, J, _⟩ := P.job hE hc
  obtain ⟨I, _⟩ := run_inv J sched (inv_initial cpy masks M sc q) h
  have hl : live (s.pc i) = true := by
    cases hpc : s.pc i <;> simp only [live]
    · exact absurd hpc hb
    · exact absurd hpc hd
  obtain ⟨s', h', _⟩ := worker_step J I hi hl
  refine ⟨s', ?_⟩
  unfold step
  rw [I.crash]
  simp [hi, h']

/-- **C20, the waiter.**  Once the main goroutine has passed `Wait`, all eight workers have ended, each has sent exactly once,
and each matrix is what that worker computes when it runs alone. -/
theorem C20_wait {sched : List Actor} {s : St} (h : run q (initial cpy masks) sched = some s) (hr : Released s) :
    s.sent.Perm (List.range 8) ∧
    ∀ i < 8, s.pc i = .dead ∧ ∃ score, maskWorker q cpy i = .ok (s.heap (matPtr i), score) := by
  obtain ⟨M, sc, J, _⟩ := P.job hE hc
  obtain ⟨I, _⟩ := run_inv J sched (inv_initial cpy masks M sc q) h
  have hd : ∀ i < 8, s.pc i = .dead := by
    have hm := I.mainInv
    rcases hr with hk | ⟨_, _, hk⟩ | ⟨_, hk⟩ <;> simp only [MainInv, hk] at hm
    · exact hm.2.2
    · exact hm.2.1
    · exact hm.2.1
  refine ⟨sent_length I hd, fun i hi => ⟨hd i hi, sc i, ?_⟩⟩
  have := I.work i hi
  rw [hd i hi] at this
  rw [J.work i hi, show s.heap (matPtr i) = M i from this]

/-- **C20, the channel.**  At every moment the values sent so far are the workers' own scores with their own indices, no index
twice; what is in the channel is a suffix of it, and all of it as long as nothing was received. -/
theorem C20_channel {sched : List Actor} {s : St} (h : run q (initial cpy masks) sched = some s) :
    s.chan.length ≤ chanCap ∧ (s.chan.map (·.2)).Nodup ∧
    (∀ x ∈ s.chan, x.2 < 8 ∧ ∃ m, maskWorker q cpy x.2 = .ok (m, x.1)) ∧
    (s.main = .close → (s.chan.map (·.2)).Perm (List.range 8)) := by
  obtain ⟨M, sc, J, _⟩ := P.job hE hc
  obtain ⟨I, _⟩ := run_inv J sched (inv_initial cpy masks M sc q) h
  have hsuf : ∃ recv, (s.sent.map fun i => (sc i, i)) = recv ++ s.chan := by
    have hm := I.mainInv
    unfold MainInv at hm
    cases hmain : s.main with
    | add k => rw [hmain] at hm; exact ⟨[], by simp [hm.2.2]⟩
    | go k => rw [hmain] at hm; exact ⟨[], by simp [hm.2.2]⟩
    | wait => rw [hmain] at hm; exact ⟨[], by simp [hm.2]⟩
    | close => rw [hmain] at hm; exact ⟨[], by simp [hm.2.1]⟩
    | drain l k => rw [hmain] at hm; obtain ⟨_, _, r, hr, _⟩ := hm; exact ⟨r, hr⟩
    | finished k => rw [hmain] at hm; exact ⟨_, by rw [hm.2.2.1, List.append_nil]⟩
  obtain ⟨recv, hr⟩ := hsuf
  have hsn : (s.chan.map (·.2)) <:+ s.sent := by
    refine ⟨recv.map (·.2), ?_⟩
    rw [← List.map_append, ← hr, List.map_map]
    have he : ((fun x : Nat × Nat => x.2) ∘ fun i => (sc i, i)) = id := rfl
    rw [he, List.map_id]
  have hlt : ∀ i ∈ s.sent, i < 8 := fun i hi => ((I.sentIff i).1 hi).1
  refine ⟨?_, hsn.sublist.nodup I.nodup, ?_, ?_⟩
  · have h1 := hsn.sublist.length_le
    have h2 := nodup_length I.nodup hlt
    rw [List.length_map] at h1
    unfold chanCap
    omega
  · intro x hx
    have : x ∈ (s.sent.map fun i => (sc i, i)) := by rw [hr]; simp [hx]
    obtain ⟨i, hi, rfl⟩ := List.mem_map.1 this
    exact ⟨hlt i hi, M i, J.work i (hlt i hi)⟩
  · intro hcl
    have hm := I.mainInv
    simp only [MainInv, hcl] at hm
    rw [hm.2.1, List.map_map]
    have he : ((fun x : Nat × Nat => x.2) ∘ fun i => (sc i, i)) = id := rfl
    rw [he, List.map_id]
    exact sent_length I hm.2.2

/-- **C20, the result.**  When `masking` returns, the code has the matrix of the selected worker; this is the result of the
sequential model for the order in which the scores were sent. -/
theorem C20_result {sched : List Actor} {s : St} (h : run q (initial cpy masks) sched = some s) {k : Nat}
    (hk : s.main = .finished k) :
    Arrival s.sent ∧ ∀ t, t ≠ .defined → newWith E c s.sent t text opts = .ok { q with mat := s.heap (matPtr k) } := by
  obtain ⟨M, sc, J, _, hsel⟩ := P.job hE hc
  obtain ⟨I, _⟩ := run_inv J sched (inv_initial cpy masks M sc q) h
  have hm := I.mainInv
  simp only [MainInv, hk] at hm
  have harr : Arrival s.sent := sent_length I hm.2.1
  refine ⟨harr, fun t ht => ?_⟩
  obtain ⟨a, k', b, e1, hk', e2, e3⟩ := hsel s.sent harr
  have : k = k' := by
    rw [← e3, hm.2.2.2]
    unfold selectMask
    congr 1
  subst this
  rw [e2 t ht]
  have hw := I.work k hk'
  rw [hm.2.1 k hk'] at hw
  rw [show s.heap (matPtr k) = M k from hw]

/-- **C20, all orders.**  Every order of the eight scores is produced by some interleaving; so the results of the sequential
model for the possible orders are exactly the possible results of the goroutines. -/
theorem C20_all_orders {arrival : List Nat} (ha : Arrival arrival) :
    ∃ sched s k, run q (initial cpy masks) sched = some s ∧ s.main = .finished k ∧ s.sent = arrival := by
  obtain ⟨M, sc, J, _⟩ := P.job hE hc
  exact all_orders J ha

/-- **C20, no cross-talk.**  A step of worker `i` in a reachable state changes no memory but worker `i`'s own matrix; a step
of the main goroutine changes none. -/
theorem C20_no_crosstalk {sched : List Actor} {s s' : St} (h : run q (initial cpy masks) sched = some s) :
    (∀ i a, step q s (.worker i) = some s' → a ≠ matPtr i → s'.heap a = s.heap a) ∧
    (step q s .main = some s' → s'.heap = s.heap) := by
  obtain ⟨M, sc, J, _⟩ := P.job hE hc
  obtain ⟨I, _⟩ := run_inv J sched (inv_initial cpy masks M sc q) h
  exact ⟨fun i a hs ha => (step_inv J I hs).2.2.2.1 i a rfl ha, fun hs => (step_inv J I hs).2.2.2.2 rfl⟩

end

/-- **C20, no shared reads.**  What worker `i` writes to its matrix and does next depends only on its own program counter, its
own matrix and its own mask (in all states, reachable or not). -/
theorem C20_own_memory (q : QRCode) {i : Nat} {s t s' t' : St} (hp : s.pc i = t.pc i)
    (hm : s.heap (matPtr i) = t.heap (matPtr i)) (hk : s.heap (maskPtr i) = t.heap (maskPtr i))
    (hs : stepWorker q i s = some s') (ht : stepWorker q i t = some t') (hc : s'.crash = s.crash) (hc' : t'.crash = t.crash)
    (h0 : s.crash = none) (h0' : t.crash = none) :
    s'.pc i = t'.pc i ∧ s'.heap (matPtr i) = t'.heap (matPtr i) := by
  rw [h0] at hc
  rw [h0'] at hc'
  unfold stepWorker at hs ht
  rw [← hp] at ht
  cases hpc : s.pc i with
  | unborn => rw [hpc] at hs; cases hs
  | dead => rw [hpc] at hs; cases hs
  | xor r =>
    rw [hpc] at hs ht
    cases r with
    | nil => cases hs; cases ht; exact ⟨by simp only [upd_same], hm⟩
    | cons p ps => cases hs; cases ht; exact ⟨by simp only [upd_same], by simp only [upd_same, hm, hk]⟩
  | format =>
    rw [hpc] at hs ht
    cases hf : formatInfo q.v i with
    | ok f => simp only [hf] at hs ht; cases hs; cases ht; exact ⟨by simp only [upd_same], by simp only [upd_same, hm]⟩
    | err e => simp only [hf] at hs; cases hs; simp at hc
    | panic e => simp only [hf] at hs; cases hs; simp at hc
  | version =>
    rw [hpc] at hs ht
    simp only at hs ht
    split at hs
    · next h7 =>
      simp only [h7, if_true] at ht
      cases hf : verInfo q.v with
      | ok o =>
        cases o with
        | some f => simp only [hf] at hs ht; cases hs; cases ht; exact ⟨by simp only [upd_same], by simp only [upd_same, hm]⟩
        | none => simp only [hf] at hs; cases hs; simp at hc
      | err e => simp only [hf] at hs; cases hs; simp at hc
      | panic e => simp only [hf] at hs; cases hs; simp at hc
    · next h7 =>
      simp only [h7, if_false] at ht
      cases hs; cases ht; exact ⟨by simp only [upd_same], hm⟩
  | eval =>
    rw [hpc] at hs ht
    simp only [← hm] at ht
    cases hf : evaluation (s.heap (matPtr i)) with
    | ok n => simp only [hf] at hs ht; cases hs; cases ht; exact ⟨by simp only [upd_same], hm⟩
    | err e => simp only [hf] at hs; cases hs; simp at hc
    | panic e => simp only [hf] at hs; cases hs; simp at hc
  | send x =>
    rw [hpc] at hs ht
    simp only at hs ht
    split at hs
    · cases hs; simp at hc
    · split at hs
      · split at ht
        · cases ht; simp at hc'
        · split at ht
          · cases hs; cases ht; exact ⟨by simp only [upd_same], hm⟩
          · cases ht
      · cases hs
  | wgDone =>
    rw [hpc] at hs ht
    simp only at hs ht
    split at hs
    · cases hs; simp at hc
    · split at ht
      · cases ht; simp at hc'
      · cases hs; cases ht; exact ⟨by simp only [upd_same], hm⟩

/-- The hypotheses are met: every call that succeeds has started the goroutines... -/
theorem started_of_ok {E : Ext} {unsjis : Nat → Option Nat} (hE : E.Ok unsjis) {c : AlignCache} (hc : CacheReachable c)
    {arrival : List Nat} {t : TextType} {text : Bytes} {opts : List EncodeOption} {q : QRCode}
    (h : newWith E c arrival t text opts = .ok q) : ∃ q0 cpy masks, Started E c text opts q0 cpy masks := by
  obtain ⟨m, v, p, bs, h1, h40, hsu⟩ := call_facts hE hc h
  obtain ⟨q0, hq0, hi⟩ := hsu.start
  have hl := (optOk_applyOptions opts).level
  obtain ⟨v', bs', h1', h40', hlen, hi'⟩ := init_inited hE hc.ok (optOk_applyOptions opts) hq0
  have hdl : q0.dataBSet.length = rawModules v' := by
    rw [hi'.stream]; exact finalStream_length hE.rs h1' h40' _ hlen
  obtain ⟨M, s, cpy, _, hf, hw, _⟩ := masking_spec h1' h40' (by omega) (by omega) hi'.row hi'.mat hdl
  refine ⟨q0, cpy, fun i => match newMask q0.mat i with | .ok m => m | _ => q0.mat, hq0, hf, ?_⟩
  intro i hi8
  have := hw i hi8
  unfold maskWorker at this
  cases hm : newMask q0.mat i with
  | ok m => rfl
  | err e => rw [hm] at this; cases this
  | panic e => rw [hm] at this; cases this

/-- ... for example the call of `C19_counterexample`. -/
example : ∃ c q cpy masks, CacheReachable c ∧ demoExt.Ok demoUnsjis ∧ ∃ text, Started demoExt c text [] q cpy masks := by
  obtain ⟨c, a, a', q, q', hc, h⟩ := C19_counterexample
  obtain ⟨q0, cpy, masks, hs⟩ := started_of_ok demo_ok hc h.2.2.1
  exact ⟨c, q0, cpy, masks, hc, demo_ok, _, hs⟩

end QR.Conc
