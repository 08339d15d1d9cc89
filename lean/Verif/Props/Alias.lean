import Verif.Model.Alias
import Verif.Props.ScanGradient
/-!
# C97: later changes to what a writer was given
-/
namespace QR.Alias
open QR Standard

/-- The operation changes what the writer refers to: the gradient itself, or the array of its stops (by an assignment or because `NewGradient` is called with a slice of it), or the
option of a compressed writer. -/
def Touches (h : Heap) (w : Wr) (op : Op) : Prop :=
  match w, op with
  | .standard (some g), .newGradientOf _ s => (h.grads[g]?).map (·.stops.arr) = some s.arr
  | .standard (some g), .setStop s _ _ => (h.grads[g]?).map (·.stops.arr) = some s.arr
  | .standard (some g), .setStops g' _ => g' = g
  | .standard (some g), .setAngle g' _ => g' = g
  | .compressed r, .setOption r' _ => r' = r
  | _, _ => False

theorem read_length {h : Heap} {s : Slice} {l : List ColorStop} (hl : h.read s = some l) : l.length = s.len := by
  unfold Heap.read at hl
  cases ha : h.arrs[s.arr]? with
  | none => rw [ha] at hl; cases hl
  | some a =>
    rw [ha] at hl
    simp only [Option.bind_some] at hl
    split at hl
    · rename_i hle
      cases hl
      rw [List.length_take, List.length_drop]
      omega
    · cases hl

theorem getElem?_append_some {α : Type} {l l' : List α} {i : Nat} {a : α} (h : l[i]? = some a) : (l ++ l')[i]? = some a := by
  rw [List.getElem?_append_left]
  · exact h
  · exact (List.getElem?_eq_some_iff.1 h).1

/-- Writing to one array leaves the others. -/
theorem read_put_other (h : Heap) (s s' : Slice) (l : List ColorStop) (hne : s'.arr ≠ s.arr) : (h.put s l).read s' = h.read s' := by
  unfold Heap.read Heap.put
  have hne' : ¬ s.arr = s'.arr := fun e => hne e.symm
  simp only [List.getElem?_modify, if_neg hne']
  cases h.arrs[s'.arr]? <;> rfl

/-- What a slice shows after it has been written. -/
theorem read_put (h : Heap) (s : Slice) {l l' : List ColorStop} (hr : h.read s = some l) (hlen : l'.length = l.length) : (h.put s l').read s = some l' := by
  have hs := read_length hr
  unfold Heap.read at hr
  cases ha : h.arrs[s.arr]? with
  | none => rw [ha] at hr; cases hr
  | some a =>
    rw [ha] at hr
    simp only [Option.bind_some] at hr
    split at hr
    · rename_i hle
      unfold Heap.read Heap.put
      simp only [List.getElem?_modify, ha, if_true, Option.map_eq_map, Option.map_some, Option.bind_some]
      have e : (a.take s.off).length = s.off := by rw [List.length_take]; omega
      rw [if_pos (by simp only [List.length_append, List.length_drop, e]; omega)]
      have d : (a.take s.off ++ l' ++ a.drop (s.off + s.len)).drop s.off = l' ++ a.drop (s.off + s.len) := by
        rw [List.append_assoc, List.drop_append_of_le_length (by omega), List.drop_of_length_le (by omega), List.nil_append]
      rw [d, List.take_append_of_le_length (by omega), List.take_of_length_le (by omega)]
    · cases hr

/-- The references of a writer keep their values in one step that does not touch them. -/
theorem uses_step {h h' : Heap} {op : Op} {r : Option Used} (hs : step h op = some (h', r)) {w : Wr} {u : Used} (hu : h.uses w = some u)
    (hn : ¬ Touches h w op) : h'.uses w = some u ∧ ∀ op', Touches h' w op' ↔ Touches h w op' := by
  -- all we need of the new heap
  have key : (∀ g gr, w = .standard (some g) → h.grads[g]? = some gr → h'.grads[g]? = some gr ∧
        ∀ l, h.read gr.stops = some l → h'.read gr.stops = some l) ∧
      (∀ k o, w = .compressed k → h.copts[k]? = some o → h'.copts[k]? = some o) := by
    have app : ∀ (x : List (List ColorStop)) (s : Slice) (l : List ColorStop), h.read s = some l → ({ h with arrs := h.arrs ++ x } : Heap).read s = some l := by
      intro x s l hl
      unfold Heap.read at hl ⊢
      cases ha : h.arrs[s.arr]? with
      | none => rw [ha] at hl; cases hl
      | some a =>
        rw [ha] at hl
        simp only
        rw [getElem?_append_some ha]
        exact hl
    cases op with
    | makeStops x =>
      cases hs
      exact ⟨fun g gr _ hg => ⟨hg, fun l hl => app [x] _ l hl⟩, fun k o _ ho => ho⟩
    | newGradientOf angle s =>
      simp only [step, Option.map_eq_some_iff] at hs
      obtain ⟨l0, hl0, he⟩ := hs
      cases he
      refine ⟨fun g gr hw hg => ⟨getElem?_append_some hg, fun l hl => ?_⟩, fun k o _ ho => ho⟩
      have hne : gr.stops.arr ≠ s.arr := by
        intro e
        apply hn
        rw [hw]
        simp only [Touches, hg, Option.map_some, e]
      have := read_put_other h s gr.stops (newGradient angle l0).stops hne
      rw [hl] at this
      exact this
    | newGradientList angle x =>
      cases hs
      refine ⟨fun g gr _ hg => ⟨getElem?_append_some hg, fun l hl => ?_⟩, fun k o _ ho => ho⟩
      have := app [(newGradient angle x).stops] _ l hl
      exact this
    | setStop s i v =>
      simp only [step, Option.bind_eq_some_iff] at hs
      obtain ⟨l0, hl0, he⟩ := hs
      split at he
      · cases he
        refine ⟨fun g gr hw hg => ⟨hg, fun l hl => ?_⟩, fun k o _ ho => ho⟩
        have hne : gr.stops.arr ≠ s.arr := by
          intro e
          apply hn
          rw [hw]
          simp only [Touches, hg, Option.map_some, e]
        rw [read_put_other h s gr.stops _ hne]
        exact hl
      · cases he
    | setStops g0 s =>
      simp only [step, Option.bind_eq_some_iff, Option.map_eq_some_iff] at hs
      obtain ⟨gr0, _, l0, _, he⟩ := hs
      cases he
      refine ⟨fun g gr hw hg => ⟨?_, fun l hl => hl⟩, fun k o _ ho => ho⟩
      have : g0 ≠ g := fun e => hn (by rw [hw]; exact e)
      simp only
      rw [List.getElem?_set_ne this]
      exact hg
    | setAngle g0 a =>
      simp only [step, Option.map_eq_some_iff] at hs
      obtain ⟨gr0, _, he⟩ := hs
      cases he
      refine ⟨fun g gr hw hg => ⟨?_, fun l hl => hl⟩, fun k o _ ho => ho⟩
      have : g0 ≠ g := fun e => hn (by rw [hw]; exact e)
      simp only
      rw [List.getElem?_set_ne this]
      exact hg
    | makeOption o0 =>
      cases hs
      exact ⟨fun g gr _ hg => ⟨hg, fun l hl => hl⟩, fun k o _ ho => getElem?_append_some ho⟩
    | setOption k0 o0 =>
      simp only [step, Option.map_eq_some_iff] at hs
      obtain ⟨_, _, he⟩ := hs
      cases he
      refine ⟨fun g gr _ hg => ⟨hg, fun l hl => hl⟩, fun k o hw ho => ?_⟩
      have : k0 ≠ k := fun e => hn (by rw [hw]; exact e)
      simp only
      rw [List.getElem?_set_ne this]
      exact ho
    | newStandard g0 =>
      cases g0 with
      | none => cases hs; exact ⟨fun g gr _ hg => ⟨hg, fun l hl => hl⟩, fun k o _ ho => ho⟩
      | some g0 =>
        simp only [step, Option.map_eq_some_iff] at hs
        obtain ⟨_, _, he⟩ := hs
        cases he
        exact ⟨fun g gr _ hg => ⟨hg, fun l hl => hl⟩, fun k o _ ho => ho⟩
    | newCompressed k0 =>
      simp only [step, Option.map_eq_some_iff] at hs
      obtain ⟨_, _, he⟩ := hs
      cases he
      exact ⟨fun g gr _ hg => ⟨hg, fun l hl => hl⟩, fun k o _ ho => ho⟩
    | write w0 =>
      simp only [step, Option.bind_eq_some_iff, Option.map_eq_some_iff] at hs
      obtain ⟨_, _, _, _, he⟩ := hs
      cases he
      exact ⟨fun g gr _ hg => ⟨hg, fun l hl => hl⟩, fun k o _ ho => ho⟩
  cases w with
  | standard og =>
    cases og with
    | none => exact ⟨hu, fun op' => by cases op' <;> exact Iff.rfl⟩
    | some g =>
      simp only [Heap.uses] at hu ⊢
      cases hg : h.grads[g]? with
      | none => rw [hg] at hu; cases hu
      | some gr =>
        obtain ⟨hg', hread⟩ := key.1 g gr rfl hg
        refine ⟨?_, fun op' => ?_⟩
        · rw [hg] at hu
          rw [hg']
          simp only [Option.bind_some, Option.map_eq_some_iff] at hu ⊢
          obtain ⟨l, hl, e⟩ := hu
          exact ⟨l, hread l hl, e⟩
        · cases op' <;> simp only [Touches, hg, hg']
  | compressed k =>
    simp only [Heap.uses] at hu ⊢
    cases ho : h.copts[k]? with
    | none => rw [ho] at hu; cases hu
    | some o =>
      rw [ho] at hu
      rw [key.2 k o rfl ho]
      exact ⟨hu, fun op' => by cases op' <;> exact Iff.rfl⟩

/-- The writers made so far stay. -/
theorem writers_step {h h' : Heap} {op : Op} {r : Option Used} (hs : step h op = some (h', r)) {i : Nat} {w : Wr} (hw : h.writers[i]? = some w) :
    h'.writers[i]? = some w := by
  cases op with
  | newStandard g0 =>
    cases g0 with
    | none => cases hs; exact getElem?_append_some hw
    | some g0 =>
      simp only [step, Option.map_eq_some_iff] at hs
      obtain ⟨_, _, he⟩ := hs
      cases he
      exact getElem?_append_some hw
  | newCompressed k0 =>
    simp only [step, Option.map_eq_some_iff] at hs
    obtain ⟨_, _, he⟩ := hs
    cases he
    exact getElem?_append_some hw
  | makeStops x => cases hs; exact hw
  | makeOption x => cases hs; exact hw
  | newGradientList a x => cases hs; exact hw
  | newGradientOf a x =>
    simp only [step, Option.map_eq_some_iff] at hs
    obtain ⟨_, _, he⟩ := hs
    cases he
    exact hw
  | setStop s i v =>
    simp only [step, Option.bind_eq_some_iff] at hs
    obtain ⟨_, _, he⟩ := hs
    split at he
    · cases he; exact hw
    · cases he
  | setStops g s =>
    simp only [step, Option.bind_eq_some_iff, Option.map_eq_some_iff] at hs
    obtain ⟨_, _, _, _, he⟩ := hs
    cases he
    exact hw
  | setAngle g s =>
    simp only [step, Option.map_eq_some_iff] at hs
    obtain ⟨_, _, he⟩ := hs
    cases he
    exact hw
  | setOption g s =>
    simp only [step, Option.map_eq_some_iff] at hs
    obtain ⟨_, _, he⟩ := hs
    cases he
    exact hw
  | write w0 =>
    simp only [step, Option.bind_eq_some_iff, Option.map_eq_some_iff] at hs
    obtain ⟨_, _, _, _, he⟩ := hs
    cases he
    exact hw

/-- **C97, values left alone.** Whatever a program does in between - other gradients, other slices, other writers -, as long as it does not touch what the writer refers to, `Write`
uses exactly what it would have used before. -/
theorem C97_untouched_partial {h h' : Heap} {ops : List Op} {us : List Used} (hr : run h ops = some (h', us)) {i : Nat} {w : Wr} (hw : h.writers[i]? = some w) {u : Used}
    (hu : h.uses w = some u) (hn : ∀ op ∈ ops, ¬ Touches h w op) : step h' (.write i) = some (h', some u) := by
  induction ops generalizing h us with
  | nil =>
    cases hr
    simp only [step, hw, Option.bind_some, hu, Option.map_some]
  | cons op ops ih =>
    simp only [run, Option.bind_eq_some_iff, Option.map_eq_some_iff] at hr
    obtain ⟨⟨h1, r⟩, hs, ⟨h2, us'⟩, hr', he⟩ := hr
    cases he
    obtain ⟨hu', ht⟩ := uses_step hs hu (hn op (by simp))
    exact ih hr' (writers_step hs hw) hu' fun op' ho hc => hn op' (by simp [ho]) ((ht op').1 hc)

/-- **C97, what is handed over.** A new standard writer with `WithFgGradient(g)` uses the stops and the angle `g` has at this moment, and no gradient if `g` has no stops; a new compressed
writer the option. -/
theorem C97_given {h h' : Heap} {r : Option Used} :
    (∀ g gr l, step h (.newStandard (some g)) = some (h', r) → h.grads[g]? = some gr → h.read gr.stops = some l →
      step h' (.write h.writers.length) = some (h', some (if l = [] then .plain else .gradient ⟨l, gr.angle⟩))) ∧
    (∀ k o, step h (.newCompressed k) = some (h', r) → h.copts[k]? = some o → step h' (.write h.writers.length) = some (h', some (.option o))) := by
  refine ⟨fun g gr l hs hg hl => ?_, fun k o hs ho => ?_⟩
  · have hlen := read_length hl
    by_cases hne : l = []
    · subst hne
      have h0 : gr.stops.len = 0 := hlen.symm
      simp only [step, hg, Option.map_some, if_pos h0] at hs
      cases hs
      simp only [step, List.getElem?_append_right (Nat.le_refl _), Nat.sub_self, List.getElem?_cons_zero, Option.bind_some, Heap.uses]
      rfl
    have h0 : gr.stops.len ≠ 0 := by
      intro e
      rw [e] at hlen
      exact hne (List.length_eq_zero_iff.1 hlen)
    simp only [step, hg, Option.map_some, if_neg h0] at hs
    cases hs
    simp only [step, List.getElem?_append_right (Nat.le_refl _), Nat.sub_self, List.getElem?_cons_zero, Option.bind_some, Heap.uses, hg]
    have : ({ h with writers := h.writers ++ [Wr.standard (some g)] } : Heap).read gr.stops = some l := hl
    rw [this, if_neg hne]
    rfl
  · simp only [step, ho, Option.map_some] at hs
    cases hs
    simp only [step, List.getElem?_append_right (Nat.le_refl _), Nat.sub_self, List.getElem?_cons_zero, Option.bind_some, Heap.uses, ho]
    rfl

/-- **C97, what happens otherwise.** Whenever a program assigns to the angle of a writer's gradient, to its stops or to one of them, or to the option of a compressed writer, the next
picture is drawn with the new value. -/
theorem C97_shared {h : Heap} {i : Nat} :
    (∀ g gr l, h.writers[i]? = some (.standard (some g)) → h.grads[g]? = some gr → h.read gr.stops = some l →
      (∀ a, ∃ h', step h (.setAngle g a) = some (h', none) ∧ step h' (.write i) = some (h', some (.gradient ⟨l, a⟩))) ∧
      (∀ s l', h.read s = some l' → ∃ h', step h (.setStops g s) = some (h', none) ∧ step h' (.write i) = some (h', some (.gradient ⟨l', gr.angle⟩))) ∧
      ∀ j v, j < l.length → ∃ h', step h (.setStop gr.stops j v) = some (h', none) ∧ step h' (.write i) = some (h', some (.gradient ⟨l.set j v, gr.angle⟩))) ∧
    ∀ k o o', h.writers[i]? = some (.compressed k) → h.copts[k]? = some o →
      ∃ h', step h (.setOption k o') = some (h', none) ∧ step h' (.write i) = some (h', some (.option o')) := by
  refine ⟨fun g gr l hw hg hl => ⟨fun a => ⟨_, by simp only [step, hg, Option.map_some]; rfl, ?_⟩,
    fun s l' hl' => ⟨_, by simp only [step, hg, hl', Option.map_some, Option.bind_some]; rfl, ?_⟩,
    fun j v hj => ⟨_, by simp only [step, hl, Option.bind_some, if_pos hj]; rfl, ?_⟩⟩, fun k o o' hw ho => ⟨_, by simp only [step, ho, Option.map_some]; rfl, ?_⟩⟩
  · have hlt := (List.getElem?_eq_some_iff.1 hg).1
    have hr : ({ h with grads := h.grads.set g { gr with angle := a } } : Heap).read gr.stops = some l := hl
    simp only [step, hw, Option.bind_some, Heap.uses, List.getElem?_set_self hlt, hr, Option.map_some]
  · have hlt := (List.getElem?_eq_some_iff.1 hg).1
    have hr : ({ h with grads := h.grads.set g { gr with stops := s } } : Heap).read s = some l' := hl'
    simp only [step, hw, Option.bind_some, Heap.uses, List.getElem?_set_self hlt, hr, Option.map_some]
  · have hr := read_put h gr.stops (l' := l.set j v) hl (by simp)
    have hw' : (h.put gr.stops (l.set j v)).writers[i]? = some (.standard (some g)) := hw
    have hg' : (h.put gr.stops (l.set j v)).grads[g]? = some gr := hg
    simp only [step, hw', Option.bind_some, Heap.uses, hg', hr, Option.map_some]
  · have hlt := (List.getElem?_eq_some_iff.1 ho).1
    simp only [step, hw, Option.bind_some, Heap.uses, List.getElem?_set_self hlt, Option.map_some]

/-- **C97, `NewGradient(angle, s...)`.** It puts the stops of the caller's slice in the order of their positions, where they are, and the gradient shows that same slice; other arrays stay
as they were. -/
theorem C97_newGradient {h h' : Heap} {angle : Rat} {s : Slice} {l : List ColorStop} {r : Option Used} (hs : step h (.newGradientOf angle s) = some (h', r))
    (hl : h.read s = some l) : ∃ l', h'.read s = some l' ∧ l'.Perm l ∧ l'.Pairwise (fun a b => a.t ≤ b.t) ∧
      h'.grads[h.grads.length]? = some ⟨s, angle⟩ ∧ ∀ s' : Slice, s'.arr ≠ s.arr → h'.read s' = h.read s' := by
  obtain ⟨hp, ho⟩ := C47_newGradient angle l
  simp only [step, hl, Option.map_some] at hs
  cases hs
  refine ⟨(newGradient angle l).stops, read_put h s hl hp.length_eq, hp, ho, ?_, fun s' hne => read_put_other h s s' _ hne⟩
  simp

/-- **C97, `NewGradient(angle, a, b, c)`.** With the stops listed in the call nothing the program could refer to before changes, and the gradient has an array of its own. -/
theorem C97_newGradient_list {h h' : Heap} {angle : Rat} {l : List ColorStop} {r : Option Used} (hs : step h (.newGradientList angle l) = some (h', r)) :
    (∀ s' l', h.read s' = some l' → h'.read s' = some l' ∧ s'.arr ≠ h.arrs.length) ∧
    ∃ gr l', h'.grads[h.grads.length]? = some gr ∧ gr.stops.arr = h.arrs.length ∧ gr.angle = angle ∧ h'.read gr.stops = some l' ∧ l'.Perm l ∧
      l'.Pairwise (fun a b => a.t ≤ b.t) := by
  obtain ⟨hp, ho⟩ := C47_newGradient angle l
  cases hs
  refine ⟨fun s' l' hl => ?_, ⟨⟨h.arrs.length, 0, l.length⟩, angle⟩, (newGradient angle l).stops, by simp, rfl, rfl, ?_, hp, ho⟩
  · unfold Heap.read at hl ⊢
    cases ha : h.arrs[s'.arr]? with
    | none => rw [ha] at hl; cases hl
    | some a =>
      rw [ha] at hl
      refine ⟨?_, ?_⟩
      · simp only
        rw [getElem?_append_some ha]
        exact hl
      · have := (List.getElem?_eq_some_iff.1 ha).1
        omega
  · unfold Heap.read
    simp only
    rw [List.getElem?_append_right (Nat.le_refl _), Nat.sub_self]
    simp only [List.getElem?_cons_zero, Option.bind_some]
    rw [if_pos (by simp [hp.length_eq])]
    simp [← hp.length_eq]

/-- Black at 0, white at 1. -/
def twoStops : List ColorStop := [⟨0, color_BLACK⟩, ⟨1, color_WHITE⟩]
/-- The slice of all of the first array. -/
def whole : Slice := ⟨0, 0, 2⟩

/-- A program that makes a gradient from a slice and a writer with it. -/
def made : Heap := ⟨[twoStops], [⟨whole, 45⟩], [], [.standard (some 0)]⟩

theorem made_run : run empty [.makeStops twoStops, .newGradientOf 45 whole, .newStandard (some 0)] = some (made, []) := by
  have h1 : step empty (.makeStops twoStops) = some (⟨[twoStops], [], [], []⟩, none) := rfl
  have h2 : step ⟨[twoStops], [], [], []⟩ (.newGradientOf 45 whole) = some (⟨[twoStops], [⟨whole, 45⟩], [], []⟩, none) := by
    have hr : (⟨[twoStops], [], [], []⟩ : Heap).read whole = some twoStops := rfl
    have hn : newGradient 45 twoStops = ⟨twoStops, 45⟩ := newGradient_sorted (by simp [twoStops])
    simp only [step, hr, hn, Option.map_some]
    rfl
  have h3 : step ⟨[twoStops], [⟨whole, 45⟩], [], []⟩ (.newStandard (some 0)) = some (made, none) := rfl
  simp only [run, h1, h2, h3, Option.bind_some, Option.map_some]
  rfl

/-- **C97 is false.** (1) After a stop of the caller's slice has been overwritten, the writer uses other colours than it was given. (2) After `g.Stops` has been emptied, the writer's
gradient has no stop, which `WithFgGradient` would have refused, and asking for a colour panics. (3) `NewGradient(angle, s...)` does not leave the caller's slice as it was. (4) A
compressed writer uses the option as it is when it writes. -/
theorem C97_counterexample :
    (run made [.write 0, .setStop whole 0 ⟨0, color_WHITE⟩, .write 0]).map (·.2) =
      some [.gradient ⟨twoStops, 45⟩, .gradient ⟨[⟨0, color_WHITE⟩, ⟨1, color_WHITE⟩], 45⟩] ∧
    ((run made [.setStops 0 ⟨0, 0, 0⟩, .write 0]).map (·.2) = some [.gradient ⟨[], 45⟩] ∧ ∀ t, interpolateColor float64Round [] t = .panic) ∧
    (¬ ∀ (h h' : Heap) (angle : Rat) (s : Slice) (r : Option Used), step h (.newGradientOf angle s) = some (h', r) → h'.read s = h.read s) ∧
    (run empty [.makeOption ⟨4, 8⟩, .newCompressed 0, .setOption 0 ⟨0, 8⟩, .write 0]).map (·.2) = some [.option ⟨0, 8⟩] := by
  refine ⟨rfl, ⟨rfl, fun _ => rfl⟩, fun hall => ?_, rfl⟩
  have hr : (⟨[twoStops.reverse], [], [], []⟩ : Heap).read whole = some twoStops.reverse := rfl
  have hs : ∃ h' r, step ⟨[twoStops.reverse], [], [], []⟩ (.newGradientOf 45 whole) = some (h', r) := by
    simp only [step, hr, Option.map_some]
    exact ⟨_, _, rfl⟩
  obtain ⟨h', r, hs⟩ := hs
  obtain ⟨l', h1, _, h2, _⟩ := C97_newGradient hs hr
  rw [hall _ _ _ _ _ hs, hr] at h1
  cases h1
  simp [twoStops] at h2
  norm_num at h2

/-- The hypotheses are met: after the program that makes the writer, another gradient with stops of its own, another slice and another writer do not matter. -/
example : step ⟨[twoStops, [⟨0, color_WHITE⟩]], [⟨whole, 45⟩], [⟨4, 8⟩], [.standard (some 0), .standard none]⟩ (.write 0) =
    some (⟨[twoStops, [⟨0, color_WHITE⟩]], [⟨whole, 45⟩], [⟨4, 8⟩], [.standard (some 0), .standard none]⟩, some (.gradient ⟨twoStops, 45⟩)) :=
  C97_untouched_partial (h := made) (us := [.plain])
    (ops := [.makeStops [⟨0, color_BLACK⟩], .setStop ⟨1, 0, 1⟩ 0 ⟨0, color_WHITE⟩, .makeOption ⟨4, 8⟩, .newStandard none, .write 1])
    rfl (i := 0) rfl rfl (by
      intro op ho
      simp only [List.mem_cons, List.not_mem_nil, or_false] at ho
      rcases ho with rfl | rfl | rfl | rfl | rfl <;> simp [Touches, made, whole])
example := (C97_given (h := ⟨[twoStops], [⟨whole, 45⟩], [], []⟩)).1 0 ⟨whole, 45⟩ twoStops rfl rfl rfl
example := (C97_given (h := ⟨[], [], [⟨4, 8⟩], [.standard none]⟩)).2 0 ⟨4, 8⟩ rfl rfl
example := ((C97_shared (h := made) (i := 0)).1 0 ⟨whole, 45⟩ twoStops rfl rfl rfl).2.2 1 ⟨1, color_BLACK⟩ (by decide)
example := C97_newGradient (h := ⟨[twoStops.reverse], [], [], []⟩) (angle := 45) (s := whole) (l := twoStops.reverse) rfl rfl
example := C97_newGradient_list (h := made) (angle := 45) (l := twoStops.reverse) rfl

end QR.Alias
