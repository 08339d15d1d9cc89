import Verif.Model.Debug
import Verif.Props.Compressed
import Verif.Proof.Standard
import Verif.Props.MatrixApi
/-!
# C66, C67: debugging
-/
namespace QR.Debug
open QR
open QR.Compressed (intRange mem_intRange)

/-! ## C66: the switch -/

/-- What a program does to the switch: `SetDebugMode()`, or something that asks (`env` is the value of `QRCODE_DEBUG` at that moment). -/
inductive Event
  | set
  | ask (env : String)
  deriving DecidableEq, Repr

/-- The state after a history, and the answers. -/
def run : Switch → List Event → Switch × List Bool
  | s, [] => (s, [])
  | s, .set :: l => run (setDebugMode s) l
  | s, .ask env :: l =>
    let (b, s) := debugEnabled s env
    let (s, bs) := run s l
    (s, b :: bs)

/-- The value of the variable at the first question. -/
def firstAsk : List Event → Option String
  | [] => none
  | .set :: l => firstAsk l
  | .ask env :: _ => some env

theorem run_append (s : Switch) : ∀ (l l' : List Event), run s (l ++ l') = ((run (run s l).1 l').1, (run s l).2 ++ (run (run s l).1 l').2) := by
  intro l
  induction l generalizing s with
  | nil => intro l'; rfl
  | cons e l ih =>
    intro l'
    cases e with
    | set => exact ih _ l'
    | ask env => simp only [List.cons_append, run, ih]

theorem run_state (s : Switch) : ∀ l : List Event, (run s l).1.debug =
    (s.debug || decide (Event.set ∈ l) || (!s.once && match firstAsk l with | some v => enabling v | none => false)) ∧
    (run s l).1.once = (s.once || (firstAsk l).isSome) := by
  intro l
  induction l generalizing s with
  | nil => simp [run, firstAsk]
  | cons e l ih =>
    cases e with
    | set =>
      obtain ⟨h1, h2⟩ := ih (setDebugMode s)
      refine ⟨?_, ?_⟩
      · simp only [run]; rw [h1]; simp [setDebugMode]
      · simp only [run]; rw [h2]; rfl
    | ask env =>
      obtain ⟨h1, h2⟩ := ih (debugEnabled s env).2
      have hm : (Event.set ∈ Event.ask env :: l) ↔ Event.set ∈ l := by simp
      refine ⟨?_, ?_⟩
      · simp only [run]; rw [h1]
        simp only [firstAsk, hm, debugEnabled]
        cases hs : s.once <;> cases hd : s.debug <;> cases he : enabling env <;> simp [hs, hd]
      · simp only [run]; rw [h2]
        simp only [firstAsk, debugEnabled]
        cases hs : s.once <;> simp [hs]

/-- **C66.**  Debugging is on at some moment exactly if `SetDebugMode` was called before, or `QRCODE_DEBUG` was 1, true, TRUE, enabled or ENABLED at the first
time the library looked (which may be this moment).  It is never switched off. -/
theorem C66_switch (before : List Event) (env : String) :
    (run Switch.init (before ++ [Event.ask env])).2.getLast? = some (decide (Event.set ∈ before ∨
      (firstAsk (before ++ [Event.ask env])).getD "" ∈ ["1", "true", "TRUE", "enabled", "ENABLED"])) ∧
    ∀ after env', (run Switch.init (before ++ [Event.ask env])).2.getLast? = some true →
      (run Switch.init (before ++ [Event.ask env] ++ after ++ [Event.ask env'])).2.getLast? = some true := by
  have key : ∀ l v, (run Switch.init (l ++ [Event.ask v])).2.getLast? = some (run Switch.init (l ++ [Event.ask v])).1.debug := by
    intro l v
    rw [run_append]
    simp only [run]
    simp [debugEnabled]
  have hen : ∀ v, enabling v = decide (v ∈ ["1", "true", "TRUE", "enabled", "ENABLED"]) := by
    intro v; unfold enabling; simp
  refine ⟨?_, ?_⟩
  · rw [key, (run_state Switch.init (before ++ [Event.ask env])).1]
    simp only [Switch.init, Bool.false_or, Bool.not_false, Bool.true_and]
    cases hf : firstAsk (before ++ [Event.ask env]) with
    | none =>
      exfalso
      have : ∀ l : List Event, firstAsk (l ++ [Event.ask env]) ≠ none := by
        intro l
        induction l with
        | nil => simp [firstAsk]
        | cons e l ih => cases e <;> simp [firstAsk, ih]
      exact this _ hf
    | some v =>
      simp only [Option.getD_some, hen]
      have hm : (Event.set ∈ before ++ [Event.ask env]) ↔ Event.set ∈ before := by simp
      simp only [hm]
      rw [← Bool.decide_or]
  · intro after env' h
    rw [key] at h
    rw [key, List.append_assoc, run_append]
    simp only
    rw [(run_state _ _).1]
    injection h with h
    rw [h]; rfl

example : (run Switch.init [.ask "yes", .ask "1", .set, .ask ""]).2 = [false, false, true] ∧
    (run Switch.init [.ask "TRUE", .ask "0"]).2 = [true, true] := by decide +kernel

/-! ## C67: the picture -/

theorem set_size (g : Gray16) (x y : Int) (c : UInt16) : (g.set x y c).width = g.width ∧ (g.set x y c).height = g.height := by
  unfold Gray16.set; split <;> exact ⟨rfl, rfl⟩

theorem fold_points (c : UInt16) : ∀ (l : List (Int × Int)) (g : Gray16),
    let r := l.foldl (fun g p => g.set p.1 p.2 c) g
    (r.width = g.width ∧ r.height = g.height) ∧
    ∀ a b, 0 ≤ a → a < g.width → 0 ≤ b → b < g.height → r.pix a b = if (a, b) ∈ l then c else g.pix a b
  | [], g => ⟨⟨rfl, rfl⟩, fun a b _ _ _ _ => by simp⟩
  | p :: l, g => by
    obtain ⟨⟨h1, h2⟩, h3⟩ := fold_points c l (g.set p.1 p.2 c)
    obtain ⟨e1, e2⟩ := set_size g p.1 p.2 c
    simp only [List.foldl_cons]
    refine ⟨⟨h1.trans e1, h2.trans e2⟩, fun a b ha ha' hb hb' => ?_⟩
    rw [h3 a b ha (by rw [e1]; exact ha') hb (by rw [e2]; exact hb')]
    by_cases hm : (a, b) ∈ l
    · rw [if_pos hm, if_pos (List.mem_cons_of_mem _ hm)]
    · rw [if_neg hm]
      by_cases h : a = p.1 ∧ b = p.2
      · obtain ⟨rfl, rfl⟩ := h
        rw [if_pos List.mem_cons_self]
        unfold Gray16.set
        rw [if_pos ⟨ha, ha', hb, hb'⟩]
        simp
      · have : (a, b) ∉ p :: l := by
          rw [List.mem_cons]; rintro (e | e)
          · exact h ⟨congrArg Prod.fst e, congrArg Prod.snd e⟩
          · exact hm e
        rw [if_neg this]
        unfold Gray16.set
        split
        · simp [h]
        · rfl

theorem rectangle_spec (x1 y1 x2 y2 : Int) (g : Gray16) (c : UInt16) :
    ((rectangle x1 y1 x2 y2 g c).width = g.width ∧ (rectangle x1 y1 x2 y2 g c).height = g.height) ∧
    ∀ a b, 0 ≤ a → a < g.width → 0 ≤ b → b < g.height →
      (rectangle x1 y1 x2 y2 g c).pix a b = if x1 ≤ a ∧ a < x2 ∧ y1 ≤ b ∧ b < y2 then c else g.pix a b := by
  have e : rectangle x1 y1 x2 y2 g c = ((intRange x1 x2).flatMap fun x => (intRange y1 y2).map fun y => (x, y)).foldl (fun g p => g.set p.1 p.2 c) g := by
    unfold rectangle
    rw [List.foldl_flatMap]
    congr 1
    funext g x
    rw [List.foldl_map]
  rw [e]
  obtain ⟨h1, h2⟩ := fold_points c ((intRange x1 x2).flatMap fun x => (intRange y1 y2).map fun y => (x, y)) g
  refine ⟨h1, fun a b ha ha' hb hb' => ?_⟩
  rw [h2 a b ha ha' hb hb']
  refine if_congr ?_ rfl rfl
  simp only [List.mem_flatMap, List.mem_map, mem_intRange, Prod.mk.injEq]
  constructor
  · rintro ⟨x, hx, y, hy, rfl, rfl⟩; exact ⟨hx.1, hx.2, hy⟩
  · rintro ⟨h1, h2, h3⟩; exact ⟨a, ⟨h1, h2⟩, b, h3, rfl, rfl⟩

/-- The loop over the modules. -/
theorem fold_modules : ∀ (l : List (Nat × Nat × QRValue)) (g : Gray16),
    let r := l.foldl (fun img a => rectangle (a.1 * 10 + 10) (a.2.1 * 10 + 10) ((a.1 + 1) * 10 + 10) ((a.2.1 + 1) * 10 + 10) img
      (if a.2.2.bit then 0x0000 else 0xffff)) g
    (r.width = g.width ∧ r.height = g.height) ∧
    ∀ a b, 0 ≤ a → a < g.width → 0 ≤ b → b < g.height →
      (∀ i j v, (i, j, v) ∈ l → (i : Int) * 10 + 10 ≤ a → a < (i + 1) * 10 + 10 → (j : Int) * 10 + 10 ≤ b → b < (j + 1) * 10 + 10 →
        (∀ v', (i, j, v') ∈ l → v' = v) → r.pix a b = if v.bit then 0x0000 else 0xffff) ∧
      ((∀ i j v, (i, j, v) ∈ l → ¬((i : Int) * 10 + 10 ≤ a ∧ a < (i + 1) * 10 + 10 ∧ (j : Int) * 10 + 10 ≤ b ∧ b < (j + 1) * 10 + 10)) →
        r.pix a b = g.pix a b)
  | [], g => ⟨⟨rfl, rfl⟩, fun a b _ _ _ _ => ⟨fun _ _ _ h => absurd h List.not_mem_nil, fun _ => rfl⟩⟩
  | p :: l, g => by
    obtain ⟨⟨w1, w2⟩, hp⟩ := rectangle_spec (p.1 * 10 + 10) (p.2.1 * 10 + 10) ((p.1 + 1) * 10 + 10) ((p.2.1 + 1) * 10 + 10) g (if p.2.2.bit then 0x0000 else 0xffff)
    obtain ⟨⟨h1, h2⟩, h3⟩ := fold_modules l (rectangle (p.1 * 10 + 10) (p.2.1 * 10 + 10) ((p.1 + 1) * 10 + 10) ((p.2.1 + 1) * 10 + 10) g (if p.2.2.bit then 0x0000 else 0xffff))
    simp only [List.foldl_cons]
    refine ⟨⟨h1.trans w1, h2.trans w2⟩, fun a b ha ha' hb hb' => ?_⟩
    obtain ⟨k1, k2⟩ := h3 a b ha (by rw [w1]; exact ha') hb (by rw [w2]; exact hb')
    refine ⟨?_, ?_⟩
    · intro i j v hm c1 c2 c3 c4 hu
      by_cases hl : ∃ v', (i, j, v') ∈ l
      · obtain ⟨v', hv'⟩ := hl
        have := hu v' (List.mem_cons_of_mem _ hv')
        subst this
        exact k1 i j v' hv' c1 c2 c3 c4 (fun w hw => hu w (List.mem_cons_of_mem _ hw))
      · have hpe : p = (i, j, v) := by
          rcases List.mem_cons.1 hm with e | e
          · exact e.symm
          · exact absurd ⟨v, e⟩ hl
        rw [k2, hp a b ha ha' hb hb']
        · subst hpe; rw [if_pos ⟨c1, c2, c3, c4⟩]
        · rintro i' j' v' hm' ⟨d1, d2, d3, d4⟩
          have : i' = i := by omega
          have : j' = j := by omega
          subst i' j'
          exact hl ⟨v', hm'⟩
    · intro hn
      rw [k2 (fun i j v hm => hn i j v (List.mem_cons_of_mem _ hm)), hp a b ha ha' hb hb', if_neg]
      exact hn p.1 p.2.1 p.2.2 (by simp)

/-- **C67.**  The debug picture is a square of 10 pixels a module and a border of 10 pixels; the ten by ten pixels of module `(i, j)` begin at
`(10 i + 10, 10 j + 10)` and are black if it is dark and white if it is light, and all other pixels have the grey value 0xff12. -/
theorem C67_picture (m : Matrix) :
    (debugPicture m).width = 10 * m.width + 20 ∧ (debugPicture m).height = 10 * m.width + 20 ∧
    ∀ x y : Int, 0 ≤ x → x < 10 * m.width + 20 → 0 ≤ y → y < 10 * m.width + 20 →
      (∀ i j : Nat, i < m.width → j < m.height → 10 * i + 10 ≤ x → x < 10 * i + 20 → 10 * j + 10 ≤ y → y < 10 * j + 20 →
        (debugPicture m).pix x y = if (m.raw i j).bit then 0 else 0xffff) ∧
      (x < 10 ∨ y < 10 ∨ 10 * m.width + 10 ≤ x ∨ 10 * m.height + 10 ≤ y → (debugPicture m).pix x y = 0xff12) := by
  obtain ⟨⟨w1, w2⟩, hp⟩ := rectangle_spec 0 0 ((m.width : Int) * 10 + 2 * 10) ((m.width : Int) * 10 + 2 * 10)
    ⟨(m.width : Int) * 10 + 2 * 10, (m.width : Int) * 10 + 2 * 10, fun _ _ => 0⟩ 0xff12
  obtain ⟨⟨h1, h2⟩, h3⟩ := fold_modules (m.iterate .column) (rectangle 0 0 ((m.width : Int) * 10 + 2 * 10) ((m.width : Int) * 10 + 2 * 10)
    ⟨(m.width : Int) * 10 + 2 * 10, (m.width : Int) * 10 + 2 * 10, fun _ _ => 0⟩ 0xff12)
  simp only at w1 w2
  have hmem : ∀ i j v, (i, j, v) ∈ m.iterate .column ↔ i < m.width ∧ j < m.height ∧ v = m.raw i j := by
    intro i j v
    unfold Matrix.iterate Matrix.coords
    simp only [List.mem_map, List.mem_flatMap, List.mem_range, Prod.mk.injEq, Prod.exists]
    constructor
    · rintro ⟨a, b, ⟨w, hw, h, hh, rfl, rfl⟩, rfl, rfl, rfl⟩; exact ⟨hw, hh, rfl⟩
    · rintro ⟨h1, h2, rfl⟩; exact ⟨i, j, ⟨i, h1, j, h2, rfl, rfl⟩, rfl, rfl, rfl⟩
  refine ⟨?_, ?_, ?_⟩
  · refine Eq.trans h1 (Eq.trans w1 ?_); omega
  · refine Eq.trans h2 (Eq.trans w2 ?_); omega
  · intro x y hx hx' hy hy'
    obtain ⟨k1, k2⟩ := h3 x y hx (by rw [w1]; omega) hy (by rw [w2]; omega)
    refine ⟨?_, ?_⟩
    · intro i j hi hj a b c d
      exact k1 i j (m.raw i j) ((hmem _ _ _).2 ⟨hi, hj, rfl⟩) (by omega) (by omega) (by omega) (by omega) (fun v' hv' => ((hmem _ _ _).1 hv').2.2)
    · intro ho
      have := k2 (by
        rintro i j v hm ⟨a, b, c, d⟩
        obtain ⟨hi, hj, _⟩ := (hmem _ _ _).1 hm
        omega)
      refine Eq.trans this ?_
      rw [hp x y hx (by simp only; omega) hy (by simp only; omega), if_pos (by omega)]

set_option maxRecDepth 1000000 in
example : let m : Matrix := ⟨2, 2, [[DATA_V1, DATA_V1], [DATA_V0, DATA_V1]]⟩
    ((debugPicture m).pix 15 15, (debugPicture m).pix 25 15, (debugPicture m).pix 5 15, (debugPicture m).width) = (0, 0xffff, 0xff12, 40) := by decide +kernel

end QR.Debug
