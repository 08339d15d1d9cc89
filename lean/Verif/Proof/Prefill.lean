import Verif.Model.Fill
import Verif.Proof.MatrixLemmas
import Mathlib.Tactic.SplitIfs
/-! # The function patterns as functions of coordinates -/
namespace QR
open Matrix

/-! ### rings -/

/-- Cells visited by `ringWalk`. -/
def ringCells (side : Nat) : Nat → Nat → Int → Int → List (Int × Int)
  | 0, _, _, _ => []
  | n + 1, i, x, y => (x, y) ::
    (if i < side then ringCells side n (i + 1) (x + 1) y
    else if i < 2 * side then ringCells side n (i + 1) x (y + 1)
    else if i < 3 * side then ringCells side n (i + 1) (x - 1) y
    else ringCells side n (i + 1) x (y - 1))

theorem ringWalk_eq (side v n i x y m) :
    ringWalk side v n i x y m = m.setAll (ringCells side n i x y) v := by
  induction n generalizing i x y m with
  | zero => rfl
  | succ n ih =>
    unfold ringWalk ringCells
    simp only [setAll, List.foldl_cons]
    split
    · rw [ih]; rfl
    split
    · rw [ih]; rfl
    split
    · rw [ih]; rfl
    · rw [ih]; rfl

theorem ringCells_shift (side n i) (x y a b : Int) :
    (a, b) ∈ ringCells side n i x y ↔ (a - x, b - y) ∈ ringCells side n i 0 0 := by
  have key : ∀ (x y x' y' a b a' b' : Int), a - x = a' - x' → b - y = b' - y' →
      ((a, b) ∈ ringCells side n i x y ↔ (a', b') ∈ ringCells side n i x' y') := by
    induction n generalizing i with
    | zero => intros; simp [ringCells]
    | succ n ih =>
      intro x y x' y' a b a' b' h1 h2
      unfold ringCells
      simp only [List.mem_cons, Prod.mk.injEq]
      have e : (a = x ∧ b = y) ↔ (a' = x' ∧ b' = y') := by omega
      rw [e]
      split
      · rw [ih _ (x+1) y (x'+1) y' a b a' b' (by omega) (by omega)]
      split
      · rw [ih _ x (y+1) x' (y'+1) a b a' b' (by omega) (by omega)]
      split
      · rw [ih _ (x-1) y (x'-1) y' a b a' b' (by omega) (by omega)]
      · rw [ih _ x (y-1) x' (y'-1) a b a' b' (by omega) (by omega)]
  exact key _ _ _ _ _ _ _ _ (by omega) (by omega)

/-- On the border of the square of side `s + 1` with corner `(x0, y0)`. -/
abbrev OnRing (s x0 y0 x y : Int) : Prop :=
  x0 ≤ x ∧ x ≤ x0 + s ∧ y0 ≤ y ∧ y ≤ y0 + s ∧ (x = x0 ∨ x = x0 + s ∨ y = y0 ∨ y = y0 + s)

theorem mem_ring6 (a b : Int) : (a, b) ∈ ringCells 6 24 0 0 0 ↔ OnRing 6 0 0 a b := by
  constructor
  · intro h
    have : ∀ p ∈ ringCells 6 24 0 0 0, OnRing 6 0 0 p.1 p.2 := by decide
    exact this _ h
  · rintro ⟨h1, h2, h3, h4, h5⟩
    have : ∀ a ∈ ([0,1,2,3,4,5,6] : List Int), ∀ b ∈ ([0,1,2,3,4,5,6] : List Int),
      OnRing 6 0 0 a b → (a, b) ∈ ringCells 6 24 0 0 0 := by decide
    refine this a ?_ b ?_ ⟨h1, h2, h3, h4, h5⟩ <;> simp <;> omega

theorem mem_ring4 (a b : Int) : (a, b) ∈ ringCells 4 16 0 0 0 ↔ OnRing 4 0 0 a b := by
  constructor
  · intro h
    have : ∀ p ∈ ringCells 4 16 0 0 0, OnRing 4 0 0 p.1 p.2 := by decide
    exact this _ h
  · rintro ⟨h1, h2, h3, h4, h5⟩
    have : ∀ a ∈ ([0,1,2,3,4] : List Int), ∀ b ∈ ([0,1,2,3,4] : List Int),
      OnRing 4 0 0 a b → (a, b) ∈ ringCells 4 16 0 0 0 := by decide
    refine this a ?_ b ?_ ⟨h1, h2, h3, h4, h5⟩ <;> simp <;> omega

theorem mem_ring2 (a b : Int) : (a, b) ∈ ringCells 2 8 0 0 0 ↔ OnRing 2 0 0 a b := by
  constructor
  · intro h
    have : ∀ p ∈ ringCells 2 8 0 0 0, OnRing 2 0 0 p.1 p.2 := by decide
    exact this _ h
  · rintro ⟨h1, h2, h3, h4, h5⟩
    have : ∀ a ∈ ([0,1,2] : List Int), ∀ b ∈ ([0,1,2] : List Int),
      OnRing 2 0 0 a b → (a, b) ∈ ringCells 2 8 0 0 0 := by decide
    refine this a ?_ b ?_ ⟨h1, h2, h3, h4, h5⟩ <;> simp <;> omega

theorem mem_ring6' (x0 y0 x y : Int) : (x, y) ∈ ringCells 6 24 0 x0 y0 ↔ OnRing 6 x0 y0 x y := by
  rw [ringCells_shift, mem_ring6]; constructor <;> (intro h; omega)
theorem mem_ring4' (x0 y0 x y : Int) : (x, y) ∈ ringCells 4 16 0 x0 y0 ↔ OnRing 4 x0 y0 x y := by
  rw [ringCells_shift, mem_ring4]; constructor <;> (intro h; omega)
theorem mem_ring2' (x0 y0 x y : Int) : (x, y) ∈ ringCells 2 8 0 x0 y0 ↔ OnRing 2 x0 y0 x y := by
  rw [ringCells_shift, mem_ring2]; constructor <;> (intro h; omega)

/-! ### finder -/

def coreCells (top left : Int) : List (Int × Int) :=
  ([0, 1, 2] : List Int).flatMap fun i => ([0, 1, 2] : List Int).map fun j => (left + 2 + i, top + 2 + j)

theorem finderCore_eq (m : Matrix) (top left : Int) :
    finderCore m top left = m.setAll (coreCells top left) FINDER_V1 := rfl

theorem mem_core (top left x y : Int) : (x, y) ∈ coreCells top left ↔
    left + 2 ≤ x ∧ x ≤ left + 4 ∧ top + 2 ≤ y ∧ y ≤ top + 4 := by
  simp only [coreCells, List.flatMap_cons, List.map_cons, List.map_nil, List.flatMap_nil,
    List.append_nil, List.cons_append, List.nil_append, List.mem_cons, Prod.mk.injEq, List.not_mem_nil,
    or_false]
  constructor
  · intro h; omega
  · rintro ⟨h1, h2, h3, h4⟩
    have hx : x = left + 2 + 0 ∨ x = left + 2 + 1 ∨ x = left + 2 + 2 := by omega
    have hy : y = top + 2 + 0 ∨ y = top + 2 + 1 ∨ y = top + 2 + 2 := by omega
    rcases hx with h | h | h <;> rcases hy with h' | h' | h' <;> simp [h, h']

theorem addFinder_sq {m : Matrix} {d} (s : m.Sq d) (top left) : (addFinder m top left).Sq d := by
  unfold addFinder
  simp only [ringWalk_eq, finderCore_eq]
  exact setAll_sq (setAll_sq (setAll_sq s _ _) _ _) _ _

theorem at_addFinder {m : Matrix} {d} (s : m.Sq d) (top left x y : Int) (hin : In d x y) :
    (addFinder m top left).at' x y =
      if left + 2 ≤ x ∧ x ≤ left + 4 ∧ top + 2 ≤ y ∧ y ≤ top + 4 then FINDER_V1
      else if OnRing 4 (top + 1) (left + 1) x y then FINDER_V0
      else if OnRing 6 top left x y then FINDER_V1
      else m.at' x y := by
  unfold addFinder
  simp only [ringWalk_eq, finderCore_eq]
  rw [at_setAll_in (setAll_sq (setAll_sq s _ _) _ _) _ _ _ _ hin, at_setAll_in (setAll_sq s _ _) _ _ _ _ hin,
    at_setAll_in s _ _ _ _ hin]
  simp only [mem_ring6', mem_ring4', mem_core]

/-! ### splitters -/

theorem mem_07 (p : Int) : p ∈ ([0, 1, 2, 3, 4, 5, 6, 7] : List Int) ↔ 0 ≤ p ∧ p ≤ 7 := by
  simp; omega

/-- A fold of two writes of the same value per step. -/
theorem fold_two (m : Matrix) (ps : List Int) (f g : Int → Int × Int) (c : QRValue) :
    ps.foldl (fun m p => (m.set (f p).1 (f p).2 c).set (g p).1 (g p).2 c) m =
      m.setAll (ps.flatMap fun p => [f p, g p]) c := by
  induction ps generalizing m with
  | nil => rfl
  | cons p ps ih => simp only [List.foldl_cons, ih]; rfl

theorem addSplitter_LT (m : Matrix) (d : Int) :
    addSplitter m 7 7 d = m.setAll (([0, 1, 2, 3, 4, 5, 6, 7] : List Int).flatMap
      fun p => [(7, p), (p, 7)]) SPLITTER_V0 := by
  unfold addSplitter
  simp only [and_self, ↓reduceIte]
  exact fold_two m _ (fun p => (7, p)) (fun p => (p, 7)) _

theorem addSplitter_RT (m : Matrix) (d : Int) (hd : 21 ≤ d) :
    addSplitter m (d - 8) 7 d = m.setAll (([0, 1, 2, 3, 4, 5, 6, 7] : List Int).flatMap
      fun p => [(d - 8, 7 - p), (d - 8 + p, 7)]) SPLITTER_V0 := by
  unfold addSplitter
  rw [if_neg (by omega), if_pos (by omega)]
  exact fold_two m _ (fun p => (d - 8, 7 - p)) (fun p => (d - 8 + p, 7)) _

theorem addSplitter_LB (m : Matrix) (d : Int) (hd : 21 ≤ d) :
    addSplitter m 7 (d - 8) d = m.setAll (([0, 1, 2, 3, 4, 5, 6, 7] : List Int).flatMap
      fun p => [(7, d - 8 + p), (7 - p, d - 8)]) SPLITTER_V0 := by
  unfold addSplitter
  rw [if_neg (by omega), if_neg (by omega), if_pos (by omega)]
  exact fold_two m _ (fun p => (7, d - 8 + p)) (fun p => (7 - p, d - 8)) _

theorem mem_LT (x y : Int) : (x, y) ∈ (([0, 1, 2, 3, 4, 5, 6, 7] : List Int).flatMap
      fun p => [((7 : Int), p), (p, 7)]) ↔
    (x = 7 ∧ 0 ≤ y ∧ y ≤ 7) ∨ (y = 7 ∧ 0 ≤ x ∧ x ≤ 7) := by
  simp only [List.mem_flatMap, List.mem_cons, Prod.mk.injEq, List.not_mem_nil, or_false]
  constructor
  · rintro ⟨p, h1, h2⟩; omega
  · rintro (h | h)
    · exact ⟨y, by omega, by omega⟩
    · exact ⟨x, by omega, by omega⟩

theorem mem_RT (d x y : Int) : (x, y) ∈ (([0, 1, 2, 3, 4, 5, 6, 7] : List Int).flatMap
      fun p => [(d - 8, 7 - p), (d - 8 + p, 7)]) ↔
    (x = d - 8 ∧ 0 ≤ y ∧ y ≤ 7) ∨ (y = 7 ∧ d - 8 ≤ x ∧ x ≤ d - 1) := by
  simp only [List.mem_flatMap, List.mem_cons, Prod.mk.injEq, List.not_mem_nil, or_false]
  constructor
  · rintro ⟨p, h1, h2⟩; omega
  · rintro (h | h)
    · exact ⟨7 - y, by omega, by omega⟩
    · exact ⟨x - (d - 8), by omega, by omega⟩

theorem mem_LB (d x y : Int) : (x, y) ∈ (([0, 1, 2, 3, 4, 5, 6, 7] : List Int).flatMap
      fun p => [(7, d - 8 + p), (7 - p, d - 8)]) ↔
    (x = 7 ∧ d - 8 ≤ y ∧ y ≤ d - 1) ∨ (y = d - 8 ∧ 0 ≤ x ∧ x ≤ 7) := by
  simp only [List.mem_flatMap, List.mem_cons, Prod.mk.injEq, List.not_mem_nil, or_false]
  constructor
  · rintro ⟨p, h1, h2⟩; omega
  · rintro (h | h)
    · exact ⟨y - (d - 8), by omega, by omega⟩
    · exact ⟨7 - x, by omega, by omega⟩

/-! ### alignment -/

/-- `(x, y)` is in the 5x5 area around `l`. -/
def near (x y : Int) (l : Loc) : Bool :=
  decide (l.1 - 2 ≤ x ∧ x ≤ l.1 + 2 ∧ l.2 - 2 ≤ y ∧ y ≤ l.2 + 2)

/-- Value written by `addAlignment` around `l`. -/
def alignV (x y : Int) (l : Loc) : QRValue :=
  if OnRing 2 (l.1 - 1) (l.2 - 1) x y then DATA_V0 else DATA_V1

theorem addAlignment_sq {m : Matrix} {d} (s : m.Sq d) (a b) : (addAlignment m a b).Sq d := by
  unfold addAlignment
  simp only [ringWalk_eq]
  exact setAll_sq (setAll_sq (set_sq s _ _ _) _ _) _ _

theorem at_addAlignment {m : Matrix} {d} (s : m.Sq d) (l : Loc) (x y : Int) (hin : In d x y) :
    (addAlignment m l.1 l.2).at' x y = if near x y l then alignV x y l else m.at' x y := by
  unfold addAlignment
  simp only [ringWalk_eq]
  rw [at_setAll_in (setAll_sq (set_sq s _ _ _) _ _) _ _ _ _ hin, at_setAll_in (set_sq s _ _ _) _ _ _ _ hin,
    at_set_in s _ _ _ _ _ hin]
  simp only [mem_ring2', mem_ring4']
  unfold alignV near
  by_cases h1 : OnRing 2 (l.1 - 1) (l.2 - 1) x y
  · rw [if_pos h1, if_pos (by simp; omega)]
    rw [if_pos h1]
  · rw [if_neg h1]
    by_cases h2 : OnRing 4 (l.1 - 2) (l.2 - 2) x y
    · rw [if_pos h2, if_pos (by simp; omega)]
      rw [if_neg h1]
    · rw [if_neg h2]
      by_cases h3 : l.1 = x ∧ l.2 = y
      · rw [if_pos h3, if_pos (by simp; omega), if_neg h1]
      · rw [if_neg h3, if_neg (by simp; omega)]

theorem addAlignments_sq {m : Matrix} {d} (s : m.Sq d) (locs : List Loc) :
    (locs.foldl (fun m l => addAlignment m l.1 l.2) m).Sq d := by
  induction locs generalizing m with
  | nil => exact s
  | cons l ls ih => exact ih (addAlignment_sq s _ _)

theorem at_addAlignments {m : Matrix} {d} (s : m.Sq d) (locs : List Loc) (x y : Int) (hin : In d x y) :
    (locs.foldl (fun m l => addAlignment m l.1 l.2) m).at' x y =
      match locs.reverse.find? (near x y) with
      | some l => alignV x y l
      | none => m.at' x y := by
  induction locs generalizing m with
  | nil => rfl
  | cons l ls ih =>
    rw [List.foldl_cons, ih (addAlignment_sq s _ _), List.reverse_cons, List.find?_append]
    cases h : ls.reverse.find? (near x y) with
    | some l' => simp
    | none =>
      simp only [Option.none_or]
      rw [at_addAlignment s _ _ _ hin]
      simp only [List.find?_cons, List.find?_nil]
      cases near x y l <;> simp

/-! ### timing -/

theorem timingLoop_sq {m : Matrix} {d} (s : m.Sq d) (n pos) : (timingLoop n pos m).Sq d := by
  induction n generalizing m pos with
  | zero => exact s
  | succ n ih => exact ih (set_sq (set_sq s _ _ _) _ _ _) _

theorem at_timingLoop {m : Matrix} {d} (s : m.Sq d) (n pos : Nat) (x y : Int) (hin : In d x y)
    (hp : 7 ≤ pos) :
    (timingLoop n pos m).at' x y =
      if x = 6 ∧ (pos : Int) ≤ y ∧ y < pos + n then (if y % 2 = 0 then TIMING_V1 else TIMING_V0)
      else if y = 6 ∧ (pos : Int) ≤ x ∧ x < pos + n then (if x % 2 = 0 then TIMING_V1 else TIMING_V0)
      else m.at' x y := by
  induction n generalizing m pos with
  | zero =>
    unfold timingLoop
    rw [if_neg (by omega), if_neg (by omega)]
  | succ n ih =>
    unfold timingLoop
    simp only
    rw [ih (set_sq (set_sq s _ _ _) _ _ _) _ (by omega), at_set_in (set_sq s _ _ _) _ _ _ _ _ hin,
      at_set_in s _ _ _ _ _ hin]
    have e : ((pos + 1 : Nat) : Int) = (pos : Int) + 1 := by omega
    have e2 : ((n + 1 : Nat) : Int) = (n : Int) + 1 := by omega
    rw [e, e2]
    have hy : y = pos → (if pos % 2 = 0 then TIMING_V1 else TIMING_V0) =
        if y % 2 = 0 then TIMING_V1 else TIMING_V0 := by
      intro h
      by_cases h2 : pos % 2 = 0
      · rw [if_pos h2, if_pos (by omega)]
      · rw [if_neg h2, if_neg (by omega)]
    have hx : x = pos → (if pos % 2 = 0 then TIMING_V1 else TIMING_V0) =
        if x % 2 = 0 then TIMING_V1 else TIMING_V0 := by
      intro h
      by_cases h2 : pos % 2 = 0
      · rw [if_pos h2, if_pos (by omega)]
      · rw [if_neg h2, if_neg (by omega)]
    generalize (if pos % 2 = 0 then TIMING_V1 else TIMING_V0) = v at hx hy ⊢
    generalize (if y % 2 = 0 then TIMING_V1 else TIMING_V0) = vy at hy ⊢
    generalize (if x % 2 = 0 then TIMING_V1 else TIMING_V0) = vx at hx ⊢
    split_ifs <;> first
      | rfl
      | (exfalso; omega)
      | exact hx (by omega)
      | exact hy (by omega)

/-! ### format and version reservations -/

/-- Cells written by `reserveFormatBlock`. -/
def fmtCells (d : Int) : List (Int × Int) :=
  (([1, 2, 3, 4, 5, 6, 7, 8] : List Int).flatMap fun pos =>
    if pos = 6 then [(8, d - pos), (d - pos, 8)]
    else if pos = 8 then [(8, pos), (pos, 8), (d - pos, 8)]
    else [(8, pos), (pos, 8), (d - pos, 8), (8, d - pos)]) ++ [(0, 8), (8, 0)]

theorem reserveFormatBlock_eq (m : Matrix) (d : Int) :
    reserveFormatBlock m d = m.setAll (fmtCells d) FORMAT_V0 := rfl

abbrev InFmt (d x y : Int) : Prop :=
  (x = 8 ∧ 0 ≤ y ∧ y ≤ 8 ∧ y ≠ 6) ∨ (y = 8 ∧ 0 ≤ x ∧ x ≤ 8 ∧ x ≠ 6) ∨
  (y = 8 ∧ d - 8 ≤ x ∧ x ≤ d - 1) ∨ (x = 8 ∧ d - 7 ≤ y ∧ y ≤ d - 1)

theorem mem_fmt (d x y : Int) : (x, y) ∈ fmtCells d ↔ InFmt d x y := by
  simp [fmtCells]
  constructor
  · intro h; omega
  · rintro (⟨rfl, h⟩ | ⟨rfl, h⟩ | ⟨rfl, h⟩ | ⟨rfl, h⟩)
    · have : y = 0 ∨ y = 1 ∨ y = 2 ∨ y = 3 ∨ y = 4 ∨ y = 5 ∨ y = 7 ∨ y = 8 := by omega
      rcases this with h | h | h | h | h | h | h | h <;> simp [h]
    · have : x = 0 ∨ x = 1 ∨ x = 2 ∨ x = 3 ∨ x = 4 ∨ x = 5 ∨ x = 7 ∨ x = 8 := by omega
      rcases this with h | h | h | h | h | h | h | h <;> simp [h]
    · have : x = d - 1 ∨ x = d - 2 ∨ x = d - 3 ∨ x = d - 4 ∨ x = d - 5 ∨ x = d - 6 ∨ x = d - 7 ∨ x = d - 8 := by
        omega
      rcases this with h | h | h | h | h | h | h | h <;> simp [h]
    · have : y = d - 1 ∨ y = d - 2 ∨ y = d - 3 ∨ y = d - 4 ∨ y = d - 5 ∨ y = d - 6 ∨ y = d - 7 := by
        omega
      rcases this with h | h | h | h | h | h | h <;> simp [h]

def verCells (d : Int) : List (Int × Int) :=
  ([1, 2, 3] : List Int).flatMap fun i => ([0, 1, 2, 3, 4, 5] : List Int).flatMap fun pos =>
    [(d - 8 - i, pos), (pos, d - 8 - i)]

theorem reserveVersionBlock_eq (m : Matrix) (d : Int) :
    reserveVersionBlock m d = m.setAll (verCells d) VERSION_V0 := rfl

abbrev InVer (d x y : Int) : Prop :=
  (d - 11 ≤ x ∧ x ≤ d - 9 ∧ 0 ≤ y ∧ y ≤ 5) ∨ (d - 11 ≤ y ∧ y ≤ d - 9 ∧ 0 ≤ x ∧ x ≤ 5)

theorem mem_ver (d x y : Int) : (x, y) ∈ verCells d ↔ InVer d x y := by
  have h13 : ∀ p : Int, p ∈ ([1, 2, 3] : List Int) ↔ 1 ≤ p ∧ p ≤ 3 := by intro p; simp; omega
  have h05 : ∀ p : Int, p ∈ ([0, 1, 2, 3, 4, 5] : List Int) ↔ 0 ≤ p ∧ p ≤ 5 := by intro p; simp; omega
  simp only [verCells, List.mem_flatMap, h13, h05, List.mem_cons, Prod.mk.injEq, List.not_mem_nil, or_false]
  constructor
  · rintro ⟨i, hi, p, hp, h⟩; omega
  · rintro (h | h)
    · exact ⟨d - 8 - x, by omega, y, by omega, by omega⟩
    · exact ⟨d - 8 - y, by omega, x, by omega, by omega⟩

/-! ### the whole -/

/-- Value of the finder/splitter stage. -/
def finderStage (d x y : Int) : QRValue :=
  if (x = 7 ∧ d - 8 ≤ y ∧ y ≤ d - 1) ∨ (y = d - 8 ∧ 0 ≤ x ∧ x ≤ 7) then SPLITTER_V0
  else if d - 5 ≤ x ∧ x ≤ d - 3 ∧ 2 ≤ y ∧ y ≤ 4 then FINDER_V1
  else if OnRing 4 1 (d - 6) x y then FINDER_V0
  else if OnRing 6 0 (d - 7) x y then FINDER_V1
  else if (x = d - 8 ∧ 0 ≤ y ∧ y ≤ 7) ∨ (y = 7 ∧ d - 8 ≤ x ∧ x ≤ d - 1) then SPLITTER_V0
  else if 2 ≤ x ∧ x ≤ 4 ∧ d - 5 ≤ y ∧ y ≤ d - 3 then FINDER_V1
  else if OnRing 4 (d - 6) 1 x y then FINDER_V0
  else if OnRing 6 (d - 7) 0 x y then FINDER_V1
  else if (x = 7 ∧ 0 ≤ y ∧ y ≤ 7) ∨ (y = 7 ∧ 0 ≤ x ∧ x ≤ 7) then SPLITTER_V0
  else if 2 ≤ x ∧ x ≤ 4 ∧ 2 ≤ y ∧ y ≤ 4 then FINDER_V1
  else if OnRing 4 1 1 x y then FINDER_V0
  else if OnRing 6 0 0 x y then FINDER_V1
  else INIT_V0

/-- Value of the prefilled matrix. -/
def prefillV (ver : Nat) (locs : List Loc) (x y : Int) : QRValue :=
  let d : Int := (ver * 4 + 17 : Nat)
  if 7 ≤ ver ∧ InVer d x y then VERSION_V0
  else if InFmt d x y then FORMAT_V0
  else if x = 8 ∧ y = d - 8 then DARK_V1
  else if x = 6 ∧ 8 ≤ y ∧ y ≤ d - 9 then (if y % 2 = 0 then TIMING_V1 else TIMING_V0)
  else if y = 6 ∧ 8 ≤ x ∧ x ≤ d - 9 then (if x % 2 = 0 then TIMING_V1 else TIMING_V0)
  else match (if ver > 1 then locs.reverse.find? (near x y) else none) with
    | some l => alignV x y l
    | none => finderStage d x y

theorem at_new (d : Nat) (x y : Int) : (newMatrix d d).at' x y = INIT_V0 := by
  rw [at_eq (sq_new d)]
  split
  · next h => rw [raw_eq (sq_new d) (by omega) (by omega)]; simp [newMatrix]
  · rfl

/-- Finders and splitters. -/
def stage6 (m : Matrix) (d : Int) : Matrix :=
  addSplitter (addFinder (addSplitter (addFinder (addSplitter (addFinder m 0 0) 7 7 d) (d - 7) 0)
    (d - 8) 7 d) 0 (d - 7)) 7 (d - 8) d

theorem addSplitter_LT_sq {m : Matrix} {n : Nat} (s : m.Sq n) (d : Int) : (addSplitter m 7 7 d).Sq n := by
  rw [addSplitter_LT]; exact setAll_sq s _ _
theorem addSplitter_RT_sq {m : Matrix} {n : Nat} (s : m.Sq n) (d : Int) (hd : 21 ≤ d) :
    (addSplitter m (d - 8) 7 d).Sq n := by
  rw [addSplitter_RT _ _ hd]; exact setAll_sq s _ _
theorem addSplitter_LB_sq {m : Matrix} {n : Nat} (s : m.Sq n) (d : Int) (hd : 21 ≤ d) :
    (addSplitter m 7 (d - 8) d).Sq n := by
  rw [addSplitter_LB _ _ hd]; exact setAll_sq s _ _

theorem at_addSplitter_LT {m : Matrix} {n : Nat} (s : m.Sq n) (d x y : Int) (hin : In n x y) :
    (addSplitter m 7 7 d).at' x y =
      if (x = 7 ∧ 0 ≤ y ∧ y ≤ 7) ∨ (y = 7 ∧ 0 ≤ x ∧ x ≤ 7) then SPLITTER_V0 else m.at' x y := by
  rw [addSplitter_LT, at_setAll_in s _ _ _ _ hin]; simp only [mem_LT]
theorem at_addSplitter_RT {m : Matrix} {n : Nat} (s : m.Sq n) (d x y : Int) (hd : 21 ≤ d) (hin : In n x y) :
    (addSplitter m (d - 8) 7 d).at' x y =
      if (x = d - 8 ∧ 0 ≤ y ∧ y ≤ 7) ∨ (y = 7 ∧ d - 8 ≤ x ∧ x ≤ d - 1) then SPLITTER_V0 else m.at' x y := by
  rw [addSplitter_RT _ _ hd, at_setAll_in s _ _ _ _ hin]; simp only [mem_RT]
theorem at_addSplitter_LB {m : Matrix} {n : Nat} (s : m.Sq n) (d x y : Int) (hd : 21 ≤ d) (hin : In n x y) :
    (addSplitter m 7 (d - 8) d).at' x y =
      if (x = 7 ∧ d - 8 ≤ y ∧ y ≤ d - 1) ∨ (y = d - 8 ∧ 0 ≤ x ∧ x ≤ 7) then SPLITTER_V0 else m.at' x y := by
  rw [addSplitter_LB _ _ hd, at_setAll_in s _ _ _ _ hin]; simp only [mem_LB]

theorem stage6_sq {m : Matrix} {n : Nat} (s : m.Sq n) (d : Int) (hd : 21 ≤ d) : (stage6 m d).Sq n :=
  addSplitter_LB_sq (addFinder_sq (addSplitter_RT_sq (addFinder_sq (addSplitter_LT_sq
    (addFinder_sq s _ _) _) _ _) _ hd) _ _) _ hd

theorem at_stage6 (n : Nat) (d x y : Int) (hd : 21 ≤ d) (hin : In n x y) :
    (stage6 (newMatrix n n) d).at' x y = finderStage d x y := by
  have s0 := sq_new n
  have s1 := addFinder_sq s0 0 0
  have s2 := addSplitter_LT_sq s1 d
  have s3 := addFinder_sq s2 (d - 7) 0
  have s4 := addSplitter_RT_sq s3 d hd
  have s5 := addFinder_sq s4 0 (d - 7)
  unfold stage6
  rw [at_addSplitter_LB s5 _ _ _ hd hin, at_addFinder s4 _ _ _ _ hin, at_addSplitter_RT s3 _ _ _ hd hin,
    at_addFinder s2 _ _ _ _ hin, at_addSplitter_LT s1 _ _ _ hin, at_addFinder s0 _ _ _ _ hin, at_new]
  unfold finderStage
  have a1 : d - 7 + 1 = d - 6 := by omega
  have a2 : d - 7 + 2 = d - 5 := by omega
  have a3 : d - 7 + 4 = d - 3 := by omega
  simp only [Int.zero_add, a1, a2, a3]

theorem prefill_eq (m : Matrix) (ver : Nat) (locs : List Loc) :
    prefill m ver locs =
      let d : Int := (ver * 4 + 17 : Nat)
      let m := stage6 m d
      let m := if ver > 1 then locs.foldl (fun m l => addAlignment m l.1 l.2) m else m
      let m := ((timingLoop (ver * 4 + 17 - 16) 8 m).set 8 ((4 * ver + 9 : Nat) : Int) DARK_V1).setAll
        (fmtCells d) FORMAT_V0
      if ver ≥ 7 then m.setAll (verCells d) VERSION_V0 else m := rfl

theorem prefill_sq {m : Matrix} {d} (s : m.Sq d) (ver locs) (hv : 1 ≤ ver) : (prefill m ver locs).Sq d := by
  rw [prefill_eq]
  have h1 := stage6_sq s ((ver * 4 + 17 : Nat) : Int) (by omega)
  simp only
  split <;> split
  · exact setAll_sq (setAll_sq (set_sq (timingLoop_sq (addAlignments_sq h1 _) _ _) _ _ _) _ _) _ _
  · exact setAll_sq (setAll_sq (set_sq (timingLoop_sq h1 _ _) _ _ _) _ _) _ _
  · exact (setAll_sq (set_sq (timingLoop_sq (addAlignments_sq h1 _) _ _) _ _ _) _ _)
  · exact (setAll_sq (set_sq (timingLoop_sq h1 _ _) _ _ _) _ _)

theorem at_prefill (ver : Nat) (locs : List Loc) (x y : Int) (hin : In (ver * 4 + 17) x y)
    (hv : 1 ≤ ver) :
    (prefill (newMatrix (ver * 4 + 17) (ver * 4 + 17)) ver locs).at' x y = prefillV ver locs x y := by
  have hd : (21 : Int) ≤ ((ver * 4 + 17 : Nat) : Int) := by omega
  have s6 := stage6_sq (sq_new (ver * 4 + 17)) ((ver * 4 + 17 : Nat) : Int) hd
  have e6 := at_stage6 (ver * 4 + 17) ((ver * 4 + 17 : Nat) : Int) x y hd hin
  rw [prefill_eq]
  simp only
  generalize stage6 _ _ = m6 at *
  have e7 : (if ver > 1 then locs.foldl (fun m l => addAlignment m l.1 l.2) m6 else m6).at' x y =
      match (if ver > 1 then locs.reverse.find? (near x y) else none) with
      | some l => alignV x y l
      | none => m6.at' x y := by
    split
    · exact at_addAlignments s6 locs x y hin
    · rfl
  have s7 : (if ver > 1 then locs.foldl (fun m l => addAlignment m l.1 l.2) m6 else m6).Sq (ver * 4 + 17) := by
    split
    · exact addAlignments_sq s6 _
    · exact s6
  generalize (if ver > 1 then locs.foldl (fun m l => addAlignment m l.1 l.2) m6 else m6) = m7 at *
  have s8 := timingLoop_sq s7 (ver * 4 + 17 - 16) 8
  have s9 := set_sq s8 8 ((4 * ver + 9 : Nat) : Int) DARK_V1
  have e8 : (((timingLoop (ver * 4 + 17 - 16) 8 m7).set 8 ((4 * ver + 9 : Nat) : Int) DARK_V1).setAll
      (fmtCells ((ver * 4 + 17 : Nat) : Int)) FORMAT_V0).at' x y =
      if InFmt ((ver * 4 + 17 : Nat) : Int) x y then FORMAT_V0
      else if x = 8 ∧ y = ((ver * 4 + 17 : Nat) : Int) - 8 then DARK_V1
      else if x = 6 ∧ 8 ≤ y ∧ y ≤ ((ver * 4 + 17 : Nat) : Int) - 9 then (if y % 2 = 0 then TIMING_V1 else TIMING_V0)
      else if y = 6 ∧ 8 ≤ x ∧ x ≤ ((ver * 4 + 17 : Nat) : Int) - 9 then (if x % 2 = 0 then TIMING_V1 else TIMING_V0)
      else m7.at' x y := by
    rw [at_setAll_in s9 _ _ _ _ hin, at_set_in s8 _ _ _ _ _ hin, at_timingLoop s7 _ _ _ _ hin (by omega)]
    simp only [mem_fmt]
    have c1 : (8 = x ∧ ((4 * ver + 9 : Nat) : Int) = y) ↔ (x = 8 ∧ y = ((ver * 4 + 17 : Nat) : Int) - 8) := by
      omega
    have c2 : (x = 6 ∧ ((8 : Nat) : Int) ≤ y ∧ y < ((8 : Nat) : Int) + ((ver * 4 + 17 - 16 : Nat) : Int)) ↔
      (x = 6 ∧ 8 ≤ y ∧ y ≤ ((ver * 4 + 17 : Nat) : Int) - 9) := by omega
    have c3 : (y = 6 ∧ ((8 : Nat) : Int) ≤ x ∧ x < ((8 : Nat) : Int) + ((ver * 4 + 17 - 16 : Nat) : Int)) ↔
      (y = 6 ∧ 8 ≤ x ∧ x ≤ ((ver * 4 + 17 : Nat) : Int) - 9) := by omega
    simp only [c1, c2, c3]
  have s10 := setAll_sq s9 (fmtCells ((ver * 4 + 17 : Nat) : Int)) FORMAT_V0
  have e9 : (if ver ≥ 7 then ((((timingLoop (ver * 4 + 17 - 16) 8 m7).set 8 ((4 * ver + 9 : Nat) : Int) DARK_V1).setAll
      (fmtCells ((ver * 4 + 17 : Nat) : Int)) FORMAT_V0).setAll (verCells ((ver * 4 + 17 : Nat) : Int)) VERSION_V0)
      else (((timingLoop (ver * 4 + 17 - 16) 8 m7).set 8 ((4 * ver + 9 : Nat) : Int) DARK_V1).setAll
      (fmtCells ((ver * 4 + 17 : Nat) : Int)) FORMAT_V0)).at' x y =
      if 7 ≤ ver ∧ InVer ((ver * 4 + 17 : Nat) : Int) x y then VERSION_V0
      else (((timingLoop (ver * 4 + 17 - 16) 8 m7).set 8 ((4 * ver + 9 : Nat) : Int) DARK_V1).setAll
      (fmtCells ((ver * 4 + 17 : Nat) : Int)) FORMAT_V0).at' x y := by
    split
    · next h =>
      rw [at_setAll_in s10 _ _ _ _ hin]
      have h' : 7 ≤ ver := h
      simp only [mem_ver, h', true_and]
    · next h => rw [if_neg (by omega)]
  rw [e9, e8, e7, e6]
  rfl

end QR
