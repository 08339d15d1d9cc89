import Verif.Model.Matrix
/-! # Lemmas about matrices as functions of coordinates -/
namespace QR

theorem List.getD_set_eq {α} (l : List α) (i j : Nat) (a d : α) :
    (l.set i a).getD j d = if i = j ∧ j < l.length then a else l.getD j d := by
  simp only [List.getD_eq_getElem?_getD, List.getElem?_set]
  by_cases h : i = j
  · subst h
    by_cases h2 : i < l.length <;> simp [h2]
  · simp [h]

namespace Matrix

/-- A square, well-formed matrix of side `d`. -/
structure Sq (m : Matrix) (d : Nat) : Prop where
  w : m.width = d
  h : m.height = d
  len : m.mat.length = d
  cols : ∀ (i : Nat) (hi : i < m.mat.length), m.mat[i].length = d

theorem Sq.wf {m : Matrix} {d} (s : m.Sq d) : m.WF := by
  refine ⟨by rw [s.len, s.w], ?_⟩
  intro c hc
  obtain ⟨i, hi, rfl⟩ := List.getElem_of_mem hc
  rw [s.cols, s.h]

theorem sq_of_wf {m : Matrix} (h : m.WF) (he : m.width = m.height) : m.Sq m.width :=
  ⟨rfl, he.symm, h.1, fun i hi => by rw [h.2 _ (List.getElem_mem hi), he]⟩

/-- In range. -/
abbrev In (d : Nat) (x y : Int) : Prop := 0 ≤ x ∧ x < d ∧ 0 ≤ y ∧ y < d

theorem sq_new (d : Nat) : (newMatrix d d).Sq d := by
  constructor <;> simp [newMatrix]

theorem raw_eq {m : Matrix} {d} (s : m.Sq d) {x y : Nat} (hx : x < d) (hy : y < d) :
    m.raw x y = (m.mat[x]'(by rw [s.len]; exact hx))[y]'(by rw [s.cols]; exact hy) := by
  have h1 : x < m.mat.length := by rw [s.len]; exact hx
  have h2 : y < (m.mat[x]).length := by rw [s.cols]; exact hy
  simp [raw, List.getElem?_eq_getElem h1, List.getElem?_eq_getElem h2]

theorem rawSet_sq {m : Matrix} {d} (s : m.Sq d) (x y : Nat) (c) : (m.rawSet x y c).Sq d := by
  refine ⟨s.w, s.h, by simp [rawSet, s.len], ?_⟩
  intro i hi
  simp only [rawSet, List.length_modify] at hi
  simp only [rawSet, List.getElem_modify]
  split
  · simp [s.cols]
  · exact s.cols i hi

theorem set_sq {m : Matrix} {d} (s : m.Sq d) (x y : Int) (c) : (m.set x y c).Sq d := by
  unfold set setE
  split
  · exact s
  split
  · exact s
  · exact rawSet_sq s _ _ _

theorem raw_rawSet {m : Matrix} {d} (s : m.Sq d) (x y : Nat) (c) (i j : Nat) :
    (m.rawSet x y c).raw i j = if x = i ∧ y = j ∧ i < d ∧ j < d then c else m.raw i j := by
  unfold raw rawSet
  simp only [List.getElem?_modify]
  by_cases hx : x = i
  · subst hx
    simp only [↓reduceIte, true_and]
    by_cases hd : x < d
    · have h1 : x < m.mat.length := by rw [s.len]; exact hd
      have h2 := s.cols x h1
      have h3 := List.getD_set_eq m.mat[x] y j c INIT_V0
      rw [h2] at h3
      simpa [List.getElem?_eq_getElem h1, hd] using h3
    · have h1 : m.mat[x]? = none := by rw [List.getElem?_eq_none_iff, s.len]; omega
      simp [h1, hd]
  · simp [hx]

theorem at_eq {m : Matrix} {d} (s : m.Sq d) (x y : Int) :
    m.at' x y = if In d x y then m.raw x.toNat y.toNat else INIT_V0 := by
  unfold at' atE
  rw [s.w, s.h]
  split
  · rw [if_neg (by omega)]
  · split
    · rw [if_neg (by omega)]
    · rw [if_pos (by omega)]

theorem at_nat {m : Matrix} {d} (s : m.Sq d) {x y : Nat} (hx : x < d) (hy : y < d) :
    m.at' x y = m.raw x y := by
  rw [at_eq s, if_pos (by omega)]; rfl

theorem at_set {m : Matrix} {d} (s : m.Sq d) (w h : Int) (c) (x y : Int) :
    (m.set w h c).at' x y = if w = x ∧ h = y ∧ In d x y then c else m.at' x y := by
  rw [at_eq (set_sq s w h c), at_eq s]
  unfold set setE
  rw [s.w, s.h]
  by_cases hin : In d x y
  · rw [if_pos hin]
    by_cases h1 : w ≥ d ∨ w < 0
    · rw [if_pos h1, if_neg (by omega), if_pos (by exact hin)]
    · rw [if_neg h1]
      by_cases h2 : h ≥ d ∨ h < 0
      · rw [if_pos h2, if_neg (by omega), if_pos (by exact hin)]
      · rw [if_neg h2]
        rw [raw_rawSet s]
        by_cases h3 : w = x ∧ h = y
        · rw [if_pos (by omega), if_pos (by omega)]
        · rw [if_neg (by omega), if_neg (by omega), if_pos (by exact hin)]
  · rw [if_neg hin, if_neg (by simp [hin]), if_neg hin]

theorem atE_err {m : Matrix} {d} (s : m.Sq d) (x y : Int) :
    (m.atE x y).2 = if 0 ≤ x ∧ x < d then (if 0 ≤ y ∧ y < d then none else some .outRangeOfH)
      else some .outRangeOfW := by
  unfold atE
  rw [s.w, s.h]
  by_cases h1 : 0 ≤ x ∧ x < d
  · rw [if_neg (by omega), if_pos h1]
    by_cases h2 : 0 ≤ y ∧ y < d
    · rw [if_neg (by omega), if_pos h2]
    · rw [if_pos (by omega), if_neg h2]
  · rw [if_pos (by omega), if_neg h1]

theorem copy_sq {m : Matrix} {d} (s : m.Sq d) : m.copy.Sq d := by
  refine ⟨s.w, s.h, by simp [copy, s.w], ?_⟩
  intro i hi
  simp [copy, s.h]

theorem raw_copy {m : Matrix} {d} (s : m.Sq d) {x y : Nat} (hx : x < d) (hy : y < d) :
    m.copy.raw x y = m.raw x y := by
  simp only [copy, raw, s.w, s.h, List.getElem?_map, List.getElem?_range hx, Option.map_some,
    Option.getD_some, List.getD_eq_getElem?_getD, List.getElem?_range hy]

theorem at_copy {m : Matrix} {d} (s : m.Sq d) (x y : Int) : m.copy.at' x y = m.at' x y := by
  rw [at_eq (copy_sq s), at_eq s]
  split
  · next h => rw [raw_copy s (by omega) (by omega)]
  · rfl

/-- Copying a well-formed matrix gives an equal matrix. -/
theorem copy_eq {m : Matrix} {d} (s : m.Sq d) : m.copy = m := by
  have h1 : m.copy.mat = m.mat := by
    apply List.ext_getElem
    · rw [(copy_sq s).len, s.len]
    · intro i h1 h2
      apply List.ext_getElem
      · rw [(copy_sq s).cols, s.cols]
      · intro j h3 h4
        have hi : i < d := by rw [s.len] at h2; exact h2
        have hj : j < d := by rw [s.cols] at h4; exact h4
        rw [← raw_eq (copy_sq s) hi hj, ← raw_eq s hi hj, raw_copy s hi hj]
  cases m
  simp [copy] at *
  try exact h1

/-! ### Writing a list of cells -/

/-- Write `c` to all cells of a list. -/
def setAll (m : Matrix) (cells : List (Int × Int)) (c : QRValue) : Matrix :=
  cells.foldl (fun m p => m.set p.1 p.2 c) m

theorem setAll_sq {m : Matrix} {d} (s : m.Sq d) (cells c) : (m.setAll cells c).Sq d := by
  unfold setAll
  induction cells generalizing m with
  | nil => exact s
  | cons p ps ih => exact ih (set_sq s _ _ _)

theorem at_setAll {m : Matrix} {d} (s : m.Sq d) (cells c) (x y : Int) :
    (m.setAll cells c).at' x y = if (x, y) ∈ cells ∧ In d x y then c else m.at' x y := by
  unfold setAll
  induction cells generalizing m with
  | nil => simp
  | cons p ps ih =>
    rw [List.foldl_cons, ih (set_sq s _ _ _), at_set s]
    by_cases h1 : (x, y) ∈ ps ∧ In d x y
    · rw [if_pos h1, if_pos ⟨List.mem_cons_of_mem _ h1.1, h1.2⟩]
    · rw [if_neg h1]
      by_cases h2 : p.1 = x ∧ p.2 = y ∧ In d x y
      · rw [if_pos h2]
        have hp : p = (x, y) := by rw [← h2.1, ← h2.2.1]
        rw [if_pos ⟨by rw [hp]; simp, h2.2.2⟩]
      · rw [if_neg h2, if_neg]
        rintro ⟨h3, h4⟩
        rcases List.mem_cons.mp h3 with h5 | h5
        · exact h2 ⟨by rw [← h5], by rw [← h5], h4⟩
        · exact h1 ⟨h5, h4⟩

theorem at_set_in {m : Matrix} {d} (s : m.Sq d) (w h : Int) (c) (x y : Int) (hin : In d x y) :
    (m.set w h c).at' x y = if w = x ∧ h = y then c else m.at' x y := by
  rw [at_set s]
  by_cases h1 : w = x ∧ h = y
  · rw [if_pos ⟨h1.1, h1.2, hin⟩, if_pos h1]
  · rw [if_neg (fun h => h1 ⟨h.1, h.2.1⟩), if_neg h1]

theorem at_setAll_in {m : Matrix} {d} (s : m.Sq d) (cells c) (x y : Int) (hin : In d x y) :
    (m.setAll cells c).at' x y = if (x, y) ∈ cells then c else m.at' x y := by
  rw [at_setAll s]
  by_cases h1 : (x, y) ∈ cells
  · rw [if_pos ⟨h1, hin⟩, if_pos h1]
  · rw [if_neg (fun h => h1 h.1), if_neg h1]

/-- Two matrices of the same side with equal values everywhere in range agree everywhere. -/
theorem ext_at {m m' : Matrix} {d} (s : m.Sq d) (s' : m'.Sq d)
    (h : ∀ x y : Nat, x < d → y < d → m.at' x y = m'.at' x y) : m = m' := by
  have h1 : m.mat = m'.mat := by
    apply List.ext_getElem
    · rw [s.len, s'.len]
    · intro i h1 h2
      apply List.ext_getElem
      · rw [s.cols, s'.cols]
      · intro j h3 h4
        have hi : i < d := by rw [s.len] at h1; exact h1
        have hj : j < d := by rw [s.cols] at h3; exact h3
        rw [← raw_eq s hi hj, ← raw_eq s' hi hj, ← at_nat s hi hj, ← at_nat s' hi hj, h i j hi hj]
  have h2 := s.w; have h3 := s.h; have h4 := s'.w; have h5 := s'.h
  cases m; cases m'
  simp_all

end Matrix
end QR
