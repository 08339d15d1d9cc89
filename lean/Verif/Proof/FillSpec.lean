import Verif.Proof.Fill
import Mathlib.Data.List.Nodup
/-!
# The walk of `fillDataBinary` is the standard's zig-zag; reading back what was placed
-/
namespace QR
open Matrix Spec

/-- Swap to matrix coordinates. -/
def xy (p : Nat × Nat) : Int × Int := ((p.2 : Int), (p.1 : Int))

theorem colCells_up (c : Nat) (hc : 1 ≤ c) (n : Nat) (y : Int) (hy : y = (n : Int) - 1) :
    colCells c y true n = (((List.range n).reverse.flatMap fun i => [(i, c), (i, c - 1)])).map xy := by
  induction n generalizing y with
  | zero => simp [colCells]
  | succ n ih =>
    rw [colCells, List.range_succ, List.reverse_append, List.flatMap_append]
    rw [if_pos rfl, ih (y - 1) (by omega)]
    have : y = (n : Int) := by omega
    subst this
    have hc' : ((c - 1 : Nat) : Int) = (c : Int) - 1 := by omega
    simp [xy, hc']

theorem colCells_down (c : Nat) (hc : 1 ≤ c) (n : Nat) (y : Nat) :
    colCells c y false n = (((List.range' y n).flatMap fun i => [(i, c), (i, c - 1)])).map xy := by
  induction n generalizing y with
  | zero => simp [colCells]
  | succ n ih =>
    rw [colCells, List.range'_succ]
    have := ih (y + 1)
    have hc' : ((c - 1 : Nat) : Int) = (c : Int) - 1 := by omega
    simp only [Bool.false_eq_true, if_false, List.flatMap_cons, List.map_append, List.map_cons, List.map_nil, xy, hc']
    simp only [Nat.cast_add, Nat.cast_one] at this
    rw [this]; rfl

theorem colsCells_eq (d : Nat) : ∀ (cs : List Nat) (k : Nat), (∀ c ∈ cs, 1 ≤ c) →
    colsCells d (cs.map fun c : Nat => (c : Int)) (k % 2 == 0) =
      ((cs.zipIdx k).flatMap fun (c, k) =>
        let rows := if k % 2 = 0 then (List.range d).reverse else List.range d
        rows.flatMap fun i => [(i, c), (i, c - 1)]).map xy := by
  intro cs
  induction cs with
  | nil => intro k _; rfl
  | cons c cs ih =>
    intro k h
    rw [List.map_cons, colsCells, List.zipIdx_cons, List.flatMap_cons, List.map_append]
    have hk : (!(k % 2 == 0)) = ((k + 1) % 2 == 0) := by
      rcases Nat.mod_two_eq_zero_or_one k with h | h
      · have : (k + 1) % 2 = 1 := by omega
        simp [h, this]
      · have : (k + 1) % 2 = 0 := by omega
        simp [h, this]
    rw [hk, ih (k + 1) (fun c hc => h c (by simp [hc]))]
    congr 1
    by_cases hk0 : k % 2 = 0
    · simp only [hk0, beq_self_eq_true, if_true]
      exact colCells_up c (h c (by simp)) d _ rfl
    · have hb : (k % 2 == 0) = false := by simpa using hk0
      simp only [hb, hk0, if_false, Bool.false_eq_true]
      rw [List.range_eq_range']
      exact colCells_down c (h c (by simp)) d 0

theorem mem_rightColumns {v c : Nat} (hv : 1 ≤ v) (h : c ∈ rightColumns v) : 1 ≤ c ∧ c < side v := by
  unfold rightColumns side at *
  simp only [List.mem_append, List.mem_map, List.mem_range, List.mem_cons, List.not_mem_nil, or_false] at h
  rcases h with ⟨k, h1, h2⟩ | h
  · omega
  · omega

theorem rightColumns_sep (v : Nat) : (rightColumns v).Pairwise (fun c c' => c' + 2 ≤ c) := by
  unfold rightColumns
  rw [List.pairwise_append]
  refine ⟨?_, by decide, ?_⟩
  · rw [List.pairwise_map]
    refine List.Pairwise.imp_of_mem ?_ (List.pairwise_lt_range (n := (side v - 7) / 2))
    intro a b ha hb hab
    simp only [List.mem_range] at ha hb
    omega
  · intro a ha b hb
    simp only [List.mem_map, List.mem_range] at ha
    obtain ⟨k, hk, rfl⟩ := ha
    simp only [List.mem_cons, List.not_mem_nil, or_false] at hb
    omega

theorem chain_of_get : ∀ (l : List Int),
    (∀ k (h : k + 1 < l.length), Next (l[k]'(by omega)) l[k+1]) → Chain l
  | [], _ => trivial
  | [_], _ => trivial
  | a :: b :: l, h => ⟨h 0 (by simp), chain_of_get (b :: l) (fun k hk => h (k + 1) (by simpa using hk))⟩

theorem rightColumns_length (v : Nat) : (rightColumns v).length = 2 * v + 8 := by
  simp [rightColumns, side]; omega

theorem rightColumns_get {v k : Nat} (hk : k < (rightColumns v).length) :
    (rightColumns v)[k] = if k < 2 * v + 5 then side v - 1 - 2 * k else 4 * v + 15 - 2 * k := by
  have hl := rightColumns_length v
  have hn : (side v - 7) / 2 = 2 * v + 5 := by unfold side; omega
  simp only [rightColumns]
  rw [List.getElem_append]
  simp only [List.length_map, List.length_range, hn]
  split
  · simp
  · next h =>
    have : k = 2 * v + 5 ∨ k = 2 * v + 6 ∨ k = 2 * v + 7 := by omega
    rcases this with rfl | rfl | rfl
    · simp; omega
    · simp [show 2 * v + 6 - (2 * v + 5) = 1 by omega]; omega
    · simp [show 2 * v + 7 - (2 * v + 5) = 2 by omega]; omega

theorem rightColumns_chain {v : Nat} : Chain ((rightColumns v).map fun c : Nat => (c : Int)) := by
  apply chain_of_get
  intro k hk
  have hl := rightColumns_length v
  simp only [List.length_map] at hk
  simp only [List.getElem_map]
  rw [rightColumns_get, rightColumns_get]
  unfold Next
  have hn : side v = 17 + 4 * v := rfl
  split <;> split <;> split <;> omega

theorem rightColumns_cons (v : Nat) : ∃ cs, rightColumns v = (side v - 1) :: cs := by
  have hl := rightColumns_length v
  have h := rightColumns_get (v := v) (k := 0) (by omega)
  cases hr : rightColumns v with
  | nil => rw [hr] at hl; simp at hl
  | cons c cs =>
    simp only [hr, List.getElem_cons_zero] at h
    rw [if_pos (by omega)] at h
    exact ⟨cs, by rw [h]; rfl⟩

/-- The cells visited by the filling loop are the zig-zag of the standard. -/
theorem vis_zigzag {v : Nat} (hv : 1 ≤ v) :
    vis (side v) (2 * side v * (rightColumns v).length) ((side v : Int) - 1) ((side v : Int) - 1) true 0 =
      (zigzag v).map xy := by
  obtain ⟨cs, hcs⟩ := rightColumns_cons v
  have hs : 0 < side v := by unfold side; omega
  have hmap : (rightColumns v).map (fun c : Nat => (c : Int)) = ((side v : Int) - 1) :: cs.map (fun c : Nat => (c : Int)) := by
    rw [hcs]; simp; omega
  have h := vis_cols hs (cs.map (fun c : Nat => (c : Int))) ((side v : Int) - 1) true 0
    (by rw [← hmap]; exact rightColumns_chain)
    (by
      rw [← hmap]
      intro x hx
      obtain ⟨c, hc, rfl⟩ := List.mem_map.1 hx
      have := mem_rightColumns hv hc
      omega) rfl
  rw [← hmap] at h
  simp only [List.length_map, if_true] at h
  rw [h]
  have := colsCells_eq (side v) (rightColumns v) 0 (fun c hc => (mem_rightColumns hv hc).1)
  simpa [zigzag] using this

theorem mem_zigzag {v : Nat} (hv : 1 ≤ v) (i j : Nat) :
    (i, j) ∈ zigzag v → i < side v ∧ j < side v := by
  unfold zigzag
  simp only [List.mem_flatMap, Prod.exists]
  rintro ⟨c, k, hck, a, ha, hij⟩
  have hc : c ∈ rightColumns v := by
    have := List.mem_map_of_mem (f := Prod.fst) hck
    simpa using this
  have hb := mem_rightColumns hv hc
  have ha' : a < side v := by
    split at ha <;> simpa using ha
  simp only [List.mem_cons, Prod.mk.injEq, List.not_mem_nil, or_false] at hij
  omega

theorem zigzag_nodup {v : Nat} (hv : 1 ≤ v) : (zigzag v).Nodup := by
  unfold zigzag
  rw [List.nodup_flatMap]
  constructor
  · rintro ⟨c, k⟩ hck
    have hc : c ∈ rightColumns v := by
      have := List.mem_map_of_mem (f := Prod.fst) hck
      simpa using this
    have hb := mem_rightColumns hv hc
    simp only
    rw [List.nodup_flatMap]
    constructor
    · intro i _
      simp; omega
    · have hp : ∀ l : List Nat, l.Nodup → l.Pairwise
          (Function.onFun List.Disjoint fun i => [(i, c), (i, c - 1)]) := by
        intro l hl
        refine List.Pairwise.imp ?_ hl
        intro a b hab
        simp only [Function.onFun, List.Disjoint]
        simp
        omega
      apply hp
      split
      · exact List.nodup_reverse.2 List.nodup_range
      · exact List.nodup_range
  · have h1 : ((rightColumns v).zipIdx).Pairwise (fun p q => q.1 + 2 ≤ p.1) := by
      have h2 := rightColumns_sep v
      have h3 : (rightColumns v).zipIdx.map Prod.fst = rightColumns v := by simp
      rw [← h3, List.pairwise_map] at h2
      exact h2
    refine List.Pairwise.imp_of_mem ?_ h1
    rintro ⟨c, k⟩ ⟨c', k'⟩ h h' hcc
    have hm : ∀ {c k}, (c, k) ∈ (rightColumns v).zipIdx → 1 ≤ c := fun hck => by
      have := List.mem_map_of_mem (f := Prod.fst) hck
      exact (mem_rightColumns hv (by simpa using this)).1
    have hc := hm h
    have hc' := hm h'
    simp only [Function.onFun, List.Disjoint]
    rintro ⟨i, j⟩ hi hi'
    simp only [List.mem_flatMap, List.mem_cons, Prod.mk.injEq, List.not_mem_nil, or_false] at hi hi'
    obtain ⟨_, _, hi⟩ := hi
    obtain ⟨_, _, hi'⟩ := hi'
    omega

theorem xy_injective : Function.Injective xy := by
  rintro ⟨a, b⟩ ⟨c, d⟩ h
  simp only [xy, Prod.mk.injEq] at h
  ext <;> simp <;> omega

/-! ## Reading back -/

theorem at_place_other {m : Matrix} {d} (s : m.Sq d) (cells : List (Int × Int)) (bits : Bits) (p : Int × Int)
    (h : ¬ (p ∈ cells ∧ free m p = true)) : (place m cells bits).at' p.1 p.2 = m.at' p.1 p.2 := by
  induction cells generalizing m bits with
  | nil => rfl
  | cons q qs ih =>
    cases bits with
    | nil => rfl
    | cons b bs =>
      unfold place
      split
      · next hq =>
        have hpq : q ≠ p := by
          rintro rfl
          exact h ⟨by simp, by simp [free, hq]⟩
        rw [ih (set_sq s _ _ _), at_set s, if_neg]
        · rintro ⟨h1, h2, _⟩; exact hpq (Prod.ext h1 h2)
        · rw [free_set s hpq]
          rintro ⟨h1, h2⟩
          exact h ⟨by simp [h1], h2⟩
      · exact ih s _ (fun h' => h ⟨by simp [h'.1], h'.2⟩)

theorem place_read {m : Matrix} {d} (s : m.Sq d) (cells : List (Int × Int)) (bits : Bits)
    (hn : cells.Nodup) (hin : ∀ p ∈ cells, In d p.1 p.2) (hl : bits.length = (cells.filter (free m)).length) :
    (cells.filter (free m)).map (fun p => (place m cells bits).at' p.1 p.2) = bits.map dataV := by
  induction cells generalizing m bits with
  | nil => simp at hl; simp [hl]
  | cons q qs ih =>
    rw [List.nodup_cons] at hn
    by_cases hq : (m.at' q.1 q.2).ty = .init
    · have hfq : free m q = true := by simp [free, hq]
      rw [List.filter_cons_of_pos hfq] at hl ⊢
      cases bits with
      | nil => simp at hl
      | cons b bs =>
        simp only [place, hq, if_true, List.map_cons]
        have hin' := hin q (by simp)
        have hfilt : qs.filter (free (m.set q.1 q.2 (dataV b))) = qs.filter (free m) := by
          apply List.filter_congr
          intro p hp
          exact free_set s (by rintro rfl; exact hn.1 hp) _
        rw [List.cons.injEq]
        constructor
        · rw [at_place_other (set_sq s _ _ _) qs bs q (fun h => hn.1 h.1), at_set_in s _ _ _ _ _ hin']
          simp
        · rw [← hfilt]
          apply ih (set_sq s _ _ _) _ hn.2 (fun p hp => hin p (by simp [hp]))
          rw [hfilt]; simpa using hl
    · have hfq : ¬ free m q = true := by simp [free, hq]
      rw [List.filter_cons_of_neg hfq] at hl ⊢
      cases bits with
      | nil =>
        have : qs.filter (free m) = [] := by
          apply List.eq_nil_of_length_eq_zero; simpa using hl.symm
        simp [this]
      | cons b bs =>
        simp only [place, hq, if_false]
        exact ih s _ hn.2 (fun p hp => hin p (by simp [hp])) hl

end QR
