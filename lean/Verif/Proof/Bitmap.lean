import Verif.Proof.MaskLemmas
import Verif.Spec.Reader
/-!
# `Bitmap()`
-/
namespace QR
open Matrix Spec

/-- Shape of a table. -/
def Table (W H : Nat) (t : List (List Bool)) : Prop := t.length = H ∧ ∀ r ∈ t, r.length = W

theorem table_modify {W H : Nat} {t : List (List Bool)} (h : Table W H t) (x y : Nat) (b : Bool) :
    Table W H (t.modify y (fun r => r.set x b)) := by
  refine ⟨by rw [List.length_modify]; exact h.1, ?_⟩
  intro r hr
  obtain ⟨i, hi, rfl⟩ := List.getElem_of_mem hr
  rw [List.length_modify] at hi
  rw [List.getElem_modify]
  split
  · rw [List.length_set]; exact h.2 _ (List.getElem_mem hi)
  · exact h.2 _ (List.getElem_mem hi)

theorem pixel_modify {W H : Nat} {t : List (List Bool)} (h : Table W H t) {x y i j : Nat} (hi : i < H) (hj : j < W)
    (b : Bool) : pixel (t.modify y (fun r => r.set x b)) i j = if (x, y) = (j, i) then b else pixel t i j := by
  unfold pixel
  have hi' : i < t.length := by rw [h.1]; exact hi
  have hl : (t[i]).length = W := h.2 _ (List.getElem_mem hi')
  have e1 : (t.modify y (fun r => r.set x b)).getD i [] = if y = i then (t[i]).set x b else t[i] := by
    rw [List.getD_eq_getElem?_getD, List.getElem?_modify, List.getElem?_eq_getElem hi']
    by_cases hyi : y = i <;> simp [hyi]
  have e2 : t.getD i [] = t[i] := by rw [List.getD_eq_getElem?_getD, List.getElem?_eq_getElem hi']; rfl
  rw [e1, e2]
  by_cases hyi : y = i
  · rw [if_pos hyi, List.getD_set_eq]
    by_cases hxj : x = j
    · simp [hxj, hyi, hl, hj]
    · simp [hxj]
  · rw [if_neg hyi, if_neg]
    intro h; simp only [Prod.mk.injEq] at h; exact hyi h.2

theorem fold_table {W H : Nat} (f : Nat → Nat → QRValue) : ∀ (cells : List (Nat × Nat)) (t : List (List Bool)), Table W H t →
    Table W H ((cells.map fun p => (p.1, p.2, f p.1 p.2)).foldl
      (fun t (p : Nat × Nat × QRValue) => t.modify p.2.1 (fun r => r.set p.1 p.2.2.qrbool)) t) ∧
    ∀ i j, i < H → j < W → pixel ((cells.map fun p => (p.1, p.2, f p.1 p.2)).foldl
      (fun t (p : Nat × Nat × QRValue) => t.modify p.2.1 (fun r => r.set p.1 p.2.2.qrbool)) t) i j =
      if (j, i) ∈ cells then (f j i).qrbool else pixel t i j := by
  intro cells
  induction cells with
  | nil => intro t h; exact ⟨h, fun i j _ _ => by simp⟩
  | cons p cells ih =>
    intro t h
    obtain ⟨a, b⟩ := p
    simp only [List.map_cons, List.foldl_cons]
    obtain ⟨h1, h2⟩ := ih _ (table_modify h a b (f a b).qrbool)
    refine ⟨h1, fun i j hi hj => ?_⟩
    rw [h2 i j hi hj, pixel_modify h hi hj]
    by_cases hm : (j, i) ∈ cells
    · simp [hm]
    · by_cases he : (a, b) = (j, i)
      · simp only [Prod.mk.injEq] at he
        obtain ⟨rfl, rfl⟩ := he
        simp [hm]
      · rw [if_neg hm, if_neg he, if_neg]
        intro hc
        rcases List.mem_cons.1 hc with hc | hc
        · exact he hc.symm
        · exact hm hc

/-- `Bitmap()` has the shape of the matrix and shows every module's value. -/
theorem bitmap_spec (m : Matrix) : Table m.width m.height m.bitmap ∧
    ∀ i j, i < m.height → j < m.width → pixel m.bitmap i j = (m.raw j i).bit := by
  have h0 : Table m.width m.height (List.replicate m.height (List.replicate m.width false)) := by
    refine ⟨by simp, ?_⟩
    intro r hr
    rw [List.eq_of_mem_replicate hr]; simp
  have := fold_table m.raw (coords m.width m.height .row) _ h0
  unfold bitmap iterate
  refine ⟨this.1, fun i j hi hj => ?_⟩
  refine Eq.trans (this.2 i j hi hj) ?_
  rw [if_pos (mem_coords.2 ⟨hj, hi⟩)]; rfl

theorem bitmap_at {m : Matrix} {d : Nat} (s : m.Sq d) {i j : Nat} (hi : i < d) (hj : j < d) :
    pixel m.bitmap i j = (m.at' (j : Int) (i : Int)).bit := by
  rw [(bitmap_spec m).2 i j (by rw [s.h]; exact hi) (by rw [s.w]; exact hj), at_nat s hj hi]

theorem bitmap_length {m : Matrix} {d : Nat} (s : m.Sq d) : m.bitmap.length = d := by
  rw [(bitmap_spec m).1.1, s.h]

end QR
