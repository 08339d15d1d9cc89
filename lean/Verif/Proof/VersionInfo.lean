import Verif.Proof.MaskLemmas
/-!
# Version information
-/
namespace QR
open Matrix Spec

theorem list18 {α} (l : List α) (h : l.length = 18) : ∃ b0 b1 b2 b3 b4 b5 b6 b7 b8 b9 b10 b11 b12 b13 b14 b15 b16 b17,
    l = [b0, b1, b2, b3, b4, b5, b6, b7, b8, b9, b10, b11, b12, b13, b14, b15, b16, b17] := by
  match l, h with
  | [b0, b1, b2, b3, b4, b5, b6, b7, b8, b9, b10, b11, b12, b13, b14, b15, b16, b17], _ => exact ⟨b0, b1, b2, b3, b4, b5, b6, b7, b8, b9, b10, b11, b12, b13, b14, b15, b16, b17, rfl⟩

theorem fillVersion_eq (m : Matrix) (bits : Bits) (d : Nat) : fillVersionInfo m bits d =
    setPairs m ((versionCells.zip ((List.range 18).map (bitAt bits))).flatMap fun (c, b) =>
      [(((d : Int) - 8 - c.1, c.2), verV b), ((c.2, (d : Int) - 8 - c.1), verV b)]) := by
  unfold fillVersionInfo setPairs
  generalize versionCells.zip ((List.range 18).map (bitAt bits)) = L
  induction L generalizing m with
  | nil => rfl
  | cons a L ih =>
    rw [List.foldl_cons, List.flatMap_cons, List.foldl_append, ih]
    rfl

theorem fillVersion_spec {m : Matrix} {v : Nat} (hv : 7 ≤ v) (s : m.Sq (side v)) (bits : Bits) (hb : bits.length = 18) :
    (fillVersionInfo m bits (side v)).Sq (side v) ∧
    ((versionCells1 v).map (fun p => (fillVersionInfo m bits (side v)).at' p.2 p.1)) = bits.map verV ∧
    ((versionCells2 v).map (fun p => (fillVersionInfo m bits (side v)).at' p.2 p.1)) = bits.map verV ∧
    (∀ i j : Nat, (i, j) ∉ versionCells1 v → (i, j) ∉ versionCells2 v →
      (fillVersionInfo m bits (side v)).at' j i = m.at' j i) := by
  have hd : (45 : Int) ≤ (side v : Int) := by unfold side; omega
  rw [fillVersion_eq]
  have hr : (List.range 18).map (bitAt bits) = bits := by
    have := range_bitAt bits
    rwa [hb] at this
  rw [hr]
  obtain ⟨b0, b1, b2, b3, b4, b5, b6, b7, b8, b9, b10, b11, b12, b13, b14, b15, b16, b17, rfl⟩ := list18 bits hb
  have hc1 : versionCells1 v = [(5, side v - 11 + 2), (5, side v - 11 + 1), (5, side v - 11 + 0), (4, side v - 11 + 2), (4, side v - 11 + 1), (4, side v - 11 + 0), (3, side v - 11 + 2), (3, side v - 11 + 1), (3, side v - 11 + 0), (2, side v - 11 + 2), (2, side v - 11 + 1), (2, side v - 11 + 0), (1, side v - 11 + 2), (1, side v - 11 + 1), (1, side v - 11 + 0), (0, side v - 11 + 2), (0, side v - 11 + 1), (0, side v - 11 + 0)] := by rfl
  have hc2 : versionCells2 v = [(side v - 11 + 2, 5), (side v - 11 + 1, 5), (side v - 11 + 0, 5), (side v - 11 + 2, 4), (side v - 11 + 1, 4), (side v - 11 + 0, 4), (side v - 11 + 2, 3), (side v - 11 + 1, 3), (side v - 11 + 0, 3), (side v - 11 + 2, 2), (side v - 11 + 1, 2), (side v - 11 + 0, 2), (side v - 11 + 2, 1), (side v - 11 + 1, 1), (side v - 11 + 0, 1), (side v - 11 + 2, 0), (side v - 11 + 1, 0), (side v - 11 + 0, 0)] := by rfl
  have hcc : versionCells = [(1, 5), (2, 5), (3, 5), (1, 4), (2, 4), (3, 4), (1, 3), (2, 3), (3, 3), (1, 2), (2, 2), (3, 2), (1, 1), (2, 1), (3, 1), (1, 0), (2, 0), (3, 0)] := by rfl
  rw [hc1, hc2, hcc]
  simp only [List.zip_cons_cons, List.zip_nil_right, List.flatMap_cons, List.flatMap_nil, List.cons_append,
    List.nil_append, List.append_nil]
  have e1 : (side v : Int) - 8 - 1 = ((side v - 11 + 2 : Nat) : Int) := by omega
  have e2 : (side v : Int) - 8 - 2 = ((side v - 11 + 1 : Nat) : Int) := by omega
  have e3 : (side v : Int) - 8 - 3 = ((side v - 11 + 0 : Nat) : Int) := by omega
  rw [e1, e2, e3]
  have hlt : side v - 11 + 2 < side v := by omega
  have hge : 34 ≤ side v - 11 := by omega
  generalize hN : side v - 11 = N at *
  generalize hL : ([((((N + 2 : Nat) : Int), 5), verV b0), _, _, _, _, _, _, _, _, _, _, _, _, _, _, _, _, _, _, _, _, _, _, _, _, _, _, _, _, _, _, _, _, _, _, _] :
    List ((Int × Int) × QRValue)) = L
  have hn : (L.map Prod.fst).Nodup := by
    rw [← hL]
    simp only [List.map_cons, List.map_nil, List.nodup_cons, List.mem_cons, List.not_mem_nil, or_false,
      Prod.mk.injEq, not_false_eq_true, List.nodup_nil, and_true]
    refine ⟨?_, ?_, ?_, ?_, ?_, ?_, ?_, ?_, ?_, ?_, ?_, ?_, ?_, ?_, ?_, ?_, ?_, ?_, ?_, ?_, ?_, ?_, ?_, ?_, ?_, ?_, ?_, ?_, ?_, ?_, ?_, ?_, ?_, ?_, ?_⟩ <;> omega
  refine ⟨setPairs_sq s L, ?_, ?_, ?_⟩
  · simp only [List.map_cons, List.map_nil, List.cons.injEq, and_true]
    refine ⟨?_, ?_, ?_, ?_, ?_, ?_, ?_, ?_, ?_, ?_, ?_, ?_, ?_, ?_, ?_, ?_, ?_, ?_⟩ <;>
      (apply at_setPairs_mem s L _ _ _ hn (by omega); rw [← hL]; simp)
  · simp only [List.map_cons, List.map_nil, List.cons.injEq, and_true]
    refine ⟨?_, ?_, ?_, ?_, ?_, ?_, ?_, ?_, ?_, ?_, ?_, ?_, ?_, ?_, ?_, ?_, ?_, ?_⟩ <;>
      (apply at_setPairs_mem s L _ _ _ hn (by omega); rw [← hL]; simp)
  · intro i j h1 h2
    apply at_setPairs_other s
    rw [← hL]
    simp only [List.map_cons, List.map_nil, List.mem_cons, List.not_mem_nil, or_false, Prod.mk.injEq]
    rintro (⟨ha, hb⟩ | ⟨ha, hb⟩ | ⟨ha, hb⟩ | ⟨ha, hb⟩ | ⟨ha, hb⟩ | ⟨ha, hb⟩ | ⟨ha, hb⟩ | ⟨ha, hb⟩ | ⟨ha, hb⟩ | ⟨ha, hb⟩ | ⟨ha, hb⟩ | ⟨ha, hb⟩ | ⟨ha, hb⟩ | ⟨ha, hb⟩ | ⟨ha, hb⟩ | ⟨ha, hb⟩ | ⟨ha, hb⟩ | ⟨ha, hb⟩ | ⟨ha, hb⟩ | ⟨ha, hb⟩ | ⟨ha, hb⟩ | ⟨ha, hb⟩ | ⟨ha, hb⟩ | ⟨ha, hb⟩ | ⟨ha, hb⟩ | ⟨ha, hb⟩ | ⟨ha, hb⟩ | ⟨ha, hb⟩ | ⟨ha, hb⟩ | ⟨ha, hb⟩ | ⟨ha, hb⟩ | ⟨ha, hb⟩ | ⟨ha, hb⟩ | ⟨ha, hb⟩ | ⟨ha, hb⟩ | ⟨ha, hb⟩)
    · obtain rfl : j = N + 2 := by omega
      obtain rfl : i = 5 := by omega
      exact h1 (by simp)
    · obtain rfl : j = 5 := by omega
      obtain rfl : i = N + 2 := by omega
      exact h2 (by simp)
    · obtain rfl : j = N + 1 := by omega
      obtain rfl : i = 5 := by omega
      exact h1 (by simp)
    · obtain rfl : j = 5 := by omega
      obtain rfl : i = N + 1 := by omega
      exact h2 (by simp)
    · obtain rfl : j = N + 0 := by omega
      obtain rfl : i = 5 := by omega
      exact h1 (by simp)
    · obtain rfl : j = 5 := by omega
      obtain rfl : i = N + 0 := by omega
      exact h2 (by simp)
    · obtain rfl : j = N + 2 := by omega
      obtain rfl : i = 4 := by omega
      exact h1 (by simp)
    · obtain rfl : j = 4 := by omega
      obtain rfl : i = N + 2 := by omega
      exact h2 (by simp)
    · obtain rfl : j = N + 1 := by omega
      obtain rfl : i = 4 := by omega
      exact h1 (by simp)
    · obtain rfl : j = 4 := by omega
      obtain rfl : i = N + 1 := by omega
      exact h2 (by simp)
    · obtain rfl : j = N + 0 := by omega
      obtain rfl : i = 4 := by omega
      exact h1 (by simp)
    · obtain rfl : j = 4 := by omega
      obtain rfl : i = N + 0 := by omega
      exact h2 (by simp)
    · obtain rfl : j = N + 2 := by omega
      obtain rfl : i = 3 := by omega
      exact h1 (by simp)
    · obtain rfl : j = 3 := by omega
      obtain rfl : i = N + 2 := by omega
      exact h2 (by simp)
    · obtain rfl : j = N + 1 := by omega
      obtain rfl : i = 3 := by omega
      exact h1 (by simp)
    · obtain rfl : j = 3 := by omega
      obtain rfl : i = N + 1 := by omega
      exact h2 (by simp)
    · obtain rfl : j = N + 0 := by omega
      obtain rfl : i = 3 := by omega
      exact h1 (by simp)
    · obtain rfl : j = 3 := by omega
      obtain rfl : i = N + 0 := by omega
      exact h2 (by simp)
    · obtain rfl : j = N + 2 := by omega
      obtain rfl : i = 2 := by omega
      exact h1 (by simp)
    · obtain rfl : j = 2 := by omega
      obtain rfl : i = N + 2 := by omega
      exact h2 (by simp)
    · obtain rfl : j = N + 1 := by omega
      obtain rfl : i = 2 := by omega
      exact h1 (by simp)
    · obtain rfl : j = 2 := by omega
      obtain rfl : i = N + 1 := by omega
      exact h2 (by simp)
    · obtain rfl : j = N + 0 := by omega
      obtain rfl : i = 2 := by omega
      exact h1 (by simp)
    · obtain rfl : j = 2 := by omega
      obtain rfl : i = N + 0 := by omega
      exact h2 (by simp)
    · obtain rfl : j = N + 2 := by omega
      obtain rfl : i = 1 := by omega
      exact h1 (by simp)
    · obtain rfl : j = 1 := by omega
      obtain rfl : i = N + 2 := by omega
      exact h2 (by simp)
    · obtain rfl : j = N + 1 := by omega
      obtain rfl : i = 1 := by omega
      exact h1 (by simp)
    · obtain rfl : j = 1 := by omega
      obtain rfl : i = N + 1 := by omega
      exact h2 (by simp)
    · obtain rfl : j = N + 0 := by omega
      obtain rfl : i = 1 := by omega
      exact h1 (by simp)
    · obtain rfl : j = 1 := by omega
      obtain rfl : i = N + 0 := by omega
      exact h2 (by simp)
    · obtain rfl : j = N + 2 := by omega
      obtain rfl : i = 0 := by omega
      exact h1 (by simp)
    · obtain rfl : j = 0 := by omega
      obtain rfl : i = N + 2 := by omega
      exact h2 (by simp)
    · obtain rfl : j = N + 1 := by omega
      obtain rfl : i = 0 := by omega
      exact h1 (by simp)
    · obtain rfl : j = 0 := by omega
      obtain rfl : i = N + 1 := by omega
      exact h2 (by simp)
    · obtain rfl : j = N + 0 := by omega
      obtain rfl : i = 0 := by omega
      exact h1 (by simp)
    · obtain rfl : j = 0 := by omega
      obtain rfl : i = N + 0 := by omega
      exact h2 (by simp)

end QR
