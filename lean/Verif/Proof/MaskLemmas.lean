import Verif.Proof.Count
import Verif.Model.QRCode
/-!
# Masking, format and version information
-/
namespace QR
open Matrix Spec

/-! ## Coordinates visited by `iter` -/

theorem mem_coords {w h : Nat} {dir : Dir} {p : Nat × Nat} :
    p ∈ coords w h dir ↔ p.1 < w ∧ p.2 < h := by
  obtain ⟨a, b⟩ := p
  cases dir <;>
    simp only [coords, List.mem_flatMap, List.mem_map, List.mem_range, Prod.mk.injEq] <;>
    constructor
  · rintro ⟨x, hx, y, hy, rfl, rfl⟩; exact ⟨hy, hx⟩
  · rintro ⟨h1, h2⟩; exact ⟨b, h2, a, h1, rfl, rfl⟩
  · rintro ⟨x, hx, y, hy, rfl, rfl⟩; exact ⟨hx, hy⟩
  · rintro ⟨h1, h2⟩; exact ⟨a, h1, b, h2, rfl, rfl⟩

theorem coords_nodup (w h : Nat) (dir : Dir) : (coords w h dir).Nodup := by
  cases dir <;> simp only [coords] <;> rw [List.nodup_flatMap] <;> refine ⟨?_, ?_⟩
  · intro x _
    exact List.Nodup.map (fun a b hab => by simpa using hab) List.nodup_range
  · refine List.Pairwise.imp ?_ List.nodup_range
    intro a b hab
    simp only [Function.onFun, List.Disjoint]
    intro p hp hp'
    simp only [List.mem_map] at hp hp'
    obtain ⟨_, _, rfl⟩ := hp
    obtain ⟨_, _, h⟩ := hp'
    simp only [Prod.mk.injEq] at h
    exact hab h.2.symm
  · intro x _
    exact List.Nodup.map (fun a b hab => by simpa using hab) List.nodup_range
  · refine List.Pairwise.imp ?_ List.nodup_range
    intro a b hab
    simp only [Function.onFun, List.Disjoint]
    intro p hp hp'
    simp only [List.mem_map] at hp hp'
    obtain ⟨_, _, rfl⟩ := hp
    obtain ⟨_, _, h⟩ := hp'
    simp only [Prod.mk.injEq] at h
    exact hab h.1.symm

/-! ## Iterating a step that only touches the current cell -/

theorem foldl_cells {d : Nat} (step : Matrix → Nat × Nat → Matrix) (g : Nat × Nat → QRValue → QRValue)
    (hsq : ∀ m p, m.Sq d → (step m p).Sq d)
    (hat : ∀ m p, m.Sq d → p.1 < d → p.2 < d → ∀ x y : Nat, x < d → y < d → (step m p).at' x y =
      if (x, y) = p then g p (m.at' p.1 p.2) else m.at' x y) :
    ∀ (cells : List (Nat × Nat)), cells.Nodup → (∀ p ∈ cells, p.1 < d ∧ p.2 < d) → ∀ m, m.Sq d →
      (cells.foldl step m).Sq d ∧ ∀ x y : Nat, x < d → y < d → (cells.foldl step m).at' x y =
        if (x, y) ∈ cells then g (x, y) (m.at' x y) else m.at' x y := by
  intro cells
  induction cells with
  | nil => intro _ _ m s; simp [s]
  | cons p ps ih =>
    intro hn hin m s
    rw [List.nodup_cons] at hn
    have hp := hin p (by simp)
    have s' := hsq m p s
    obtain ⟨h1, h2⟩ := ih hn.2 (fun q hq => hin q (by simp [hq])) (step m p) s'
    refine ⟨h1, fun x y hx hy => ?_⟩
    rw [List.foldl_cons, h2 x y hx hy, hat m p s hp.1 hp.2 x y hx hy]
    by_cases hxy : (x, y) = p
    · subst hxy
      simp [hn.1]
    · simp [hxy]

/-! ## The mask matrix -/

/-- The value of a mask cell. -/
def maskV (f : Nat → Nat → Bool) (p : Nat × Nat) (v : QRValue) : QRValue :=
  if v.ty = .init then dataV (f p.1 p.2) else INIT_V0

theorem maskStep_eq (f) (m : Matrix) (p : Nat × Nat) :
    maskStep f m p = m.set p.1 p.2 (maskV f p (m.at' p.1 p.2)) := by
  unfold maskStep maskV dataV QRValue.qrtype
  by_cases h : (m.at' p.1 p.2).ty = .init
  · simp only [h, ne_eq, not_true_eq_false, if_false, if_true]
    split <;> rfl
  · simp only [h, ne_eq, not_false_eq_true, if_true, if_false]

theorem at_newMask {m mask : Matrix} {d k : Nat} (s : m.Sq d) (f) (hf : getModuloFunc k = some f)
    (h : newMask m k = .ok mask) : mask.Sq d ∧ ∀ x y : Nat, x < d → y < d →
      mask.at' x y = maskV f (x, y) (m.at' x y) := by
  unfold newMask at h
  rw [hf] at h
  simp only [Res.ok.injEq] at h
  have key := foldl_cells (d := d) (maskStep f) (maskV f)
    (fun m p s => by rw [maskStep_eq]; exact set_sq s _ _ _)
    (fun m p s h1 h2 x y hx hy => by
      rw [maskStep_eq, at_set_in s _ _ _ _ _ (by omega)]
      obtain ⟨a, b⟩ := p
      simp only [Prod.mk.injEq]
      by_cases hab : x = a ∧ y = b
      · rw [if_pos hab, if_pos (by omega)]
      · rw [if_neg hab, if_neg (by omega)])
    (coords m.width m.height .column) (coords_nodup _ _ _)
    (fun p hp => by have := mem_coords.1 hp; rwa [s.w, s.h] at this) m.copy (copy_sq s)
  rw [h] at key
  refine ⟨key.1, fun x y hx hy => ?_⟩
  rw [key.2 x y hx hy, if_pos (mem_coords.2 (by rw [s.w, s.h]; exact ⟨hx, hy⟩)), at_copy s]

/-- The value after xor with a mask cell. -/
def xorV (mask : Matrix) (p : Nat × Nat) (v : QRValue) : QRValue :=
  if (mask.at' p.1 p.2).ty = .init then v else v.xor (mask.at' p.1 p.2)

theorem at_xorMask {m mask : Matrix} {d : Nat} (s : m.Sq d) (sm : mask.Sq d) :
    (xorMask m mask).Sq d ∧ ∀ x y : Nat, x < d → y < d →
      (xorMask m mask).at' x y = xorV mask (x, y) (m.at' x y) := by
  have key := foldl_cells (d := d) (xorStep mask) (xorV mask)
    (fun m p s => by
      unfold xorStep
      simp only
      split
      · exact s
      · exact set_sq s _ _ _)
    (fun m p s h1 h2 x y hx hy => by
      obtain ⟨a, b⟩ := p
      have hr : mask.raw a b = mask.at' a b := (at_nat sm h1 h2).symm
      unfold xorStep xorV
      simp only [hr, QRValue.qrtype, Prod.mk.injEq]
      by_cases hi : (mask.at' a b).ty = .init
      · simp only [hi, if_true]
        by_cases hab : x = a ∧ y = b
        · rw [if_pos hab, hab.1, hab.2]
        · rw [if_neg hab]
      · simp only [hi, if_false]
        rw [at_set_in s _ _ _ _ _ (by omega)]
        by_cases hab : x = a ∧ y = b
        · rw [if_pos hab, if_pos (by omega)]
        · rw [if_neg hab, if_neg (by omega)])
    (coords mask.width mask.height .column) (coords_nodup _ _ _)
    (fun p hp => by have := mem_coords.1 hp; rwa [sm.w, sm.h] at this) m s
  refine ⟨key.1, fun x y hx hy => ?_⟩
  unfold xorMask
  rw [key.2 x y hx hy, if_pos (mem_coords.2 (by rw [sm.w, sm.h]; exact ⟨hx, hy⟩))]

theorem dataV_xor (a b : Bool) : (dataV a).xor (dataV b) = dataV (a ^^ b) := by
  cases a <;> cases b <;> rfl

theorem getModulo_eq {k : Nat} (hk : k < 8) : ∃ f, getModuloFunc k = some f ∧ ∀ i j, f j i = maskBit k i j := by
  have : k = 0 ∨ k = 1 ∨ k = 2 ∨ k = 3 ∨ k = 4 ∨ k = 5 ∨ k = 6 ∨ k = 7 := by omega
  rcases this with rfl | rfl | rfl | rfl | rfl | rfl | rfl | rfl <;>
    refine ⟨_, rfl, fun i j => ?_⟩ <;> simp only [maskBit] <;>
    simp only [Nat.add_comm, Nat.mul_comm]

/-! ## Writing a list of cells -/

/-- Write the listed values. -/
def setPairs (m : Matrix) (l : List ((Int × Int) × QRValue)) : Matrix :=
  l.foldl (fun m p => m.set p.1.1 p.1.2 p.2) m

theorem setPairs_sq {m : Matrix} {d} (s : m.Sq d) (l) : (setPairs m l).Sq d := by
  unfold setPairs
  induction l generalizing m with
  | nil => exact s
  | cons p ps ih => exact ih (set_sq s _ _ _)

theorem at_setPairs_other {m : Matrix} {d} (s : m.Sq d) (l : List ((Int × Int) × QRValue)) (x y : Int)
    (h : (x, y) ∉ l.map Prod.fst) : (setPairs m l).at' x y = m.at' x y := by
  unfold setPairs
  induction l generalizing m with
  | nil => rfl
  | cons p ps ih =>
    simp only [List.map_cons, List.mem_cons, not_or] at h
    rw [List.foldl_cons, ih (set_sq s _ _ _) h.2, at_set s, if_neg]
    rintro ⟨h1, h2, _⟩
    exact h.1 (Prod.ext h1.symm h2.symm)

theorem at_setPairs_mem {m : Matrix} {d} (s : m.Sq d) (l : List ((Int × Int) × QRValue)) (x y : Int) (v)
    (hn : (l.map Prod.fst).Nodup) (hin : In d x y) (h : ((x, y), v) ∈ l) :
    (setPairs m l).at' x y = v := by
  unfold setPairs
  induction l generalizing m with
  | nil => simp at h
  | cons p ps ih =>
    simp only [List.map_cons, List.nodup_cons] at hn
    rw [List.foldl_cons]
    rcases List.mem_cons.1 h with rfl | h
    · have := at_setPairs_other (set_sq s x y v) ps x y hn.1
      unfold setPairs at this
      rw [this, at_set_in s _ _ _ _ _ hin]; simp
    · exact ih (set_sq s _ _ _) hn.2 h

/-! ## Format information -/

def fmtV (b : Bool) : QRValue := if b then FORMAT_V1 else FORMAT_V0
def verV (b : Bool) : QRValue := if b then VERSION_V1 else VERSION_V0

/-- The coordinates of the two writes in each round of `formatLoop`. -/
def fmtCoords (d : Int) : Nat → Int → Int → List (Int × Int)
  | 0, _, _ => []
  | n + 1, x, y => (x, y) :: fmtCoords d n
      (if x + 1 = 6 then 7 else if x + 1 = 8 then d - 8 else x + 1)
      (if y - 1 = d - 8 then 8 else if y - 1 = 6 then 5 else y - 1)

theorem formatLoop_eq (d : Int) (bits : Bits) (x y : Int) (m : Matrix) :
    formatLoop d bits x y m = setPairs m (((fmtCoords d bits.length x y).zip bits).flatMap
      fun (p, b) => [((p.1, 8), fmtV b), ((8, p.2), fmtV b)]) := by
  induction bits generalizing x y m with
  | nil => rfl
  | cons b bs ih =>
    rw [formatLoop, ih, List.length_cons, fmtCoords, List.zip_cons_cons, List.flatMap_cons]
    rfl

theorem fmt_step (d : Int) (n : Nat) (x y x' y' : Int)
    (hx : x' = if x + 1 = 6 then 7 else if x + 1 = 8 then d - 8 else x + 1)
    (hy : y' = if y - 1 = d - 8 then 8 else if y - 1 = 6 then 5 else y - 1) :
    fmtCoords d (n + 1) x y = (x, y) :: fmtCoords d n x' y' := by
  rw [fmtCoords, hx, hy]

theorem fmtCoords_eq (d : Int) (hd : 21 ≤ d) : fmtCoords d 15 0 (d - 1) =
    [(0, d - 1), (1, d - 2), (2, d - 3), (3, d - 4), (4, d - 5), (5, d - 6), (7, d - 7), (d - 8, 8), (d - 7, 7),
     (d - 6, 5), (d - 5, 4), (d - 4, 3), (d - 3, 2), (d - 2, 1), (d - 1, 0)] := by
  rw [fmt_step d 14 0 (d - 1) 1 (d - 2) (by split_ifs <;> omega) (by split_ifs <;> omega),
    fmt_step d 13 1 (d - 2) 2 (d - 3) (by split_ifs <;> omega) (by split_ifs <;> omega),
    fmt_step d 12 2 (d - 3) 3 (d - 4) (by split_ifs <;> omega) (by split_ifs <;> omega),
    fmt_step d 11 3 (d - 4) 4 (d - 5) (by split_ifs <;> omega) (by split_ifs <;> omega),
    fmt_step d 10 4 (d - 5) 5 (d - 6) (by split_ifs <;> omega) (by split_ifs <;> omega),
    fmt_step d 9 5 (d - 6) 7 (d - 7) (by split_ifs <;> omega) (by split_ifs <;> omega),
    fmt_step d 8 7 (d - 7) (d - 8) 8 (by split_ifs <;> omega) (by split_ifs <;> omega),
    fmt_step d 7 (d - 8) 8 (d - 7) 7 (by split_ifs <;> omega) (by split_ifs <;> omega),
    fmt_step d 6 (d - 7) 7 (d - 6) 5 (by split_ifs <;> omega) (by split_ifs <;> omega),
    fmt_step d 5 (d - 6) 5 (d - 5) 4 (by split_ifs <;> omega) (by split_ifs <;> omega),
    fmt_step d 4 (d - 5) 4 (d - 4) 3 (by split_ifs <;> omega) (by split_ifs <;> omega),
    fmt_step d 3 (d - 4) 3 (d - 3) 2 (by split_ifs <;> omega) (by split_ifs <;> omega),
    fmt_step d 2 (d - 3) 2 (d - 2) 1 (by split_ifs <;> omega) (by split_ifs <;> omega),
    fmt_step d 1 (d - 2) 1 (d - 1) 0 (by split_ifs <;> omega) (by split_ifs <;> omega),
    fmt_step d 0 (d - 1) 0 d (-1) (by split_ifs <;> omega) (by split_ifs <;> omega)]
  rfl

/-- Every list of 15 elements. -/
theorem list15 {α} (l : List α) (h : l.length = 15) : ∃ a b c d e f g h i j k m n o p,
    l = [a, b, c, d, e, f, g, h, i, j, k, m, n, o, p] := by
  match l, h with
  | [a, b, c, d, e, f, g, h, i, j, k, m, n, o, p], _ => exact ⟨a, b, c, d, e, f, g, h, i, j, k, m, n, o, p, rfl⟩

theorem range_bitAt (bits : Bits) : (List.range bits.length).map (bitAt bits) = bits := by
  apply List.ext_getElem
  · simp
  · intro i h1 h2
    simp only [List.getElem_map, List.getElem_range, bitAt, List.getD_eq_getElem?_getD]
    rw [List.getElem?_eq_getElem h2]; rfl

theorem fillFormat_spec {m : Matrix} {v : Nat} (hv : 1 ≤ v) (s : m.Sq (side v)) (bits : Bits) (hb : bits.length = 15) :
    (fillFormatInfo m bits (side v)).Sq (side v) ∧
    (formatCells1.map (fun p => (fillFormatInfo m bits (side v)).at' p.2 p.1)) = bits.map fmtV ∧
    ((formatCells2 v).map (fun p => (fillFormatInfo m bits (side v)).at' p.2 p.1)) = bits.map fmtV ∧
    (∀ i j : Nat, (i, j) ∉ formatCells1 → (i, j) ∉ formatCells2 v →
      (fillFormatInfo m bits (side v)).at' j i = m.at' j i) := by
  have hd : (21 : Int) ≤ (side v : Int) := by unfold side; omega
  have hd' : 21 ≤ side v := by unfold side; omega
  unfold fillFormatInfo
  have hr : (List.range 15).map (bitAt bits) = bits := by
    have := range_bitAt bits
    rwa [hb] at this
  rw [hr, formatLoop_eq, hb, fmtCoords_eq _ hd]
  obtain ⟨b0, b1, b2, b3, b4, b5, b6, b7, b8, b9, b10, b11, b12, b13, b14, rfl⟩ := list15 bits hb
  simp only [List.zip_cons_cons, List.zip_nil_right, List.flatMap_cons, List.flatMap_nil, List.cons_append,
    List.nil_append, List.append_nil]
  generalize hL : ([((0, 8), fmtV b0), _, _, _, _, _, _, _, _, _, _, _, _, _, _, _, _, _, _, _, _, _, _, _, _, _, _, _, _, _] :
    List ((Int × Int) × QRValue)) = L
  have hn : (L.map Prod.fst).Nodup := by
    rw [← hL]
    simp only [List.map_cons, List.map_nil, List.nodup_cons, List.mem_cons, List.not_mem_nil, or_false,
      Prod.mk.injEq, not_false_eq_true, List.nodup_nil, and_true]
    refine ⟨?_, ?_, ?_, ?_, ?_, ?_, ?_, ?_, ?_, ?_, ?_, ?_, ?_, ?_, ?_, ?_, ?_, ?_, ?_, ?_, ?_, ?_, ?_, ?_, ?_, ?_, ?_, ?_, ?_⟩ <;> omega
  refine ⟨setPairs_sq s L, ?_, ?_, ?_⟩
  · simp only [formatCells1, List.map_cons, List.map_nil, List.cons.injEq, and_true]
    refine ⟨?_, ?_, ?_, ?_, ?_, ?_, ?_, ?_, ?_, ?_, ?_, ?_, ?_, ?_, ?_⟩ <;>
      (apply at_setPairs_mem s L _ _ _ hn (by omega); rw [← hL]; simp)
  · have e : ∀ k : Nat, k ≤ 8 → ((side v - k : Nat) : Int) = (side v : Int) - k := by intro k hk; omega
    simp only [formatCells2, List.map_cons, List.map_nil, List.cons.injEq, and_true]
    rw [e 1 (by omega), e 2 (by omega), e 3 (by omega), e 4 (by omega), e 5 (by omega), e 6 (by omega), e 7 (by omega),
      e 8 (by omega)]
    refine ⟨?_, ?_, ?_, ?_, ?_, ?_, ?_, ?_, ?_, ?_, ?_, ?_, ?_, ?_, ?_⟩ <;>
      (apply at_setPairs_mem s L _ _ _ hn (by omega); rw [← hL]; simp)
  · intro i j h1 h2
    apply at_setPairs_other s
    rw [← hL]
    simp only [List.map_cons, List.map_nil, List.mem_cons, List.not_mem_nil, or_false, Prod.mk.injEq]
    rintro (⟨ha, hb⟩ | ⟨ha, hb⟩ | ⟨ha, hb⟩ | ⟨ha, hb⟩ | ⟨ha, hb⟩ | ⟨ha, hb⟩ | ⟨ha, hb⟩ | ⟨ha, hb⟩ | ⟨ha, hb⟩ | ⟨ha, hb⟩ | ⟨ha, hb⟩ | ⟨ha, hb⟩ | ⟨ha, hb⟩ | ⟨ha, hb⟩ | ⟨ha, hb⟩ | ⟨ha, hb⟩ | ⟨ha, hb⟩ | ⟨ha, hb⟩ | ⟨ha, hb⟩ | ⟨ha, hb⟩ | ⟨ha, hb⟩ | ⟨ha, hb⟩ | ⟨ha, hb⟩ | ⟨ha, hb⟩ | ⟨ha, hb⟩ | ⟨ha, hb⟩ | ⟨ha, hb⟩ | ⟨ha, hb⟩ | ⟨ha, hb⟩ | ⟨ha, hb⟩)
    · obtain rfl : j = 0 := by omega
      obtain rfl : i = 8 := by omega
      exact h1 (by simp [formatCells1])
    · obtain rfl : j = 8 := by omega
      obtain rfl : i = side v - 1 := by omega
      exact h2 (by simp [formatCells2])
    · obtain rfl : j = 1 := by omega
      obtain rfl : i = 8 := by omega
      exact h1 (by simp [formatCells1])
    · obtain rfl : j = 8 := by omega
      obtain rfl : i = side v - 2 := by omega
      exact h2 (by simp [formatCells2])
    · obtain rfl : j = 2 := by omega
      obtain rfl : i = 8 := by omega
      exact h1 (by simp [formatCells1])
    · obtain rfl : j = 8 := by omega
      obtain rfl : i = side v - 3 := by omega
      exact h2 (by simp [formatCells2])
    · obtain rfl : j = 3 := by omega
      obtain rfl : i = 8 := by omega
      exact h1 (by simp [formatCells1])
    · obtain rfl : j = 8 := by omega
      obtain rfl : i = side v - 4 := by omega
      exact h2 (by simp [formatCells2])
    · obtain rfl : j = 4 := by omega
      obtain rfl : i = 8 := by omega
      exact h1 (by simp [formatCells1])
    · obtain rfl : j = 8 := by omega
      obtain rfl : i = side v - 5 := by omega
      exact h2 (by simp [formatCells2])
    · obtain rfl : j = 5 := by omega
      obtain rfl : i = 8 := by omega
      exact h1 (by simp [formatCells1])
    · obtain rfl : j = 8 := by omega
      obtain rfl : i = side v - 6 := by omega
      exact h2 (by simp [formatCells2])
    · obtain rfl : j = 7 := by omega
      obtain rfl : i = 8 := by omega
      exact h1 (by simp [formatCells1])
    · obtain rfl : j = 8 := by omega
      obtain rfl : i = side v - 7 := by omega
      exact h2 (by simp [formatCells2])
    · obtain rfl : j = side v - 8 := by omega
      obtain rfl : i = 8 := by omega
      exact h2 (by simp [formatCells2])
    · obtain rfl : j = 8 := by omega
      obtain rfl : i = 8 := by omega
      exact h1 (by simp [formatCells1])
    · obtain rfl : j = side v - 7 := by omega
      obtain rfl : i = 8 := by omega
      exact h2 (by simp [formatCells2])
    · obtain rfl : j = 8 := by omega
      obtain rfl : i = 7 := by omega
      exact h1 (by simp [formatCells1])
    · obtain rfl : j = side v - 6 := by omega
      obtain rfl : i = 8 := by omega
      exact h2 (by simp [formatCells2])
    · obtain rfl : j = 8 := by omega
      obtain rfl : i = 5 := by omega
      exact h1 (by simp [formatCells1])
    · obtain rfl : j = side v - 5 := by omega
      obtain rfl : i = 8 := by omega
      exact h2 (by simp [formatCells2])
    · obtain rfl : j = 8 := by omega
      obtain rfl : i = 4 := by omega
      exact h1 (by simp [formatCells1])
    · obtain rfl : j = side v - 4 := by omega
      obtain rfl : i = 8 := by omega
      exact h2 (by simp [formatCells2])
    · obtain rfl : j = 8 := by omega
      obtain rfl : i = 3 := by omega
      exact h1 (by simp [formatCells1])
    · obtain rfl : j = side v - 3 := by omega
      obtain rfl : i = 8 := by omega
      exact h2 (by simp [formatCells2])
    · obtain rfl : j = 8 := by omega
      obtain rfl : i = 2 := by omega
      exact h1 (by simp [formatCells1])
    · obtain rfl : j = side v - 2 := by omega
      obtain rfl : i = 8 := by omega
      exact h2 (by simp [formatCells2])
    · obtain rfl : j = 8 := by omega
      obtain rfl : i = 1 := by omega
      exact h1 (by simp [formatCells1])
    · obtain rfl : j = side v - 1 := by omega
      obtain rfl : i = 8 := by omega
      exact h2 (by simp [formatCells2])
    · obtain rfl : j = 8 := by omega
      obtain rfl : i = 0 := by omega
      exact h1 (by simp [formatCells1])

end QR
