import Verif.Proof.FillSpec
/-!
# The number of data modules of every version

The standard's geometry (`Spec.isFunction`) is evaluated by the kernel for the 40 versions (the domain is
exactly these 40 versions, so this is a complete proof, not a sample).  To make it fast, rows and columns are
grouped into runs on which `isFunction` does not change; that grouping is proved, not assumed.
-/
namespace QR
open Spec

/-- Everything `isFunction` asks about one coordinate. -/
def key (n : Nat) (A : List Nat) (i : Nat) : (Bool × Bool × Bool × Bool) × (Bool × Bool × Bool × Bool) × Option Nat :=
  ((decide (i ≤ 7), i == 6, i == 8, decide (i ≤ 8)),
   (decide (n - 8 ≤ i), decide (i < 6), decide (n - 11 ≤ i), decide (i < n - 8)),
   A.find? (fun a => decide (dist i a ≤ 2)))

theorem isFunction_congr {v i i' j j' : Nat} (h : key (side v) (alignCoords v) i = key (side v) (alignCoords v) i')
    (h' : key (side v) (alignCoords v) j = key (side v) (alignCoords v) j') :
    isFunction v i j = isFunction v i' j' := by
  simp only [key, Prod.mk.injEq] at h h'
  obtain ⟨⟨a1, a2, a3, a4⟩, ⟨a5, a6, a7, a8⟩, a9⟩ := h
  obtain ⟨⟨b1, b2, b3, b4⟩, ⟨b5, b6, b7, b8⟩, b9⟩ := h'
  unfold isFunction inFinderArea inFormatArea inVersionArea alignAt
  simp only [a1, a2, a3, a4, a5, a6, a7, a8, a9, b1, b2, b3, b4, b5, b6, b7, b8, b9]

/-- version, side, alignment coordinates, number of data modules, runs (start, length) -/
def geoTable : List (Nat × Nat × List Nat × Nat × List (Nat × Nat)) := [
  (1, 21, [], 208, [(0, 6), (6, 1), (7, 1), (8, 1), (9, 1), (10, 3), (13, 8)]),
  (2, 25, [6, 18], 359, [(0, 4), (4, 2), (6, 1), (7, 1), (8, 1), (9, 5), (14, 2), (16, 1), (17, 4), (21, 4)]),
  (3, 29, [6, 22], 567, [(0, 4), (4, 2), (6, 1), (7, 1), (8, 1), (9, 9), (18, 2), (20, 1), (21, 4), (25, 4)]),
  (4, 33, [6, 26], 807, [(0, 4), (4, 2), (6, 1), (7, 1), (8, 1), (9, 13), (22, 2), (24, 1), (25, 4), (29, 4)]),
  (5, 37, [6, 30], 1079, [(0, 4), (4, 2), (6, 1), (7, 1), (8, 1), (9, 17), (26, 2), (28, 1), (29, 4), (33, 4)]),
  (6, 41, [6, 34], 1383, [(0, 4), (4, 2), (6, 1), (7, 1), (8, 1), (9, 21), (30, 2), (32, 1), (33, 4), (37, 4)]),
  (7, 45, [6, 22, 38], 1568, [(0, 4), (4, 2), (6, 1), (7, 1), (8, 1), (9, 11), (20, 5), (25, 9), (34, 2), (36, 1), (37, 4), (41, 4)]),
  (8, 49, [6, 24, 42], 1936, [(0, 4), (4, 2), (6, 1), (7, 1), (8, 1), (9, 13), (22, 5), (27, 11), (38, 2), (40, 1), (41, 4), (45, 4)]),
  (9, 53, [6, 26, 46], 2336, [(0, 4), (4, 2), (6, 1), (7, 1), (8, 1), (9, 15), (24, 5), (29, 13), (42, 2), (44, 1), (45, 4), (49, 4)]),
  (10, 57, [6, 28, 50], 2768, [(0, 4), (4, 2), (6, 1), (7, 1), (8, 1), (9, 17), (26, 5), (31, 15), (46, 2), (48, 1), (49, 4), (53, 4)]),
  (11, 61, [6, 30, 54], 3232, [(0, 4), (4, 2), (6, 1), (7, 1), (8, 1), (9, 19), (28, 5), (33, 17), (50, 2), (52, 1), (53, 4), (57, 4)]),
  (12, 65, [6, 32, 58], 3728, [(0, 4), (4, 2), (6, 1), (7, 1), (8, 1), (9, 21), (30, 5), (35, 19), (54, 2), (56, 1), (57, 4), (61, 4)]),
  (13, 69, [6, 34, 62], 4256, [(0, 4), (4, 2), (6, 1), (7, 1), (8, 1), (9, 23), (32, 5), (37, 21), (58, 2), (60, 1), (61, 4), (65, 4)]),
  (14, 73, [6, 26, 46, 66], 4651, [(0, 4), (4, 2), (6, 1), (7, 1), (8, 1), (9, 15), (24, 5), (29, 15), (44, 5), (49, 13), (62, 2), (64, 1), (65, 4), (69, 4)]),
  (15, 77, [6, 26, 48, 70], 5243, [(0, 4), (4, 2), (6, 1), (7, 1), (8, 1), (9, 15), (24, 5), (29, 17), (46, 5), (51, 15), (66, 2), (68, 1), (69, 4), (73, 4)]),
  (16, 81, [6, 26, 50, 74], 5867, [(0, 4), (4, 2), (6, 1), (7, 1), (8, 1), (9, 15), (24, 5), (29, 19), (48, 5), (53, 17), (70, 2), (72, 1), (73, 4), (77, 4)]),
  (17, 85, [6, 30, 54, 78], 6523, [(0, 4), (4, 2), (6, 1), (7, 1), (8, 1), (9, 19), (28, 5), (33, 19), (52, 5), (57, 17), (74, 2), (76, 1), (77, 4), (81, 4)]),
  (18, 89, [6, 30, 56, 82], 7211, [(0, 4), (4, 2), (6, 1), (7, 1), (8, 1), (9, 19), (28, 5), (33, 21), (54, 5), (59, 19), (78, 2), (80, 1), (81, 4), (85, 4)]),
  (19, 93, [6, 30, 58, 86], 7931, [(0, 4), (4, 2), (6, 1), (7, 1), (8, 1), (9, 19), (28, 5), (33, 23), (56, 5), (61, 21), (82, 2), (84, 1), (85, 4), (89, 4)]),
  (20, 97, [6, 34, 62, 90], 8683, [(0, 4), (4, 2), (6, 1), (7, 1), (8, 1), (9, 23), (32, 5), (37, 23), (60, 5), (65, 21), (86, 2), (88, 1), (89, 4), (93, 4)]),
  (21, 101, [6, 28, 50, 72, 94], 9252, [(0, 4), (4, 2), (6, 1), (7, 1), (8, 1), (9, 17), (26, 5), (31, 17), (48, 5), (53, 17), (70, 5), (75, 15), (90, 2), (92, 1), (93, 4), (97, 4)]),
  (22, 105, [6, 26, 50, 74, 98], 10068, [(0, 4), (4, 2), (6, 1), (7, 1), (8, 1), (9, 15), (24, 5), (29, 19), (48, 5), (53, 19), (72, 5), (77, 17), (94, 2), (96, 1), (97, 4), (101, 4)]),
  (23, 109, [6, 30, 54, 78, 102], 10916, [(0, 4), (4, 2), (6, 1), (7, 1), (8, 1), (9, 19), (28, 5), (33, 19), (52, 5), (57, 19), (76, 5), (81, 17), (98, 2), (100, 1), (101, 4), (105, 4)]),
  (24, 113, [6, 28, 54, 80, 106], 11796, [(0, 4), (4, 2), (6, 1), (7, 1), (8, 1), (9, 17), (26, 5), (31, 21), (52, 5), (57, 21), (78, 5), (83, 19), (102, 2), (104, 1), (105, 4), (109, 4)]),
  (25, 117, [6, 32, 58, 84, 110], 12708, [(0, 4), (4, 2), (6, 1), (7, 1), (8, 1), (9, 21), (30, 5), (35, 21), (56, 5), (61, 21), (82, 5), (87, 19), (106, 2), (108, 1), (109, 4), (113, 4)]),
  (26, 121, [6, 30, 58, 86, 114], 13652, [(0, 4), (4, 2), (6, 1), (7, 1), (8, 1), (9, 19), (28, 5), (33, 23), (56, 5), (61, 23), (84, 5), (89, 21), (110, 2), (112, 1), (113, 4), (117, 4)]),
  (27, 125, [6, 34, 62, 90, 118], 14628, [(0, 4), (4, 2), (6, 1), (7, 1), (8, 1), (9, 23), (32, 5), (37, 23), (60, 5), (65, 23), (88, 5), (93, 21), (114, 2), (116, 1), (117, 4), (121, 4)]),
  (28, 129, [6, 26, 50, 74, 98, 122], 15371, [(0, 4), (4, 2), (6, 1), (7, 1), (8, 1), (9, 15), (24, 5), (29, 19), (48, 5), (53, 19), (72, 5), (77, 19), (96, 5), (101, 17), (118, 2), (120, 1), (121, 4), (125, 4)]),
  (29, 133, [6, 30, 54, 78, 102, 126], 16411, [(0, 4), (4, 2), (6, 1), (7, 1), (8, 1), (9, 19), (28, 5), (33, 19), (52, 5), (57, 19), (76, 5), (81, 19), (100, 5), (105, 17), (122, 2), (124, 1), (125, 4), (129, 4)]),
  (30, 137, [6, 26, 52, 78, 104, 130], 17483, [(0, 4), (4, 2), (6, 1), (7, 1), (8, 1), (9, 15), (24, 5), (29, 21), (50, 5), (55, 21), (76, 5), (81, 21), (102, 5), (107, 19), (126, 2), (128, 1), (129, 4), (133, 4)]),
  (31, 141, [6, 30, 56, 82, 108, 134], 18587, [(0, 4), (4, 2), (6, 1), (7, 1), (8, 1), (9, 19), (28, 5), (33, 21), (54, 5), (59, 21), (80, 5), (85, 21), (106, 5), (111, 19), (130, 2), (132, 1), (133, 4), (137, 4)]),
  (32, 145, [6, 34, 60, 86, 112, 138], 19723, [(0, 4), (4, 2), (6, 1), (7, 1), (8, 1), (9, 23), (32, 5), (37, 21), (58, 5), (63, 21), (84, 5), (89, 21), (110, 5), (115, 19), (134, 2), (136, 1), (137, 4), (141, 4)]),
  (33, 149, [6, 30, 58, 86, 114, 142], 20891, [(0, 4), (4, 2), (6, 1), (7, 1), (8, 1), (9, 19), (28, 5), (33, 23), (56, 5), (61, 23), (84, 5), (89, 23), (112, 5), (117, 21), (138, 2), (140, 1), (141, 4), (145, 4)]),
  (34, 153, [6, 34, 62, 90, 118, 146], 22091, [(0, 4), (4, 2), (6, 1), (7, 1), (8, 1), (9, 23), (32, 5), (37, 23), (60, 5), (65, 23), (88, 5), (93, 23), (116, 5), (121, 21), (142, 2), (144, 1), (145, 4), (149, 4)]),
  (35, 157, [6, 30, 54, 78, 102, 126, 150], 23008, [(0, 4), (4, 2), (6, 1), (7, 1), (8, 1), (9, 19), (28, 5), (33, 19), (52, 5), (57, 19), (76, 5), (81, 19), (100, 5), (105, 19), (124, 5), (129, 17), (146, 2), (148, 1), (149, 4), (153, 4)]),
  (36, 161, [6, 24, 50, 76, 102, 128, 154], 24272, [(0, 4), (4, 2), (6, 1), (7, 1), (8, 1), (9, 13), (22, 5), (27, 21), (48, 5), (53, 21), (74, 5), (79, 21), (100, 5), (105, 21), (126, 5), (131, 19), (150, 2), (152, 1), (153, 4), (157, 4)]),
  (37, 165, [6, 28, 54, 80, 106, 132, 158], 25568, [(0, 4), (4, 2), (6, 1), (7, 1), (8, 1), (9, 17), (26, 5), (31, 21), (52, 5), (57, 21), (78, 5), (83, 21), (104, 5), (109, 21), (130, 5), (135, 19), (154, 2), (156, 1), (157, 4), (161, 4)]),
  (38, 169, [6, 32, 58, 84, 110, 136, 162], 26896, [(0, 4), (4, 2), (6, 1), (7, 1), (8, 1), (9, 21), (30, 5), (35, 21), (56, 5), (61, 21), (82, 5), (87, 21), (108, 5), (113, 21), (134, 5), (139, 19), (158, 2), (160, 1), (161, 4), (165, 4)]),
  (39, 173, [6, 26, 54, 82, 110, 138, 166], 28256, [(0, 4), (4, 2), (6, 1), (7, 1), (8, 1), (9, 15), (24, 5), (29, 23), (52, 5), (57, 23), (80, 5), (85, 23), (108, 5), (113, 23), (136, 5), (141, 21), (162, 2), (164, 1), (165, 4), (169, 4)]),
  (40, 177, [6, 30, 58, 86, 114, 142, 170], 29648, [(0, 4), (4, 2), (6, 1), (7, 1), (8, 1), (9, 19), (28, 5), (33, 23), (56, 5), (61, 23), (84, 5), (89, 23), (112, 5), (117, 23), (140, 5), (145, 21), (166, 2), (168, 1), (169, 4), (173, 4)])]

/-- Weight of a cell. -/
def w (v i j : Nat) : Nat := if isFunction v i j then 0 else 1

theorem geoTable_ok : ∀ r ∈ geoTable, r.2.1 = side r.1 ∧ r.2.2.1 = alignCoords r.1 ∧ r.2.2.2.1 = rawModules r.1 ∧
    r.2.2.2.2.flatMap (fun p => List.range' p.1 p.2) = List.range r.2.1 := by
  decide +kernel

theorem geoTable_key : ∀ r ∈ geoTable, ∀ p ∈ r.2.2.2.2, ∀ i ∈ List.range' p.1 p.2,
    key r.2.1 r.2.2.1 i = key r.2.1 r.2.2.1 p.1 := by
  decide +kernel

theorem geoTable_count : ∀ r ∈ geoTable,
    (r.2.2.2.2.map fun p => p.2 * (r.2.2.2.2.map fun q => q.2 * w r.1 q.1 p.1).sum).sum = r.2.2.2.1 := by
  decide +kernel

theorem geoTable_mem {v : Nat} (h1 : 1 ≤ v) (h40 : v ≤ 40) : v ∈ geoTable.map Prod.fst := by
  have : geoTable.map Prod.fst = (List.range 40).map (· + 1) := by decide +kernel
  rw [this, List.mem_map]
  exact ⟨v - 1, by simp; omega, by omega⟩

theorem sum_const (l : List Nat) (f : Nat → Nat) (c : Nat) (h : ∀ i ∈ l, f i = c) :
    (l.map f).sum = l.length * c := by
  induction l with
  | nil => simp
  | cons a l ih =>
    rw [List.map_cons, List.sum_cons, h a (by simp), ih (fun i hi => h i (by simp [hi])), List.length_cons]
    ring

theorem sum_runs (runs : List (Nat × Nat)) (n : Nat) (f : Nat → Nat)
    (hr : runs.flatMap (fun p => List.range' p.1 p.2) = List.range n)
    (hc : ∀ p ∈ runs, ∀ i ∈ List.range' p.1 p.2, f i = f p.1) :
    ((List.range n).map f).sum = (runs.map fun p => p.2 * f p.1).sum := by
  rw [← hr]
  clear hr
  induction runs with
  | nil => rfl
  | cons p runs ih =>
    rw [List.flatMap_cons, List.map_append, List.sum_append, List.map_cons, List.sum_cons,
      ih (fun q hq => hc q (by simp [hq])), sum_const _ f (f p.1) (hc p (by simp)), List.length_range']

theorem total_count {v : Nat} (h1 : 1 ≤ v) (h40 : v ≤ 40) :
    ((List.range (side v)).map fun j => ((List.range (side v)).map fun i => w v i j).sum).sum = rawModules v := by
  obtain ⟨⟨v', n, A, r, runs⟩, hm, rfl⟩ := List.mem_map.1 (geoTable_mem h1 h40)
  have ho := geoTable_ok _ hm
  have hk := geoTable_key _ hm
  have hcnt := geoTable_count _ hm
  simp only at ho hk hcnt
  obtain ⟨rfl, rfl, rfl, hr⟩ := ho
  rw [← hcnt]
  rw [sum_runs runs (side v') _ hr]
  · congr 1
    apply List.map_congr_left
    intro p hp
    congr 1
    rw [sum_runs runs (side v') _ hr]
    intro q hq i hi
    unfold w
    rw [isFunction_congr (hk q hq i hi) rfl]
  · intro p hp j hj
    congr 1
    apply List.map_congr_left
    intro i _
    unfold w
    rw [isFunction_congr rfl (hk p hp j hj)]

theorem sum_pairs (f : Nat → Nat) (base : Nat) : ∀ m : Nat,
    ((List.range m).map fun k => f (base + 2 * m - 1 - 2 * k) + f (base + 2 * m - 1 - 2 * k - 1)).sum =
      ((List.range' base (2 * m)).map f).sum := by
  intro m
  induction m with
  | zero => rfl
  | succ m ih =>
    rw [List.range_succ_eq_map, List.map_cons, List.sum_cons, List.map_map]
    have e : ((fun k => f (base + 2 * (m + 1) - 1 - 2 * k) + f (base + 2 * (m + 1) - 1 - 2 * k - 1)) ∘ Nat.succ) =
        fun k => f (base + 2 * m - 1 - 2 * k) + f (base + 2 * m - 1 - 2 * k - 1) := by
      funext k
      simp only [Function.comp, Nat.succ_eq_add_one]
      rw [show base + 2 * (m + 1) - 1 - 2 * (k + 1) = base + 2 * m - 1 - 2 * k by omega]
    rw [e, ih, show 2 * (m + 1) = 2 * m + 1 + 1 by omega, List.range'_concat, List.range'_concat]
    simp only [List.map_append, List.sum_append, List.map_cons, List.map_nil, List.sum_cons, List.sum_nil]
    rw [show base + (2 * m + 1 + 1) - 1 - 2 * 0 = base + 2 * m + 1 by omega]
    rw [show base + 2 * m + 1 - 1 = base + 1 * (2 * m) by omega,
      show base + 2 * m + 1 = base + 1 * (2 * m + 1) by omega]
    omega

theorem sum_columns (v : Nat) (f : Nat → Nat) (h6 : f 6 = 0) :
    ((rightColumns v).map fun c => f c + f (c - 1)).sum = ((List.range (side v)).map f).sum := by
  unfold rightColumns
  have hn : (side v - 7) / 2 = 2 * v + 5 := by unfold side; omega
  rw [hn, List.map_append, List.sum_append, List.map_map]
  have := sum_pairs f 7 (2 * v + 5)
  have e : ((fun c => f c + f (c - 1)) ∘ fun k => side v - 1 - 2 * k) =
      fun k => f (7 + 2 * (2 * v + 5) - 1 - 2 * k) + f (7 + 2 * (2 * v + 5) - 1 - 2 * k - 1) := by
    funext k
    have : side v = 7 + 2 * (2 * v + 5) := by unfold side; omega
    simp only [Function.comp, this]
  rw [e, this]
  have hr : List.range (side v) = List.range' 0 7 ++ List.range' 7 (2 * (2 * v + 5)) := by
    have : side v = 7 + 2 * (2 * v + 5) := by unfold side; omega
    rw [this, List.range_eq_range', ← List.range'_append_1]
  rw [hr, List.map_append, List.sum_append]
  simp [List.range', h6]
  omega

theorem dataModules_length {v : Nat} (h1 : 1 ≤ v) (h40 : v ≤ 40) : (dataModules v).length = rawModules v := by
  rw [← total_count h1 h40]
  rw [← sum_columns v (fun j => ((List.range (side v)).map fun i => w v i j).sum)]
  · unfold dataModules zigzag
    rw [← List.countP_eq_length_filter, List.countP_flatMap]
    have e : ∀ (l : List Nat) (k : Nat), ((l.zipIdx k).map ((List.countP fun p : Nat × Nat => !isFunction v p.1 p.2) ∘
        fun (p : Nat × Nat) => (if p.2 % 2 = 0 then (List.range (side v)).reverse else List.range (side v)).flatMap
          fun i => [(i, p.1), (i, p.1 - 1)])) = l.map fun c =>
            ((List.range (side v)).map fun i => w v i c).sum + ((List.range (side v)).map fun i => w v i (c - 1)).sum := by
      intro l
      induction l with
      | nil => intro k; rfl
      | cons c l ih =>
        intro k
        rw [List.zipIdx_cons, List.map_cons, ih, List.map_cons]
        congr 1
        have hcol : ∀ l : List Nat, (l.flatMap fun i => [(i, c), (i, c - 1)]).countP (fun p => !isFunction v p.1 p.2) =
            (l.map fun i => w v i c).sum + (l.map fun i => w v i (c - 1)).sum := by
          intro l
          induction l with
          | nil => rfl
          | cons a l ih =>
            rw [List.flatMap_cons, List.countP_append, ih]
            simp only [List.map_cons, List.sum_cons, List.countP_cons, List.countP_nil, w]
            cases h1 : isFunction v a c <;> cases h2 : isFunction v a (c - 1) <;> simp <;> omega
        simp only [Function.comp, hcol]
        split
        · rw [List.map_reverse, List.map_reverse, List.sum_reverse, List.sum_reverse]
        · rfl
    have := e (rightColumns v) 0
    exact congrArg List.sum this
  · simp [w, isFunction]

end QR
