import Verif.Model.Imgkit
import Verif.Props.Compressed
import Verif.Props.Files
/-!
# C64, C65: image helpers
-/
namespace QR.Imgkit
open QR Standard
open QR.Compressed (intRange mem_intRange)

theorem set_bounds (g : GrayImg) (x y : Int) (v : UInt8) : (g.set x y v).minX = g.minX ∧ (g.set x y v).minY = g.minY ∧
    (g.set x y v).maxX = g.maxX ∧ (g.set x y v).maxY = g.maxY := by
  unfold GrayImg.set; split <;> exact ⟨rfl, rfl, rfl, rfl⟩

theorem set_inside (g : GrayImg) (x y : Int) (v : UInt8) (a b : Int) : (g.set x y v).inside a b = g.inside a b := by
  obtain ⟨h1, h2, h3, h4⟩ := set_bounds g x y v
  unfold GrayImg.inside; rw [h1, h2, h3, h4]

theorem set_at (g : GrayImg) (x y : Int) (v : UInt8) (a b : Int) :
    (g.set x y v).at a b = if (a = x ∧ b = y) ∧ g.inside x y = true then v else g.at a b := by
  unfold GrayImg.at
  rw [set_inside]
  unfold GrayImg.set
  by_cases hi : g.inside x y = true
  · by_cases h : a = x ∧ b = y
    · obtain ⟨rfl, rfl⟩ := h
      simp [hi]
    · simp [hi, h]
  · by_cases h : a = x ∧ b = y
    · obtain ⟨rfl, rfl⟩ := h
      simp [hi]
    · simp [hi, h]

/-- A loop that sets every point of a list once, to a function of its old value. -/
theorem fold_set (val : Int → Int → UInt8 → UInt8) : ∀ (l : List (Int × Int)) (g : GrayImg), l.Nodup →
    let r := l.foldl (fun g p => g.set p.1 p.2 (val p.1 p.2 (g.at p.1 p.2))) g
    (r.minX = g.minX ∧ r.minY = g.minY ∧ r.maxX = g.maxX ∧ r.maxY = g.maxY) ∧
    ∀ a b, r.at a b = if (a, b) ∈ l ∧ g.inside a b = true then val a b (g.at a b) else g.at a b
  | [], g, _ => ⟨⟨rfl, rfl, rfl, rfl⟩, fun a b => by simp⟩
  | p :: l, g, hn => by
    rw [List.nodup_cons] at hn
    obtain ⟨hb, hv⟩ := fold_set val l (g.set p.1 p.2 (val p.1 p.2 (g.at p.1 p.2))) hn.2
    simp only [List.foldl_cons]
    obtain ⟨e1, e2, e3, e4⟩ := set_bounds g p.1 p.2 (val p.1 p.2 (g.at p.1 p.2))
    refine ⟨by rw [← e1, ← e2, ← e3, ← e4]; exact hb, fun a b => ?_⟩
    rw [hv a b, set_inside, set_at]
    by_cases hin : g.inside a b = true
    · by_cases h : a = p.1 ∧ b = p.2
      · obtain ⟨rfl, rfl⟩ := h
        rw [if_neg (fun hh => hn.1 hh.1), if_pos ⟨⟨rfl, rfl⟩, hin⟩, if_pos ⟨List.mem_cons_self, hin⟩]
      · have hm : (a, b) ∈ p :: l ↔ (a, b) ∈ l := by
          rw [List.mem_cons]; constructor
          · rintro (e | e)
            · exact absurd ⟨congrArg Prod.fst e, congrArg Prod.snd e⟩ h
            · exact e
          · exact .inr
        simp only [hm, hin, and_true, h, false_and, if_false]
    · have : ¬((a = p.1 ∧ b = p.2) ∧ g.inside p.1 p.2 = true) := by
        rintro ⟨⟨rfl, rfl⟩, h⟩; exact hin h
      rw [if_neg (fun hh => hin hh.2), if_neg this, if_neg (fun hh => hin hh.2)]

/-- The points of the two loops. -/
def points (w h : Int) : List (Int × Int) := (intRange 0 h).flatMap fun i => (intRange 0 w).map fun j => (j, i)

theorem intRange_nodup (a b : Int) : (intRange a b).Nodup := by
  unfold intRange
  refine List.Pairwise.map _ ?_ List.nodup_range
  intro x y h e; apply h; omega

theorem points_nodup (w h : Int) : (points w h).Nodup := by
  unfold points
  rw [List.nodup_iff_pairwise_ne, List.pairwise_flatMap]
  refine ⟨fun i _ => ?_, ?_⟩
  · refine List.Pairwise.map _ ?_ (intRange_nodup 0 w)
    intro x y h e; exact h (congrArg Prod.fst e)
  · refine List.Pairwise.imp ?_ (intRange_nodup 0 h)
    intro i k hik p hp q hq e
    obtain ⟨_, _, rfl⟩ := List.mem_map.1 hp
    obtain ⟨_, _, rfl⟩ := List.mem_map.1 hq
    exact hik (congrArg Prod.snd e)

theorem mem_points {w h x y : Int} : (x, y) ∈ points w h ↔ 0 ≤ x ∧ x < w ∧ 0 ≤ y ∧ y < h := by
  unfold points
  simp only [List.mem_flatMap, List.mem_map, mem_intRange, Prod.mk.injEq]
  constructor
  · rintro ⟨i, hi, j, hj, rfl, rfl⟩; exact ⟨hj.1, hj.2, hi⟩
  · rintro ⟨a, b, c, d⟩; exact ⟨y, ⟨c, d⟩, x, ⟨a, b⟩, rfl, rfl⟩

theorem foldl_points {α : Type} (f : α → Int → Int → α) (w h : Int) (a : α) :
    (intRange 0 h).foldl (fun g i => (intRange 0 w).foldl (fun g j => f g j i) g) a = (points w h).foldl (fun g p => f g p.1 p.2) a := by
  unfold points
  rw [List.foldl_flatMap]
  congr 1
  funext g i
  rw [List.foldl_map]

theorem gray_spec (src : Image) : ((gray src).minX = src.minX ∧ (gray src).minY = src.minY ∧ (gray src).maxX = src.maxX ∧ (gray src).maxY = src.maxY) ∧
    ∀ x y, (gray src).at x y = if (0 ≤ x ∧ x < src.maxX - src.minX ∧ 0 ≤ y ∧ y < src.maxY - src.minY) ∧ (newGray src).inside x y = true
      then grayValue (src.chan x y) else 0 := by
  unfold gray
  rw [foldl_points (fun g j i => GrayImg.set g j i (grayValue (src.chan j i)))]
  obtain ⟨h1, h2⟩ := fold_set (fun j i _ => grayValue (src.chan j i)) _ (newGray src) (points_nodup (src.maxX - src.minX) (src.maxY - src.minY))
  refine ⟨h1, fun x y => ?_⟩
  rw [h2 x y]
  have : (newGray src).at x y = 0 := by unfold GrayImg.at newGray; simp
  simp only [this, mem_points]

theorem binaryzation_spec (src : Image) (t : UInt8) : ((binaryzation src t).minX = src.minX ∧ (binaryzation src t).minY = src.minY ∧
      (binaryzation src t).maxX = src.maxX ∧ (binaryzation src t).maxY = src.maxY) ∧
    ∀ x y, (binaryzation src t).at x y = if (0 ≤ x ∧ x < src.maxX - src.minX ∧ 0 ≤ y ∧ y < src.maxY - src.minY) ∧ (newGray src).inside x y = true
      then (if grayValue (src.chan x y) > t then 255 else 0) else 0 := by
  unfold binaryzation
  rw [foldl_points (fun g j i => GrayImg.set g j i (if g.at j i > t then 255 else 0))]
  obtain ⟨h1, h2⟩ := fold_set (fun _ _ v => if v > t then 255 else 0) _ (gray src) (points_nodup (src.maxX - src.minX) (src.maxY - src.minY))
  obtain ⟨⟨e1, e2, e3, e4⟩, hg⟩ := gray_spec src
  refine ⟨⟨h1.1.trans e1, h1.2.1.trans e2, h1.2.2.1.trans e3, h1.2.2.2.trans e4⟩, fun x y => ?_⟩
  have hin : (gray src).inside x y = (newGray src).inside x y := by
    unfold GrayImg.inside; rw [e1, e2, e3, e4]; rfl
  rw [h2 x y, hin, hg x y]
  simp only [mem_points]
  split <;> rfl

/-- The points of an image. -/
def Within (src : Image) (x y : Int) : Prop := src.minX ≤ x ∧ x < src.maxX ∧ src.minY ≤ y ∧ y < src.maxY

theorem inside_iff (src : Image) (x y : Int) : (newGray src).inside x y = true ↔ Within src x y := by
  unfold GrayImg.inside newGray Within
  simp only [Bool.and_eq_true, decide_eq_true_eq]
  tauto

/-- **C64, the part that holds**: for images whose upper left point is (0, 0), `Gray` and `Binaryzation` keep the bounds, give every point its grey
value, and the points white or black by whether the grey value is above the threshold.  In general this is true of exactly those points that lie in
the square (0, 0) - (width, height), and all other points come out black. -/
theorem C64_partial (src : Image) (t : UInt8) :
    ((gray src).minX = src.minX ∧ (gray src).minY = src.minY ∧ (gray src).maxX = src.maxX ∧ (gray src).maxY = src.maxY) ∧
    ((binaryzation src t).minX = src.minX ∧ (binaryzation src t).minY = src.minY ∧ (binaryzation src t).maxX = src.maxX ∧
      (binaryzation src t).maxY = src.maxY) ∧
    (src.minX = 0 → src.minY = 0 → ∀ x y, Within src x y →
      (gray src).at x y = grayValue (src.chan x y) ∧ (binaryzation src t).at x y = if grayValue (src.chan x y) > t then 255 else 0) ∧
    (∀ x y, Within src x y →
      if 0 ≤ x ∧ x < src.maxX - src.minX ∧ 0 ≤ y ∧ y < src.maxY - src.minY then
        (gray src).at x y = grayValue (src.chan x y) ∧ (binaryzation src t).at x y = if grayValue (src.chan x y) > t then 255 else 0
      else (gray src).at x y = 0 ∧ (binaryzation src t).at x y = 0) := by
  obtain ⟨h1, g1⟩ := gray_spec src
  obtain ⟨h2, g2⟩ := binaryzation_spec src t
  refine ⟨h1, h2, ?_, ?_⟩
  · intro hx hy x y hw
    have hin := (inside_iff src x y).2 hw
    unfold Within at hw
    rw [g1, g2, if_pos ⟨⟨by omega, by omega, by omega, by omega⟩, hin⟩, if_pos ⟨⟨by omega, by omega, by omega, by omega⟩, hin⟩]
    exact ⟨rfl, rfl⟩
  · intro x y hw
    have hin := (inside_iff src x y).2 hw
    split
    · rename_i h; rw [g1, g2, if_pos ⟨h, hin⟩, if_pos ⟨h, hin⟩]; exact ⟨rfl, rfl⟩
    · rename_i h; rw [g1, g2, if_neg (fun hh => h hh.1), if_neg (fun hh => h hh.1)]; exact ⟨rfl, rfl⟩

/-- **C64 is false** for images that do not begin at (0, 0), such as a `SubImage`: this white point comes out black. -/
theorem C64_counterexample : ¬ ∀ (src : Image) (t : UInt8) (x y : Int), Within src x y →
    (gray src).at x y = grayValue (src.chan x y) := by
  intro h
  have := h ⟨5, 5, 6, 6, fun _ _ => (65535, 65535, 65535, 65535)⟩ 60 5 5 (by unfold Within; decide)
  revert this; decide +kernel

/-- White is 255, black is 0, and the grey value of a grey point is its value. -/
theorem C64_grey : ∀ y : UInt8, grayValue (UInt32.ofNat (y.toNat * 257), UInt32.ofNat (y.toNat * 257), UInt32.ofNat (y.toNat * 257), 65535) = y := by
  have h : ∀ n, n < 256 → grayValue (UInt32.ofNat (n * 257), UInt32.ofNat (n * 257), UInt32.ofNat (n * 257), 65535) = UInt8.ofNat n := by decide +kernel
  intro y
  rw [h y.toNat y.toNat_lt]
  exact UInt8.ofNat_toNat

/-- The halftone picture of the standard writer is made by this function: from the scaled image, which begins at (0, 0). -/
theorem C64_halftone (scale : Image → Nat → Int → Int → UInt32 × UInt32 × UInt32 × UInt32) (img : Image) (n : Nat) (transparent : Bool) (x y : Int) :
    halftoneColor scale img n transparent x y =
      if (binaryzation ⟨0, 0, n, n, scale img n⟩ 60).at x y = 255 then if transparent then ⟨0, 0, 0, 0⟩ else ⟨255, 255, 255, 255⟩ else ⟨0, 0, 0, 255⟩ := by
  obtain ⟨_, g2⟩ := binaryzation_spec ⟨0, 0, n, n, scale img n⟩ 60
  have hin := inside_iff ⟨0, 0, n, n, scale img n⟩ x y
  have hat : (binaryzation ⟨0, 0, n, n, scale img n⟩ 60).at x y =
      if 0 ≤ x ∧ x < (n : Int) ∧ 0 ≤ y ∧ y < (n : Int) then (if grayValue (scale img n x y) > 60 then 255 else 0) else 0 := by
    rw [g2 x y]
    refine if_congr ?_ rfl rfl
    rw [hin]
    unfold Within
    simp only
    constructor
    · rintro ⟨_, h⟩; exact h
    · intro h; exact ⟨by omega, h⟩
  rw [hat]
  unfold halftoneColor
  by_cases h : 0 ≤ x ∧ x < (n : Int) ∧ 0 ≤ y ∧ y < (n : Int)
  · rw [if_pos h, if_pos h]
    have hgt : grayValue (scale img n x y) > 60 ↔ grayOf (scale img n x y).1 (scale img n x y).2.1 (scale img n x y).2.2.1 % 256 > 60 := by
      unfold grayValue
      rw [gt_iff_lt, UInt8.lt_iff_toNat_lt, UInt8.toNat_ofNat']
      rfl
    by_cases h60 : grayValue (scale img n x y) > 60
    · rw [if_pos h60]
      simp only [hgt.1 h60, if_true]
    · rw [if_neg h60]
      have h61 : ¬ grayOf (scale img n x y).1 (scale img n x y).2.1 (scale img n x y).2.2.1 % 256 > 60 := fun hh => h60 (hgt.2 hh)
      simp only [h61, if_false]
      rw [if_neg (by decide)]
      rfl
  · rw [if_neg h, if_neg h]
    exact (if_neg (by decide)).symm

/-- A 2 by 1 image. -/
example : let src : Image := ⟨0, 0, 2, 1, fun x _ => if x = 0 then (65535, 65535, 65535, 65535) else (0, 0, 0, 65535)⟩
    (gray src).at 0 0 = 255 ∧ (gray src).at 1 0 = 0 ∧ (binaryzation src 60).at 0 0 = 255 := by decide +kernel

/-! ## C65: saving -/

open QR.Files in
theorem create_ok (fs : FS) (p : String) : openFile false fs p { create := true, trunc := true } = some (fs.put p []) := by
  unfold openFile
  cases fs p <;> rfl

open QR.Files in
theorem written (fs : FS) (p : String) (chunks : List Content) : writeChunks p (fs.put p []) 0 chunks p = some chunks.flatten ∧
    ∀ q, q ≠ p → writeChunks p (fs.put p []) 0 chunks q = fs q := by
  obtain ⟨fs', h1, h2, h3⟩ := C37_debug fs p chunks
  unfold debugSave at h1
  rw [show openFile false fs p standardFlags = some (fs.put p []) from create_ok fs p, Option.map_some, Option.some.injEq] at h1
  subst h1
  exact ⟨h2, h3⟩

open QR.Files in
/-- **C65, the part that holds.**  `Save` returns nil exactly if the file could be created, the name ends in `.jpg`, `.jpeg` or `.png` (in lower case) and the
encoder succeeded; then the file holds exactly the picture in the format of the name.  Other files never change. -/
theorem C65_save_partial (denied : Bool) (fs : FS) (filename : Bytes) (path : String) (jpeg png : Encoding) :
    ((save denied fs filename path jpeg png).2 = true ↔ denied = false ∧
      ((Cli.ext filename = dotJpg ∨ Cli.ext filename = dotJpeg) ∧ jpeg.ok = true ∨ Cli.ext filename = dotPng ∧ png.ok = true)) ∧
    ((save denied fs filename path jpeg png).2 = true →
      (save denied fs filename path jpeg png).1 path = some (if Cli.ext filename = dotPng then png.chunks.flatten else jpeg.chunks.flatten)) ∧
    (denied = true → (save denied fs filename path jpeg png).1 = fs) ∧
    ∀ q, q ≠ path → (save denied fs filename path jpeg png).1 q = fs q := by
  have hne1 : dotJpg ≠ dotPng := by decide
  have hne2 : dotJpeg ≠ dotPng := by decide
  cases denied with
  | true =>
    have e : save true fs filename path jpeg png = (fs, false) := rfl
    rw [e]
    simp
  | false =>
    unfold save
    rw [create_ok]
    simp only
    by_cases h1 : Cli.ext filename = dotJpg ∨ Cli.ext filename = dotJpeg
    · have hp : ¬ Cli.ext filename = dotPng := by
        rcases h1 with h | h <;> rw [h]
        · exact hne1
        · exact hne2
      rw [if_pos h1]
      rw [if_neg hp]
      exact ⟨⟨fun h => ⟨trivial, .inl ⟨h1, h⟩⟩, fun h => h.2.elim (·.2) (fun h => absurd h.1 hp)⟩, fun _ => (written fs path jpeg.chunks).1,
        (fun h => by cases h), (written fs path jpeg.chunks).2⟩
    · rw [if_neg h1]
      by_cases hp : Cli.ext filename = dotPng
      · rw [if_pos hp]
        rw [if_pos hp]
        exact ⟨⟨fun h => ⟨trivial, .inr ⟨hp, h⟩⟩, fun h => h.2.elim (fun h => absurd h.1 h1) (·.2)⟩, fun _ => (written fs path png.chunks).1,
          (fun h => by cases h), (written fs path png.chunks).2⟩
      · rw [if_neg hp]
        exact ⟨⟨(fun h => by cases h), fun h => h.2.elim (fun h => absurd h.1 h1) (fun h => absurd h.1 hp)⟩, (fun h => by cases h), (fun h => by cases h),
          fun q hq => by simp [FS.put, hq]⟩

/-- **C65 is false**: a refused name costs the file its contents.  `Save(img, "photo.gif")` reports an unsupported format and leaves the file empty. -/
theorem C65_counterexample : ¬ ∀ (denied : Bool) (fs : Files.FS) (filename : Bytes) (path : String) (jpeg png : Encoding),
    (save denied fs filename path jpeg png).2 = false → Cli.ext filename ≠ dotJpg → Cli.ext filename ≠ dotJpeg → Cli.ext filename ≠ dotPng →
      (save denied fs filename path jpeg png).1 path = fs path := by
  intro h
  have := h false (fun p => if p = "photo.gif" then some [1, 2, 3] else none) "photo.gif".toUTF8.toList "photo.gif" ⟨[], true⟩ ⟨[], true⟩
    (by decide +kernel) (by decide +kernel) (by decide +kernel) (by decide +kernel)
  revert this; decide +kernel

example : (save false (fun _ => none) "a.b/x.jpeg".toUTF8.toList "a.b/x.jpeg" ⟨[[1], [2]], true⟩ ⟨[[3]], true⟩).2 = true ∧
    (save false (fun _ => none) "a.b/x.jpeg".toUTF8.toList "a.b/x.jpeg" ⟨[[1], [2]], true⟩ ⟨[[3]], true⟩).1 "a.b/x.jpeg" = some [1, 2] ∧
    (save false (fun _ => none) "x.PNG".toUTF8.toList "x.PNG" ⟨[[1], [2]], true⟩ ⟨[[3]], true⟩).2 = false := by decide +kernel

end QR.Imgkit
