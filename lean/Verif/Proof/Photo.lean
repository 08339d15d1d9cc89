import Verif.Spec.Photo
import Verif.Proof.Turn
/-!
# Finding the symbol in a picture
-/
namespace Spec

theorem sheet_rows {h w f} : ∀ r ∈ sheet h w f, r.length = w := by
  intro r hr
  simp only [sheet, List.mem_map, List.mem_range] at hr
  obtain ⟨i, _, rfl⟩ := hr
  simp

theorem sheet_rows' {h w f} : ∀ r ∈ sheet h w f, r.length = width (sheet h w f) := by
  intro r hr
  rw [sheet_rows r hr, sheet_width]
  split
  · subst h; simp [sheet] at hr
  · rfl

theorem sheet_self {h w} {p : List (List Bool)} (hh : p.length = h) (hw : ∀ r ∈ p, r.length = w) : sheet h w (pixel p) = p := by
  apply List.ext_getElem
  · simp [sheet, hh]
  · intro i h1 h2
    simp only [sheet, List.getElem_map, List.getElem_range]
    have hl := hw _ (List.getElem_mem h2)
    apply List.ext_getElem
    · simp [hl]
    · intro j h3 h4
      simp [pixel, List.getD_eq_getElem?_getD, h2, h4]

/-- First and last element of a filtered range. -/
theorem filter_range_bounds {n a b : Nat} {f : Nat → Bool} (ha : f a = true) (hb : f b = true) (hab : a ≤ b) (hbn : b < n)
    (hf : ∀ i, f i = true → a ≤ i ∧ i ≤ b) :
    ((List.range n).filter f).headD 0 = a ∧ ((List.range n).filter f).getLastD 0 = b := by
  have e1 : n = a + (1 + (n - a - 1)) := by omega
  have e2 : n = b + (1 + (n - b - 1)) := by omega
  constructor
  · rw [e1, List.range_add, List.filter_append, List.filter_eq_nil_iff.2, List.nil_append, List.range_add, List.map_append, List.filter_append]
    · simp [ha]
    · intro i hi h
      have := hf i h
      have := List.mem_range.1 hi
      omega
  · rw [e2, List.range_add, List.filter_append, List.range_add, List.map_append, List.filter_append (l₁ := List.map _ (List.range 1))]
    have : List.filter f (List.map (fun x => b + x) (List.map (fun x => 1 + x) (List.range (n - b - 1)))) = [] := by
      rw [List.filter_eq_nil_iff]
      intro i hi h
      have := hf i h
      simp only [List.mem_map] at hi
      obtain ⟨_, ⟨_, _, rfl⟩, rfl⟩ := hi
      omega
    rw [this]
    simp [hb]

/-- A picture that touches all four sides with something dark. -/
structure Tight (x : List (List Bool)) : Prop where
  square : ∀ r ∈ x, r.length = x.length
  pos : 0 < x.length
  upper : ∃ j < x.length, pixel x 0 j = true
  lower : ∃ j < x.length, pixel x (x.length - 1) j = true
  left : ∃ i < x.length, pixel x i 0 = true
  right : ∃ i < x.length, pixel x i (x.length - 1) = true

theorem Tight.width {x} (h : Tight x) : Spec.width x = x.length := by
  have hp := h.pos
  match x, h.square, hp with
  | r :: l, hs, _ => exact hs r (by simp)

theorem Tight.self {x} (h : Tight x) : picture x.length (pixel x) = x := picture_pixel rfl h.square

theorem crop_shows {p left top x} (h : Shows p left top x) (ht : Tight x) : crop p = x := by
  have hw := ht.width
  have hp := ht.pos
  have hr := h.room
  rw [hw] at hr
  have hd := h.dark
  rw [hw] at hd
  have row : ∀ y, y < p.length → (((List.range (width p)).any fun j => pixel p y j) = true ↔
      top ≤ y ∧ y < top + x.length ∧ ∃ j < x.length, pixel x (y - top) j = true) := by
    intro y hy
    simp only [List.any_eq_true, List.mem_range]
    constructor
    · rintro ⟨j, hj, e⟩
      obtain ⟨a, b, c, d, e⟩ := (hd y j hy hj).1 e
      exact ⟨a, b, j - left, by omega, e⟩
    · rintro ⟨a, b, j, hj, e⟩
      refine ⟨left + j, by omega, (hd y _ hy (by omega)).2 ⟨a, b, by omega, by omega, ?_⟩⟩
      rw [show left + j - left = j by omega]; exact e
  have col : ∀ j, j < width p → (((List.range p.length).any fun y => pixel p y j) = true ↔
      left ≤ j ∧ j < left + x.length ∧ ∃ i < x.length, pixel x i (j - left) = true) := by
    intro j hj
    simp only [List.any_eq_true, List.mem_range]
    constructor
    · rintro ⟨y, hy, e⟩
      obtain ⟨a, b, c, d, e⟩ := (hd y j hy hj).1 e
      exact ⟨c, d, y - top, by omega, e⟩
    · rintro ⟨a, b, i, hi, e⟩
      refine ⟨top + i, by omega, (hd _ j (by omega) hj).2 ⟨by omega, by omega, a, b, ?_⟩⟩
      rw [show top + i - top = i by omega]; exact e
  -- outside the picture everything is light
  have out : ∀ y, ¬ y < p.length → ∀ j, pixel p y j = false := by
    intro y hy j
    simp [pixel, List.getD_eq_getElem?_getD, Nat.not_lt.1 hy]
  have outc : ∀ j, ¬ j < width p → ∀ y, pixel p y j = false := by
    intro j hj y
    by_cases hy : y < p.length
    · have := h.rows _ (List.getElem_mem hy)
      simp [pixel, List.getD_eq_getElem?_getD, hy, List.getElem?_eq_none (l := p[y]) (i := j) (by omega)]
    · exact out y hy j
  have hrows := filter_range_bounds (n := p.length) (a := top) (b := top + x.length - 1)
    (f := fun y => (List.range (width p)).any fun j => pixel p y j)
    ((row _ (by omega)).2 ⟨by omega, by omega, by rw [Nat.sub_self]; exact ht.upper⟩)
    ((row _ (by omega)).2 ⟨by omega, by omega, by rw [show top + x.length - 1 - top = x.length - 1 by omega]; exact ht.lower⟩)
    (by omega) (by omega) (by
      intro i hi
      by_cases hy : i < p.length
      · have := (row i hy).1 hi; omega
      · simp only [List.any_eq_true] at hi
        obtain ⟨j, _, e⟩ := hi
        rw [out i hy j] at e; cases e)
  have hcols := filter_range_bounds (n := width p) (a := left) (b := left + x.length - 1)
    (f := fun j => (List.range p.length).any fun y => pixel p y j)
    ((col _ (by omega)).2 ⟨by omega, by omega, by rw [Nat.sub_self]; exact ht.left⟩)
    ((col _ (by omega)).2 ⟨by omega, by omega, by rw [show left + x.length - 1 - left = x.length - 1 by omega]; exact ht.right⟩)
    (by omega) (by omega) (by
      intro j hj
      by_cases hy : j < width p
      · have := (col j hy).1 hj; omega
      · simp only [List.any_eq_true] at hj
        obtain ⟨y, _, e⟩ := hj
        rw [outc j hy y] at e; cases e)
  unfold crop inkedRows inkedColumns
  rw [hrows.1, hrows.2, hcols.1, hcols.2]
  simp only
  rw [show top + x.length - 1 + 1 - top = x.length by omega, show left + x.length - 1 + 1 - left = x.length by omega]
  rw [← sheet_self (p := x) rfl ht.square]
  simp only [sheet_length]
  apply sheet_congr
  intro i j hi hj
  have := hd (top + i) (left + j) (by omega) (by omega)
  rw [show top + i - top = i by omega, show left + j - left = j by omega] at this
  rw [Bool.eq_iff_iff, this]
  constructor
  · exact fun h => h.2.2.2.2
  · exact fun h => ⟨by omega, by omega, by omega, by omega, h⟩

theorem width_eq {p : List (List Bool)} (hr : ∀ r ∈ p, r.length = width p) (h0 : p.length = 0) : width p = 0 := by
  rw [List.length_eq_zero_iff] at h0; subst h0; rfl

theorem turn_length (p) : (turn p).length = width p := sheet_length _ _ _
theorem mirror_length (p) : (mirror p).length = p.length := sheet_length _ _ _

theorem turn_width {p : List (List Bool)} (h : 0 < width p) : width (turn p) = p.length := by
  rw [turn, sheet_width, if_neg (by omega)]

theorem mirror_width (p : List (List Bool)) : width (mirror p) = width p := by
  rw [mirror, sheet_width]
  split
  · next h => rw [List.length_eq_zero_iff] at h; subst h; rfl
  · rfl

theorem Tight.turn {x} (h : Tight x) : Tight (Spec.turn x) := by
  have hw := h.width
  have hp := h.pos
  have hl : (Spec.turn x).length = x.length := by rw [turn_length, hw]
  have px : ∀ i j, i < x.length → j < x.length → pixel (Spec.turn x) i j = pixel x (x.length - 1 - j) i := by
    intro i j hi hj; rw [Spec.turn, pixel_sheet (by rw [hw]; exact hi) hj]
  refine ⟨?_, by omega, ?_, ?_, ?_, ?_⟩
  · intro r hr; rw [hl]; exact sheet_rows r hr
  · obtain ⟨i, hi, e⟩ := h.left
    refine ⟨x.length - 1 - i, by omega, ?_⟩
    rw [px _ _ (by omega) (by omega), show x.length - 1 - (x.length - 1 - i) = i by omega]; exact e
  · obtain ⟨i, hi, e⟩ := h.right
    refine ⟨x.length - 1 - i, by omega, ?_⟩
    rw [hl, px _ _ (by omega) (by omega), show x.length - 1 - (x.length - 1 - i) = i by omega]; exact e
  · obtain ⟨j, hj, e⟩ := h.lower
    exact ⟨j, by omega, by rw [px _ _ (by omega) (by omega)]; exact e⟩
  · obtain ⟨j, hj, e⟩ := h.upper
    refine ⟨j, by omega, ?_⟩
    rw [hl, px _ _ (by omega) (by omega), show x.length - 1 - (x.length - 1) = 0 by omega]; exact e

theorem Tight.mirror {x} (h : Tight x) : Tight (Spec.mirror x) := by
  have hw := h.width
  have hp := h.pos
  have hl : (Spec.mirror x).length = x.length := mirror_length x
  have px : ∀ i j, i < x.length → j < x.length → pixel (Spec.mirror x) i j = pixel x i (x.length - 1 - j) := by
    intro i j hi hj; rw [Spec.mirror, pixel_sheet hi (by rw [hw]; exact hj), hw]
  refine ⟨?_, by omega, ?_, ?_, ?_, ?_⟩
  · intro r hr; rw [hl, ← hw]; exact sheet_rows r hr
  · obtain ⟨j, hj, e⟩ := h.upper
    refine ⟨x.length - 1 - j, by omega, ?_⟩
    rw [px _ _ (by omega) (by omega), show x.length - 1 - (x.length - 1 - j) = j by omega]; exact e
  · obtain ⟨j, hj, e⟩ := h.lower
    refine ⟨x.length - 1 - j, by omega, ?_⟩
    rw [hl, px _ _ (by omega) (by omega), show x.length - 1 - (x.length - 1 - j) = j by omega]; exact e
  · obtain ⟨i, hi, e⟩ := h.right
    exact ⟨i, by omega, by rw [px _ _ (by omega) (by omega)]; exact e⟩
  · obtain ⟨i, hi, e⟩ := h.left
    refine ⟨i, by omega, ?_⟩
    rw [hl, px _ _ (by omega) (by omega), show x.length - 1 - (x.length - 1) = 0 by omega]; exact e

theorem Shows.turn {p left top x} (h : Shows p left top x) (ht : Tight x) :
    Shows (Spec.turn p) (p.length - (top + x.length)) left (Spec.turn x) := by
  have hw := ht.width
  have hp := ht.pos
  have hr := h.room
  have hd := h.dark
  rw [hw] at hr hd
  have e1 : (Spec.turn x).length = x.length := by rw [turn_length, hw]
  have e2 : width (Spec.turn x) = x.length := by rw [turn_width (by omega)]
  have e3 : (Spec.turn p).length = width p := turn_length p
  have e4 : width (Spec.turn p) = p.length := turn_width (by omega)
  refine ⟨sheet_rows', by rw [e1, e2, e3, e4]; omega, ?_⟩
  rw [e1, e2, e3, e4]
  intro i j hi hj
  rw [Spec.turn, pixel_sheet hi hj, hd _ _ (by omega) hi]
  constructor
  · rintro ⟨a, b, c, d, e⟩
    refine ⟨c, d, by omega, by omega, ?_⟩
    rw [Spec.turn, pixel_sheet (by omega) (by omega), show x.length - 1 - (j - (p.length - (top + x.length))) = p.length - 1 - j - top by omega]
    exact e
  · rintro ⟨a, b, c, d, e⟩
    refine ⟨by omega, by omega, a, b, ?_⟩
    rw [Spec.turn, pixel_sheet (by omega) (by omega), show x.length - 1 - (j - (p.length - (top + x.length))) = p.length - 1 - j - top by omega] at e
    exact e

theorem Shows.mirror {p left top x} (h : Shows p left top x) (ht : Tight x) :
    Shows (Spec.mirror p) (width p - (left + x.length)) top (Spec.mirror x) := by
  have hw := ht.width
  have hp := ht.pos
  have hr := h.room
  have hd := h.dark
  rw [hw] at hr hd
  have e1 : (Spec.mirror x).length = x.length := mirror_length x
  have e2 : width (Spec.mirror x) = x.length := by rw [mirror_width, hw]
  have e3 : (Spec.mirror p).length = p.length := mirror_length p
  have e4 : width (Spec.mirror p) = width p := mirror_width p
  refine ⟨sheet_rows', by rw [e1, e2, e3, e4]; omega, ?_⟩
  rw [e1, e2, e3, e4]
  intro i j hi hj
  rw [Spec.mirror, pixel_sheet hi hj, hd _ _ hi (by omega)]
  constructor
  · rintro ⟨a, b, c, d, e⟩
    refine ⟨a, b, by omega, by omega, ?_⟩
    rw [Spec.mirror, pixel_sheet (by omega) (by omega), hw,
      show x.length - 1 - (j - (width p - (left + x.length))) = width p - 1 - j - left by omega]
    exact e
  · rintro ⟨a, b, c, d, e⟩
    refine ⟨a, b, by omega, by omega, ?_⟩
    rw [Spec.mirror, pixel_sheet (by omega) (by omega), hw,
      show x.length - 1 - (j - (width p - (left + x.length))) = width p - 1 - j - left by omega] at e
    exact e

/-- Whatever is done to the picture, it shows what is left when the same is done to the symbol. -/
theorem seen_shows {p left top x s} (h : Shows p left top x) (ht : Tight x) (hs : Seen p s) :
    ∃ left' top' y, Shows s left' top' y ∧ Tight y ∧ Seen x y := by
  induction hs with
  | straight => exact ⟨_, _, _, h, ht, .straight⟩
  | turned _ ih => obtain ⟨a, b, y, h1, h2, h3⟩ := ih; exact ⟨_, _, _, h1.turn h2, h2.turn, .turned h3⟩
  | mirrored _ ih => obtain ⟨a, b, y, h1, h2, h3⟩ := ih; exact ⟨_, _, _, h1.mirror h2, h2.mirror, .mirrored h3⟩

end Spec
