import Verif.Spec.Negative
import Verif.Proof.PhotoSize
/-!
# The negative of a picture of a symbol shows no symbol
-/
namespace Spec

theorem negative_length (p) : (negative p).length = p.length := by simp [negative]

theorem negative_width (p) : width (negative p) = width p := by
  cases p <;> simp [negative, width]

theorem negative_negative (p) : negative (negative p) = p := by
  simp [negative, List.map_map, Function.comp_def]

theorem negative_sheet (h w f) : negative (sheet h w f) = sheet h w fun i j => !f i j := by
  simp [negative, sheet, List.map_map, Function.comp_def]

theorem pixel_negative {p : List (List Bool)} (hr : ∀ r ∈ p, r.length = width p) {i j} (hi : i < p.length) (hj : j < width p) :
    pixel (negative p) i j = !pixel p i j := by
  have := sheet_self rfl hr
  conv => lhs; rw [← this]
  rw [negative_sheet, pixel_sheet hi hj]

theorem negative_rows {p : List (List Bool)} (hr : ∀ r ∈ p, r.length = width p) : ∀ r ∈ negative p, r.length = width (negative p) := by
  intro r h
  rw [negative_width]
  obtain ⟨s, hs, rfl⟩ := List.mem_map.1 h
  rw [List.length_map]
  exact hr s hs

theorem turn_negative {p : List (List Bool)} (hr : ∀ r ∈ p, r.length = width p) : turn (negative p) = negative (turn p) := by
  rw [turn, turn, negative_sheet, negative_length, negative_width]
  apply sheet_congr
  intro i j hi hj
  exact pixel_negative hr (by omega) hi

theorem mirror_negative {p : List (List Bool)} (hr : ∀ r ∈ p, r.length = width p) : mirror (negative p) = negative (mirror p) := by
  rw [mirror, mirror, negative_sheet, negative_length, negative_width]
  apply sheet_congr
  intro i j hi hj
  exact pixel_negative hr hi (by omega)

theorem turn_rows (p) : ∀ r ∈ turn p, r.length = width (turn p) := sheet_rows'
theorem mirror_rows (p) : ∀ r ∈ mirror p, r.length = width (mirror p) := sheet_rows'

/-- The views of the negative are the negatives of what can be seen. -/
theorem views_negative {p : List (List Bool)} (hr : ∀ r ∈ p, r.length = width p) {z} (hz : z ∈ views (negative p)) :
    ∃ s, Seen p s ∧ z = negative s := by
  have hm := mirror_rows p
  simp only [views, quarters, List.cons_append, List.nil_append, List.mem_cons, List.not_mem_nil, or_false, mirror_negative hr, turn_negative hr, turn_negative hm,
    turn_negative (turn_rows _)] at hz
  rcases hz with h | h | h | h | h | h | h | h
  · exact ⟨_, .straight, h⟩
  · exact ⟨_, .turned .straight, h⟩
  · exact ⟨_, .turned (.turned .straight), h⟩
  · exact ⟨_, .turned (.turned (.turned .straight)), h⟩
  · exact ⟨_, .mirrored .straight, h⟩
  · exact ⟨_, .turned (.mirrored .straight), h⟩
  · exact ⟨_, .turned (.turned (.mirrored .straight)), h⟩
  · exact ⟨_, .turned (.turned (.turned (.mirrored .straight))), h⟩

theorem headD_sheet {h w f} (hh : 0 < h) : (sheet h w f).headD [] = (List.range w).map (f 0) := by
  cases h with
  | zero => omega
  | succ h => simp [sheet, List.range_succ_eq_map]

/-- Something light on all four sides. -/
structure LightSides (x : List (List Bool)) : Prop where
  upper : ∃ j < x.length, pixel x 0 j = false
  lower : ∃ j < x.length, pixel x (x.length - 1) j = false
  left : ∃ i < x.length, pixel x i 0 = false
  right : ∃ i < x.length, pixel x i (x.length - 1) = false

theorem light_iff {p left top x} (h : Shows p left top x) {i j} (hi : i < p.length) (hj : j < width p) :
    pixel p i j = false ↔ ¬ (top ≤ i ∧ i < top + x.length ∧ left ≤ j ∧ j < left + width x ∧ pixel x (i - top) (j - left) = true) := by
  rw [← h.dark i j hi hj, Bool.not_eq_true]

/-- The negative touches all four sides of the picture. -/
theorem crop_negative {p left top x} (h : Shows p left top x) (ht : Tight x) (hl : LightSides x) : crop (negative p) = negative p := by
  have hw := ht.width
  have hp := ht.pos
  have hr := h.room
  rw [hw] at hr
  have li := fun i j hi hj => @light_iff p left top x h i j hi hj
  rw [hw] at li
  have a1 : ∃ j < width p, pixel p 0 j = false := by
    obtain ⟨j, hj, e⟩ := hl.upper
    refine ⟨left + j, by omega, (li _ _ (by omega) (by omega)).2 ?_⟩
    rintro ⟨b1, b2, b3, b4, b5⟩
    rw [show left + j - left = j by omega, show 0 - top = 0 by omega, e] at b5; cases b5
  have a2 : ∃ j < width p, pixel p (p.length - 1) j = false := by
    obtain ⟨j, hj, e⟩ := hl.lower
    refine ⟨left + j, by omega, (li _ _ (by omega) (by omega)).2 ?_⟩
    rintro ⟨b1, b2, b3, b4, b5⟩
    rw [show left + j - left = j by omega, show p.length - 1 - top = x.length - 1 by omega, e] at b5; cases b5
  have a3 : ∃ i < p.length, pixel p i 0 = false := by
    obtain ⟨i, hi, e⟩ := hl.left
    refine ⟨top + i, by omega, (li _ _ (by omega) (by omega)).2 ?_⟩
    rintro ⟨b1, b2, b3, b4, b5⟩
    rw [show top + i - top = i by omega, show 0 - left = 0 by omega, e] at b5; cases b5
  have a4 : ∃ i < p.length, pixel p i (width p - 1) = false := by
    obtain ⟨i, hi, e⟩ := hl.right
    refine ⟨top + i, by omega, (li _ _ (by omega) (by omega)).2 ?_⟩
    rintro ⟨b1, b2, b3, b4, b5⟩
    rw [show top + i - top = i by omega, show width p - 1 - left = x.length - 1 by omega, e] at b5; cases b5
  have px := fun i j hi hj => @pixel_negative p h.rows i j hi hj
  have row : ∀ i, i < p.length → (∃ j < width p, pixel p i j = false) → ((List.range (width p)).any fun x => pixel (negative p) i x) = true := by
    rintro i hi ⟨j, hj, e⟩
    rw [List.any_eq_true]
    exact ⟨j, List.mem_range.2 hj, by rw [px i j hi hj, e]; rfl⟩
  have col : ∀ j, j < width p → (∃ i < p.length, pixel p i j = false) → ((List.range p.length).any fun y => pixel (negative p) y j) = true := by
    rintro j hj ⟨i, hi, e⟩
    rw [List.any_eq_true]
    exact ⟨i, List.mem_range.2 hi, by rw [px i j hi hj, e]; rfl⟩
  have hrow : ∀ i, ((List.range (width p)).any fun x => pixel (negative p) i x) = true → i < p.length := by
    intro i hi
    obtain ⟨j, _, e⟩ := List.any_eq_true.1 hi
    refine Decidable.byContradiction fun hn => ?_
    rw [← sheet_self rfl (negative_rows h.rows), pixel_sheet_out (by rw [negative_length]; omega)] at e
    cases e
  have hcol : ∀ j, ((List.range p.length).any fun y => pixel (negative p) y j) = true → j < width p := by
    intro j hj
    obtain ⟨i, _, e⟩ := List.any_eq_true.1 hj
    refine Decidable.byContradiction fun hn => ?_
    rw [← sheet_self rfl (negative_rows h.rows), pixel_sheet_out (by rw [negative_width]; omega)] at e
    cases e
  obtain ⟨r1, r2⟩ := filter_range_bounds (n := p.length) (a := 0) (b := p.length - 1) (f := fun i => (List.range (width p)).any fun x => pixel (negative p) i x) (row 0 (by omega) a1) (row _ (by omega) a2) (by omega) (by omega) (fun i hi => by have := hrow i hi; omega)
  obtain ⟨c1, c2⟩ := filter_range_bounds (n := width p) (a := 0) (b := width p - 1) (f := fun j => (List.range p.length).any fun y => pixel (negative p) y j) (col 0 (by omega) a3) (col _ (by omega) a4) (by omega) (by omega) (fun j hj => by have := hcol j hj; omega)
  unfold crop inkedRows inkedColumns
  rw [negative_length, negative_width]
  simp only [r1, r2, c1, c2, Nat.zero_add]
  exact sheet_self (by rw [negative_length]; omega) (fun r hr => by rw [negative_rows h.rows r hr, negative_width]; omega)

/-- In the negative of a picture in which at least one end of the symbol's upper edge is dark, nothing is right way up. -/
theorem shrink_negative {p left top y z} (h : Shows p left top y) (ht : Tight y)
    (hc : pixel y 0 0 = true ∨ pixel y 0 (y.length - 1) = true) (hs : shrink (negative p) = some z) (hu : upright z = true) : z.length = 7 := by
  have hw := ht.width
  have hp := ht.pos
  have hroom := h.room
  have hdark := h.dark
  rw [hw] at hroom hdark
  have px := fun i j hi hj => @pixel_negative p h.rows i j hi hj
  unfold shrink at hs
  simp only at hs
  have hhead : (negative p).headD [] = (List.range (width p)).map fun j => pixel (negative p) 0 j := by
    conv => lhs; rw [← sheet_self rfl (negative_rows h.rows)]
    rw [headD_sheet (by rw [negative_length]; omega), negative_width]
  rw [hhead] at hs
  obtain ⟨r1, r2, r3⟩ := run_spec (fun j => pixel (negative p) 0 j) (width p)
  generalize (((List.range (width p)).map fun j => pixel (negative p) 0 j).takeWhile id).length = r at *
  generalize hb' : r / 7 = b' at *
  split at hs
  · next hc' =>
    obtain ⟨hb0, hr, hinf⟩ := hc'
    have hz := Option.some.inj hs
    rw [hz] at hinf
    have hN : b' * z.length = p.length := by rw [← inflate_length, hinf, negative_length]
    have hM : b' * z.length = width p := by rw [← inflate_width, hinf, negative_width]
    have pz : ∀ i j, i < p.length → j < width p → pixel z (i / b') (j / b') = !pixel p i j := by
      intro i j hi hj
      rw [← px i j hi hj, ← hinf, pixel_inflate (by omega) (by omega)]
    have h7 : 7 ≤ z.length := by
      have : b' * 7 ≤ b' * z.length := by omega
      exact Nat.le_of_mul_le_mul_left this hb0
    by_cases h0 : 0 < top
    · have hall : r = width p := by
        refine Decidable.byContradiction fun hne => ?_
        have := r3 (by omega)
        rw [px 0 r (by omega) (by omega)] at this
        have hd : pixel p 0 r = true := by simpa using this
        have := ((hdark 0 r (by omega) (by omega)).1 hd).1
        omega
      have : b' * z.length = b' * 7 := by omega
      exact Nat.eq_of_mul_eq_mul_left hb0 this
    · exfalso
      have ht0 : top = 0 := by omega
      subst ht0
      simp only [upright, Bool.and_eq_true, finderAt_iff, Nat.zero_add] at hu
      obtain ⟨⟨⟨f1, f2⟩, _⟩, _⟩ := hu
      have g11 : pixel z 1 1 = false := f1 1 1 (by omega) (by omega)
      have d11 := pz b' b' (by omega) (by omega)
      rw [Nat.div_self hb0, g11] at d11
      have d11' : pixel p b' b' = true := by simpa using d11.symm
      have k1 := (hdark b' b' (by omega) (by omega)).1 d11'
      rcases hc with hc | hc
      · have hd : pixel p 0 left = true := (hdark 0 left (by omega) (by omega)).2 ⟨by omega, by omega, by omega, by omega, by
          rw [Nat.sub_self, Nat.sub_self]; exact hc⟩
        have := r2 left (by omega)
        rw [px 0 left (by omega) (by omega), hd] at this
        cases this
      · have g2 : pixel z 1 (z.length - 7 + 5) = false := f2 1 5 (by omega) (by omega)
        have hlt : (z.length - 7 + 5) * b' < width p := by
          rw [← hM, Nat.mul_comm]; exact (Nat.mul_lt_mul_left hb0).2 (by omega)
        have d2 := pz b' ((z.length - 7 + 5) * b') (by omega) hlt
        rw [Nat.div_self hb0, Nat.mul_div_cancel _ hb0, g2] at d2
        have d2' : pixel p b' ((z.length - 7 + 5) * b') = true := by simpa using d2.symm
        have k2 := (hdark _ _ (by omega) hlt).1 d2'
        have hd : pixel p 0 (left + y.length - 1) = true := (hdark 0 _ (by omega) (by omega)).2 ⟨by omega, by omega, by omega, by omega, by
          rw [Nat.sub_self, show left + y.length - 1 - left = y.length - 1 by omega]; exact hc⟩
        have d3 := pz 0 (left + y.length - 1) (by omega) (by omega)
        rw [hd, Nat.zero_div] at d3
        have u1 : (left + y.length - 1) / b' < z.length := Nat.div_lt_of_lt_mul (by omega)
        have u2 : z.length - 7 + 5 ≤ (left + y.length - 1) / b' := (Nat.le_div_iff_mul_le hb0).2 (by omega)
        have t5 : pixel z 0 (z.length - 7 + 5) = true := f2 0 5 (by omega) (by omega)
        have t6 : pixel z 0 (z.length - 7 + 6) = true := f2 0 6 (by omega) (by omega)
        rcases (by omega : (left + y.length - 1) / b' = z.length - 7 + 5 ∨ (left + y.length - 1) / b' = z.length - 7 + 6) with e | e
        · rw [e, t5] at d3; cases d3
        · rw [e, t6] at d3; cases d3
  · cases hs

variable {v : Nat} {lv : Level} {k : Nat} {stream : List Bool} {bm : List (List Bool)}

theorem separators : ∀ v ∈ List.range 41, 1 ≤ v → patternColour v 0 7 = some false ∧ patternColour v 7 0 = some false ∧
    patternColour v (side v - 1) 7 = some false ∧ patternColour v 7 (side v - 1) = some false := by decide +kernel

/-- Next to the finder patterns the outer rows and columns have a light module. -/
theorem separator_cells (h : IsSymbol v lv k stream bm) :
    pixel bm 0 7 = false ∧ pixel bm 7 0 = false ∧ pixel bm (side v - 1) 7 = false ∧ pixel bm 7 (side v - 1) = false := by
  have hs : 21 ≤ side v := by have := h.version; unfold side; omega
  obtain ⟨a, b, c, d⟩ := separators v (List.mem_range.2 (by have := h.version; omega)) h.version.1
  exact ⟨h.pattern _ _ _ (by omega) (by omega) a, h.pattern _ _ _ (by omega) (by omega) b, h.pattern _ _ _ (by omega) (by omega) c,
    h.pattern _ _ _ (by omega) (by omega) d⟩

/-- However a symbol is turned and mirrored, one end of its upper edge is dark, and no side is all dark. -/
theorem view_sides (h : IsSymbol v lv k stream bm) (g) :
    (pixel (view (side v) bm g) 0 0 = true ∨ pixel (view (side v) bm g) 0 (side v - 1) = true) ∧
    (pixel (view (side v) bm g) 0 7 = false ∨ pixel (view (side v) bm g) 0 (side v - 8) = false) ∧
    (pixel (view (side v) bm g) (side v - 1) 7 = false ∨ pixel (view (side v) bm g) (side v - 1) (side v - 8) = false) ∧
    (pixel (view (side v) bm g) 7 0 = false ∨ pixel (view (side v) bm g) (side v - 8) 0 = false) ∧
    (pixel (view (side v) bm g) 7 (side v - 1) = false ∨ pixel (view (side v) bm g) (side v - 8) (side v - 1) = false) := by
  have hs : 21 ≤ side v := by have := h.version; unfold side; omega
  obtain ⟨⟨a1, _⟩, ⟨b1, _⟩, ⟨c1, _⟩⟩ := finder_cells h
  obtain ⟨s1, s2, s3, s4⟩ := separator_cells h
  have e0 : side v - 1 - 0 = side v - 1 := by omega
  have e1 : side v - 1 - 7 = side v - 8 := by omega
  have e2 : side v - 1 - (side v - 8) = 7 := by omega
  have e3 : side v - 1 - (side v - 1) = 0 := by omega
  unfold view
  have P : ∀ i j, i < side v → j < side v → pixel (picture (side v) fun i j => pixel bm (place (side v) g i j).1 (place (side v) g i j).2) i j =
    pixel bm (place (side v) g i j).1 (place (side v) g i j).2 := fun i j hi hj => pixel_picture hi hj
  rw [P 0 0 (by omega) (by omega), P 0 _ (by omega) (by omega), P 0 7 (by omega) (by omega), P 0 (side v - 8) (by omega) (by omega),
    P _ 7 (by omega) (by omega), P _ (side v - 8) (by omega) (by omega), P 7 0 (by omega) (by omega), P (side v - 8) 0 (by omega) (by omega),
    P 7 _ (by omega) (by omega), P (side v - 8) (side v - 1) (by omega) (by omega)]
  obtain ⟨a, b, c⟩ := g
  cases a <;> cases b <;> cases c <;> simp [place, e1, e2, e3, a1, b1, c1, s1, s2, s3, s4]

theorem inflated_sides (h : IsSymbol v lv k stream bm) {b : Nat} (hb : 0 < b) (g) :
    LightSides (inflate b (view (side v) bm g)) ∧
    (pixel (inflate b (view (side v) bm g)) 0 0 = true ∨ pixel (inflate b (view (side v) bm g)) 0 ((inflate b (view (side v) bm g)).length - 1) = true) := by
  have hs : 21 ≤ side v := by have := h.version; unfold side; omega
  have hl : (view (side v) bm g).length = side v := picture_length _ _
  have hN : (inflate b (view (side v) bm g)).length = b * side v := by rw [inflate_length, hl]
  have hpos : 0 < b * side v := Nat.mul_pos hb (by omega)
  have px : ∀ i j, i < b * side v → j < b * side v → pixel (inflate b (view (side v) bm g)) i j = pixel (view (side v) bm g) (i / b) (j / b) := by
    intro i j hi hj; exact pixel_inflate (by rw [hl]; exact hi) (by rw [hl]; exact hj)
  have last : (b * side v - 1) / b = side v - 1 := by
    have := div_mirror (b := b) (n := side v) (i := 0) hpos
    rwa [Nat.sub_zero, Nat.zero_div, Nat.sub_zero] at this
  have lt : ∀ m, m < side v → b * m < b * side v := fun m hm => (Nat.mul_lt_mul_left hb).2 hm
  have dv : ∀ m, b * m / b = m := fun m => Nat.mul_div_cancel_left m hb
  obtain ⟨v0, v1, v2, v3, v4⟩ := view_sides h g
  refine ⟨⟨?_, ?_, ?_, ?_⟩, ?_⟩ <;> rw [hN]
  · rcases v1 with e | e
    · exact ⟨b * 7, lt _ (by omega), by rw [px _ _ hpos (lt _ (by omega)), dv, Nat.zero_div]; exact e⟩
    · exact ⟨b * (side v - 8), lt _ (by omega), by rw [px _ _ hpos (lt _ (by omega)), dv, Nat.zero_div]; exact e⟩
  · rcases v2 with e | e
    · exact ⟨b * 7, lt _ (by omega), by rw [px _ _ (by omega) (lt _ (by omega)), dv, last]; exact e⟩
    · exact ⟨b * (side v - 8), lt _ (by omega), by rw [px _ _ (by omega) (lt _ (by omega)), dv, last]; exact e⟩
  · rcases v3 with e | e
    · exact ⟨b * 7, lt _ (by omega), by rw [px _ _ (lt _ (by omega)) hpos, dv, Nat.zero_div]; exact e⟩
    · exact ⟨b * (side v - 8), lt _ (by omega), by rw [px _ _ (lt _ (by omega)) hpos, dv, Nat.zero_div]; exact e⟩
  · rcases v4 with e | e
    · exact ⟨b * 7, lt _ (by omega), by rw [px _ _ (lt _ (by omega)) (by omega), dv, last]; exact e⟩
    · exact ⟨b * (side v - 8), lt _ (by omega), by rw [px _ _ (lt _ (by omega)) (by omega), dv, last]; exact e⟩
  · rw [px _ _ hpos hpos, px _ _ hpos (by omega), last, Nat.zero_div]
    exact v0

theorem seen_trans {p s s'} (h : Seen p s) (h' : Seen s s') : Seen p s' := by
  induction h' with
  | straight => exact h
  | turned _ ih => exact .turned ih
  | mirrored _ ih => exact .mirrored ih

/-- The reader finds nothing in the negative. -/
theorem decode_negative (h : IsSymbol v lv k stream bm) {b : Nat} (hb : 0 < b) {p : List (List Bool)} {left top : Nat}
    (hp : Shows p left top (inflate b bm)) {s : List (List Bool)} (hs : Seen p s) (unsjis) : decodePhoto unsjis (negative s) = none := by
  have ht := tight_inflate h hb
  have facts : ∀ s, Seen p s → ∃ l t y, Shows s l t y ∧ Tight y ∧ LightSides y ∧ (pixel y 0 0 = true ∨ pixel y 0 (y.length - 1) = true) := by
    intro s hs
    obtain ⟨l, t, y, hy, hty, hsy⟩ := seen_shows hp ht hs
    obtain ⟨g, rfl⟩ := seen_view (n := b * side v) (by rw [inflate_length, h.rows]) (by
      intro r hr; rw [sheet_rows r hr, h.rows]) hsy
    rw [view_inflate h.rows] at hy hty
    obtain ⟨i1, i2⟩ := inflated_sides h hb g
    exact ⟨l, t, _, hy, hty, i1, i2⟩
  obtain ⟨l, t, y, hy, hty, hly, _⟩ := facts s hs
  unfold decodePhoto
  rw [crop_negative hy hty hly]
  cases e : ((views (negative s)).filterMap shrink).find? upright with
  | none => rfl
  | some z =>
    have hu := List.find?_some e
    have hz := List.mem_of_find?_eq_some e
    rw [List.mem_filterMap] at hz
    obtain ⟨x, hx, hxz⟩ := hz
    obtain ⟨s', hs', rfl⟩ := views_negative hy.rows hx
    obtain ⟨l', t', y', hy', hty', _, hc'⟩ := facts s' (seen_trans hs hs')
    have h7 := shrink_negative hy' hty' hc' hxz hu
    show decode unsjis z = none
    have : readVersion z = none := by unfold readVersion; simp only [h7]; rfl
    unfold decode
    rw [this]
    rfl

end Spec
