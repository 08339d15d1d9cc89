import Verif.Proof.Photo
/-!
# The size of a module
-/
namespace Spec

theorem inflate_length (b bm) : (inflate b bm).length = b * bm.length := picture_length _ _
theorem inflate_width (b bm) : width (inflate b bm) = b * bm.length := picture_width _ _

theorem pixel_inflate {b bm i j} (hi : i < b * bm.length) (hj : j < b * bm.length) :
    pixel (inflate b bm) i j = pixel bm (i / b) (j / b) := pixel_picture hi hj

theorem div_mirror {b n i : Nat} (hi : i < b * n) : (b * n - 1 - i) / b = n - 1 - i / b := by
  have hb : 0 < b := by rcases Nat.eq_zero_or_pos b with h | h; · subst h; omega
                        · exact h
  have h1 := Nat.div_add_mod i b
  have h2 := Nat.mod_lt i hb
  have h3 : i / b < n := Nat.div_lt_of_lt_mul hi
  obtain ⟨k, hk⟩ : ∃ k, n = i / b + k + 1 := ⟨n - 1 - i / b, by omega⟩
  have e : b * n - 1 - i = b * k + (b - 1 - i % b) := by
    rw [hk, Nat.mul_add, Nat.mul_add]; omega
  rw [e, Nat.mul_add_div hb, Nat.div_eq_of_lt (by omega)]
  omega

theorem view_inflate {b n bm g} (hn : bm.length = n) : view (b * n) (inflate b bm) g = inflate b (view n bm g) := by
  have hl : (view n bm g).length = n := picture_length _ _
  unfold inflate
  rw [hl, hn]
  apply picture_congr
  intro i j hi hj
  have hb : 0 < b := by rcases Nat.eq_zero_or_pos b with h | h; · subst h; omega
                        · exact h
  have hp := place_lt (g := g) hi hj
  have hi' : i / b < n := Nat.div_lt_of_lt_mul hi
  have hj' : j / b < n := Nat.div_lt_of_lt_mul hj
  rw [pixel_picture hp.1 hp.2, view, pixel_picture hi' hj']
  have e : ((place (b * n) g i j).1 / b, (place (b * n) g i j).2 / b) = place n g (i / b) (j / b) := by
    obtain ⟨a, c, d⟩ := g
    cases a <;> cases c <;> cases d <;> simp [place, div_mirror hi, div_mirror hj]
  have e1 := congrArg Prod.fst e
  have e2 := congrArg Prod.snd e
  simp only at e1 e2
  rw [e1, e2]

/-- The dark run at the beginning of a row. -/
theorem run_spec (f : Nat → Bool) (N : Nat) : let r := (((List.range N).map f).takeWhile id).length
    r ≤ N ∧ (∀ j < r, f j = true) ∧ (r < N → f r = false) := by
  induction N with
  | zero => simp
  | succ N ih =>
    obtain ⟨h1, h2, h3⟩ := ih
    simp only [List.range_succ, List.map_append, List.map_cons, List.map_nil, List.takeWhile_append]
    split
    · next he =>
      have hN : (((List.range N).map f).takeWhile id).length = N := by simpa using he
      cases hf : f N with
      | false =>
        simp only [List.takeWhile_cons, id, Bool.false_eq_true, if_false, List.append_nil, List.length_map, List.length_range]
        rw [hN] at h2
        exact ⟨by omega, h2, fun _ => hf⟩
      | true =>
        simp only [List.takeWhile_cons, id, if_true, List.takeWhile_nil, List.length_append, List.length_map, List.length_range, List.length_cons, List.length_nil]
        rw [hN] at h2
        refine ⟨by omega, fun j hj => ?_, fun h => by omega⟩
        by_cases hjN : j < N
        · exact h2 j hjN
        · rw [show j = N by omega]; exact hf
    · next he =>
      have hN : (((List.range N).map f).takeWhile id).length ≠ N := by simpa using he
      exact ⟨by omega, h2, fun _ => h3 (by omega)⟩

theorem run_eq {f : Nat → Bool} {N m : Nat} (hm : m ≤ N) (h1 : ∀ j < m, f j = true) (h2 : m < N → f m = false) :
    (((List.range N).map f).takeWhile id).length = m := by
  obtain ⟨a, b, c⟩ := run_spec f N
  generalize (((List.range N).map f).takeWhile id).length = r at *
  rcases Nat.lt_trichotomy r m with h | h | h
  · have := c (by omega); rw [h1 r h] at this; cases this
  · exact h
  · have := h2 (by omega); rw [b m h] at this; cases this

theorem headD_picture {N f} (h : 0 < N) : (picture N f).headD [] = (List.range N).map (f 0) := by
  cases N with
  | zero => omega
  | succ N => simp [picture, sheet, List.range_succ_eq_map]

theorem inflate_head {b y} (h : 0 < b * y.length) : (inflate b y).headD [] = (List.range (b * y.length)).map fun j => pixel y 0 (j / b) := by
  rw [inflate, headD_picture h]
  simp only [Nat.zero_div]

/-- Sampling gives back what was inflated. -/
theorem sample_inflate {b y} (hb : 0 < b) (hy : ∀ r ∈ y, r.length = y.length) :
    (picture ((inflate b y).length / b) fun i j => pixel (inflate b y) (b * i) (b * j)) = y := by
  rw [inflate_length, Nat.mul_div_cancel_left _ hb]
  conv => rhs; rw [← picture_pixel rfl hy]
  apply picture_congr
  intro i j hi hj
  rw [pixel_inflate ((Nat.mul_lt_mul_left hb).2 hi) ((Nat.mul_lt_mul_left hb).2 hj), Nat.mul_div_cancel_left _ hb, Nat.mul_div_cancel_left _ hb]

/-- Where the colour of an inflated picture changes, a module ends. -/
theorem edge_dvd {b z y : _} {N b' e : Nat} (hz : inflate b' z = inflate b y) (hN : b * y.length = N) (hN' : b' * z.length = N)
    (he : 0 < e) (heN : b * e < N) (h1 : b * 1 < N) (hb : 0 < b) (hb' : 0 < b') (hne : pixel y 1 (e - 1) ≠ pixel y 1 e) : b' ∣ b * e := by
  have hbe : 0 < b * e := Nat.mul_pos hb he
  have px : ∀ j, j < N → pixel z (b * 1 / b') (j / b') = pixel y 1 (j / b) := by
    intro j hj
    have : pixel (inflate b' z) (b * 1) j = pixel (inflate b y) (b * 1) j := by rw [hz]
    rw [pixel_inflate (by omega) (by omega), pixel_inflate (by omega) (by omega), Nat.mul_div_cancel_left _ hb] at this
    exact this
  have a1 := px (b * e) heN
  have a2 := px (b * e - 1) (by omega)
  rw [Nat.mul_div_cancel_left _ hb] at a1
  have e2 : (b * e - 1) / b = e - 1 := by
    have : b * e - 1 = b * (e - 1) + (b - 1) := by
      obtain ⟨k, rfl⟩ : ∃ k, e = k + 1 := ⟨e - 1, by omega⟩
      rw [Nat.add_sub_cancel, Nat.mul_add]; omega
    rw [this, Nat.mul_add_div hb, Nat.div_eq_of_lt (by omega)]; omega
  rw [e2] at a2
  have hdiv : (b * e - 1) / b' ≠ (b * e) / b' := by
    intro h; rw [h, a1] at a2; exact hne a2.symm
  refine Decidable.byContradiction fun hnd => ?_
  apply hdiv
  have hm : 0 < b * e % b' := by
    rcases Nat.eq_zero_or_pos (b * e % b') with h | h
    · exact absurd (Nat.dvd_of_mod_eq_zero h) hnd
    · exact h
  have hd := Nat.div_add_mod (b * e) b'
  have hlt := Nat.mod_lt (b * e) hb'
  have : b * e - 1 = b' * (b * e / b') + (b * e % b' - 1) := by omega
  rw [this, Nat.mul_add_div hb', Nat.div_eq_of_lt (a := b * e % b' - 1) (by omega), Nat.add_zero]

/-- The module size read off a picture with a finder pattern in the upper left corner is right. -/
theorem shrink_inflate {b : Nat} {y z : List (List Bool)} (hb : 0 < b) (hn : 3 ≤ y.length) (hy : ∀ r ∈ y, r.length = y.length)
    (hedge : pixel y 1 0 ≠ pixel y 1 1 ∨ pixel y 1 (y.length - 2) ≠ pixel y 1 (y.length - 1))
    (hs : shrink (inflate b y) = some z) (hf : finderAt z 0 0 = true) : z = y := by
  unfold shrink at hs
  simp only at hs
  have hpos : 0 < b * y.length := Nat.mul_pos hb (by omega)
  rw [inflate_head hpos] at hs
  obtain ⟨r1, r2, r3⟩ := run_spec (fun j => pixel y 0 (j / b)) (b * y.length)
  generalize (((List.range (b * y.length)).map fun j => pixel y 0 (j / b)).takeWhile id).length = r at *
  generalize hb' : r / 7 = b' at *
  split at hs
  · next hc =>
    obtain ⟨hb0, hr, hinf⟩ := hc
    have hz := Option.some.inj hs
    rw [hz] at hinf
    have hN' : b' * z.length = b * y.length := by rw [← inflate_length, hinf, inflate_length]
    have h1 : b * 1 < b * y.length := (Nat.mul_lt_mul_left hb).2 (by omega)
    have hbb : b' ∣ b := by
      rcases hedge with he | he
      · have := edge_dvd hinf rfl hN' (e := 1) (by omega) h1 h1 hb hb0 he
        rwa [Nat.mul_one] at this
      · have := edge_dvd hinf rfl hN' (e := y.length - 1) (by omega) ((Nat.mul_lt_mul_left hb).2 (by omega)) h1 hb hb0
          (by rw [show y.length - 1 - 1 = y.length - 2 by omega]; exact he)
        have h2 : b' ∣ b * y.length := ⟨_, hN'.symm⟩
        have h3 : b = b * y.length - b * (y.length - 1) := by
          rw [← Nat.mul_sub, show y.length - (y.length - 1) = 1 by omega, Nat.mul_one]
        rw [h3]; exact Nat.dvd_sub h2 this
    obtain ⟨t, ht⟩ := hbb
    -- the run is a whole number of modules
    have hrm : b ∣ r := by
      by_cases hlt : r < b * y.length
      · have hr0 : 0 < r := by omega
        have f1 := r3 hlt
        have f2 := r2 (r - 1) (by omega)
        refine Decidable.byContradiction fun hnd => ?_
        have hm : 0 < r % b := by
          rcases Nat.eq_zero_or_pos (r % b) with h | h
          · exact absurd (Nat.dvd_of_mod_eq_zero h) hnd
          · exact h
        have hd := Nat.div_add_mod r b
        have hl := Nat.mod_lt r hb
        have : (r - 1) / b = r / b := by
          have e : r - 1 = b * (r / b) + (r % b - 1) := by omega
          rw [e, Nat.mul_add_div hb, Nat.div_eq_of_lt (a := r % b - 1) (by omega), Nat.add_zero]
        rw [this, f1] at f2; cases f2
      · exact ⟨_, show r = b * y.length by omega⟩
    obtain ⟨m, hm⟩ := hrm
    have h7 : t * m = 7 := by
      have : b' * (t * m) = b' * 7 := by rw [← Nat.mul_assoc, ← ht, ← hm, hr, Nat.mul_comm]
      exact Nat.eq_of_mul_eq_mul_left hb0 this
    have ht7 : t = 1 ∨ t = 7 := by
      have hle : t ≤ 7 := Nat.le_of_dvd (by omega) ⟨m, h7.symm⟩
      have : t = 0 ∨ t = 1 ∨ t = 2 ∨ t = 3 ∨ t = 4 ∨ t = 5 ∨ t = 6 ∨ t = 7 := by omega
      rcases this with h | h | h | h | h | h | h | h <;> subst h <;> omega
    rcases ht7 with rfl | rfl
    · rw [Nat.mul_one] at ht
      subst ht
      rw [← hz]
      exact sample_inflate hb hy
    · exfalso
      rw [finderAt_iff] at hf
      have g0 := hf 0 0 (by omega) (by omega)
      have g1 := hf 1 1 (by omega) (by omega)
      have px : ∀ i, i < b * y.length → pixel z (i / b') (i / b') = pixel y (i / b) (i / b) := by
        intro i hi
        have : pixel (inflate b' z) i i = pixel (inflate b y) i i := by rw [hinf]
        rwa [pixel_inflate (by omega) (by omega), pixel_inflate (by omega) (by omega)] at this
      have p0 := px 0 hpos
      have p1 := px b' (by omega)
      rw [Nat.div_self hb0, Nat.div_eq_of_lt (show b' < b by omega)] at p1
      simp only [Nat.zero_div] at p0
      simp only [Nat.zero_add] at g0 g1
      rw [p0] at g0
      rw [p1, g0] at g1
      exact absurd g1 (by decide)
  · cases hs

variable {v : Nat} {lv : Level} {k : Nat} {stream : List Bool} {bm : List (List Bool)}

theorem finder_cells (h : IsSymbol v lv k stream bm) :
    (pixel bm 0 0 = true ∧ pixel bm 1 0 = true ∧ pixel bm 1 1 = false ∧ pixel bm 0 1 = true) ∧
    (pixel bm 0 (side v - 1) = true ∧ pixel bm 1 (side v - 1) = true ∧ pixel bm 1 (side v - 2) = false ∧ pixel bm 0 (side v - 2) = true) ∧
    (pixel bm (side v - 1) 0 = true ∧ pixel bm (side v - 2) 0 = true ∧ pixel bm (side v - 2) 1 = false ∧ pixel bm (side v - 1) 1 = true) := by
  have hs : 21 ≤ side v := by have := h.version; unfold side; omega
  have hu := symbol_upright h
  simp only [upright, Bool.and_eq_true, h.rows, finderAt_iff, Nat.zero_add] at hu
  obtain ⟨⟨⟨h1, h2⟩, h3⟩, _⟩ := hu
  have e1 : side v - 7 + 6 = side v - 1 := by omega
  have e2 : side v - 7 + 5 = side v - 2 := by omega
  refine ⟨⟨?_, ?_, ?_, ?_⟩, ⟨?_, ?_, ?_, ?_⟩, ⟨?_, ?_, ?_, ?_⟩⟩
  · exact h1 0 0 (by omega) (by omega)
  · exact h1 1 0 (by omega) (by omega)
  · exact h1 1 1 (by omega) (by omega)
  · exact h1 0 1 (by omega) (by omega)
  · rw [← e1]; exact h2 0 6 (by omega) (by omega)
  · rw [← e1]; exact h2 1 6 (by omega) (by omega)
  · rw [← e2]; exact h2 1 5 (by omega) (by omega)
  · rw [← e2]; exact h2 0 5 (by omega) (by omega)
  · rw [← e1]; exact h3 6 0 (by omega) (by omega)
  · rw [← e2]; exact h3 5 0 (by omega) (by omega)
  · rw [← e2]; exact h3 5 1 (by omega) (by omega)
  · rw [← e1]; exact h3 6 1 (by omega) (by omega)

theorem view_edge (h : IsSymbol v lv k stream bm) (g) :
    pixel (view (side v) bm g) 1 0 ≠ pixel (view (side v) bm g) 1 1 ∨
    pixel (view (side v) bm g) 1 (side v - 2) ≠ pixel (view (side v) bm g) 1 (side v - 1) := by
  have hs : 21 ≤ side v := by have := h.version; unfold side; omega
  obtain ⟨⟨_, a2, a3, a4⟩, ⟨_, b2, b3, b4⟩, ⟨_, c2, c3, c4⟩⟩ := finder_cells h
  have e0 : side v - 1 - 0 = side v - 1 := by omega
  have e1 : side v - 1 - 1 = side v - 2 := by omega
  have e2 : side v - 1 - (side v - 2) = 1 := by omega
  have e3 : side v - 1 - (side v - 1) = 0 := by omega
  unfold view
  rw [pixel_picture (by omega) (by omega), pixel_picture (by omega) (by omega), pixel_picture (by omega) (by omega), pixel_picture (by omega) (by omega)]
  obtain ⟨a, b, c⟩ := g
  cases a <;> cases b <;> cases c <;> simp [place, e0, e1, e2, e3, a2, a3, a4, b2, b3, b4, c2, c3, c4]

theorem tight_inflate (h : IsSymbol v lv k stream bm) {b : Nat} (hb : 0 < b) : Tight (inflate b bm) := by
  have hs : 21 ≤ side v := by have := h.version; unfold side; omega
  obtain ⟨⟨a1, _⟩, ⟨b1, _⟩, ⟨c1, _⟩⟩ := finder_cells h
  have hN : (inflate b bm).length = b * side v := by rw [inflate_length, h.rows]
  have hpos : 0 < b * side v := Nat.mul_pos hb (by omega)
  have px : ∀ i j, i < b * side v → j < b * side v → pixel (inflate b bm) i j = pixel bm (i / b) (j / b) := by
    intro i j hi hj; exact pixel_inflate (by rw [h.rows]; exact hi) (by rw [h.rows]; exact hj)
  have last : (b * side v - 1) / b = side v - 1 := by
    have := div_mirror (b := b) (n := side v) (i := 0) hpos
    rwa [Nat.sub_zero, Nat.zero_div, Nat.sub_zero] at this
  refine ⟨?_, by omega, ⟨0, by omega, ?_⟩, ⟨0, by omega, ?_⟩, ⟨0, by omega, ?_⟩, ⟨0, by omega, ?_⟩⟩
  · intro r hr; rw [inflate_length]; exact sheet_rows r hr
  · rw [px _ _ hpos hpos, Nat.zero_div]; exact a1
  · rw [hN, px _ _ (by omega) hpos, Nat.zero_div, last]; exact c1
  · rw [px _ _ hpos hpos, Nat.zero_div]; exact a1
  · rw [hN, px _ _ hpos (by omega), Nat.zero_div, last]; exact b1

/-- The symbol itself is recognised. -/
theorem shrink_symbol (h : IsSymbol v lv k stream bm) {b : Nat} (hb : 0 < b) : shrink (inflate b bm) = some bm := by
  have hs : 21 ≤ side v := by have := h.version; unfold side; omega
  have hsq : ∀ r ∈ bm, r.length = bm.length := by rw [h.rows]; exact h.cols
  have hpos : 0 < b * bm.length := by rw [h.rows]; exact Nat.mul_pos hb (by omega)
  have hrun : (((List.range (b * bm.length)).map fun j => pixel bm 0 (j / b)).takeWhile id).length = 7 * b := by
    rw [Nat.mul_comm 7 b]
    apply run_eq
    · rw [h.rows]; exact Nat.mul_le_mul_left b (by omega)
    · intro j hj
      have hj' : j / b < 7 := Nat.div_lt_of_lt_mul hj
      have hu := symbol_upright h
      simp only [upright, Bool.and_eq_true, finderAt_iff, Nat.zero_add] at hu
      rw [hu.1.1.1 0 (j / b) (by omega) hj']
      have : ∀ x < 7, (cheb 0 x 3 3 != 2) = true := by decide
      exact this _ hj'
    · intro _
      rw [Nat.mul_div_cancel_left _ hb]
      refine h.pattern 0 7 false (by omega) (by omega) ?_
      have : ∀ v ∈ List.range 41, 1 ≤ v → patternColour v 0 7 = some false := by decide +kernel
      exact this v (List.mem_range.2 (by have := h.version; omega)) h.version.1
  unfold shrink
  simp only
  rw [inflate_head hpos, hrun, Nat.mul_div_cancel_left b (by omega : 0 < 7), sample_inflate hb hsq, if_pos ⟨hb, rfl, rfl⟩]

/-- The reader finds the symbol. -/
theorem find_photo (h : IsSymbol v lv k stream bm) (hf : finderAt bm (side v - 7) (side v - 7) = false) {b : Nat} (hb : 0 < b)
    {p : List (List Bool)} {left top : Nat} (hp : Shows p left top (inflate b bm)) {s : List (List Bool)} (hs : Seen p s) :
    ((views (crop s)).filterMap shrink).find? upright = some bm := by
  have h21 : 21 ≤ side v := by have := h.version; unfold side; omega
  have ht := tight_inflate h hb
  obtain ⟨l', t', y, hy, hty, hsy⟩ := seen_shows hp ht hs
  rw [crop_shows hy hty]
  obtain ⟨g, rfl⟩ := seen_view (n := b * side v) (by rw [inflate_length, h.rows]) (by
    intro r hr; rw [sheet_rows r hr, h.rows]) hsy
  have hvs : ∀ x ∈ views (view (b * side v) (inflate b bm) g), ∃ g', x = inflate b (view (side v) bm g') := by
    intro x hx
    rw [views_view, List.mem_map] at hx
    obtain ⟨g', _, rfl⟩ := hx
    exact ⟨g', view_inflate h.rows⟩
  have hmem : bm ∈ (views (view (b * side v) (inflate b bm) g)).filterMap shrink := by
    rw [List.mem_filterMap]
    exact ⟨inflate b bm, mem_views_view (by rw [inflate_length, h.rows]) (by intro r hr; rw [sheet_rows r hr, h.rows]), shrink_symbol h hb⟩
  cases e : ((views (view (b * side v) (inflate b bm) g)).filterMap shrink).find? upright with
  | none => exact absurd (symbol_upright h) (List.find?_eq_none.1 e _ hmem)
  | some z =>
    have hu := List.find?_some e
    have hz := List.mem_of_find?_eq_some e
    rw [List.mem_filterMap] at hz
    obtain ⟨x, hx, hxz⟩ := hz
    obtain ⟨g', rfl⟩ := hvs x hx
    have hl : (view (side v) bm g').length = side v := picture_length _ _
    have hzy : z = view (side v) bm g' := by
      refine shrink_inflate hb (by omega) (by intro r hr; rw [hl]; exact sheet_rows r hr) ?_ hxz ?_
      · rw [hl]; exact view_edge h g'
      · simp only [upright, Bool.and_eq_true] at hu; exact hu.1.1.1
    subst hzy
    rw [symbol_only h hf hu, view_id h.rows h.cols]

end Spec
