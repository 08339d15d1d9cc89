import Verif.Spec.PhotoDamage
import Verif.Proof.PhotoSize
/-!
# Finding a symbol with wrong modules in the middle
-/
namespace Spec

theorem place_block {b n : Nat} (g : Bool × Bool × Bool) {i j : Nat} (hi : i < b * n) (hj : j < b * n) :
    ((place (b * n) g i j).1 / b, (place (b * n) g i j).2 / b) = place n g (i / b) (j / b) := by
  obtain ⟨a, c, d⟩ := g
  cases a <;> cases c <;> cases d <;> simp [place, div_mirror hi, div_mirror hj]

/-- The way back. -/
def backG : Bool × Bool × Bool → Bool × Bool × Bool
  | (true, c, d) => (true, d, c)
  | (false, c, d) => (false, c, d)

theorem place_back {n : Nat} (g : Bool × Bool × Bool) {i j : Nat} (hi : i < n) (hj : j < n) :
    place n g (place n (backG g) i j).1 (place n (backG g) i j).2 = (i, j) := by
  obtain ⟨a, c, d⟩ := g
  cases a <;> cases c <;> cases d <;> simp [place, backG] <;> omega

theorem back_place {n : Nat} (g : Bool × Bool × Bool) {i j : Nat} (hi : i < n) (hj : j < n) :
    place n (backG g) (place n g i j).1 (place n g i j).2 = (i, j) := by
  obtain ⟨a, c, d⟩ := g
  cases a <;> cases c <;> cases d <;> simp [place, backG] <;> omega

theorem seen_of_view {n : Nat} {p : List (List Bool)} (hr : p.length = n) (hc : ∀ r ∈ p, r.length = n) (g : Bool × Bool × Bool) : Seen p (view n p g) := by
  have hm : view n p g ∈ views p := by
    rw [← view_id hr hc, views_view, List.mem_map, view_id hr hc]
    have all : ∀ g : Bool × Bool × Bool, g ∈ [(false, false, false), turnG (false, false, false), turnG (turnG (false, false, false)), turnG (turnG (turnG (false, false, false))),
        mirrorG (false, false, false), turnG (mirrorG (false, false, false)), turnG (turnG (mirrorG (false, false, false))), turnG (turnG (turnG (mirrorG (false, false, false))))] := by
      rintro ⟨a, b, c⟩; cases a <;> cases b <;> cases c <;> decide
    exact ⟨g, all g, rfl⟩
  simp only [views, quarters, List.cons_append, List.nil_append, List.mem_cons, List.not_mem_nil, or_false] at hm
  rcases hm with h | h | h | h | h | h | h | h <;> rw [h]
  · exact .straight
  · exact .turned .straight
  · exact .turned (.turned .straight)
  · exact .turned (.turned (.turned .straight))
  · exact .mirrored .straight
  · exact .turned (.mirrored .straight)
  · exact .turned (.turned (.mirrored .straight))
  · exact .turned (.turned (.turned (.mirrored .straight)))

theorem reverse_range_map (N : Nat) (f : Nat → Bool) : ((List.range N).map f).reverse = (List.range N).map fun j => f (N - 1 - j) := by
  apply List.ext_getElem
  · simp
  · intro i h1 h2
    simp only [List.length_reverse, List.length_map, List.length_range] at h1
    simp

/-- A run of whole modules. -/
theorem run_modules {b n : Nat} (hb : 0 < b) {f : Nat → Bool} (hn : 8 ≤ n) (h1 : ∀ j < 7, f j = true) (h2 : f 7 = false) :
    (((List.range (b * n)).map fun j => f (j / b)).takeWhile id).length = b * 7 := by
  apply run_eq
  · exact Nat.mul_le_mul_left b (by omega)
  · intro j hj
    exact h1 _ (Nat.div_lt_of_lt_mul hj)
  · intro _
    simp only [Nat.mul_div_cancel_left _ hb, h2]

section
variable {v : Nat} {lv : Level} {k : Nat} {stream : List Bool} {bm : List (List Bool)}

/-- The four edges of a symbol. -/
theorem edges (h : IsSymbol v lv k stream bm) : ∀ t < 8, pixel bm 0 t = decide (t < 7) ∧ pixel bm t 0 = decide (t < 7) ∧
    pixel bm 0 (side v - 1 - t) = decide (t < 7) ∧ pixel bm (side v - 1 - t) 0 = decide (t < 7) ∧
    pixel bm (side v - 1) t = decide (t < 7) ∧ pixel bm t (side v - 1) = decide (t < 7) := by
  have hs : 21 ≤ side v := by have := h.version; unfold side; omega
  have tab : ∀ v ∈ List.range 41, 1 ≤ v → ∀ t < 8, patternColour v 0 t = some (decide (t < 7)) ∧ patternColour v t 0 = some (decide (t < 7)) ∧
      patternColour v 0 (side v - 1 - t) = some (decide (t < 7)) ∧ patternColour v (side v - 1 - t) 0 = some (decide (t < 7)) ∧
      patternColour v (side v - 1) t = some (decide (t < 7)) ∧ patternColour v t (side v - 1) = some (decide (t < 7)) := by decide +kernel
  intro t ht
  obtain ⟨a1, a2, a3, a4, a5, a6⟩ := tab v (List.mem_range.2 (by have := h.version; omega)) h.version.1 t ht
  exact ⟨h.pattern _ _ _ (by omega) (by omega) a1, h.pattern _ _ _ (by omega) (by omega) a2, h.pattern _ _ _ (by omega) (by omega) a3,
    h.pattern _ _ _ (by omega) (by omega) a4, h.pattern _ _ _ (by omega) (by omega) a5, h.pattern _ _ _ (by omega) (by omega) a6⟩

theorem size_of_runs {b : Nat} {p : List (List Bool)} {c : Nat} (hc : moduleSize p = some c)
    (h : ((p.headD []).takeWhile id).length = b * 7 ∨ ((p.headD []).reverse.takeWhile id).length = b * 7) : c = b := by
  unfold moduleSize at hc
  simp only at hc
  split at hc
  · next hh =>
    have := Option.some.inj hc
    omega
  · cases hc

variable {b : Nat} {x : List (List Bool)}

theorem view_head (h : IsSymbol v lv k stream bm) (hb : 0 < b) (hmid : ∀ i j, i < b * side v → j < b * side v →
      pixel x i j ≠ pixel bm (i / b) (j / b) → 8 ≤ i / b ∧ i / b < side v - 7 ∧ 8 ≤ j / b ∧ j / b < side v - 7) (g) :
    (view (b * side v) x g).headD [] = (List.range (b * side v)).map fun j => pixel bm (place (side v) g 0 (j / b)).1 (place (side v) g 0 (j / b)).2 := by
  have hs : 21 ≤ side v := by have := h.version; unfold side; omega
  have hpos : 0 < b * side v := Nat.mul_pos hb (by omega)
  rw [view, headD_picture hpos]
  apply List.map_congr_left
  intro j hj
  have hj := List.mem_range.1 hj
  have hp := place_lt (g := g) hpos hj
  have e := place_block g hpos hj
  rw [Nat.zero_div] at e
  have e1 := congrArg Prod.fst e
  have e2 := congrArg Prod.snd e
  simp only at e1 e2
  rw [← e1, ← e2]
  by_contra hne
  obtain ⟨m1, m2, m3, m4⟩ := hmid _ _ hp.1 hp.2 hne
  rw [e1] at m1 m2
  rw [e2] at m3 m4
  obtain ⟨a, c, d⟩ := g
  cases a <;> cases c <;> cases d <;> simp [place] at m1 m2 m3 m4 <;> omega

/-- Whichever way up the picture is, no wrong size of a module is found. -/
theorem size_right (h : IsSymbol v lv k stream bm) (hb : 0 < b) (hmid : ∀ i j, i < b * side v → j < b * side v →
      pixel x i j ≠ pixel bm (i / b) (j / b) → 8 ≤ i / b ∧ i / b < side v - 7 ∧ 8 ≤ j / b ∧ j / b < side v - 7) (g) {c : Nat}
    (hc : moduleSize (view (b * side v) x g) = some c) : c = b := by
  have hs : 21 ≤ side v := by have := h.version; unfold side; omega
  refine size_of_runs hc ?_
  rw [view_head h hb hmid, reverse_range_map]
  have E := edges h
  have rev : ∀ f : Nat → Bool, ((List.range (b * side v)).map fun j => f ((b * side v - 1 - j) / b)) = (List.range (b * side v)).map fun j => f (side v - 1 - j / b) := by
    intro f
    apply List.map_congr_left
    intro j hj
    rw [div_mirror (List.mem_range.1 hj)]
  rw [rev fun j => pixel bm (place (side v) g 0 j).1 (place (side v) g 0 j).2]
  have go : ∀ f : Nat → Bool, (∀ t < 8, f t = decide (t < 7)) → (((List.range (b * side v)).map fun j => f (j / b)).takeWhile id).length = b * 7 := by
    intro f hf
    exact run_modules hb (by omega) (fun j hj => by rw [hf j (by omega)]; simpa using hj) (by rw [hf 7 (by omega)]; rfl)
  have pick : (∀ t < 8, pixel bm (place (side v) g 0 t).1 (place (side v) g 0 t).2 = decide (t < 7)) ∨
      (∀ t < 8, pixel bm (place (side v) g 0 (side v - 1 - t)).1 (place (side v) g 0 (side v - 1 - t)).2 = decide (t < 7)) := by
    obtain ⟨a, c', d⟩ := g
    have back : ∀ t < 8, side v - 1 - (side v - 1 - t) = t := by intro t ht; omega
    cases a <;> cases c' <;> cases d
    · left; intro t ht; exact (E t ht).1
    · left; intro t ht; exact (E t ht).2.2.1
    · left; intro t ht; exact (E t ht).2.2.2.2.1
    · right; intro t ht
      show pixel bm (side v - 1) (side v - 1 - (side v - 1 - t)) = _
      rw [back t ht]
      exact (E t ht).2.2.2.2.1
    · left; intro t ht; exact (E t ht).2.1
    · left; intro t ht; exact (E t ht).2.2.2.2.2
    · left; intro t ht; exact (E t ht).2.2.2.1
    · right; intro t ht
      show pixel bm (side v - 1 - (side v - 1 - t)) (side v - 1) = _
      rw [back t ht]
      exact (E t ht).2.2.2.2.2
  exact pick.imp (go fun j => pixel bm (place (side v) g 0 j).1 (place (side v) g 0 j).2)
    (go fun j => pixel bm (place (side v) g 0 (side v - 1 - j)).1 (place (side v) g 0 (side v - 1 - j)).2)

/-- Right way up the size of a module is found. -/
theorem size_found (h : IsSymbol v lv k stream bm) (hb : 0 < b) (hmid : ∀ i j, i < b * side v → j < b * side v →
      pixel x i j ≠ pixel bm (i / b) (j / b) → 8 ≤ i / b ∧ i / b < side v - 7 ∧ 8 ≤ j / b ∧ j / b < side v - 7) (hl : x.length = b * side v) (hr : ∀ r ∈ x, r.length = b * side v) :
    moduleSize x = some b := by
  have hs : 21 ≤ side v := by have := h.version; unfold side; omega
  have hv := view_head h hb hmid (false, false, false)
  rw [view_id hl hr] at hv
  have E := edges h
  have l1 : ((x.headD []).takeWhile id).length = b * 7 := by
    rw [hv]
    exact run_modules (f := fun j => pixel bm 0 j) hb (by omega) (fun j hj => by rw [(E j (by omega)).1]; simpa using hj) (by rw [(E 7 (by omega)).1]; rfl)
  have l2 : ((x.headD []).reverse.takeWhile id).length = b * 7 := by
    rw [hv, reverse_range_map]
    have rev : ((List.range (b * side v)).map fun j => pixel bm (place (side v) (false, false, false) 0 ((b * side v - 1 - j) / b)).1
        (place (side v) (false, false, false) 0 ((b * side v - 1 - j) / b)).2) = (List.range (b * side v)).map fun j => pixel bm 0 (side v - 1 - j / b) := by
      apply List.map_congr_left
      intro j hj
      rw [div_mirror (List.mem_range.1 hj)]
      rfl
    rw [rev]
    exact run_modules (f := fun j => pixel bm 0 (side v - 1 - j)) hb (by omega) (fun j hj => by rw [(E j (by omega)).2.2.1]; simpa using hj) (by rw [(E 7 (by omega)).2.2.1]; rfl)
  unfold moduleSize
  simp only [l1, l2]
  rw [if_pos ⟨by omega, trivial, by omega⟩]
  congr 1
  omega

theorem tight_middle (h : IsSymbol v lv k stream bm) (hb : 0 < b) (hmid : ∀ i j, i < b * side v → j < b * side v →
      pixel x i j ≠ pixel bm (i / b) (j / b) → 8 ≤ i / b ∧ i / b < side v - 7 ∧ 8 ≤ j / b ∧ j / b < side v - 7) (hl : x.length = b * side v) (hr : ∀ r ∈ x, r.length = b * side v) :
    Tight x := by
  have hs : 21 ≤ side v := by have := h.version; unfold side; omega
  have hpos : 0 < b * side v := Nat.mul_pos hb (by omega)
  obtain ⟨⟨a1, _⟩, ⟨b1, _⟩, ⟨c1, _⟩⟩ := finder_cells h
  have last : (b * side v - 1) / b = side v - 1 := by
    have := div_mirror (b := b) (n := side v) (i := 0) hpos
    rwa [Nat.sub_zero, Nat.zero_div, Nat.sub_zero] at this
  have px : ∀ i j, i < b * side v → j < b * side v → (i / b = 0 ∨ j / b = 0) → pixel x i j = pixel bm (i / b) (j / b) := by
    intro i j hi hj h0
    by_contra hne
    obtain ⟨m1, _, m3, _⟩ := hmid i j hi hj hne
    omega
  refine ⟨fun r hx => by rw [hl]; exact hr r hx, by omega, ⟨0, by omega, ?_⟩, ⟨0, by omega, ?_⟩, ⟨0, by omega, ?_⟩, ⟨0, by omega, ?_⟩⟩
  · rw [px _ _ hpos hpos (Or.inl (Nat.zero_div _)), Nat.zero_div]; exact a1
  · rw [hl, px _ _ (by omega) hpos (Or.inr (Nat.zero_div _)), Nat.zero_div, last]; exact c1
  · rw [px _ _ hpos hpos (Or.inl (Nat.zero_div _)), Nat.zero_div]; exact a1
  · rw [hl, px _ _ hpos (by omega) (Or.inl (Nat.zero_div _)), Nat.zero_div, last]; exact b1

/-- What the reader looks at: every module is right if all of its pixels are. -/
theorem found_damaged (unsjis : Nat → Option Nat) (h : IsSymbol v lv k stream bm) (hb : 0 < b)
    (hmid : ∀ i j, i < b * side v → j < b * side v →
      pixel x i j ≠ pixel bm (i / b) (j / b) → 8 ≤ i / b ∧ i / b < side v - 7 ∧ 8 ≤ j / b ∧ j / b < side v - 7)
    (hl : x.length = b * side v) (hr : ∀ r ∈ x, r.length = b * side v)
    {p : List (List Bool)} {left top : Nat} (hp : Shows p left top x) {s : List (List Bool)} (hs : Seen p s) :
    ∃ y z, decodePhotoDamaged unsjis s = decodeDamagedAnyWay unsjis z ∧ Seen y z ∧ y.length = side v ∧ (∀ r ∈ y, r.length = side v) ∧
      ∀ i j, i < side v → j < side v → ∃ i' j', i' < b * side v ∧ j' < b * side v ∧ i' / b = i ∧ j' / b = j ∧ pixel y i j = pixel x i' j' := by
  have h21 : 21 ≤ side v := by have := h.version; unfold side; omega
  have ht := tight_middle h hb hmid hl hr
  obtain ⟨l', t', y, hy, hty, hsy⟩ := seen_shows hp ht hs
  obtain ⟨g, rfl⟩ := seen_view hl hr hsy
  have hsize : (views (view (b * side v) x g)).findSome? moduleSize = some b := by
    cases e : (views (view (b * side v) x g)).findSome? moduleSize with
    | none =>
      have := List.findSome?_eq_none_iff.1 e x (mem_views_view hl hr)
      rw [size_found h hb hmid hl hr] at this
      cases this
    | some c =>
      obtain ⟨w, hw, hc⟩ := List.exists_of_findSome?_eq_some e
      rw [views_view, List.mem_map] at hw
      obtain ⟨g', _, rfl⟩ := hw
      rw [size_right h hb hmid g' hc]
  have hcrop := crop_shows hy hty
  have hN : (view (b * side v) x g).length = b * side v := picture_length _ _
  generalize hz : (picture (side v) fun i j => pixel (view (b * side v) x g) (b * i + b / 2) (b * j + b / 2)) = z
  have zl : z.length = side v := by rw [← hz]; exact picture_length _ _
  have zr : ∀ r ∈ z, r.length = side v := by rw [← hz]; exact fun r hr => sheet_rows r hr
  refine ⟨view (side v) z (backG g), z, ?_, ?_, picture_length _ _, fun r hr => sheet_rows r hr, ?_⟩
  · unfold decodePhotoDamaged
    rw [hcrop, hsize, ← hz, hN]
    simp only [bind, Option.bind, Nat.mul_div_cancel_left _ hb]
  · have : z = view (side v) (view (side v) z (backG g)) g := by
      conv => lhs; rw [← picture_pixel zl zr]
      rw [view]
      apply picture_congr
      intro i j hi hj
      have hp := place_lt (g := g) hi hj
      rw [view, pixel_picture hp.1 hp.2, back_place g hi hj]
    conv => rhs; rw [this]
    exact seen_of_view (picture_length _ _) (fun r hr => sheet_rows r hr) g
  · intro i j hi hj
    have hq := place_lt (g := backG g) hi hj
    have mid : ∀ c, c < side v → b * c + b / 2 < b * side v ∧ (b * c + b / 2) / b = c := by
      intro c hc
      have : b * (c + 1) ≤ b * side v := Nat.mul_le_mul_left b hc
      rw [Nat.mul_add] at this
      have h2 : b / 2 < b := by omega
      exact ⟨by omega, by rw [Nat.mul_add_div hb, Nat.div_eq_of_lt h2, Nat.add_zero]⟩
    obtain ⟨m1, m2⟩ := mid _ hq.1
    obtain ⟨m3, m4⟩ := mid _ hq.2
    have hpl := place_lt (g := g) m1 m3
    have e := place_block g m1 m3
    rw [m2, m4, place_back g hi hj] at e
    refine ⟨_, _, hpl.1, hpl.2, congrArg Prod.fst e, congrArg Prod.snd e, ?_⟩
    rw [view, pixel_picture hi hj, ← hz, pixel_picture hq.1 hq.2, view, pixel_picture m1 m3]

end
end Spec
