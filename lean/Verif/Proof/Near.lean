import Verif.Props.Shapes
import Mathlib.Tactic.LinearCombination
/-!
# The neighbourhood of the centres of the blocks

`Props/Shapes.lean` looks at the centres of blocks; here are the squares around them that contain a pixel, in blocks of at least 10 pixels, with a quarter of a pixel to spare.  In unit
coordinates (a block is two units wide) such a square is at most a quarter away from the centre.
-/
namespace QR.Plane

/-- Which side of the horizontal line through `p` the ray counts `a` to. -/
theorem edge_cross_right {p a b : Pt} (h : a.y ≤ p.y ∧ p.y < b.y → 0 < cross a b p) (h' : p.y < a.y ∧ b.y ≤ p.y → cross a b p < 0) :
    edgeWind p a b = up p b - up p a := by
  unfold edgeWind up
  by_cases ha : a.y ≤ p.y
  · rw [if_pos ha]
    by_cases hb : p.y < b.y
    · rw [if_pos ⟨hb, h ⟨ha, hb⟩⟩, if_pos hb, if_neg (not_lt.2 ha)]; rfl
    · rw [if_neg (fun hh => hb hh.1), if_neg hb, if_neg (not_lt.2 ha)]; rfl
  · rw [if_neg ha]
    by_cases hb : b.y ≤ p.y
    · rw [if_pos ⟨hb, h' ⟨not_le.1 ha, hb⟩⟩, if_neg (not_lt.2 hb), if_pos (not_le.1 ha)]; rfl
    · rw [if_neg (fun hh => hb hh.1), if_pos (not_le.1 hb), if_pos (not_le.1 ha)]; rfl

theorem edge_cross_left {p a b : Pt} (h : a.y ≤ p.y ∧ p.y < b.y → cross a b p ≤ 0) (h' : p.y < a.y ∧ b.y ≤ p.y → 0 ≤ cross a b p) :
    edgeWind p a b = 0 := by
  unfold edgeWind
  by_cases ha : a.y ≤ p.y
  · rw [if_pos ha, if_neg]
    rintro ⟨h1, h2⟩
    exact absurd (h ⟨ha, h1⟩) (not_le.2 h2)
  · rw [if_neg ha, if_neg]
    rintro ⟨h1, h2⟩
    exact absurd (h' ⟨not_le.1 ha, h1⟩) (not_le.2 h2)

/-- A bulge does not wind around points outside a half-plane that contains its three points. -/
theorem bulge_half {p a c b : Pt} {s t : Rat} (h : (0 < s * (a.x - p.x) + t * (a.y - p.y)) ∧ (0 < s * (c.x - p.x) + t * (c.y - p.y)) ∧
    0 < s * (b.x - p.x) + t * (b.y - p.y)) : bulgeWind p a c b = 0 := by
  have key : ¬((0 < cross p c b ∧ 0 ≤ cross a p b ∧ 0 < cross a c p) ∨ (cross p c b < 0 ∧ cross a p b ≤ 0 ∧ cross a c p < 0)) := by
    intro hw
    refine not_bary (a := s * (a.x - p.x) + t * (a.y - p.y)) (b := s * (c.x - p.x) + t * (c.y - p.y)) (c := s * (b.x - p.x) + t * (b.y - p.y)) ?_ hw (.inl h)
    have h1 := bary_x p a c b
    have h2 := bary_y p a c b
    linear_combination s * h1 + t * h2
  unfold bulgeWind
  simp only
  rw [if_neg, if_neg]
  · rintro ⟨h1, h3, _, h2⟩; exact key (.inr ⟨h1, not_rightOf_le h2, h3⟩)
  · rintro ⟨h1, h3, _, h2⟩; exact key (.inl ⟨h1, rightOf_le h2, h3⟩)

/-- A point is not covered by an outline if a half-plane contains all points of the outline, but not the point: `s = 1` or `s = -1` is the side. -/
theorem covers_half {start : Pt} {segs : List Seg} {p : Pt} {t : Rat} {s : Rat} (hs : s = 1 ∨ s = -1)
    (h : ∀ q ∈ pts start segs, 0 < s * (q.x - p.x) + t * (q.y - p.y)) : ¬ (Figure.outline start segs).covers p := by
  intro hc
  have z : ∀ g : Pt → Int, (∀ a b, 0 < s * (a.x - p.x) + t * (a.y - p.y) → 0 < s * (b.x - p.x) + t * (b.y - p.y) → edgeWind p a b = g b - g a) → False := by
    intro g he
    have := wind_zero_of (Q := fun q => 0 < s * (q.x - p.x) + t * (q.y - p.y)) (g := g) he (fun a c b ha hc hb => bulge_half ⟨ha, hc, hb⟩) segs start
      (h _ (by simp [pts])) (h _ (by simp [pts])) h
    exact hc (by rw [this]; omega)
  rcases hs with rfl | rfl
  · refine z (up p) fun a b ha hb => edge_cross_right ?_ ?_
    · rintro ⟨h1, h2⟩
      unfold cross
      nlinarith [mul_nonneg (sub_nonneg.2 h1) hb.le, mul_pos (sub_pos.2 h2) ha]
    · rintro ⟨h1, h2⟩
      unfold cross
      nlinarith [mul_nonneg (sub_nonneg.2 h2) ha.le, mul_pos (sub_pos.2 h1) hb]
  · refine z (fun _ => 0) fun a b ha hb => ?_
    rw [edge_cross_left (p := p) (a := a) (b := b)]
    · rfl
    · rintro ⟨h1, h2⟩
      unfold cross
      nlinarith [mul_nonneg (sub_nonneg.2 h1) hb.le, mul_pos (sub_pos.2 h2) ha]
    · rintro ⟨h1, h2⟩
      unfold cross
      nlinarith [mul_nonneg (sub_nonneg.2 h2) ha.le, mul_pos (sub_pos.2 h1) hb]

/-- At most `e` away in both directions. -/
def Near (e : Rat) (c p : Pt) : Prop := c.x - e ≤ p.x ∧ p.x ≤ c.x + e ∧ c.y - e ≤ p.y ∧ p.y ≤ c.y + e

theorem edge_up {p a b : Pt} (ha : a.y ≤ p.y) (hb : p.y < b.y) : (0 < cross a b p → edgeWind p a b = 1) ∧ (cross a b p ≤ 0 → edgeWind p a b = 0) := by
  unfold edgeWind
  rw [if_pos ha]
  exact ⟨fun h => if_pos ⟨hb, h⟩, fun h => if_neg (fun hh => absurd hh.2 (not_lt.2 h))⟩

theorem edge_down {p a b : Pt} (ha : p.y < a.y) (hb : b.y ≤ p.y) : (cross a b p < 0 → edgeWind p a b = -1) ∧ (0 ≤ cross a b p → edgeWind p a b = 0) := by
  unfold edgeWind
  rw [if_neg (not_le.2 ha)]
  exact ⟨fun h => if_pos ⟨hb, h⟩, fun h => if_neg (fun hh => absurd hh.2 (not_lt.2 h))⟩

theorem bulge_above {p a c b : Pt} (ha : p.y < a.y) (hc : p.y < c.y) (hb : p.y < b.y) : bulgeWind p a c b = 0 :=
  bulge_half (s := 0) (t := 1) ⟨by linarith, by linarith, by linarith⟩

theorem bulge_below {p a c b : Pt} (ha : a.y < p.y) (hc : c.y < p.y) (hb : b.y < p.y) : bulgeWind p a c b = 0 :=
  bulge_half (s := 0) (t := -1) ⟨by linarith, by linarith, by linarith⟩

/-- What a curve adds to the winding number of a point below which it starts and above which it ends, or the other way round, if the point is on its
hollow side. -/
theorem quad_wind {p a c b : Pt} (hd : cross a p b * cross a p b < 4 * cross p c b * cross a c p) :
    (0 < cross p c b → 0 < cross a c p → a.y ≤ p.y → p.y < b.y → edgeWind p a b + bulgeWind p a c b = 1) ∧
    (0 < cross p c b → 0 < cross a c p → p.y < a.y → b.y ≤ p.y → edgeWind p a b + bulgeWind p a c b = 0) ∧
    (cross p c b < 0 → cross a c p < 0 → a.y ≤ p.y → p.y < b.y → edgeWind p a b + bulgeWind p a c b = 0) ∧
    (cross p c b < 0 → cross a c p < 0 → p.y < a.y → b.y ≤ p.y → edgeWind p a b + bulgeWind p a c b = -1) := by
  have hpos : 0 < cross p c b → 0 < cross a c p → bulgeWind p a c b = if rightOf a b p then 1 else 0 := by
    intro h1 h2
    unfold bulgeWind
    simp only
    by_cases hr : rightOf a b p
    · rw [if_pos ⟨h1, h2, hd, hr⟩, if_pos hr]
    · rw [if_neg (fun h => hr h.2.2.2), if_neg (fun h => absurd h.1 (not_lt.2 h1.le)), if_neg hr]
  have hneg : cross p c b < 0 → cross a c p < 0 → bulgeWind p a c b = if rightOf a b p then 0 else -1 := by
    intro h1 h2
    unfold bulgeWind
    simp only
    rw [if_neg (fun h => absurd h.1 (not_lt.2 h1.le))]
    by_cases hr : rightOf a b p
    · rw [if_neg (fun h => h.2.2.2 hr), if_pos hr]
    · rw [if_pos ⟨h1, h2, hd, hr⟩, if_neg hr]
  have rup : a.y ≤ p.y → p.y < b.y → (rightOf a b p ↔ cross a b p ≤ 0) := by
    intro h1 h2
    have : a.y < b.y := lt_of_le_of_lt h1 h2
    unfold rightOf
    constructor
    · rintro (h | ⟨h, _⟩)
      · exact h.le
      · exact h.le
    · intro h
      rcases h.lt_or_eq with h | h
      · exact .inl h
      · exact .inr ⟨h, .inl this⟩
  have rdown : p.y < a.y → b.y ≤ p.y → (rightOf a b p ↔ cross a b p < 0) := by
    intro h1 h2
    unfold rightOf
    constructor
    · rintro (h | ⟨_, h | ⟨h, _⟩⟩)
      · exact h
      · linarith
      · linarith
    · exact .inl
  refine ⟨?_, ?_, ?_, ?_⟩ <;> intro h1 h2 h3 h4
  · rw [hpos h1 h2]
    rcases le_or_gt (cross a b p) 0 with h | h
    · rw [(edge_up h3 h4).2 h, if_pos ((rup h3 h4).2 h)]; rfl
    · rw [(edge_up h3 h4).1 h, if_neg (fun hh => absurd ((rup h3 h4).1 hh) (not_le.2 h))]; rfl
  · rw [hpos h1 h2]
    rcases lt_or_ge (cross a b p) 0 with h | h
    · rw [(edge_down h3 h4).1 h, if_pos ((rdown h3 h4).2 h)]; rfl
    · rw [(edge_down h3 h4).2 h, if_neg (fun hh => absurd ((rdown h3 h4).1 hh) (not_lt.2 h))]; rfl
  · rw [hneg h1 h2]
    rcases le_or_gt (cross a b p) 0 with h | h
    · rw [(edge_up h3 h4).2 h, if_pos ((rup h3 h4).2 h)]; rfl
    · rw [(edge_up h3 h4).1 h, if_neg (fun hh => absurd ((rup h3 h4).1 hh) (not_le.2 h))]; rfl
  · rw [hneg h1 h2]
    rcases lt_or_ge (cross a b p) 0 with h | h
    · rw [(edge_down h3 h4).1 h, if_pos ((rdown h3 h4).2 h)]; rfl
    · rw [(edge_down h3 h4).2 h, if_neg (fun hh => absurd ((rdown h3 h4).1 hh) (not_lt.2 h))]; rfl

end QR.Plane

namespace QR.Standard
open QR QR.Matrix Spec Plane

/-- Do the points of a figure lie in a half-plane? -/
def inHalf (f : Figure) (s t k : Rat) : Bool :=
  match f with
  | .outline a l => (pts a l).all fun q => decide (k ≤ s * q.x + t * q.y)
  | _ => false

theorem inHalf_covers {f : Figure} {s t k : Rat} (hs : s = 1 ∨ s = -1) (h : inHalf f s t k = true) {q : Pt} (hc : f.covers q) : k ≤ s * q.x + t * q.y := by
  cases f with
  | outline a l =>
    by_contra hn
    refine covers_half (t := t) hs (fun p hp => ?_) hc
    have := of_decide_eq_true (List.all_eq_true.1 h p hp)
    linarith
  | rect x y w h' => cases h
  | disc => cases h

/-- The pieces that reach into other blocks do not come near the centres of the diagonal neighbours. -/
theorem diagonal_clear {q : Pt} :
    (Near (1 / 4) ⟨-1, 3⟩ q → ¬ uBL.covers q ∧ ¬ rBL3.covers q) ∧ (Near (1 / 4) ⟨3, 3⟩ q → ¬ uBR.covers q ∧ ¬ rBR3.covers q) ∧
    (Near (1 / 4) ⟨-1, -1⟩ q → ¬ uTL.covers q ∧ ¬ rTL3.covers q) ∧ (Near (1 / 4) ⟨3, -1⟩ q → ¬ uTR.covers q ∧ ¬ rTR3.covers q) := by
  refine ⟨?_, ?_, ?_, ?_⟩ <;> rintro ⟨h1, h2, h3, h4⟩ <;> simp only at h1 h2 h3 h4 <;> constructor <;> intro hc
  · have := inHalf_covers (s := 1) (t := -1) (k := -3) (.inl rfl) (by decide +kernel) hc; linarith
  · have := inHalf_covers (s := 1) (t := -1) (k := -3) (.inl rfl) (by decide +kernel) hc; linarith
  · have := inHalf_covers (s := -1) (t := -1) (k := -5) (.inr rfl) (by decide +kernel) hc; linarith
  · have := inHalf_covers (s := -1) (t := -1) (k := -5) (.inr rfl) (by decide +kernel) hc; linarith
  · have := inHalf_covers (s := 1) (t := 1) (k := -1) (.inl rfl) (by decide +kernel) hc; linarith
  · have := inHalf_covers (s := 1) (t := 1) (k := -1) (.inl rfl) (by decide +kernel) hc; linarith
  · have := inHalf_covers (s := -1) (t := 1) (k := -3) (.inr rfl) (by decide +kernel) hc; linarith
  · have := inHalf_covers (s := -1) (t := 1) (k := -3) (.inr rfl) (by decide +kernel) hc; linarith

/-- The square around the centre of the block `(dx, dy)` away, in unit coordinates. -/
abbrev Around (dx dy : Int) (q : Pt) : Prop := Near (1 / 4) ⟨2 * (dx : Rat) + 1, 2 * (dy : Rat) + 1⟩ q

theorem near_zero {d : Int} {a : Rat} (h1 : 2 * (d : Rat) + 1 - 1 / 4 ≤ a) (h2 : a ≤ 2 * (d : Rat) + 1 + 1 / 4) (h3 : 0 ≤ a) (h4 : a ≤ 2) : d = 0 := by
  have a : (-1 : Rat) < d := by linarith
  have b : (d : Rat) < 1 := by linarith
  have a' : -1 < d := by exact_mod_cast a
  have b' : d < 1 := by exact_mod_cast b
  omega

theorem near_range {d : Int} {a : Rat} (h1 : 2 * (d : Rat) + 1 - 1 / 4 ≤ a) (h2 : a ≤ 2 * (d : Rat) + 1 + 1 / 4) (h3 : -1 ≤ a) (h4 : a ≤ 3) : d = -1 ∨ d = 0 ∨ d = 1 := by
  have a : (-2 : Rat) < d := by linarith
  have b : (d : Rat) < 2 := by linarith
  have a' : -2 < d := by exact_mod_cast a
  have b' : d < 2 := by exact_mod_cast b
  omega

/-- The squares around centres a drawing function touches: its own, and, if it is dark, those of dark neighbours. -/
theorem unit_near (d : DrawFn) {mask : UInt16} {f : Figure} (hf : Cmd.add f ∈ unitCmds d mask) {dx dy : Int} {q : Pt} (hq : Around dx dy q) (hc : f.covers q) :
    (dx = 0 ∧ dy = 0) ∨ (flag mask 4 ∧ -1 ≤ dx ∧ dx ≤ 1 ∧ -1 ≤ dy ∧ dy ≤ 1 ∧ flag mask (3 * (dy + 1) + (dx + 1)).toNat) := by
  obtain ⟨n1, n2, n3, n4⟩ := hq
  simp only at n1 n2 n3 n4
  obtain ⟨r1, r2, r3, r4, r5, r6, r7, r8⟩ := unit_reach d hf hc
  rcases figs d hf with h | h | ⟨h4, h⟩
  · obtain ⟨a, b, c, e⟩ := inner_box h hc
    exact .inl ⟨near_zero n1 n2 a b, near_zero n3 n4 c e⟩
  · obtain ⟨a, b, c, e⟩ := corner_box h hc
    exact .inl ⟨near_zero n1 n2 a b, near_zero n3 n4 c e⟩
  · have hx := near_range n1 n2 r1 r2
    have hy := near_range n3 n4 r3 r4
    obtain ⟨dBL, dBR, dTL, dTR⟩ := diagonal_clear (q := q)
    -- beside
    rcases hx with rfl | rfl | rfl <;> rcases hy with rfl | rfl | rfl <;> norm_num at n1 n2 n3 n4
    · exfalso
      obtain ⟨d1, d2⟩ := dTL ⟨by norm_num; linarith, by norm_num; linarith, by norm_num; linarith, by norm_num; linarith⟩
      rcases h with ⟨rfl, g1, g2⟩ | ⟨rfl, g1, g2⟩ | ⟨rfl | rfl, g1, g2⟩ | ⟨rfl | rfl, g1, g2⟩ | ⟨rfl | rfl, g1, g2⟩ | ⟨rfl | rfl, g1, g2⟩
      · have := inBox_covers (x0 := -1) (x1 := 3) (y0 := 0) (y1 := 2) (by decide +kernel) hc; linarith [this.2.2.1]
      · have := inBox_covers (x0 := 0) (x1 := 2) (y0 := -1) (y1 := 3) (by decide +kernel) hc; linarith [this.1]
      · have := inBox_covers (x0 := 0) (x1 := 3) (y0 := 0) (y1 := 3) (by decide +kernel) hc; linarith [this.1]
      · have := inBox_covers (x0 := 0) (x1 := 3) (y0 := 0) (y1 := 3) (by decide +kernel) hc; linarith [this.1]
      · have := inBox_covers (x0 := -1) (x1 := 2) (y0 := 0) (y1 := 3) (by decide +kernel) hc; linarith [this.2.2.1]
      · have := inBox_covers (x0 := -1) (x1 := 2) (y0 := 0) (y1 := 3) (by decide +kernel) hc; linarith [this.2.2.1]
      · exact d1 hc
      · exact d2 hc
      · have := inBox_covers (x0 := 0) (x1 := 3) (y0 := -1) (y1 := 2) (by decide +kernel) hc; linarith [this.1]
      · have := inBox_covers (x0 := 0) (x1 := 3) (y0 := -1) (y1 := 2) (by decide +kernel) hc; linarith [this.1]
    · exact .inr ⟨h4, by omega, by omega, by omega, by omega, (r5 (by linarith)).2⟩
    · exfalso
      obtain ⟨d1, d2⟩ := dBL ⟨by norm_num; linarith, by norm_num; linarith, by norm_num; linarith, by norm_num; linarith⟩
      rcases h with ⟨rfl, g1, g2⟩ | ⟨rfl, g1, g2⟩ | ⟨rfl | rfl, g1, g2⟩ | ⟨rfl | rfl, g1, g2⟩ | ⟨rfl | rfl, g1, g2⟩ | ⟨rfl | rfl, g1, g2⟩
      · have := inBox_covers (x0 := -1) (x1 := 3) (y0 := 0) (y1 := 2) (by decide +kernel) hc; linarith [this.2.2.2]
      · have := inBox_covers (x0 := 0) (x1 := 2) (y0 := -1) (y1 := 3) (by decide +kernel) hc; linarith [this.1]
      · have := inBox_covers (x0 := 0) (x1 := 3) (y0 := 0) (y1 := 3) (by decide +kernel) hc; linarith [this.1]
      · have := inBox_covers (x0 := 0) (x1 := 3) (y0 := 0) (y1 := 3) (by decide +kernel) hc; linarith [this.1]
      · exact d1 hc
      · exact d2 hc
      · have := inBox_covers (x0 := -1) (x1 := 2) (y0 := -1) (y1 := 2) (by decide +kernel) hc; linarith [this.2.2.2]
      · have := inBox_covers (x0 := -1) (x1 := 2) (y0 := -1) (y1 := 2) (by decide +kernel) hc; linarith [this.2.2.2]
      · have := inBox_covers (x0 := 0) (x1 := 3) (y0 := -1) (y1 := 2) (by decide +kernel) hc; linarith [this.1]
      · have := inBox_covers (x0 := 0) (x1 := 3) (y0 := -1) (y1 := 2) (by decide +kernel) hc; linarith [this.1]
    · exact .inr ⟨h4, by omega, by omega, by omega, by omega, (r7 (by linarith)).2⟩
    · exact .inl ⟨rfl, rfl⟩
    · exact .inr ⟨h4, by omega, by omega, by omega, by omega, (r8 (by linarith)).2⟩
    · exfalso
      obtain ⟨d1, d2⟩ := dTR ⟨by norm_num; linarith, by norm_num; linarith, by norm_num; linarith, by norm_num; linarith⟩
      rcases h with ⟨rfl, g1, g2⟩ | ⟨rfl, g1, g2⟩ | ⟨rfl | rfl, g1, g2⟩ | ⟨rfl | rfl, g1, g2⟩ | ⟨rfl | rfl, g1, g2⟩ | ⟨rfl | rfl, g1, g2⟩
      · have := inBox_covers (x0 := -1) (x1 := 3) (y0 := 0) (y1 := 2) (by decide +kernel) hc; linarith [this.2.2.1]
      · have := inBox_covers (x0 := 0) (x1 := 2) (y0 := -1) (y1 := 3) (by decide +kernel) hc; linarith [this.2.1]
      · have := inBox_covers (x0 := 0) (x1 := 3) (y0 := 0) (y1 := 3) (by decide +kernel) hc; linarith [this.2.2.1]
      · have := inBox_covers (x0 := 0) (x1 := 3) (y0 := 0) (y1 := 3) (by decide +kernel) hc; linarith [this.2.2.1]
      · have := inBox_covers (x0 := -1) (x1 := 2) (y0 := 0) (y1 := 3) (by decide +kernel) hc; linarith [this.2.2.1]
      · have := inBox_covers (x0 := -1) (x1 := 2) (y0 := 0) (y1 := 3) (by decide +kernel) hc; linarith [this.2.2.1]
      · have := inBox_covers (x0 := -1) (x1 := 2) (y0 := -1) (y1 := 2) (by decide +kernel) hc; linarith [this.2.1]
      · have := inBox_covers (x0 := -1) (x1 := 2) (y0 := -1) (y1 := 2) (by decide +kernel) hc; linarith [this.2.1]
      · exact d1 hc
      · exact d2 hc
    · exact .inr ⟨h4, by omega, by omega, by omega, by omega, (r6 (by linarith)).2⟩
    · exfalso
      obtain ⟨d1, d2⟩ := dBR ⟨by norm_num; linarith, by norm_num; linarith, by norm_num; linarith, by norm_num; linarith⟩
      rcases h with ⟨rfl, g1, g2⟩ | ⟨rfl, g1, g2⟩ | ⟨rfl | rfl, g1, g2⟩ | ⟨rfl | rfl, g1, g2⟩ | ⟨rfl | rfl, g1, g2⟩ | ⟨rfl | rfl, g1, g2⟩
      · have := inBox_covers (x0 := -1) (x1 := 3) (y0 := 0) (y1 := 2) (by decide +kernel) hc; linarith [this.2.2.2]
      · have := inBox_covers (x0 := 0) (x1 := 2) (y0 := -1) (y1 := 3) (by decide +kernel) hc; linarith [this.2.1]
      · exact d1 hc
      · exact d2 hc
      · have := inBox_covers (x0 := -1) (x1 := 2) (y0 := 0) (y1 := 3) (by decide +kernel) hc; linarith [this.2.1]
      · have := inBox_covers (x0 := -1) (x1 := 2) (y0 := 0) (y1 := 3) (by decide +kernel) hc; linarith [this.2.1]
      · have := inBox_covers (x0 := -1) (x1 := 2) (y0 := -1) (y1 := 2) (by decide +kernel) hc; linarith [this.2.1]
      · have := inBox_covers (x0 := -1) (x1 := 2) (y0 := -1) (y1 := 2) (by decide +kernel) hc; linarith [this.2.1]
      · have := inBox_covers (x0 := 0) (x1 := 3) (y0 := -1) (y1 := 2) (by decide +kernel) hc; linarith [this.2.2.2]
      · have := inBox_covers (x0 := 0) (x1 := 3) (y0 := -1) (y1 := 2) (by decide +kernel) hc; linarith [this.2.2.2]

/-! ## The own square -/

theorem disc_near {r : Rat} (hr : 2 / 5 < r) {q : Pt} (hq : Around 0 0 q) : (Figure.disc 1 1 r).covers q := by
  obtain ⟨n1, n2, n3, n4⟩ := hq
  norm_num at n1 n2 n3 n4
  refine ⟨by linarith, ?_⟩
  nlinarith [mul_nonneg (sub_nonneg.2 n1) (sub_nonneg.2 n2), mul_nonneg (sub_nonneg.2 n3) (sub_nonneg.2 n4), mul_pos (sub_pos.2 hr) (sub_pos.2 hr)]


theorem own_BL {q : Pt} (hq : Around 0 0 q) : rBL3.covers q ∧ rBL4.covers q := by
  obtain ⟨n1, n2, n3, n4⟩ := hq
  norm_num at n1 n2 n3 n4
  have c1 : edgeWind q ⟨0, 0⟩ ⟨2, 2⟩ + bulgeWind q ⟨0, 0⟩ ⟨2, 0⟩ ⟨2, 2⟩ = 1 := by
    refine (quad_wind ?_).1 ?_ ?_ ?_ ?_ <;> simp only [cross] <;> nlinarith
  refine ⟨?_, ?_⟩
  · unfold rBL3
    simp only [Figure.covers, windFrom]
    rw [c1, edge_above (p := q) (a := ⟨2, 2⟩) (b := ⟨0, 3⟩) (by simp only; linarith) (by simp only; linarith),
      edge_above (p := q) (a := ⟨0, 3⟩) (b := ⟨-1, 2⟩) (by simp only; linarith) (by simp only; linarith),
      bulge_above (p := q) (by simp only; linarith) (by simp only; linarith) (by simp only; linarith),
      (edge_down (p := q) (a := ⟨-1, 2⟩) (b := ⟨0, 0⟩) (by simp only; linarith) (by simp only; linarith)).2 (by simp only [cross]; linarith)]
    decide
  · unfold rBL4
    simp only [Figure.covers, windFrom]
    rw [c1, edge_above (p := q) (a := ⟨2, 2⟩) (b := ⟨0, 2⟩) (by simp only; linarith) (by simp only; linarith),
      (edge_down (p := q) (a := ⟨0, 2⟩) (b := ⟨0, 0⟩) (by simp only; linarith) (by simp only; linarith)).2 (by simp only [cross]; linarith)]
    decide

theorem own_BR {q : Pt} (hq : Around 0 0 q) : rBR3.covers q ∧ rBR4.covers q := by
  obtain ⟨n1, n2, n3, n4⟩ := hq
  norm_num at n1 n2 n3 n4
  have c1 : edgeWind q ⟨0, 2⟩ ⟨2, 0⟩ + bulgeWind q ⟨0, 2⟩ ⟨0, 0⟩ ⟨2, 0⟩ = 0 := by
    refine (quad_wind ?_).2.1 ?_ ?_ ?_ ?_ <;> simp only [cross] <;> nlinarith
  refine ⟨?_, ?_⟩
  · unfold rBR3
    simp only [Figure.covers, windFrom]
    rw [c1, (edge_up (p := q) (a := ⟨2, 0⟩) (b := ⟨3, 2⟩) (by simp only; linarith) (by simp only; linarith)).1 (by simp only [cross]; linarith),
      edge_above (p := q) (a := ⟨3, 2⟩) (b := ⟨2, 3⟩) (by simp only; linarith) (by simp only; linarith),
      bulge_above (p := q) (by simp only; linarith) (by simp only; linarith) (by simp only; linarith),
      edge_above (p := q) (a := ⟨2, 3⟩) (b := ⟨0, 2⟩) (by simp only; linarith) (by simp only; linarith)]
    decide
  · unfold rBR4
    simp only [Figure.covers, windFrom]
    rw [c1, (edge_up (p := q) (a := ⟨2, 0⟩) (b := ⟨2, 2⟩) (by simp only; linarith) (by simp only; linarith)).1 (by simp only [cross]; linarith),
      edge_above (p := q) (a := ⟨2, 2⟩) (b := ⟨0, 2⟩) (by simp only; linarith) (by simp only; linarith)]
    decide

theorem own_TR {q : Pt} (hq : Around 0 0 q) : rTR3.covers q ∧ rTR4.covers q := by
  obtain ⟨n1, n2, n3, n4⟩ := hq
  norm_num at n1 n2 n3 n4
  have c1 : edgeWind q ⟨0, 0⟩ ⟨2, 2⟩ + bulgeWind q ⟨0, 0⟩ ⟨0, 2⟩ ⟨2, 2⟩ = 0 := by
    refine (quad_wind ?_).2.2.1 ?_ ?_ ?_ ?_ <;> simp only [cross] <;> nlinarith
  refine ⟨?_, ?_⟩
  · unfold rTR3
    simp only [Figure.covers, windFrom]
    rw [c1, (edge_down (p := q) (a := ⟨2, 2⟩) (b := ⟨3, 0⟩) (by simp only; linarith) (by simp only; linarith)).1 (by simp only [cross]; linarith),
      edge_below (p := q) (a := ⟨3, 0⟩) (b := ⟨2, -1⟩) (by simp only; linarith) (by simp only; linarith),
      bulge_below (p := q) (by simp only; linarith) (by simp only; linarith) (by simp only; linarith),
      edge_below (p := q) (a := ⟨2, -1⟩) (b := ⟨0, 0⟩) (by simp only; linarith) (by simp only; linarith)]
    decide
  · unfold rTR4
    simp only [Figure.covers, windFrom]
    rw [c1, (edge_down (p := q) (a := ⟨2, 2⟩) (b := ⟨2, 0⟩) (by simp only; linarith) (by simp only; linarith)).1 (by simp only [cross]; linarith),
      edge_below (p := q) (a := ⟨2, 0⟩) (b := ⟨0, 0⟩) (by simp only; linarith) (by simp only; linarith)]
    decide

theorem own_TL {q : Pt} (hq : Around 0 0 q) : rTL3.covers q ∧ rTL4.covers q := by
  obtain ⟨n1, n2, n3, n4⟩ := hq
  norm_num at n1 n2 n3 n4
  have c1 : edgeWind q ⟨0, 2⟩ ⟨2, 0⟩ + bulgeWind q ⟨0, 2⟩ ⟨2, 2⟩ ⟨2, 0⟩ = -1 := by
    refine (quad_wind ?_).2.2.2 ?_ ?_ ?_ ?_ <;> simp only [cross] <;> nlinarith
  refine ⟨?_, ?_⟩
  · unfold rTL3
    simp only [Figure.covers, windFrom]
    rw [c1, edge_below (p := q) (a := ⟨2, 0⟩) (b := ⟨0, -1⟩) (by simp only; linarith) (by simp only; linarith),
      edge_below (p := q) (a := ⟨0, -1⟩) (b := ⟨-1, 0⟩) (by simp only; linarith) (by simp only; linarith),
      bulge_below (p := q) (by simp only; linarith) (by simp only; linarith) (by simp only; linarith),
      (edge_up (p := q) (a := ⟨-1, 0⟩) (b := ⟨0, 2⟩) (by simp only; linarith) (by simp only; linarith)).2 (by simp only [cross]; linarith)]
    decide
  · unfold rTL4
    simp only [Figure.covers, windFrom]
    rw [c1, edge_below (p := q) (a := ⟨2, 0⟩) (b := ⟨0, 0⟩) (by simp only; linarith) (by simp only; linarith),
      (edge_up (p := q) (a := ⟨0, 0⟩) (b := ⟨0, 2⟩) (by simp only; linarith) (by simp only; linarith)).2 (by simp only [cross]; linarith)]
    decide

end QR.Standard
