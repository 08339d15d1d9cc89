import Verif.Spec.Plane
import Mathlib.Tactic.Linarith
import Mathlib.Tactic.Ring
import Mathlib.Tactic.Positivity
/-!
# Lemmas about plane figures
-/
namespace QR.Plane

/-- Scaling and translation. -/
def tr (s : Rat) (t p : Pt) : Pt := ⟨t.x + s * p.x, t.y + s * p.y⟩

def Seg.tr (s : Rat) (t : Pt) : Seg → Seg
  | .line p => .line (Plane.tr s t p)
  | .quad c p => .quad (Plane.tr s t c) (Plane.tr s t p)

theorem cross_tr (s : Rat) (t a b p : Pt) : cross (tr s t a) (tr s t b) (tr s t p) = s * s * cross a b p := by
  simp only [cross, tr]; ring

theorem le_tr {s : Rat} (hs : 0 < s) (t a b : Pt) : (tr s t a).y ≤ (tr s t b).y ↔ a.y ≤ b.y := by
  simp only [tr]
  constructor
  · intro h
    have : s * a.y ≤ s * b.y := by linarith
    exact le_of_mul_le_mul_left this hs
  · intro h
    have := mul_le_mul_of_nonneg_left h hs.le
    linarith

theorem lt_tr {s : Rat} (hs : 0 < s) (t a b : Pt) : (tr s t a).y < (tr s t b).y ↔ a.y < b.y := by
  rw [← not_le, le_tr hs, not_le]

theorem edgeWind_tr {s : Rat} (hs : 0 < s) (t p a b : Pt) : edgeWind (tr s t p) (tr s t a) (tr s t b) = edgeWind p a b := by
  have h2 : 0 < s * s := mul_pos hs hs
  unfold edgeWind
  rw [cross_tr]
  have e1 : (0 < s * s * cross a b p) = (0 < cross a b p) := propext (mul_pos_iff_of_pos_left h2)
  have e2 : (s * s * cross a b p < 0) = (cross a b p < 0) := propext (by
    constructor
    · intro h; by_contra hc; push Not at hc; have := mul_nonneg h2.le hc; linarith
    · intro h; exact mul_neg_of_pos_of_neg h2 h)
  simp only [e1, e2, le_tr hs, lt_tr hs]

theorem rightOf_tr {s : Rat} (hs : 0 < s) (t a b p : Pt) : rightOf (tr s t a) (tr s t b) (tr s t p) ↔ rightOf a b p := by
  have h2 : 0 < s * s := mul_pos hs hs
  unfold rightOf
  rw [cross_tr]
  have e2 : (s * s * cross a b p < 0) ↔ (cross a b p < 0) := by
    constructor
    · intro h; by_contra hc; push Not at hc; have := mul_nonneg h2.le hc; linarith
    · intro h; exact mul_neg_of_pos_of_neg h2 h
  have e3 : (s * s * cross a b p = 0) ↔ cross a b p = 0 := by
    rw [mul_eq_zero]; constructor
    · rintro (h | h)
      · linarith
      · exact h
    · exact .inr
  have e4 : (tr s t a).y < (tr s t b).y ↔ a.y < b.y := lt_tr hs t a b
  have e5 : (tr s t a).y = (tr s t b).y ↔ a.y = b.y := by
    rw [le_antisymm_iff, le_tr hs, le_tr hs, ← le_antisymm_iff]
  have e6 : (tr s t b).x < (tr s t a).x ↔ b.x < a.x := by
    simp only [tr, add_lt_add_iff_left]; exact mul_lt_mul_iff_right₀ hs
  rw [e2, e3, e4, e5, e6]

theorem bulgeWind_tr {s : Rat} (hs : 0 < s) (t p a c b : Pt) :
    bulgeWind (tr s t p) (tr s t a) (tr s t c) (tr s t b) = bulgeWind p a c b := by
  have h2 : 0 < s * s := mul_pos hs hs
  unfold bulgeWind
  simp only [cross_tr, rightOf_tr hs]
  have e1 : ∀ z : Rat, (0 < s * s * z) = (0 < z) := fun z => propext (mul_pos_iff_of_pos_left h2)
  have e2 : ∀ z : Rat, (s * s * z < 0) = (z < 0) := fun z => propext (by
    constructor
    · intro h; by_contra hc; push Not at hc; have := mul_nonneg h2.le hc; linarith
    · intro h; exact mul_neg_of_pos_of_neg h2 h)
  have e3 : ∀ u v w : Rat, (s * s * v * (s * s * v) < 4 * (s * s * u) * (s * s * w)) = (v * v < 4 * u * w) := fun u v w => propext (by
    have h4 : 0 < (s * s) * (s * s) := mul_pos h2 h2
    have : s * s * v * (s * s * v) = (s * s) * (s * s) * (v * v) := by ring
    have h' : 4 * (s * s * u) * (s * s * w) = (s * s) * (s * s) * (4 * u * w) := by ring
    rw [this, h']
    exact mul_lt_mul_iff_right₀ h4)
  simp only [e1, e2, e3]

theorem windFrom_tr {s : Rat} (hs : 0 < s) (t p start : Pt) (segs : List Seg) : ∀ cur,
    windFrom (tr s t p) (tr s t start) (tr s t cur) (segs.map (Seg.tr s t)) = windFrom p start cur segs := by
  induction segs with
  | nil => intro cur; exact edgeWind_tr hs ..
  | cons a l ih =>
    intro cur
    cases a with
    | line b => simp only [List.map_cons, Seg.tr, windFrom, edgeWind_tr hs, ih]
    | quad c b => simp only [List.map_cons, Seg.tr, windFrom, edgeWind_tr hs, bulgeWind_tr hs, ih]

/-! ## The outline stays in the box of its points -/

/-- All the points of an outline, the control points included. -/
def pts (start : Pt) (segs : List Seg) : List Pt :=
  start :: segs.flatMap fun
    | .line p => [p]
    | .quad c p => [c, p]

theorem edge_below {p a b : Pt} (ha : a.y < p.y) (hb : b.y < p.y) : edgeWind p a b = 0 := by
  unfold edgeWind
  rw [if_pos ha.le, if_neg]
  intro h; linarith [h.1]

theorem edge_above {p a b : Pt} (ha : p.y < a.y) (hb : p.y < b.y) : edgeWind p a b = 0 := by
  unfold edgeWind
  rw [if_neg (by linarith), if_neg]
  intro h; linarith [h.1]

theorem edge_right {p a b : Pt} (ha : a.x < p.x) (hb : b.x < p.x) : edgeWind p a b = 0 := by
  unfold edgeWind
  split
  · rename_i h
    rw [if_neg]
    rintro ⟨h1, h2⟩
    have : cross a b p ≤ 0 := by
      have e : cross a b p = -((p.x - b.x) * (p.y - a.y) + (p.x - a.x) * (b.y - p.y)) := by unfold cross; ring
      rw [e]
      have := mul_nonneg (sub_nonneg.2 hb.le) (sub_nonneg.2 h)
      have := mul_nonneg (sub_nonneg.2 ha.le) (sub_nonneg.2 h1.le)
      linarith
    linarith
  · rename_i h
    rw [if_neg]
    rintro ⟨h1, h2⟩
    push Not at h
    have : 0 ≤ cross a b p := by
      have e : cross a b p = (p.x - b.x) * (a.y - p.y) + (p.x - a.x) * (p.y - b.y) := by unfold cross; ring
      rw [e]
      have := mul_nonneg (sub_nonneg.2 hb.le) (sub_nonneg.2 h.le)
      have := mul_nonneg (sub_nonneg.2 ha.le) (sub_nonneg.2 h1)
      linarith
    linarith

/-- Above the ray? -/
def up (p a : Pt) : Int := if p.y < a.y then 1 else 0

theorem edge_left {p a b : Pt} (ha : p.x < a.x) (hb : p.x < b.x) : edgeWind p a b = up p b - up p a := by
  unfold edgeWind up
  by_cases h : a.y ≤ p.y
  · rw [if_pos h, if_neg (not_lt.2 h)]
    by_cases h1 : p.y < b.y
    · rw [if_pos h1, if_pos]; rfl
      refine ⟨h1, ?_⟩
      have e : cross a b p = (b.x - p.x) * (p.y - a.y) + (a.x - p.x) * (b.y - p.y) := by unfold cross; ring
      rw [e]
      have := mul_nonneg (sub_nonneg.2 hb.le) (sub_nonneg.2 h)
      have := mul_pos (sub_pos.2 ha) (sub_pos.2 h1)
      linarith
    · rw [if_neg h1, if_neg (fun hh => h1 hh.1)]; rfl
  · rw [if_neg h, if_pos (not_le.1 h)]
    by_cases h1 : b.y ≤ p.y
    · rw [if_neg (not_lt.2 h1), if_pos]; rfl
      refine ⟨h1, ?_⟩
      have e : cross a b p = -((b.x - p.x) * (a.y - p.y) + (a.x - p.x) * (p.y - b.y)) := by unfold cross; ring
      rw [e]
      have := mul_pos (sub_pos.2 hb) (sub_pos.2 (not_le.1 h))
      have := mul_nonneg (sub_nonneg.2 ha.le) (sub_nonneg.2 h1)
      linarith
    · rw [if_pos (not_le.1 h1), if_neg (fun hh => h1 hh.1)]; rfl

theorem bary_x (p a c b : Pt) : cross p c b * (a.x - p.x) + cross a p b * (c.x - p.x) + cross a c p * (b.x - p.x) = 0 := by
  unfold cross; ring

theorem bary_y (p a c b : Pt) : cross p c b * (a.y - p.y) + cross a p b * (c.y - p.y) + cross a c p * (b.y - p.y) = 0 := by
  unfold cross; ring

/-- A combination with weights of one sign of values of one sign is not 0. -/
theorem not_bary {u v w a b c : Rat} (h : u * a + v * b + w * c = 0) (hw : (0 < u ∧ 0 ≤ v ∧ 0 < w) ∨ (u < 0 ∧ v ≤ 0 ∧ w < 0))
    (hs : (0 < a ∧ 0 < b ∧ 0 < c) ∨ (a < 0 ∧ b < 0 ∧ c < 0)) : False := by
  rcases hw with ⟨h1, h2, h3⟩ | ⟨h1, h2, h3⟩ <;> rcases hs with ⟨g1, g2, g3⟩ | ⟨g1, g2, g3⟩
  · linarith [mul_pos h1 g1, mul_nonneg h2 g2.le, mul_pos h3 g3]
  · linarith [mul_neg_of_pos_of_neg h1 g1, mul_nonpos_of_nonneg_of_nonpos h2 g2.le, mul_neg_of_pos_of_neg h3 g3]
  · linarith [mul_neg_of_neg_of_pos h1 g1, mul_nonpos_of_nonpos_of_nonneg h2 g2.le, mul_neg_of_neg_of_pos h3 g3]
  · linarith [mul_pos_of_neg_of_neg h1 g1, mul_nonneg_of_nonpos_of_nonpos h2 g2.le, mul_pos_of_neg_of_neg h3 g3]

theorem cross_swap (a b p : Pt) : cross a p b = -cross a b p := by unfold cross; ring

theorem rightOf_le {a b p : Pt} (h : rightOf a b p) : 0 ≤ cross a p b := by
  rw [cross_swap]; rcases h with h | ⟨h, _⟩ <;> linarith

theorem not_rightOf_le {a b p : Pt} (h : ¬rightOf a b p) : cross a p b ≤ 0 := by
  rw [cross_swap]; by_contra hc; exact h (.inl (by linarith))

theorem bulge_zero {p a c b : Pt}
    (h : (p.x < a.x ∧ p.x < c.x ∧ p.x < b.x) ∨ (a.x < p.x ∧ c.x < p.x ∧ b.x < p.x) ∨
      (p.y < a.y ∧ p.y < c.y ∧ p.y < b.y) ∨ (a.y < p.y ∧ c.y < p.y ∧ b.y < p.y)) : bulgeWind p a c b = 0 := by
  have key : ¬((0 < cross p c b ∧ 0 ≤ cross a p b ∧ 0 < cross a c p) ∨ (cross p c b < 0 ∧ cross a p b ≤ 0 ∧ cross a c p < 0)) := by
    intro hw
    rcases h with ⟨h1, h2, h3⟩ | ⟨h1, h2, h3⟩ | ⟨h1, h2, h3⟩ | ⟨h1, h2, h3⟩
    · exact not_bary (bary_x p a c b) hw (.inl ⟨by linarith, by linarith, by linarith⟩)
    · exact not_bary (bary_x p a c b) hw (.inr ⟨by linarith, by linarith, by linarith⟩)
    · exact not_bary (bary_y p a c b) hw (.inl ⟨by linarith, by linarith, by linarith⟩)
    · exact not_bary (bary_y p a c b) hw (.inr ⟨by linarith, by linarith, by linarith⟩)
  unfold bulgeWind
  simp only
  rw [if_neg, if_neg]
  · rintro ⟨h1, h3, _, h2⟩; exact key (.inr ⟨h1, not_rightOf_le h2, h3⟩)
  · rintro ⟨h1, h3, _, h2⟩; exact key (.inl ⟨h1, rightOf_le h2, h3⟩)

/-- If all pieces contribute nothing, or telescope, the outline does not wind around the point. -/
theorem wind_zero_of {p start : Pt} {Q : Pt → Prop} {g : Pt → Int} (he : ∀ a b, Q a → Q b → edgeWind p a b = g b - g a)
    (hb : ∀ a c b, Q a → Q c → Q b → bulgeWind p a c b = 0) : ∀ (segs : List Seg) (cur : Pt), Q start → Q cur →
      (∀ q ∈ pts start segs, Q q) → windFrom p start cur segs = g start - g cur
  | [], cur, h0, hc, _ => he _ _ hc h0
  | .line b :: rest, cur, h0, hc, h => by
    have hqb : Q b := h b (by simp [pts])
    simp only [windFrom]
    rw [he _ _ hc hqb, wind_zero_of he hb rest b h0 hqb (fun q hq => h q (by
      simp only [pts, List.mem_cons, List.flatMap_cons, List.mem_append] at hq ⊢; tauto))]
    omega
  | .quad c b :: rest, cur, h0, hc, h => by
    have hqb : Q b := h b (by simp [pts])
    have hqc : Q c := h c (by simp [pts])
    simp only [windFrom]
    rw [he _ _ hc hqb, hb _ _ _ hc hqc hqb, wind_zero_of he hb rest b h0 hqb (fun q hq => h q (by
      simp only [pts, List.mem_cons, List.flatMap_cons, List.mem_append] at hq ⊢; tauto))]
    omega

/-- A covered point lies in every box that contains the points of the outline. -/
theorem covers_box {start : Pt} {segs : List Seg} {p : Pt} {x0 x1 y0 y1 : Rat}
    (h : ∀ q ∈ pts start segs, x0 ≤ q.x ∧ q.x ≤ x1 ∧ y0 ≤ q.y ∧ q.y ≤ y1) (hc : (Figure.outline start segs).covers p) :
    x0 ≤ p.x ∧ p.x ≤ x1 ∧ y0 ≤ p.y ∧ p.y ≤ y1 := by
  have hs := h start (by simp [pts])
  have z : ∀ (Q : Pt → Prop) (g : Pt → Int), (∀ a b, Q a → Q b → edgeWind p a b = g b - g a) →
      (∀ a c b, Q a → Q c → Q b → bulgeWind p a c b = 0) → (∀ q ∈ pts start segs, Q q) → False := by
    intro Q g he hb hq
    have := wind_zero_of he hb segs start (hq _ (by simp [pts])) (hq _ (by simp [pts])) hq
    exact hc (by rw [this]; omega)
  refine ⟨?_, ?_, ?_, ?_⟩ <;> by_contra hn <;> push Not at hn
  · exact z (fun q => p.x < q.x) (up p) (fun a b ha hb => edge_left ha hb) (fun a c b ha hc hb => bulge_zero (.inl ⟨ha, hc, hb⟩))
      (fun q hq => by have := h q hq; linarith [this.1])
  · exact z (fun q => q.x < p.x) (fun _ => 0) (fun a b ha hb => by rw [edge_right ha hb]; rfl)
      (fun a c b ha hc hb => bulge_zero (.inr (.inl ⟨ha, hc, hb⟩))) (fun q hq => by have := h q hq; linarith [this.2.1])
  · exact z (fun q => p.y < q.y) (fun _ => 0) (fun a b ha hb => by rw [edge_above ha hb]; rfl)
      (fun a c b ha hc hb => bulge_zero (.inr (.inr (.inl ⟨ha, hc, hb⟩)))) (fun q hq => by have := h q hq; linarith [this.2.2.1])
  · exact z (fun q => q.y < p.y) (fun _ => 0) (fun a b ha hb => by rw [edge_below ha hb]; rfl)
      (fun a c b ha hc hb => bulge_zero (.inr (.inr (.inr ⟨ha, hc, hb⟩)))) (fun q hq => by have := h q hq; linarith [this.2.2.2])

end QR.Plane
