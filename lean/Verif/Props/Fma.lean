import Verif.Model.Fma
import Verif.Props.ScanGradient
/-!
# C98: gradients on every platform
-/
namespace QR.Standard
open QR

/-- What the loop finds, whatever is fused. -/
theorem loopF_spec (rnd : Rat → Rat) (t : Rat) : ∀ (l : List ColorStop) (s : ColorStop), s.t < t → (∃ l' ∈ l, t ≤ l'.t) →
    ∃ (k : Nat) (a b : ColorStop), (s :: l)[k]? = some a ∧ (s :: l)[k + 1]? = some b ∧ a.t < t ∧ t ≤ b.t ∧
      ∀ ch, interpLoopF rnd ch t (s :: l) = blendColorsF rnd ch a.color b.color (rnd (rnd (t - a.t) / rnd (b.t - a.t))) := by
  intro l
  induction l with
  | nil => intro s _ h; obtain ⟨l', h, _⟩ := h; simp at h
  | cons e l ih =>
    intro s hs h
    by_cases he : t ≤ e.t
    · refine ⟨0, s, e, rfl, rfl, hs, he, fun ch => ?_⟩
      unfold interpLoopF
      rw [if_pos ⟨le_of_lt hs, he⟩]
    · have he' : e.t < t := lt_of_not_ge he
      have : ∃ l' ∈ l, t ≤ l'.t := by
        obtain ⟨l', h1, h2⟩ := h
        rcases List.mem_cons.1 h1 with h1 | h1
        · rw [h1] at h2; exact absurd h2 he
        · exact ⟨l', h1, h2⟩
      obtain ⟨k, a, b, g1, g2, g3, g4, g5⟩ := ih e he' this
      refine ⟨k + 1, a, b, g1, g2, g3, g4, fun ch => ?_⟩
      unfold interpLoopF
      rw [if_neg (fun hc => he hc.2), g5]

/-- One channel of a blend, however it is computed, is the exact value but for a millionth. -/
theorem blend_valueF {rnd : Rat → Rat} (R : Rounding rnd) (m : Fuse) (a b : UInt8) {f : Rat} (h0 : 0 ≤ f) (h1 : f ≤ 1) :
    0 ≤ mulAdd rnd m a.toNat (rnd (1 - f)) b.toNat f ∧
    (a.toNat : Rat) * (1 - f) + b.toNat * f - 1/1000000 ≤ mulAdd rnd m a.toNat (rnd (1 - f)) b.toNat f ∧
    mulAdd rnd m a.toNat (rnd (1 - f)) b.toNat f ≤ (a.toNat : Rat) * (1 - f) + b.toNat * f + 1/1000000 := by
  have nn : ∀ {x : Rat}, 0 ≤ x → 0 ≤ rnd x := fun h => by have := R.mono h; rwa [R.zero] at this
  have ha0 : (0 : Rat) ≤ a.toNat := by positivity
  have hb0 : (0 : Rat) ≤ b.toNat := by positivity
  have ha1 : (a.toNat : Rat) ≤ 255 := by have := a.toNat_lt; exact_mod_cast (by omega : a.toNat ≤ 255)
  have hb1 : (b.toNat : Rat) ≤ 255 := by have := b.toNat_lt; exact_mod_cast (by omega : b.toNat ≤ 255)
  generalize (a.toNat : Rat) = A at *
  generalize (b.toNat : Rat) = B at *
  obtain ⟨p1, p2⟩ := R.err (1 - f) (by linarith) (by linarith)
  have q0 : 0 ≤ rnd (1 - f) := nn (by linarith)
  have q1 : rnd (1 - f) ≤ 1 := by have := R.mono (show 1 - f ≤ 1 by linarith); rwa [R.one] at this
  generalize rnd (1 - f) = g at *
  have u0 : 0 ≤ A * g := mul_nonneg ha0 q0
  have u1 : A * g ≤ 255 := by have := mul_le_mul ha1 q1 q0 (by norm_num : (0 : Rat) ≤ 255); linarith
  have v0 : 0 ≤ B * f := mul_nonneg hb0 h0
  have v1 : B * f ≤ 255 := by have := mul_le_mul hb1 h1 h0 (by norm_num : (0 : Rat) ≤ 255); linarith
  obtain ⟨r1, r2⟩ := R.err (A * g) (by linarith) (by linarith)
  obtain ⟨s1, s2⟩ := R.err (B * f) (by linarith) (by linarith)
  have w0 := nn u0
  have x0 := nn v0
  have k1 : A * (1 - f) - 255/1000000000 ≤ A * g := by nlinarith
  have k2 : A * g ≤ A * (1 - f) + 255/1000000000 := by nlinarith
  have bd : A * (1 - f) + B * f ≤ 255 := by nlinarith
  generalize A * (1 - f) = Af at *
  cases m with
  | separate =>
    simp only [mulAdd]
    generalize A * g = U at *
    generalize B * f = V at *
    obtain ⟨t1, t2⟩ := R.err (rnd U + rnd V) (by linarith) (by linarith)
    exact ⟨nn (by linarith), by linarith, by linarith⟩
  | left =>
    simp only [mulAdd]
    generalize A * g = U at *
    generalize B * f = V at *
    obtain ⟨t1, t2⟩ := R.err (U + rnd V) (by linarith) (by linarith)
    exact ⟨nn (by linarith), by linarith, by linarith⟩
  | right =>
    simp only [mulAdd]
    generalize A * g = U at *
    generalize B * f = V at *
    obtain ⟨t1, t2⟩ := R.err (rnd U + V) (by linarith) (by linarith)
    exact ⟨nn (by linarith), by linarith, by linarith⟩

theorem blend_range (a b : UInt8) {f : Rat} (h0 : 0 ≤ f) (h1 : f ≤ 1) :
    ((min a.toNat b.toNat : Nat) : Rat) ≤ (a.toNat : Rat) * (1 - f) + b.toNat * f ∧ (a.toNat : Rat) * (1 - f) + b.toNat * f ≤ ((max a.toNat b.toNat : Nat) : Rat) := by
  have hm : ((min a.toNat b.toNat : Nat) : Rat) ≤ a.toNat ∧ ((min a.toNat b.toNat : Nat) : Rat) ≤ b.toNat := by
    constructor <;> exact_mod_cast (by omega)
  have hM : (a.toNat : Rat) ≤ ((max a.toNat b.toNat : Nat) : Rat) ∧ (b.toNat : Rat) ≤ ((max a.toNat b.toNat : Nat) : Rat) := by
    constructor <;> exact_mod_cast (by omega)
  generalize (a.toNat : Rat) = A at *
  generalize (b.toNat : Rat) = B at *
  generalize ((min a.toNat b.toNat : Nat) : Rat) = mn at *
  generalize ((max a.toNat b.toNat : Nat) : Rat) = mx at *
  constructor <;> nlinarith

theorem blendChanF_spec {rnd : Rat → Rat} (R : Rounding rnd) (m : Fuse) (a b : UInt8) {f : Rat} (h0 : 0 ≤ f) (h1 : f ≤ 1) :
    min a.toNat b.toNat - 1 ≤ (blendChanF rnd m a b f).toNat ∧ (blendChanF rnd m a b f).toNat ≤ max a.toNat b.toNat := by
  obtain ⟨g0, g1, g2⟩ := blend_valueF R m a b h0 h1
  obtain ⟨e1, e2⟩ := blend_range a b h0 h1
  unfold blendChanF truncU8
  generalize mulAdd rnd m a.toNat (rnd (1 - f)) b.toNat f = q at *
  generalize (a.toNat : Rat) * (1 - f) + b.toNat * f = x at *
  have hlo : (((min a.toNat b.toNat - 1 : Nat)) : Rat) ≤ q := by
    rcases Nat.eq_zero_or_pos (min a.toNat b.toNat) with h | h
    · rw [h]; simpa using g0
    · have : ((min a.toNat b.toNat - 1 : Nat) : Rat) = ((min a.toNat b.toNat : Nat) : Rat) - 1 := by
        rw [Nat.cast_sub h]; simp
      rw [this]; linarith
  obtain ⟨f1, f2⟩ := floor_nat (q := q) (lo := min a.toNat b.toNat - 1) (hi := max a.toNat b.toNat) hlo (by linarith)
  have := a.toNat_lt
  have := b.toNat_lt
  rw [UInt8.toNat_ofNat', Nat.mod_eq_of_lt (by omega)]
  exact ⟨f1, f2⟩

/-- Two ways to compute a channel differ by at most one. -/
theorem blendChanF_near {rnd : Rat → Rat} (R : Rounding rnd) (m m' : Fuse) (a b : UInt8) {f : Rat} (h0 : 0 ≤ f) (h1 : f ≤ 1) :
    (blendChanF rnd m a b f).toNat ≤ (blendChanF rnd m' a b f).toNat + 1 := by
  have hx : ∀ m, (blendChanF rnd m a b f).toNat = (mulAdd rnd m a.toNat (rnd (1 - f)) b.toNat f).floor.toNat ∧
      0 ≤ (mulAdd rnd m a.toNat (rnd (1 - f)) b.toNat f).floor := by
    intro m
    obtain ⟨g0, g1, g2⟩ := blend_valueF R m a b h0 h1
    obtain ⟨e1, e2⟩ := blend_range a b h0 h1
    unfold blendChanF truncU8
    generalize mulAdd rnd m a.toNat (rnd (1 - f)) b.toNat f = q at *
    obtain ⟨f1, f2⟩ := floor_nat (q := q) (lo := 0) (hi := max a.toNat b.toNat) (by simpa using g0) (by linarith)
    have := a.toNat_lt
    have := b.toNat_lt
    obtain ⟨k1, k2⟩ := floor_spec q
    have hf : 0 ≤ q.floor := by
      have : ((-1 : Int) : Rat) < (q.floor : Rat) := by push_cast; linarith
      have := Int.cast_lt.1 this
      omega
    exact ⟨by rw [UInt8.toNat_ofNat', Nat.mod_eq_of_lt (by omega)], hf⟩
  obtain ⟨x1, x2⟩ := hx m
  obtain ⟨y1, y2⟩ := hx m'
  obtain ⟨_, g1, g2⟩ := blend_valueF R m a b h0 h1
  obtain ⟨_, l1, l2⟩ := blend_valueF R m' a b h0 h1
  rw [x1, y1]
  generalize mulAdd rnd m a.toNat (rnd (1 - f)) b.toNat f = p at *
  generalize mulAdd rnd m' a.toNat (rnd (1 - f)) b.toNat f = q at *
  obtain ⟨p1, p2⟩ := floor_spec p
  obtain ⟨q1, q2⟩ := floor_spec q
  have : (p.floor : Rat) < ((q.floor + 2 : Int) : Rat) := by push_cast; linarith
  have := Int.cast_lt.1 this
  omega

/-- Every channel of the two colours differs by at most one. -/
def Near (c d : RGBA) : Prop :=
  (c.r.toNat ≤ d.r.toNat + 1 ∧ d.r.toNat ≤ c.r.toNat + 1) ∧ (c.g.toNat ≤ d.g.toNat + 1 ∧ d.g.toNat ≤ c.g.toNat + 1) ∧
  (c.b.toNat ≤ d.b.toNat + 1 ∧ d.b.toNat ≤ c.b.toNat + 1) ∧ c.a = d.a

theorem Near.refl (c : RGBA) : Near c c := ⟨⟨by omega, by omega⟩, ⟨by omega, by omega⟩, ⟨by omega, by omega⟩, rfl⟩

/-- **C98, colours.** On every platform, at every position: the colour of the first stop before it and of the last from there on, and between two neighbouring stops around the
position an opaque colour with every channel between theirs, or one below.  Neither a panic nor the fall-back occurs, and the colours of two platforms differ by at most one in
every channel. -/
theorem C98_colour {stops : List ColorStop} (hne : stops ≠ []) (hr : Repr64 float64Round stops) (t : Rat) :
    (∀ s, stops.head? = some s → t ≤ s.t → ∀ ch, interpolateColorF float64Round ch stops t = some s.color) ∧
    (∀ s l, stops.head? = some s → stops.getLast? = some l → s.t < t → l.t ≤ t → ∀ ch, interpolateColorF float64Round ch stops t = some l.color) ∧
    (∀ s l, stops.head? = some s → stops.getLast? = some l → s.t < t → t < l.t → ∃ (i : Nat) (a b : ColorStop), stops[i]? = some a ∧ stops[i + 1]? = some b ∧
      a.t < t ∧ t ≤ b.t ∧ ∀ ch, ∃ c, interpolateColorF float64Round ch stops t = some c ∧ c.a = 255 ∧ ChannelsBetween 1 a.color b.color c) ∧
    ∀ ch ch', ∃ c d, interpolateColorF float64Round ch stops t = some c ∧ interpolateColorF float64Round ch' stops t = some d ∧ Near c d := by
  obtain ⟨s0, rest, rfl⟩ := List.exists_cons_of_ne_nil hne
  have R := Rounding.float64
  have hfirst : t ≤ s0.t → ∀ ch, interpolateColorF float64Round ch (s0 :: rest) t = some s0.color := by
    intro h ch
    unfold interpolateColorF
    simp only
    rw [if_pos h]
  have hlast : s0.t < t → ((s0 :: rest).getLast (by simp)).t ≤ t → ∀ ch, interpolateColorF float64Round ch (s0 :: rest) t = some ((s0 :: rest).getLast (by simp)).color := by
    intro h1 h2 ch
    unfold interpolateColorF
    simp only
    rw [if_neg (not_le.2 h1), if_pos h2]
  have hmid : s0.t < t → t < ((s0 :: rest).getLast (by simp)).t → ∃ (i : Nat) (a b : ColorStop), (s0 :: rest)[i]? = some a ∧ (s0 :: rest)[i + 1]? = some b ∧
      a.t < t ∧ t ≤ b.t ∧ ∃ f, 0 ≤ f ∧ f ≤ 1 ∧ ∀ ch, interpolateColorF float64Round ch (s0 :: rest) t = some (blendColorsF float64Round ch a.color b.color f) := by
    intro h1 h2
    have hmem : ∃ l' ∈ rest, t ≤ l'.t := by
      have hm : (s0 :: rest).getLast (by simp) ∈ s0 :: rest := List.getLast_mem _
      rcases List.mem_cons.1 hm with h | h
      · rw [h] at h2; exact absurd (lt_trans h1 h2) (lt_irrefl _)
      · exact ⟨_, h, le_of_lt h2⟩
    obtain ⟨k, a, b, g1, g2, g3, g4, g5⟩ := loopF_spec float64Round t rest s0 h1 hmem
    obtain ⟨_, f1, f2⟩ := factor_spec R (hr a (List.mem_of_getElem? g1)) (hr b (List.mem_of_getElem? g2)) g3 g4
    refine ⟨k, a, b, g1, g2, g3, g4, _, f1, f2, fun ch => ?_⟩
    unfold interpolateColorF
    simp only
    rw [if_neg (not_le.2 h1), if_neg (not_le.2 h2), g5]
  have hg : ∀ {l}, (s0 :: rest).getLast? = some l → (s0 :: rest).getLast (by simp) = l := by
    intro l h
    rw [List.getLast?_eq_getLast_of_ne_nil (by simp)] at h
    exact Option.some.inj h
  refine ⟨fun s hs h => ?_, fun s l hs hl h1 h2 => ?_, fun s l hs hl h1 h2 => ?_, fun ch ch' => ?_⟩
  · cases hs; exact hfirst h
  · cases hs
    rw [← hg hl] at h2 ⊢
    exact hlast h1 h2
  · cases hs
    rw [← hg hl] at h2
    obtain ⟨i, a, b, g1, g2, g3, g4, f, f0, f1, g5⟩ := hmid h1 h2
    exact ⟨i, a, b, g1, g2, g3, g4, fun ch => ⟨_, g5 ch, rfl, blendChanF_spec R _ _ _ f0 f1, blendChanF_spec R _ _ _ f0 f1, blendChanF_spec R _ _ _ f0 f1⟩⟩
  · rcases le_or_gt t s0.t with h | h
    · exact ⟨_, _, hfirst h ch, hfirst h ch', Near.refl _⟩
    · rcases le_or_gt ((s0 :: rest).getLast (by simp)).t t with d | d
      · exact ⟨_, _, hlast h d ch, hlast h d ch', Near.refl _⟩
      · obtain ⟨i, a, b, _, _, _, _, f, f0, f1, g5⟩ := hmid h d
        refine ⟨_, _, g5 ch, g5 ch', ⟨?_, ?_⟩, ⟨?_, ?_⟩, ⟨?_, ?_⟩, rfl⟩ <;> exact blendChanF_near R _ _ _ _ f0 f1

/-! ## Positions -/

theorem mulAdd_left_zero {rnd : Rat → Rat} (R : Rounding rnd) (m : Fuse) (p q s : Rat) : mulAdd rnd m p q 0 s = rnd (p * q) := by
  cases m <;> simp [mulAdd, R.zero, R.idem]

theorem mulAdd_right_zero {rnd : Rat → Rat} (R : Rounding rnd) (m : Fuse) (q r s : Rat) : mulAdd rnd m 0 q r s = rnd (r * s) := by
  cases m <;> simp [mulAdd, R.zero, R.idem]

theorem mulAdd_mono {rnd : Rat → Rat} (R : Rounding rnd) (m : Fuse) {p q r s p' q' r' s' : Rat} (h1 : p * q ≤ p' * q') (h2 : r * s ≤ r' * s') :
    mulAdd rnd m p q r s ≤ mulAdd rnd m p' q' r' s' := by
  have a := R.mono h1
  have b := R.mono h2
  cases m <;> exact R.mono (by linarith)

theorem spanF_pos {rnd : Rat → Rat} (R : Rounding rnd) (k : Nat → Fuse) {dx dy : Rat} (hd : Direction dx dy) {w h : Int} (hw : 0 < w) (hh : 0 < h) :
    0 < gradientSpanF rnd k dx dy w h := by
  unfold gradientSpanF
  have c00 : projF rnd (k 0) dx dy 0 0 = 0 := by
    unfold projF
    rw [Int.cast_zero, mulAdd_left_zero R, zero_mul, R.zero]
  have cw : projF rnd (k 2) dx dy w 0 = rnd ((w : Rat) * dx) := by
    unfold projF
    rw [Int.cast_zero, mulAdd_left_zero R]
  have ch : projF rnd (k 1) dx dy 0 h = rnd ((h : Rat) * dy) := by
    unfold projF
    rw [Int.cast_zero, mulAdd_right_zero R]
  have up : ∀ {d : Rat} {n : Int}, 0 < n → 1/2 ≤ d → 1/2 ≤ rnd ((n : Rat) * d) := by
    intro d n hn h
    have : (1 : Rat) ≤ n := by exact_mod_cast hn
    have := R.mono (show (1/2 : Rat) ≤ n * d by nlinarith)
    rwa [R.half] at this
  have dn : ∀ {d : Rat} {n : Int}, 0 < n → d ≤ -(1/2) → rnd ((n : Rat) * d) ≤ -(1/2) := by
    intro d n hn h
    have := up (d := -d) hn (by linarith)
    rw [mul_neg, R.neg] at this
    linarith
  have hge : (1/2 : Rat) ≤ maxProj (cornerProjF rnd k dx dy w h) - minProj (cornerProjF rnd k dx dy w h) := by
    unfold cornerProjF
    have lo := minProj_le (p := projF rnd (k 0) dx dy 0 0) (ps := [projF rnd (k 1) dx dy 0 h, projF rnd (k 2) dx dy w 0, projF rnd (k 3) dx dy w h])
    have hi := le_maxProj (p := projF rnd (k 0) dx dy 0 0) (ps := [projF rnd (k 1) dx dy 0 h, projF rnd (k 2) dx dy w 0, projF rnd (k 3) dx dy w h])
    have l0 := lo (projF rnd (k 0) dx dy 0 0) (by simp)
    have h0 := hi (projF rnd (k 0) dx dy 0 0) (by simp)
    have lw := lo (projF rnd (k 2) dx dy w 0) (by simp)
    have hw' := hi (projF rnd (k 2) dx dy w 0) (by simp)
    have lh := lo (projF rnd (k 1) dx dy 0 h) (by simp)
    have hh' := hi (projF rnd (k 1) dx dy 0 h) (by simp)
    rcases hd with hd | hd | hd | hd
    · have := up hw hd; linarith
    · have := dn hw hd; linarith
    · have := up hh hd; linarith
    · have := dn hh hd; linarith
  have := R.mono hge
  rw [R.half] at this
  linarith

/-- **C98, positions.** The divisor is never zero, whatever is fused; and if the platform does the same for the corners and the pixels, the position lies between 0 and 1. -/
theorem C98_position {dx dy : Rat} (hd : Direction dx dy) {w h x y : Int} (hx0 : 0 ≤ x) (hx : x < w) (hy0 : 0 ≤ y) (hy : y < h) :
    (∀ k, gradientSpanF float64Round k dx dy w h ≠ 0) ∧
    ∀ m, 0 ≤ gradientPosF float64Round (fun _ => m) m dx dy w h x y ∧ gradientPosF float64Round (fun _ => m) m dx dy w h x y ≤ 1 := by
  have R := Rounding.float64
  refine ⟨fun k => ne_of_gt (spanF_pos R k hd (by omega) (by omega)), fun m => ?_⟩
  have hs := spanF_pos R (fun _ => m) hd (w := w) (h := h) (by omega) (by omega)
  have one : ∀ {a a1 : Int} (d : Rat), 0 ≤ a → a ≤ a1 →
      (((0 : Int) : Rat) * d ≤ (a : Rat) * d ∧ (a : Rat) * d ≤ (a1 : Rat) * d) ∨ ((a1 : Rat) * d ≤ (a : Rat) * d ∧ (a : Rat) * d ≤ ((0 : Int) : Rat) * d) := by
    intro a a1 d h0 h1
    have h0' : ((0 : Int) : Rat) ≤ a := by exact_mod_cast h0
    have h1' : (a : Rat) ≤ a1 := by exact_mod_cast h1
    rcases le_total 0 d with hd | hd
    · exact .inl ⟨mul_le_mul_of_nonneg_right h0' hd, mul_le_mul_of_nonneg_right h1' hd⟩
    · exact .inr ⟨mul_le_mul_of_nonpos_right h1' hd, mul_le_mul_of_nonpos_right h0' hd⟩
  have hb : (∃ q ∈ cornerProjF float64Round (fun _ => m) dx dy w h, q ≤ projF float64Round m dx dy x y) ∧
      ∃ q ∈ cornerProjF float64Round (fun _ => m) dx dy w h, projF float64Round m dx dy x y ≤ q := by
    unfold cornerProjF projF
    rcases one dx hx0 (le_of_lt hx) with ⟨a1, a2⟩ | ⟨a1, a2⟩ <;> rcases one dy hy0 (le_of_lt hy) with ⟨b1, b2⟩ | ⟨b1, b2⟩ <;>
      exact ⟨⟨_, by simp, mulAdd_mono R m a1 b1⟩, ⟨_, by simp, mulAdd_mono R m a2 b2⟩⟩
  obtain ⟨⟨q1, m1, l1⟩, ⟨q2, m2, l2⟩⟩ := hb
  have hmin : minProj (cornerProjF float64Round (fun _ => m) dx dy w h) ≤ projF float64Round m dx dy x y := le_trans (minProj_le q1 m1) l1
  have hmax : projF float64Round m dx dy x y ≤ maxProj (cornerProjF float64Round (fun _ => m) dx dy w h) := le_trans l2 (le_maxProj q2 m2)
  unfold gradientPosF
  have n0 : 0 ≤ float64Round (projF float64Round m dx dy x y - minProj (cornerProjF float64Round (fun _ => m) dx dy w h)) := by
    have := R.mono (show 0 ≤ projF float64Round m dx dy x y - minProj (cornerProjF float64Round (fun _ => m) dx dy w h) by linarith)
    rwa [R.zero] at this
  have n1 : float64Round (projF float64Round m dx dy x y - minProj (cornerProjF float64Round (fun _ => m) dx dy w h)) ≤ gradientSpanF float64Round (fun _ => m) dx dy w h := by
    unfold gradientSpanF
    exact R.mono (by linarith)
  constructor
  · have := R.mono (div_nonneg n0 (le_of_lt hs)); rwa [R.zero] at this
  · have := R.mono (show float64Round (projF float64Round m dx dy x y - minProj (cornerProjF float64Round (fun _ => m) dx dy w h)) /
        gradientSpanF float64Round (fun _ => m) dx dy w h ≤ 1 by rw [div_le_one hs]; exact n1)
    rwa [R.one] at this

/-! ## The model without fusion is the platform that does not fuse -/

theorem interpolateF_separate (rnd : Rat → Rat) (stops : List ColorStop) (t : Rat) :
    interpolateColorF rnd (fun _ => .separate) stops t = (interpolateColor rnd stops t).color := by
  have hloop : ∀ (l : List ColorStop) (i : Nat), some (interpLoopF rnd (fun _ => .separate) t l) = (interpLoop rnd t i l).color := by
    intro l
    induction l with
    | nil => intro i; rfl
    | cons s l ih =>
      intro i
      cases l with
      | nil => rfl
      | cons e l =>
        unfold interpLoopF interpLoop
        by_cases hc : t ≥ s.t ∧ t ≤ e.t
        · rw [if_pos hc, if_pos hc]; rfl
        · rw [if_neg hc, if_neg hc]; exact ih (i + 1)
  cases stops with
  | nil => rfl
  | cons s rest =>
    unfold interpolateColorF interpolateColor
    simp only
    by_cases h1 : t ≤ s.t
    · rw [if_pos h1, if_pos h1]; rfl
    · rw [if_neg h1, if_neg h1]
      by_cases h2 : t ≥ ((s :: rest).getLast (by simp)).t
      · rw [if_pos h2, if_pos h2]; rfl
      · rw [if_neg h2, if_neg h2]; exact hloop _ 0

/-- The platform that does not fuse (amd64). -/
def noFusion : Platform := ⟨fun _ => .separate, fun _ _ => .separate, fun _ _ _ => .separate⟩

/-- **C98, without fusion** the pixels are those of C47, C55 and C79. -/
theorem C98_separate (rnd : Rat → Rat) (g : LinearGradient) (dx dy : Rat) (w h : Int) (fg : RGBA) (x y : Int) (c : RGBA) :
    gradientPixelF rnd noFusion g dx dy w h fg x y c = gradientPixel rnd g dx dy w h fg x y c := by
  unfold gradientPixelF gradientPixel
  by_cases hc : c = fg
  · rw [if_pos hc, if_pos hc]
    exact interpolateF_separate rnd g.stops _
  · rw [if_neg hc, if_neg hc]

/-- **C98, the pictures of platforms differ**: in a gradient from white to white, at the `float64` nearest to 3/61, red is 254 or 255 depending on what is fused; at 28/61 it is the other
way round. -/
theorem C98_differ :
    ([Fuse.separate, .left, .right].map fun m => (interpolateColorF float64Round (fun _ => m) whiteStops (float64Round (3/61))).map (·.r)) = [some 254, some 255, some 254] ∧
    ([Fuse.separate, .left, .right].map fun m => (interpolateColorF float64Round (fun _ => m) whiteStops (float64Round (28/61))).map (·.r)) = [some 255, some 254, some 255] := by
  decide +kernel

/-! ## Readable pictures -/

open QR QR.Matrix Spec

/-- The colours of a gradient on any platform. -/
theorem gradient_colourF {stops : List ColorStop} (hne : stops ≠ []) (h : Repr64 float64Round stops) (hop : ∀ s ∈ stops, s.color.a = 255) (ch : Nat → Fuse) (t : Rat) :
    ∃ c, interpolateColorF float64Round ch stops t = some c ∧ c.a = 255 ∧ ∃ a b, Together stops a b ∧ ChannelsBetween 1 a.color b.color c := by
  obtain ⟨h1, h2, h3, _⟩ := C98_colour hne h t
  obtain ⟨s, rest, rfl⟩ := List.exists_cons_of_ne_nil hne
  have hl : (s :: rest).getLast? = some ((s :: rest).getLast (by simp)) := List.getLast?_eq_getLast_of_ne_nil (by simp)
  have hself : ∀ c : RGBA, ChannelsBetween 1 c c c := fun c => by unfold ChannelsBetween; omega
  rcases le_or_gt t s.t with c | c
  · exact ⟨s.color, h1 s rfl c ch, hop s (by simp), s, s, .inl ⟨by simp, rfl⟩, hself _⟩
  · rcases le_or_gt ((s :: rest).getLast (by simp)).t t with d | d
    · have hm : (s :: rest).getLast (by simp) ∈ s :: rest := List.getLast_mem _
      exact ⟨_, h2 s _ rfl hl c d ch, hop _ hm, _, _, .inl ⟨hm, rfl⟩, hself _⟩
    · obtain ⟨i, a, b, ha, hb, _, _, hc⟩ := h3 s _ rfl hl c d
      obtain ⟨col, e, hcol, hch⟩ := hc ch
      exact ⟨col, e, hcol, a, b, .inr ⟨i, ha, hb⟩, hch⟩

theorem gradient_inkF {o : Opts} {g : LinearGradient} (hcol : Contrast o) (hg : GradientContrast o g) {put : Put} (hput : PutsOver put) (v : QRValue)
    (ch : Nat → Fuse) (t : Rat) {c : RGBA} (hc : (if over (moduleColor o v) (over o.backgroundColor.1 ⟨0, 0, 0, 0⟩) = o.qrColor then
      interpolateColorF float64Round ch g.stops t else some (over (moduleColor o v) (over o.backgroundColor.1 ⟨0, 0, 0, 0⟩))) = some c) :
    ink o (put c (over (moduleColor o v) (over o.backgroundColor.1 ⟨0, 0, 0, 0⟩))) = v.bit := by
  cases hv : v.bit with
  | true =>
    rw [if_pos ((contrast_iff hcol v).2 hv)] at hc
    obtain ⟨c', e, ha, a, b, hab, hch⟩ := gradient_colourF hg.some_stop hg.positions hg.solid ch t
    rw [e] at hc
    cases hc
    rw [hput.solid _ _ ha]
    unfold ink
    rw [ha]
    rcases hg.bg with h | h
    · rw [h]; rfl
    · rw [decide_eq_true (standsOut_ne h hab hch), Bool.or_true]; rfl
  | false =>
    refine (gradient_ink hcol hg hput v 0 (c := c) ?_).trans hv
    rw [if_neg (fun h => by rw [(contrast_iff hcol v).1 h] at hv; cases hv)] at hc ⊢
    exact hc

theorem foldlM_paintGradientF (P : Platform) (blend : Blend) (put : Put) (direction : Rat → Rat × Rat) : ∀ (ops : List DrawOp) (cv : Canvas),
    (∀ op ∈ ops, (∀ img x y, op ≠ .image img x y) ∧ ∀ g c, op ≠ .gradient g c) →
    ops.foldlM (Canvas.paintGradientF P blend put direction) cv = ops.foldlM Canvas.paint cv := by
  intro ops
  induction ops with
  | nil => intro cv _; rfl
  | cons op ops ih =>
    intro cv h
    have h1 : Canvas.paintGradientF P blend put direction cv op = cv.paint op := by
      cases op with
      | image img x y => exact absurd rfl ((h (.image img x y) (by simp)).1 img x y)
      | gradient g c => exact absurd rfl ((h (.gradient g c) (by simp)).2 g c)
      | _ => rfl
    rw [List.foldlM_cons, List.foldlM_cons, h1]
    cases cv.paint op with
    | none => rfl
    | some cv' => exact ih cv' (fun op ho => h op (by simp [ho]))

/-- **C98, readable pictures.** C79 on every platform, whatever it fuses. -/
theorem C98_read {E : Ext} {unsjis : Nat → Option Nat} (hE : E.Ok unsjis) {c : AlignCache} (hc : CacheReachable c)
    {arrival : List Nat} (ha : Arrival arrival) {t : TextType} {text : Bytes} {opts : List EncodeOption} {q : QRCode}
    (h : newWith E c arrival t text opts = .ok q)
    (hx : ¬ (modeIn opts = encAuto ∧ AlnumThenKanji E.sjis (nats text)))
    (scale : Scaler) (blend : Blend) {put : Put} (hput : PutsOver put) (direction : Rat → Rat × Rat) {o : Opts}
    (hsh : o.shape = none ∨ o.shape = some .rectangle) (hht : o.halftone = none) {g : LinearGradient} (hgr : o.qrGradient = some g)
    (hcol : Contrast o) (hg : GradientContrast o g)
    (hb : 0 ≤ o.borders.top ∧ 0 ≤ o.borders.right ∧ 0 ≤ o.borders.bottom ∧ 0 ≤ o.borders.left) (hl : o.logo = none) (P : Platform) :
    ∃ ops o' cv, draw scale o q.mat = some (ops, o') ∧ paintAllGradientF P blend put direction ops = some cv ∧
      ∀ pt, InBlocks o q.dimension pt → decode unsjis (seenInk o q.dimension cv pt) = some (nats text) := by
  obtain ⟨hw, hh⟩ := mat_size hE hc ha h
  have hd : 0 < q.dimension := by obtain ⟨v, _, hd, _⟩ := C11_dimension hE hc ha h; omega
  obtain ⟨bm, o', cv, he, hfold, hno, s1, s2, hpix⟩ := rects_body scale hsh hht (m := q.mat) (hw.trans hh.symm) hb (by omega)
  obtain ⟨cv', hcv'⟩ : ∃ cv', cv.applyGradientF P put direction g o.qrColor = some cv' := by
    unfold Canvas.applyGradientF
    rw [if_neg hg.some_stop]
    exact ⟨_, rfl⟩
  have hbase : List.foldlM (Canvas.paintGradientF P blend put direction) ⟨0, 0, fun _ _ => ⟨0, 0, 0, 0⟩⟩
      (bodyOps scale o q.mat bm ++ [.gradient g o.qrColor]) = some cv' := by
    rw [List.foldlM_append, foldlM_paintGradientF _ _ _ _ _ _ hno, hfold]
    change (List.foldlM (Canvas.paintGradientF P blend put direction) cv [.gradient g o.qrColor]) = some cv'
    rw [List.foldlM_cons, Canvas.paintGradientF, hcv']
    rfl
  have htail : tailOps o q.mat = [.gradient g o.qrColor] := by
    unfold tailOps
    rw [hgr, hl]
    rfl
  refine ⟨_, o', cv', he, ?_, fun pt hpt => ?_⟩
  · unfold paintAllGradientF
    rw [htail]
    exact hbase
  · have : seenInk o q.dimension cv' pt = q.mat.bitmap := by
      refine scan_eq hw hh fun x y hx hy => ?_
      have hcov : covered o q.mat x y = false := by unfold covered; rw [hl]; rfl
      unfold Canvas.applyGradientF at hcv'
      rw [if_neg hg.some_stop] at hcv'
      cases hcv'
      obtain ⟨hr, hcc⟩ := hpix x y _ _ (by omega) (by omega) (hpt x y hx hy) hcov
      simp only
      rw [if_pos (by rw [s1, s2]; exact hr), hcc]
      unfold gradientPixelF
      split
      · rename_i c' hcc'
        exact gradient_inkF hcol hg hput _ _ _ hcc'
      · rename_i hcc'
        exfalso
        split at hcc'
        · obtain ⟨c'', e, _⟩ := gradient_colourF hg.some_stop hg.positions hg.solid (P.channel (pt x y).1 (pt x y).2)
            (gradientPosF float64Round P.corner (P.pixel (pt x y).1 (pt x y).2) (direction g.angle).1 (direction g.angle).2 cv.w cv.h (pt x y).1 (pt x y).2)
          rw [e] at hcc'
          cases hcc'
        · cases hcc'
    rw [this]
    exact C01_roundtrip_partial hE hc ha h hx

/-- The hypotheses are met: red to blue, in the middle. -/
example := C98_colour (stops := [⟨0, ⟨255, 0, 0, 255⟩⟩, ⟨1, ⟨0, 0, 255, 255⟩⟩]) (by simp) (by
  intro s hs
  simp only [List.mem_cons, List.not_mem_nil, or_false] at hs
  rcases hs with rfl | rfl <;> decide +kernel) (1 / 2)
example := C98_position (dx := 1) (dy := 0) (Or.inl (by norm_num)) (w := 100) (h := 80) (x := 99) (y := 0) (by decide) (by decide) (by decide) (by decide)

end QR.Standard
