import Verif.Model.Special64
import Verif.Props.ScanGradient
/-!
# C95, C96: any `float64` as angle, position or factor
-/
namespace QR
open F64

theorem pow2_pos (n : Nat) : 0 < pow2 n := by unfold pow2; positivity
theorem pow2_succ (n : Nat) : pow2 (n + 1) = 2 * pow2 n := by unfold pow2; rw [pow_succ]; ring
theorem pow2_le {m n : Nat} (h : m ≤ n) : pow2 m ≤ pow2 n := pow_le_pow_right₀ (by norm_num) h
theorem pow2_9 : pow2 9 = 512 := by norm_num [pow2]
theorem pow2_cast (n : Nat) : pow2 n = ((2 ^ n : Int) : Rat) := by unfold pow2; push_cast; rfl
theorem pow2_rep (n : Nat) : float64Round (pow2 n) = pow2 n := by
  have := round_rep (k := 1) (j := n) (by decide) (by decide) (by omega)
  simpa [pow2] using this

attribute [local irreducible] pow2

/-- Operations whose exact result is not huge do not overflow. -/
theorem ofRat_small {q : Rat} (h1 : -pow2 1023 ≤ q) (h2 : q ≤ pow2 1023) : ofRat q = .fin (float64Round q) := by
  have u := round_mono h2
  have l := round_mono h1
  rw [round_neg] at l
  rw [pow2_rep] at u l
  have hp : pow2 1023 < pow2 1024 := by
    have := pow2_succ 1023
    have := pow2_pos 1023
    linarith
  unfold ofRat
  simp only
  rw [if_neg (by linarith), if_neg (by linarith)]

theorem sub_fin {a b : Rat} (h1 : -pow2 1023 ≤ a - b) (h2 : a - b ≤ pow2 1023) : sub (.fin a) (.fin b) = .fin (float64Round (a - b)) := by
  have e : a + -b = a - b := by ring
  simp only [sub, neg, add]
  rw [e, ofRat_small h1 h2]

theorem add_fin {a b : Rat} (h1 : -pow2 1023 ≤ a + b) (h2 : a + b ≤ pow2 1023) : add (.fin a) (.fin b) = .fin (float64Round (a + b)) := by
  simp only [add]
  rw [ofRat_small h1 h2]

theorem mul_fin {a b : Rat} (h1 : -pow2 1023 ≤ a * b) (h2 : a * b ≤ pow2 1023) : mul (.fin a) (.fin b) = .fin (float64Round (a * b)) := by
  simp only [mul]
  rw [ofRat_small h1 h2]

theorem big_512 : (512 : Rat) ≤ pow2 1023 := by
  have := pow2_le (m := 9) (n := 1023) (by decide)
  have e : pow2 9 = 512 := pow2_9
  rwa [e] at this

theorem div_fin {a b : Rat} (hb : b ≠ 0) (h1 : -512 ≤ a / b) (h2 : a / b ≤ 512) : div (.fin a) (.fin b) = .fin (float64Round (a / b)) := by
  have := big_512
  simp only [div]
  rw [if_neg hb, ofRat_small (by linarith) (by linarith)]

namespace Standard

/-- What Go says about `uint8(f)`: for a number that fits it is the integer part.  Nothing is said for other numbers. -/
def Truncates (conv : F64 → UInt8) : Prop := ∀ q : Rat, 0 ≤ q → q < 256 → conv (.fin q) = truncU8 q

/-- What is assumed of `math.Cos` and `math.Sin`: NaN for what is not a finite number (as Go documents); for a finite number two numbers between -1 and 1, one of
them at least a half in absolute value. -/
structure Trig.Ok (tr : Trig) : Prop where
  special : ∀ a, (∀ q, a ≠ .fin q) → tr.cos a = .nan ∧ tr.sin a = .nan
  finite : ∀ q, ∃ a b, tr.cos (.fin q) = .fin a ∧ tr.sin (.fin q) = .fin b ∧ -1 ≤ a ∧ a ≤ 1 ∧ -1 ≤ b ∧ b ≤ 1 ∧ Direction a (-b)

/-- A stop at a finite position. -/
def ColorStop.to64 (s : ColorStop) : ColorStop64 := ⟨.fin s.t, s.color⟩

/-- Positions that are `float64` numbers and not huge. -/
def ModerateStops (stops : List ColorStop) : Prop := Repr64 float64Round stops ∧ ∀ s ∈ stops, -pow2 1022 ≤ s.t ∧ s.t ≤ pow2 1022

theorem big_half : pow2 1022 + pow2 1022 = pow2 1023 := by rw [pow2_succ 1022]; ring

/-- A blend factor between two stops. -/
theorem factor64 {s e t : Rat} (hs : float64Round s = s) (he : float64Round e = e) (ms : -pow2 1022 ≤ s ∧ s ≤ pow2 1022)
    (me : -pow2 1022 ≤ e ∧ e ≤ pow2 1022) (h1 : s < t) (h2 : t ≤ e) :
    div (sub (.fin t) (.fin s)) (sub (.fin e) (.fin s)) = .fin (float64Round (float64Round (t - s) / float64Round (e - s))) := by
  have hb := big_half
  obtain ⟨f0, f1, f2⟩ := factor_spec Rounding.float64 hs he h1 h2
  have hn : 0 ≤ float64Round (t - s) := by have := round_mono (show 0 ≤ t - s by linarith); rwa [round_zero] at this
  have hle : float64Round (t - s) ≤ float64Round (e - s) := round_mono (by linarith)
  rw [sub_fin (by linarith) (by linarith),
    sub_fin (by linarith) (by linarith)]
  refine div_fin (ne_of_gt f0) ?_ ?_
  · have := div_nonneg hn (le_of_lt f0); linarith
  · have : float64Round (t - s) / float64Round (e - s) ≤ 1 := by rw [div_le_one f0]; exact hle
    linarith

theorem blendChan64_eq {conv : F64 → UInt8} (hconv : Truncates conv) (a b : UInt8) {f : Rat} (h0 : 0 ≤ f) (h1 : f ≤ 1) :
    blendChan64 conv a b (.fin f) = blendChan float64Round a b f := by
  have hB := big_512
  obtain ⟨v0, _, v2⟩ := blend_value Rounding.float64 a b h0 h1
  have R := Rounding.float64
  have ha0 : (0 : Rat) ≤ a.toNat := by positivity
  have hb0 : (0 : Rat) ≤ b.toNat := by positivity
  have ha1 : (a.toNat : Rat) ≤ 255 := by have := a.toNat_lt; exact_mod_cast (by omega : a.toNat ≤ 255)
  have hb1 : (b.toNat : Rat) ≤ 255 := by have := b.toNat_lt; exact_mod_cast (by omega : b.toNat ≤ 255)
  have hM : ((max a.toNat b.toNat : Nat) : Rat) ≤ 255 := by
    have := a.toNat_lt; have := b.toNat_lt; exact_mod_cast (by omega : max a.toNat b.toNat ≤ 255)
  unfold blendChan64 blendChan
  have q0 : 0 ≤ float64Round (1 - f) := by have := R.mono (show 0 ≤ 1 - f by linarith); rwa [R.zero] at this
  have q1 : float64Round (1 - f) ≤ 1 := by have := R.mono (show 1 - f ≤ 1 by linarith); rwa [R.one] at this
  rw [sub_fin (by linarith) (by linarith)]
  have u0 : 0 ≤ (a.toNat : Rat) * float64Round (1 - f) := mul_nonneg ha0 q0
  have u1 : (a.toNat : Rat) * float64Round (1 - f) ≤ 255 := by
    have := mul_le_mul ha1 q1 q0 (by norm_num : (0 : Rat) ≤ 255); linarith
  have w0 : 0 ≤ (b.toNat : Rat) * f := mul_nonneg hb0 h0
  have w1 : (b.toNat : Rat) * f ≤ 255 := by have := mul_le_mul hb1 h1 h0 (by norm_num : (0 : Rat) ≤ 255); linarith
  rw [mul_fin (by linarith) (by linarith),
    mul_fin (by linarith) (by linarith)]
  obtain ⟨r1, r2⟩ := R.err ((a.toNat : Rat) * float64Round (1 - f)) (by linarith) (by linarith)
  obtain ⟨s1, s2⟩ := R.err ((b.toNat : Rat) * f) (by linarith) (by linarith)
  rw [add_fin (by linarith) (by linarith)]
  exact hconv _ v0 (by linarith)

theorem blendColors64_eq {conv : F64 → UInt8} (hconv : Truncates conv) (c1 c2 : RGBA) {f : Rat} (h0 : 0 ≤ f) (h1 : f ≤ 1) :
    blendColors64 conv c1 c2 (.fin f) = blendColors float64Round c1 c2 f := by
  simp only [blendColors64, blendColors, blendChan64_eq hconv _ _ h0 h1]

theorem loop64 {conv : F64 → UInt8} (hconv : Truncates conv) (t : Rat) : ∀ (l : List ColorStop) (i : Nat) (s : ColorStop), ModerateStops (s :: l) → s.t < t →
    (interpLoop float64Round t i (s :: l)).color = some (interpLoop64 conv (.fin t) ((s :: l).map ColorStop.to64)) := by
  intro l
  induction l with
  | nil => intro i s _ _; rfl
  | cons e l ih =>
    intro i s hm hs
    rw [List.map_cons, List.map_cons]
    unfold interpLoop interpLoop64
    have hl : le s.to64.t (.fin t) = true := by simp only [ColorStop.to64, le, decide_eq_true_eq]; exact le_of_lt hs
    rw [hl, Bool.true_and]
    by_cases he : t ≤ e.t
    · rw [if_pos ⟨le_of_lt hs, he⟩, if_pos (by simp only [ColorStop.to64, le, decide_eq_true_eq]; exact he)]
      have rs := hm.1 s (by simp)
      have re := hm.1 e (by simp)
      obtain ⟨f0, f1, f2⟩ := factor_spec Rounding.float64 rs re hs he
      simp only [Interp.color, ColorStop.to64]
      rw [factor64 rs re (hm.2 s (by simp)) (hm.2 e (by simp)) hs he, blendColors64_eq hconv _ _ f1 f2]
    · rw [if_neg (fun h => he h.2), if_neg (by simp only [ColorStop.to64, le, decide_eq_true_eq]; exact he)]
      have := ih (i + 1) e ⟨fun x hx => hm.1 x (List.mem_cons_of_mem _ hx), fun x hx => hm.2 x (List.mem_cons_of_mem _ hx)⟩ (lt_of_not_ge he)
      rw [List.map_cons] at this
      exact this

/-- At finite positions the code on all of `float64` does what the finite model says. -/
theorem interpolate64_fin {conv : F64 → UInt8} (hconv : Truncates conv) {stops : List ColorStop} (hm : ModerateStops stops) (t : Rat) :
    interpolateColor64 conv (stops.map ColorStop.to64) (.fin t) = (interpolateColor float64Round stops t).color := by
  cases stops with
  | nil => rfl
  | cons s rest =>
    have hg : (s.to64 :: rest.map ColorStop.to64).getLast (by simp) = ((s :: rest).getLast (by simp)).to64 := by
      have : ((s :: rest).map ColorStop.to64).getLast (by simp) = ((s :: rest).getLast (by simp)).to64 := by rw [List.getLast_map]
      exact this
    rw [List.map_cons]
    unfold interpolateColor64 interpolateColor
    simp only
    rw [hg]
    simp only [ColorStop.to64, le, decide_eq_true_eq]
    by_cases h1 : t ≤ s.t
    · rw [if_pos h1, if_pos h1]; rfl
    · rw [if_neg h1, if_neg h1]
      by_cases h2 : ((s :: rest).getLast (by simp)).t ≤ t
      · rw [if_pos h2, if_pos h2]; rfl
      · rw [if_neg h2, if_neg h2, loop64 hconv t rest 0 s hm (lt_of_not_ge h1)]
        rfl

/-- Every position, NaN and infinities included. -/
theorem interpolate64_nan {conv : F64 → UInt8} {stops : List ColorStop64} (hne : stops ≠ []) :
    interpolateColor64 conv stops .nan = some fallbackColor := by
  obtain ⟨s, rest, rfl⟩ := List.exists_cons_of_ne_nil hne
  have hloop : ∀ l, interpLoop64 conv .nan l = fallbackColor := by
    intro l
    induction l with
    | nil => rfl
    | cons a l ih =>
      cases l with
      | nil => rfl
      | cons b l =>
        unfold interpLoop64
        have : le a.t .nan = false := by cases a.t <;> rfl
        rw [this, Bool.false_and, if_neg (by decide)]
        exact ih
  unfold interpolateColor64
  simp only
  have h1 : le .nan s.t = false := by rfl
  have h2 : ∀ a, le a F64.nan = false := by intro a; cases a <;> rfl
  rw [h1, h2, if_neg (by decide), if_neg (by decide), hloop]

/-! ## C95 -/

/-- **C95, never fails.** Whatever numbers are given (NaN and infinities included, positions in any order), whatever `uint8(f)` does with numbers out of range and
whatever the cosine and sine are: with at least one stop every pixel gets a colour, and a pixel that does not have the foreground colour keeps its own. -/
theorem C95_total (conv : F64 → UInt8) (tr : Trig) (g : LinearGradient64) (hne : g.stops ≠ []) (w h : Int) (fg : RGBA) (x y : Int) (c : RGBA) :
    ∃ c', gradientPixel64 conv tr g w h fg x y c = some c' ∧ (c ≠ fg → c' = c) := by
  unfold gradientPixel64
  by_cases hc : c = fg
  · rw [if_pos hc]
    obtain ⟨s, rest, hs⟩ := List.exists_cons_of_ne_nil hne
    rw [hs]
    unfold interpolateColor64
    simp only
    split
    · exact ⟨_, rfl, fun h => absurd hc h⟩
    · split
      · exact ⟨_, rfl, fun h => absurd hc h⟩
      · exact ⟨_, rfl, fun h => absurd hc h⟩
  · rw [if_neg hc]
    exact ⟨c, rfl, fun _ => rfl⟩

theorem ofInt64_eq {n : Int} (h1 : -(2 ^ 53) ≤ n) (h2 : n ≤ 2 ^ 53) : ofInt64 n = .fin (n : Rat) := by
  have hB := pow2_le (m := 53) (n := 1023) (by decide)
  have a1 : (n : Rat) ≤ pow2 53 := by rw [pow2_cast]; exact_mod_cast h2
  have a2 : -pow2 53 ≤ n := by rw [pow2_cast]; exact_mod_cast h1
  unfold ofInt64
  rw [ofRat_small (by linarith) (by linarith)]
  congr 1
  rcases le_total 0 n with h | h
  · have := round_rep (k := n) (j := 0) h h2 (by decide)
    simpa using this
  · have := round_rep (k := -n) (j := 0) (by omega) (by omega) (by decide)
    have e : float64Round (-(n : Rat)) = -(n : Rat) := by simpa using this
    rw [round_neg] at e
    linarith

/-- A product of a coordinate and a direction, rounded. -/
theorem coord_bounds {n : Int} (h1 : 0 ≤ n) (h2 : n ≤ 2 ^ 53) {d : Rat} (d1 : -1 ≤ d) (d2 : d ≤ 1) :
    (-pow2 53 ≤ n * d ∧ (n : Rat) * d ≤ pow2 53) ∧ -pow2 53 ≤ float64Round (n * d) ∧ float64Round ((n : Rat) * d) ≤ pow2 53 := by
  have a1 : (n : Rat) ≤ pow2 53 := by rw [pow2_cast]; exact_mod_cast h2
  have a2 : (0 : Rat) ≤ n := by exact_mod_cast h1
  have k1 : -pow2 53 ≤ n * d := by nlinarith
  have k2 : (n : Rat) * d ≤ pow2 53 := by nlinarith
  have u := round_mono k2
  have l := round_mono k1
  rw [round_neg] at l
  rw [pow2_rep] at u l
  exact ⟨⟨k1, k2⟩, l, u⟩

theorem proj64_eq {dx dy : Rat} (d1 : -1 ≤ dx) (d2 : dx ≤ 1) (d3 : -1 ≤ dy) (d4 : dy ≤ 1) {x y : Int} (hx0 : 0 ≤ x) (hx : x ≤ 2 ^ 53)
    (hy0 : 0 ≤ y) (hy : y ≤ 2 ^ 53) : proj64 (.fin dx) (.fin dy) x y = .fin (proj float64Round dx dy x y) ∧
      -pow2 54 ≤ proj float64Round dx dy x y ∧ proj float64Round dx dy x y ≤ pow2 54 := by
  have hB := pow2_le (m := 54) (n := 1023) (by decide)
  have h54 := pow2_succ 53
  obtain ⟨⟨a1, a2⟩, a3, a4⟩ := coord_bounds hx0 hx d1 d2
  obtain ⟨⟨b1, b2⟩, b3, b4⟩ := coord_bounds hy0 hy d3 d4
  have p53 := pow2_pos 53
  unfold proj64 proj
  rw [ofInt64_eq (by omega) hx, ofInt64_eq (by omega) hy,
    mul_fin (by linarith) (by linarith),
    mul_fin (by linarith) (by linarith),
    add_fin (by linarith) (by linarith)]
  refine ⟨rfl, ?_, ?_⟩
  · have := round_mono (show -pow2 54 ≤ float64Round ((x : Rat) * dx) + float64Round ((y : Rat) * dy) by linarith)
    rw [round_neg, pow2_rep] at this
    exact this
  · have := round_mono (show float64Round ((x : Rat) * dx) + float64Round ((y : Rat) * dy) ≤ pow2 54 by linarith)
    rw [pow2_rep] at this
    exact this

theorem minProj64_eq (a b c d : Rat) : minProj64 [.fin a, .fin b, .fin c, .fin d] = .fin (minProj [a, b, c, d]) := by
  have h : ∀ (p q : Rat), (if lt (.fin q) (.fin p) = true then F64.fin q else .fin p) = .fin (if q < p then q else p) := by
    intro p q
    simp only [lt, decide_eq_true_eq]
    split <;> rfl
  have h0 : ∀ q : Rat, (if lt (.fin q) .pinf = true then F64.fin q else .pinf) = .fin q := fun q => rfl
  simp only [minProj64, minProj, List.foldl_cons, List.foldl_nil, h0, h]

theorem maxProj64_eq (a b c d : Rat) : maxProj64 [.fin a, .fin b, .fin c, .fin d] = .fin (maxProj [a, b, c, d]) := by
  have h : ∀ (p q : Rat), (if lt (.fin p) (.fin q) = true then F64.fin q else .fin p) = .fin (if q > p then q else p) := by
    intro p q
    simp only [lt, decide_eq_true_eq]
    split <;> rfl
  have h0 : ∀ q : Rat, (if lt .ninf (.fin q) = true then F64.fin q else .ninf) = .fin q := fun q => rfl
  simp only [maxProj64, maxProj, List.foldl_cons, List.foldl_nil, h0, h]

theorem gradientPos64_eq {dx dy : Rat} (d1 : -1 ≤ dx) (d2 : dx ≤ 1) (d3 : -1 ≤ dy) (d4 : dy ≤ 1) (hd : Direction dx dy) {w h x y : Int}
    (hx0 : 0 ≤ x) (hx : x < w) (hw : w ≤ 2 ^ 53) (hy0 : 0 ≤ y) (hy : y < h) (hh : h ≤ 2 ^ 53) :
    gradientPos64 (.fin dx) (.fin dy) w h x y = .fin (gradientPos float64Round dx dy 0 w 0 h x y) := by
  have hB := pow2_le (m := 55) (n := 1023) (by decide)
  have h55 := pow2_succ 54
  have P := fun (x y : Int) (a : 0 ≤ x) (b : x ≤ 2 ^ 53) (c : 0 ≤ y) (d : y ≤ 2 ^ 53) => proj64_eq d1 d2 d3 d4 a b c d
  obtain ⟨e1, l1, u1⟩ := P 0 0 (by omega) (by omega) (by omega) (by omega)
  obtain ⟨e2, l2, u2⟩ := P 0 h (by omega) (by omega) (by omega) (by omega)
  obtain ⟨e3, l3, u3⟩ := P w 0 (by omega) (by omega) (by omega) (by omega)
  obtain ⟨e4, l4, u4⟩ := P w h (by omega) (by omega) (by omega) (by omega)
  obtain ⟨e5, l5, u5⟩ := P x y (by omega) (by omega) (by omega) (by omega)
  have mem_min : minProj (cornerProj float64Round dx dy 0 w 0 h) ∈ cornerProj float64Round dx dy 0 w 0 h := by
    simp only [cornerProj, minProj, List.foldl_cons, List.foldl_nil, List.mem_cons, List.not_mem_nil, or_false]
    split <;> split <;> split <;> simp
  have mem_max : maxProj (cornerProj float64Round dx dy 0 w 0 h) ∈ cornerProj float64Round dx dy 0 w 0 h := by
    simp only [cornerProj, maxProj, List.foldl_cons, List.foldl_nil, List.mem_cons, List.not_mem_nil, or_false]
    split <;> split <;> split <;> simp
  have bnd : ∀ q ∈ cornerProj float64Round dx dy 0 w 0 h, -pow2 54 ≤ q ∧ q ≤ pow2 54 := by
    intro q hq
    simp only [cornerProj, List.mem_cons, List.not_mem_nil, or_false] at hq
    rcases hq with rfl | rfl | rfl | rfl <;> exact ⟨by assumption, by assumption⟩
  have b1 := bnd _ mem_min
  have b2 := bnd _ mem_max
  have hs := span_pos Rounding.float64 hd (w := w) (h := h) (by omega) (by omega)
  obtain ⟨⟨q1, m1, k1⟩, ⟨q2, m2, k2⟩⟩ := proj_bounds Rounding.float64 (dx := dx) (dy := dy) hx0 (le_of_lt hx) hy0 (le_of_lt hy)
  have hmin : minProj (cornerProj float64Round dx dy 0 w 0 h) ≤ proj float64Round dx dy x y := le_trans (minProj_le q1 m1) k1
  have hmax : proj float64Round dx dy x y ≤ maxProj (cornerProj float64Round dx dy 0 w 0 h) := le_trans k2 (le_maxProj q2 m2)
  unfold gradientPos64 gradientPos cornerProj64
  simp only
  rw [e1, e2, e3, e4, e5, minProj64_eq, maxProj64_eq]
  change div (sub (.fin (proj float64Round dx dy x y)) (.fin (minProj (cornerProj float64Round dx dy 0 w 0 h))))
    (sub (.fin (maxProj (cornerProj float64Round dx dy 0 w 0 h))) (.fin (minProj (cornerProj float64Round dx dy 0 w 0 h)))) = _
  unfold gradientSpan at hs ⊢
  simp only at hs ⊢
  generalize minProj (cornerProj float64Round dx dy 0 w 0 h) = mn at *
  generalize maxProj (cornerProj float64Round dx dy 0 w 0 h) = mx at *
  generalize proj float64Round dx dy x y = p at *
  have p54 := pow2_pos 54
  rw [sub_fin (by linarith) (by linarith),
    sub_fin (by linarith) (by linarith)]
  have n0 : 0 ≤ float64Round (p - mn) := by
    have := round_mono (show 0 ≤ p - mn by linarith)
    rwa [round_zero] at this
  have n1 : float64Round (p - mn) ≤ float64Round (mx - mn) := round_mono (by linarith)
  refine div_fin (ne_of_gt hs) ?_ ?_
  · have := div_nonneg n0 (le_of_lt hs); linarith
  · have : float64Round (p - mn) / float64Round (mx - mn) ≤ 1 := by rw [div_le_one hs]; exact n1
    linarith

/-- **C95, finite numbers.** If the angle is finite and not so large that its product with π overflows, and the positions are finite and at most 2^1022, there is no
overflow and no NaN: every pixel gets the colour the finite model (C47, C55) says. -/
theorem C95_finite {conv : F64 → UInt8} (hconv : Truncates conv) {tr : Trig} (htr : tr.Ok) {g : LinearGradient} (hm : ModerateStops g.stops) {angle : F64} {rad : Rat}
    (ha : angleRad angle = .fin rad) {w h x y : Int} (hx0 : 0 ≤ x) (hx : x < w) (hw : w ≤ 2 ^ 53) (hy0 : 0 ≤ y) (hy : y < h) (hh : h ≤ 2 ^ 53)
    (fg c : RGBA) : ∃ dx dy : Rat, tr.cos (.fin rad) = .fin dx ∧ tr.sin (.fin rad) = .fin (-dy) ∧ Direction dx dy ∧
      gradientPixel64 conv tr ⟨g.stops.map ColorStop.to64, angle⟩ w h fg x y c = gradientPixel float64Round g dx dy w h fg x y c := by
  obtain ⟨a, b, h1, h2, b1, b2, b3, b4, hd⟩ := htr.finite rad
  refine ⟨a, -b, h1, by rw [h2]; simp, hd, ?_⟩
  unfold gradientPixel64 gradientPixel
  simp only
  rw [ha, h1, h2]
  have e : neg (.fin b) = .fin (-b) := rfl
  rw [e, gradientPos64_eq b1 b2 (by linarith) (by linarith) hd hx0 hx hw hy0 hy hh, interpolate64_fin hconv hm]

theorem div_nan_left (a : F64) : div .nan a = .nan := by cases a <;> rfl
theorem sub_nan_left (a : F64) : sub .nan a = .nan := by cases a <;> rfl

/-- **C95, angles that are not numbers.** If the angle is NaN or infinite, or so large that its product with π overflows, every pixel of the foreground colour becomes
opaque black, whatever the stops are. -/
theorem C95_angle (conv : F64 → UInt8) {tr : Trig} (htr : tr.Ok) (g : LinearGradient64) (hne : g.stops ≠ []) (ha : ∀ q, angleRad g.angle ≠ .fin q)
    (w h x y : Int) (fg : RGBA) : gradientPixel64 conv tr g w h fg x y fg = some ⟨0, 0, 0, 255⟩ := by
  obtain ⟨h1, h2⟩ := htr.special _ ha
  unfold gradientPixel64
  rw [if_pos rfl, h1, h2]
  have hm : ∀ a, mul a .nan = .nan := by intro a; cases a <;> rfl
  have hp : ∀ x y, proj64 .nan (neg .nan) x y = .nan := by
    intro x y
    simp only [proj64, neg, hm]
    rfl
  have : gradientPos64 .nan (neg .nan) w h x y = .nan := by
    unfold gradientPos64
    simp only
    rw [hp, sub_nan_left, div_nan_left]
  rw [this, interpolate64_nan hne]
  rfl

/-- The angles of `C95_angle`: NaN, the infinities and numbers beyond `2^1024 / π`. -/
theorem C95_angle_special : (∀ q, angleRad .nan ≠ .fin q) ∧ (∀ q, angleRad .pinf ≠ .fin q) ∧ (∀ q, angleRad .ninf ≠ .fin q) ∧
    (∀ a : Rat, pow2 1023 ≤ a → ∀ q, angleRad (.fin a) ≠ .fin q) := by
  have hpi : (0 : Rat) < pi64 ∧ 2 ≤ pi64 := by unfold pi64; constructor <;> norm_num
  have hsg : signed pi64 = .pinf ∧ signed (-pi64) = .ninf := by
    unfold signed
    refine ⟨?_, ?_⟩
    · rw [if_neg (ne_of_gt hpi.1), if_pos hpi.1]
    · rw [if_neg (by have := hpi.1; intro h; linarith), if_neg (by have := hpi.1; linarith)]
  refine ⟨fun q h => (by cases h), fun q h => ?_, fun q h => ?_, fun a ha q h => ?_⟩
  · simp only [angleRad, mul, hsg.1, div] at h
    rw [if_pos (by norm_num)] at h
    cases h
  · simp only [angleRad, mul, hsg.2, div] at h
    rw [if_pos (by norm_num)] at h
    cases h
  · have hr : pow2 1024 ≤ float64Round (a * pi64) := by
      have e := pow2_succ 1023
      have p := pow2_pos 1023
      have h1 : pow2 1024 ≤ a * pi64 := by
        have := hpi.2
        nlinarith
      have h2 := round_mono h1
      rwa [pow2_rep] at h2
    simp only [angleRad, mul, ofRat] at h
    rw [if_pos hr] at h
    simp only [div] at h
    rw [if_pos (by norm_num)] at h
    cases h

/-- Two conversions that agree on all numbers that fit into a byte. -/
def convLow (f : F64) : UInt8 := match f with | .fin q => truncU8 q | _ => 0
def convHigh (f : F64) : UInt8 := match f with | .fin q => truncU8 q | _ => 255

/-- **C95, positions that are not numbers.** A stop at NaN can make the fall-back colour appear (here between two white stops); with a first stop at -∞ the colour is left to the
implementation: two conversions to `uint8` that Go allows give black and white. -/
theorem C95_positions :
    (∀ conv, interpolateColor64 conv [⟨.fin 0, color_WHITE⟩, ⟨.nan, color_WHITE⟩, ⟨.fin 1, color_WHITE⟩] (.fin (1 / 2)) = some ⟨0, 0, 0, 255⟩) ∧
    Truncates convLow ∧ Truncates convHigh ∧
    interpolateColor64 convLow [⟨.ninf, color_WHITE⟩, ⟨.fin 1, color_WHITE⟩] (.fin (1 / 2)) = some ⟨0, 0, 0, 255⟩ ∧
    interpolateColor64 convHigh [⟨.ninf, color_WHITE⟩, ⟨.fin 1, color_WHITE⟩] (.fin (1 / 2)) = some ⟨255, 255, 255, 255⟩ := by
  refine ⟨fun conv => ?_, fun q _ _ => rfl, fun q _ _ => rfl, ?_, ?_⟩
  · simp [interpolateColor64, interpLoop64, le, fallbackColor]
    norm_num
  · simp [interpolateColor64, interpLoop64, le, blendColors64, blendChan64, sub, neg, add, div, mul, convLow]
    norm_num
  · simp [interpolateColor64, interpLoop64, le, blendColors64, blendChan64, sub, neg, add, div, mul, convHigh]
    norm_num

/-- **C95, division by zero.** The only number ever divided by zero between two stops is zero (which gives NaN, whatever the sign of the zeros). -/
theorem C95_no_zero_division {s e t : Rat} (hs : float64Round s = s) (he : float64Round e = e) (h1 : le (.fin s) (.fin t) = true) (h2 : le (.fin t) (.fin e) = true)
    (h0 : sub (.fin e) (.fin s) = .fin 0) : sub (.fin t) (.fin s) = .fin 0 := by
  simp only [le, decide_eq_true_eq] at h1 h2
  have hr : float64Round (e - s) = 0 := by
    have e' : e + -s = e - s := by ring
    simp only [sub, neg, add, ofRat] at h0
    rw [e'] at h0
    split at h0
    · cases h0
    · split at h0
      · cases h0
      · exact F64.fin.inj h0
  have := Rounding.float64.sub he hs hr
  have ht : t = s := by linarith
  subst ht
  have hz := pow2_pos 1023
  rw [sub_fin (by linarith) (by linarith)]
  simp [round_zero]

/-! ## Readable pictures -/

open QR QR.Matrix Spec

/-- The colours of a gradient whose positions are numbers, wherever it is asked (at NaN and the infinities, too). -/
theorem colour64 {conv : F64 → UInt8} (hconv : Truncates conv) {o : Opts} {g : LinearGradient} (hg : GradientContrast o g) (hm : ModerateStops g.stops)
    (hblack : o.bgTransparent = true ∨ o.bgColor ≠ ⟨0, 0, 0, 255⟩) (t : F64) :
    ∃ c, interpolateColor64 conv (g.stops.map ColorStop.to64) t = some c ∧ c.a = 255 ∧ ink o c = true := by
  have hne : g.stops.map ColorStop.to64 ≠ [] := by simpa using hg.some_stop
  have hself : ∀ c : RGBA, ChannelsBetween 1 c c c := fun c => by unfold ChannelsBetween; omega
  have hink : ∀ (c : RGBA) (a b : ColorStop), c.a = 255 → Together g.stops a b → ChannelsBetween 1 a.color b.color c → ink o c = true := by
    intro c a b ha hab hch
    unfold ink
    rw [ha]
    rcases hg.bg with h | h
    · rw [h]; rfl
    · rw [decide_eq_true (standsOut_ne h hab hch), Bool.or_true]; rfl
  cases t with
  | nan =>
    refine ⟨_, interpolate64_nan hne, rfl, ?_⟩
    unfold ink fallbackColor
    rcases hblack with h | h
    · rw [h]; rfl
    · rw [decide_eq_true (show (⟨0, 0, 0, 255⟩ : RGBA) ≠ o.bgColor from fun e => h e.symm), Bool.or_true]; rfl
  | fin t =>
    obtain ⟨c, e, ha, a, b, hab, hch⟩ := gradient_colour hg.some_stop hg.positions hg.solid t
    exact ⟨c, by rw [interpolate64_fin hconv hm, e], ha, hink c a b ha hab hch⟩
  | ninf =>
    obtain ⟨s, rest, hs⟩ := List.exists_cons_of_ne_nil hg.some_stop
    have hmem : s ∈ g.stops := by rw [hs]; simp
    exact ⟨s.color, by rw [hs]; rfl, hg.solid s hmem, hink _ s s (hg.solid s hmem) (.inl ⟨hmem, rfl⟩) (hself _)⟩
  | pinf =>
    have hmem := List.getLast_mem hg.some_stop
    refine ⟨(g.stops.getLast hg.some_stop).color, ?_, hg.solid _ hmem, hink _ _ _ (hg.solid _ hmem) (.inl ⟨hmem, rfl⟩) (hself _)⟩
    have hl : (g.stops.map ColorStop.to64).getLast hne = (g.stops.getLast hg.some_stop).to64 := by rw [List.getLast_map]
    obtain ⟨s, rest, hs⟩ := List.exists_cons_of_ne_nil hne
    obtain ⟨s', rest', hs'⟩ := List.exists_cons_of_ne_nil hg.some_stop
    have hst : s.t = .fin s'.t := by rw [hs', List.map_cons] at hs; rw [← (List.cons.inj hs).1]; rfl
    simp only [hs] at hl ⊢
    unfold interpolateColor64
    simp only
    rw [hl, hst]
    rfl

/-- One pixel of a module after the gradient. -/
theorem gradient_ink64 {conv : F64 → UInt8} (hconv : Truncates conv) {o : Opts} {g : LinearGradient} (hcol : Contrast o) (hg : GradientContrast o g) (hm : ModerateStops g.stops)
    (hblack : o.bgTransparent = true ∨ o.bgColor ≠ ⟨0, 0, 0, 255⟩) {put : Put} (hput : PutsOver put) (v : QRValue)
    (t : F64) {c : RGBA} (hc : (if over (moduleColor o v) (over o.backgroundColor.1 ⟨0, 0, 0, 0⟩) = o.qrColor then
      interpolateColor64 conv (g.stops.map ColorStop.to64) t else some (over (moduleColor o v) (over o.backgroundColor.1 ⟨0, 0, 0, 0⟩))) = some c) :
    ink o (put c (over (moduleColor o v) (over o.backgroundColor.1 ⟨0, 0, 0, 0⟩))) = v.bit := by
  cases hv : v.bit with
  | true =>
    rw [if_pos ((contrast_iff hcol v).2 hv)] at hc
    obtain ⟨c', e, ha, hi⟩ := colour64 hconv hg hm hblack t
    rw [e] at hc
    cases hc
    rw [hput.solid _ _ ha, hi]
  | false =>
    refine (gradient_ink hcol hg hput v 0 (c := c) ?_).trans hv
    rw [if_neg (fun h => by rw [(contrast_iff hcol v).1 h] at hv; cases hv)] at hc ⊢
    exact hc

theorem foldlM_paintGradient64 (conv : F64 → UInt8) (tr : Trig) (blend : Blend) (put : Put) (g : LinearGradient64) : ∀ (ops : List DrawOp) (cv : Canvas),
    (∀ op ∈ ops, (∀ img x y, op ≠ .image img x y) ∧ ∀ g c, op ≠ .gradient g c) →
    ops.foldlM (Canvas.paintGradient64 conv tr blend put g) cv = ops.foldlM Canvas.paint cv := by
  intro ops
  induction ops with
  | nil => intro cv _; rfl
  | cons op ops ih =>
    intro cv h
    have h1 : Canvas.paintGradient64 conv tr blend put g cv op = cv.paint op := by
      cases op with
      | image img x y => exact absurd rfl ((h (.image img x y) (by simp)).1 img x y)
      | gradient g c => exact absurd rfl ((h (.gradient g c) (by simp)).2 g c)
      | _ => rfl
    rw [List.foldlM_cons, List.foldlM_cons, h1]
    cases cv.paint op with
    | none => rfl
    | some cv' => exact ih cv' (fun op ho => h op (by simp [ho]))

/-- **C95, readable pictures.** C79 whatever the angle is - NaN, infinite or huge, too - if black (the colour of `C95_angle`) can be told from the background, as well: drawing
succeeds, and a scanner that looks at any one pixel of every block reads exactly the text. -/
theorem C95_read {E : Ext} {unsjis : Nat → Option Nat} (hE : E.Ok unsjis) {c : AlignCache} (hc : CacheReachable c)
    {arrival : List Nat} (ha : Arrival arrival) {t : TextType} {text : Bytes} {opts : List EncodeOption} {q : QRCode}
    (h : newWith E c arrival t text opts = .ok q)
    (hx : ¬ (modeIn opts = encAuto ∧ AlnumThenKanji E.sjis (nats text)))
    (scale : Scaler) (blend : Blend) {put : Put} (hput : PutsOver put) {o : Opts}
    (hsh : o.shape = none ∨ o.shape = some .rectangle) (hht : o.halftone = none) {g : LinearGradient} (hgr : o.qrGradient = some g)
    (hcol : Contrast o) (hg : GradientContrast o g) (hm : ModerateStops g.stops) (hblack : o.bgTransparent = true ∨ o.bgColor ≠ ⟨0, 0, 0, 255⟩)
    (hb : 0 ≤ o.borders.top ∧ 0 ≤ o.borders.right ∧ 0 ≤ o.borders.bottom ∧ 0 ≤ o.borders.left) (hl : o.logo = none)
    {conv : F64 → UInt8} (hconv : Truncates conv) (tr : Trig) (angle : F64) :
    ∃ ops o' cv, draw scale o q.mat = some (ops, o') ∧
      paintAllGradient64 conv tr blend put ⟨g.stops.map ColorStop.to64, angle⟩ ops = some cv ∧
      ∀ pt, InBlocks o q.dimension pt → decode unsjis (seenInk o q.dimension cv pt) = some (nats text) := by
  obtain ⟨hw, hh⟩ := mat_size hE hc ha h
  have hd : 0 < q.dimension := by obtain ⟨v, _, hd, _⟩ := C11_dimension hE hc ha h; omega
  obtain ⟨bm, o', cv, he, hfold, hno, s1, s2, hpix⟩ := rects_body scale hsh hht (m := q.mat) (hw.trans hh.symm) hb (by omega)
  have hne : g.stops.map ColorStop.to64 ≠ [] := by simpa using hg.some_stop
  obtain ⟨cv', hcv'⟩ : ∃ cv', cv.applyGradient64 conv tr put ⟨g.stops.map ColorStop.to64, angle⟩ o.qrColor = some cv' := by
    unfold Canvas.applyGradient64
    rw [if_neg hne]
    exact ⟨_, rfl⟩
  have hbase : List.foldlM (Canvas.paintGradient64 conv tr blend put ⟨g.stops.map ColorStop.to64, angle⟩) ⟨0, 0, fun _ _ => ⟨0, 0, 0, 0⟩⟩
      (bodyOps scale o q.mat bm ++ [.gradient g o.qrColor]) = some cv' := by
    rw [List.foldlM_append, foldlM_paintGradient64 _ _ _ _ _ _ _ hno, hfold]
    change (List.foldlM (Canvas.paintGradient64 conv tr blend put ⟨g.stops.map ColorStop.to64, angle⟩) cv [.gradient g o.qrColor]) = some cv'
    rw [List.foldlM_cons, Canvas.paintGradient64, hcv']
    rfl
  have htail : tailOps o q.mat = [.gradient g o.qrColor] := by
    unfold tailOps
    rw [hgr, hl]
    rfl
  refine ⟨_, o', cv', he, ?_, fun pt hpt => ?_⟩
  · unfold paintAllGradient64
    rw [htail]
    exact hbase
  · have : seenInk o q.dimension cv' pt = q.mat.bitmap := by
      refine scan_eq hw hh fun x y hx hy => ?_
      have hcov : covered o q.mat x y = false := by unfold covered; rw [hl]; rfl
      unfold Canvas.applyGradient64 at hcv'
      rw [if_neg hne] at hcv'
      cases hcv'
      obtain ⟨hr, hcc⟩ := hpix x y _ _ (by omega) (by omega) (hpt x y hx hy) hcov
      simp only
      rw [if_pos (by rw [s1, s2]; exact hr), hcc]
      split
      · rename_i c' hcc'
        exact gradient_ink64 hconv hcol hg hm hblack hput _ _ hcc'
      · rename_i hcc'
        obtain ⟨c'', e, _⟩ := C95_total conv tr ⟨g.stops.map ColorStop.to64, angle⟩ hne cv.w cv.h o.qrColor (pt x y).1 (pt x y).2
          (over (moduleColor o (q.mat.raw x y)) (over o.backgroundColor.1 ⟨0, 0, 0, 0⟩))
        rw [e] at hcc'
        cases hcc'
    rw [this]
    exact C01_roundtrip_partial hE hc ha h hx

/-! ## C96: the factors of shapes -/

/-- The number lies between the two given ones. -/
def F64.Within (lo hi : Rat) (f : F64) : Prop := ∃ q, f = .fin q ∧ lo ≤ q ∧ q ≤ hi

theorem c01_near : (1 / 10 : Rat) ≤ float64Round (1 / 10) := by decide +kernel
theorem c06_near : float64Round (6 / 10) < (6 / 10 : Rat) ∧ (5 / 10 : Rat) < float64Round (6 / 10) := by decide +kernel

/-- **C96, for numbers.** Whatever number but NaN (infinities included) is given to `SquareBlocks` or `CircleBlocks`, the factor in use lies between 0.1 and 1; given to `HStripeBlock`
or `VStripeBlock`, the ratio in use lies between 0.6 (as a `float64`) and 1; a number in the range is used as it is, and in place of any other 1 and 0.85. -/
theorem C96_factors_partial (f : F64) (hf : f ≠ .nan) :
    F64.Within (1 / 10) 1 (blockScale64 f) ∧ F64.Within (float64Round (6 / 10)) 1 (stripeScale64 f) ∧
    (F64.Within (float64Round (1 / 10)) 1 f → blockScale64 f = f) ∧ (¬ F64.Within (float64Round (1 / 10)) 1 f → blockScale64 f = .fin 1) ∧
    (F64.Within (float64Round (6 / 10)) 1 f → stripeScale64 f = f) ∧ (¬ F64.Within (float64Round (6 / 10)) 1 f → stripeScale64 f = .fin (float64Round (85 / 100))) := by
  have h1 := c01_near
  have h85 : float64Round (6 / 10) ≤ float64Round (85 / 100) ∧ float64Round (85 / 100) ≤ 1 := by decide +kernel
  have h6 : float64Round (6 / 10) ≤ 1 := by decide +kernel
  have no : ∀ (lo hi q : Rat), F64.Within lo hi (.fin q) ↔ lo ≤ q ∧ q ≤ hi := fun lo hi q =>
    ⟨fun ⟨q', h, h1, h2⟩ => by cases h; exact ⟨h1, h2⟩, fun ⟨h1, h2⟩ => ⟨q, rfl, h1, h2⟩⟩
  unfold blockScale64 stripeScale64 c01 c06 c085
  cases f with
  | nan => exact absurd rfl hf
  | pinf => exact ⟨⟨1, rfl, by norm_num, le_refl _⟩, ⟨_, rfl, h85.1, h85.2⟩, (fun ⟨q, h, _⟩ => by cases h), fun _ => rfl, (fun ⟨q, h, _⟩ => by cases h), fun _ => rfl⟩
  | ninf => exact ⟨⟨1, rfl, by norm_num, le_refl _⟩, ⟨_, rfl, h85.1, h85.2⟩, (fun ⟨q, h, _⟩ => by cases h), fun _ => rfl, (fun ⟨q, h, _⟩ => by cases h), fun _ => rfl⟩
  | fin q =>
    generalize float64Round (1 / 10) = a at *
    generalize float64Round (6 / 10) = b at *
    generalize float64Round (85 / 100) = d at *
    simp only [lt, Bool.or_eq_true, decide_eq_true_eq, no]
    refine ⟨?_, ?_, fun g => ?_, fun g => ?_, fun g => ?_, fun g => ?_⟩
    · split
      · exact ⟨1, rfl, by norm_num, le_refl _⟩
      · rename_i h
        push Not at h
        exact ⟨q, rfl, by linarith [h.1], h.2⟩
    · split
      · exact ⟨d, rfl, h85.1, h85.2⟩
      · rename_i h
        push Not at h
        exact ⟨q, rfl, h.1, h.2⟩
    · rw [if_neg (by push Not; exact g)]
    · rw [if_pos (by by_contra h; push Not at h; exact g h)]
    · rw [if_neg (by push Not; exact g)]
    · rw [if_pos (by by_contra h; push Not at h; exact g h)]

/-- **C96 is false for NaN**: it passes the tests of both functions and is used as factor. -/
theorem C96_counterexample : (¬ ∀ f, F64.Within (1 / 10) 1 (blockScale64 f)) ∧ ¬ ∀ f, F64.Within (float64Round (6 / 10)) 1 (stripeScale64 f) := by
  refine ⟨fun h => ?_, fun h => ?_⟩
  · obtain ⟨q, hq, _⟩ := h .nan
    cases hq
  · obtain ⟨q, hq, _⟩ := h .nan
    cases hq

/-- On `float64` numbers the size in use is the one of the model of the shapes (`Model/Shapes.lean`, C59 to C63, C72). -/
theorem C96_blockScale {q : Rat} (hq : float64Round q = q) : blockScale64 (.fin q) = .fin (blockScale q) := by
  have h1 := c01_near
  have key : q < float64Round (1 / 10) ↔ q < 1 / 10 := by
    constructor
    · intro h
      by_contra hn
      have := round_mono (not_lt.1 hn)
      rw [hq] at this
      linarith
    · intro h; linarith
  unfold blockScale64 blockScale c01
  simp only [lt, Bool.or_eq_true, decide_eq_true_eq, key]
  split <;> rfl

end Standard
end QR
