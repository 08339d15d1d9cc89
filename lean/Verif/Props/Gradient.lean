import Verif.Model.Gradient
import Verif.Proof.Float64
/-!
# C47, C55: gradients

All theorems hold for every rounding with the properties in `Rounding` (`Proof/Float64.lean`), in particular for the rounding of
`float64` (`Rounding.float64`) and for exact arithmetic (`Rounding.exact`).
-/
namespace QR.Standard
open QR

/-- The stops have `float64` positions. -/
def Repr64 (rnd : Rat → Rat) (stops : List ColorStop) : Prop := ∀ s ∈ stops, rnd s.t = s.t

/-- What the loop finds: the first stop that reaches the position, and the one before it. -/
theorem loop_spec (rnd : Rat → Rat) (t : Rat) : ∀ (l : List ColorStop) (i : Nat) (s : ColorStop), s.t < t →
    (∃ l' ∈ l, t ≤ l'.t) → ∃ (k : Nat) (a b : ColorStop), (s :: l)[k]? = some a ∧ (s :: l)[k + 1]? = some b ∧ a.t < t ∧ t ≤ b.t ∧
      (∀ j c, j ≤ k → (s :: l)[j]? = some c → c.t < t) ∧
      interpLoop rnd t i (s :: l) = .between (i + k) (rnd (b.t - a.t)) (rnd (rnd (t - a.t) / rnd (b.t - a.t)))
        (blendColors rnd a.color b.color (rnd (rnd (t - a.t) / rnd (b.t - a.t)))) := by
  intro l
  induction l with
  | nil => intro i s _ h; obtain ⟨l', h, _⟩ := h; simp at h
  | cons e l ih =>
    intro i s hs h
    by_cases he : t ≤ e.t
    · refine ⟨0, s, e, rfl, rfl, hs, he, ?_, ?_⟩
      · intro j c hj hc
        have : j = 0 := by omega
        subst this
        simp only [List.getElem?_cons_zero, Option.some.injEq] at hc
        rw [← hc]; exact hs
      · unfold interpLoop
        rw [if_pos ⟨le_of_lt hs, he⟩]
        rfl
    · have he' : e.t < t := lt_of_not_ge he
      have : ∃ l' ∈ l, t ≤ l'.t := by
        obtain ⟨l', h1, h2⟩ := h
        rcases List.mem_cons.1 h1 with h1 | h1
        · rw [h1] at h2; exact absurd h2 he
        · exact ⟨l', h1, h2⟩
      obtain ⟨k, a, b, g1, g2, g3, g4, g5, g6⟩ := ih (i + 1) e he' this
      refine ⟨k + 1, a, b, g1, g2, g3, g4, ?_, ?_⟩
      · intro j c hj hc
        match j with
        | 0 =>
          simp only [List.getElem?_cons_zero, Option.some.injEq] at hc
          rw [← hc]; exact hs
        | j + 1 => exact g5 j c (by omega) hc
      · unfold interpLoop
        rw [if_neg (fun hc => he hc.2), g6]
        congr 1
        omega

theorem floor_nat {q : Rat} {lo hi : Nat} (h1 : (lo : Rat) ≤ q) (h2 : q < hi + 1) : lo ≤ q.floor.toNat ∧ q.floor.toNat ≤ hi := by
  obtain ⟨f1, f2⟩ := floor_spec q
  have a : ((lo : Int) : Rat) < ((q.floor + 1 : Int) : Rat) := by push_cast; linarith
  have b : (q.floor : Rat) < ((hi + 1 : Int) : Rat) := by push_cast; linarith
  have a := Int.cast_lt.1 a
  have b := Int.cast_lt.1 b
  omega

/-- One channel of a blend, in rounded arithmetic. -/
theorem blend_value {rnd : Rat → Rat} (R : Rounding rnd) (a b : UInt8) {f : Rat} (h0 : 0 ≤ f) (h1 : f ≤ 1) :
    0 ≤ rnd (rnd ((a.toNat : Rat) * rnd (1 - f)) + rnd ((b.toNat : Rat) * f)) ∧
    ((min a.toNat b.toNat : Nat) : Rat) - 1/1000000 ≤ rnd (rnd ((a.toNat : Rat) * rnd (1 - f)) + rnd ((b.toNat : Rat) * f)) ∧
    rnd (rnd ((a.toNat : Rat) * rnd (1 - f)) + rnd ((b.toNat : Rat) * f)) ≤ ((max a.toNat b.toNat : Nat) : Rat) + 1/1000000 := by
  have nn : ∀ {x : Rat}, 0 ≤ x → 0 ≤ rnd x := fun h => by have := R.mono h; rwa [R.zero] at this
  have ha0 : (0 : Rat) ≤ a.toNat := by positivity
  have hb0 : (0 : Rat) ≤ b.toNat := by positivity
  have ha1 : (a.toNat : Rat) ≤ 255 := by have := a.toNat_lt; exact_mod_cast (by omega : a.toNat ≤ 255)
  have hb1 : (b.toNat : Rat) ≤ 255 := by have := b.toNat_lt; exact_mod_cast (by omega : b.toNat ≤ 255)
  have hm : ((min a.toNat b.toNat : Nat) : Rat) ≤ a.toNat ∧ ((min a.toNat b.toNat : Nat) : Rat) ≤ b.toNat := by
    constructor <;> exact_mod_cast (by omega)
  have hM : (a.toNat : Rat) ≤ ((max a.toNat b.toNat : Nat) : Rat) ∧ (b.toNat : Rat) ≤ ((max a.toNat b.toNat : Nat) : Rat) := by
    constructor <;> exact_mod_cast (by omega)
  generalize (a.toNat : Rat) = A at *
  generalize (b.toNat : Rat) = B at *
  generalize ((min a.toNat b.toNat : Nat) : Rat) = mn at *
  generalize ((max a.toNat b.toNat : Nat) : Rat) = mx at *
  obtain ⟨p1, p2⟩ := R.err (1 - f) (by linarith) (by linarith)
  have q0 : 0 ≤ rnd (1 - f) := nn (by linarith)
  have q1 : rnd (1 - f) ≤ 1 := by have := R.mono (show 1 - f ≤ 1 by linarith); rwa [R.one] at this
  generalize rnd (1 - f) = g at *
  have u0 : 0 ≤ A * g := mul_nonneg ha0 q0
  have u1 : A * g ≤ 255 := by have := mul_le_mul ha1 q1 q0 (by norm_num : (0 : Rat) ≤ 255); linarith
  have v0 : 0 ≤ B * f := mul_nonneg hb0 h0
  have v1 : B * f ≤ 255 := by have := mul_le_mul hb1 h1 h0 (by norm_num : (0 : Rat) ≤ 255); linarith
  obtain ⟨r1, r2⟩ := R.err (A * g) (by linarith) (by linarith)
  obtain ⟨s1, s2⟩ := R.err (B * f) (by linarith) (by linarith)
  have w0 := nn u0
  have x0 := nn v0
  -- A g ≈ A (1 - f)
  have k1 : A * (1 - f) - 255/1000000000 ≤ A * g := by nlinarith
  have k2 : A * g ≤ A * (1 - f) + 255/1000000000 := by nlinarith
  have l1 : mn ≤ A * (1 - f) + B * f := by nlinarith
  have l2 : A * (1 - f) + B * f ≤ mx := by nlinarith
  have bd : A * (1 - f) + B * f ≤ 255 := by nlinarith
  generalize A * (1 - f) = Af at *
  generalize A * g = U at *
  generalize B * f = V at *
  obtain ⟨t1, t2⟩ := R.err (rnd U + rnd V) (by linarith) (by linarith)
  refine ⟨nn (by linarith), by linarith, by linarith⟩

theorem blendChan_spec {rnd : Rat → Rat} (R : Rounding rnd) (a b : UInt8) {f : Rat} (h0 : 0 ≤ f) (h1 : f ≤ 1) :
    min a.toNat b.toNat - 1 ≤ (blendChan rnd a b f).toNat ∧ (blendChan rnd a b f).toNat ≤ max a.toNat b.toNat := by
  obtain ⟨g0, g1, g2⟩ := blend_value R a b h0 h1
  unfold blendChan truncU8
  generalize rnd (rnd ((a.toNat : Rat) * rnd (1 - f)) + rnd ((b.toNat : Rat) * f)) = q at *
  have hlo : (((min a.toNat b.toNat - 1 : Nat)) : Rat) ≤ q := by
    rcases Nat.eq_zero_or_pos (min a.toNat b.toNat) with h | h
    · rw [h]; simpa using g0
    · have : ((min a.toNat b.toNat - 1 : Nat) : Rat) = ((min a.toNat b.toNat : Nat) : Rat) - 1 := by
        rw [Nat.cast_sub h]; simp
      rw [this]; linarith
  obtain ⟨f1, f2⟩ := floor_nat (q := q) (lo := min a.toNat b.toNat - 1) (hi := max a.toNat b.toNat) hlo (by linarith)
  have := a.toNat_lt
  have := b.toNat_lt
  rw [UInt8.toNat_ofNat', Nat.mod_eq_of_lt (by omega)]
  exact ⟨f1, f2⟩

/-- In exact arithmetic the blend lies between the two values. -/
theorem blendChan_exact (a b : UInt8) {f : Rat} (h0 : 0 ≤ f) (h1 : f ≤ 1) :
    min a.toNat b.toNat ≤ (blendChan id a b f).toNat ∧ (blendChan id a b f).toNat ≤ max a.toNat b.toNat := by
  have ha0 : (0 : Rat) ≤ a.toNat := by positivity
  have hb0 : (0 : Rat) ≤ b.toNat := by positivity
  have hm : ((min a.toNat b.toNat : Nat) : Rat) ≤ a.toNat ∧ ((min a.toNat b.toNat : Nat) : Rat) ≤ b.toNat := by
    constructor <;> exact_mod_cast (by omega)
  have hM : (a.toNat : Rat) ≤ ((max a.toNat b.toNat : Nat) : Rat) ∧ (b.toNat : Rat) ≤ ((max a.toNat b.toNat : Nat) : Rat) := by
    constructor <;> exact_mod_cast (by omega)
  unfold blendChan truncU8
  simp only [id]
  have l1 : ((min a.toNat b.toNat : Nat) : Rat) ≤ (a.toNat : Rat) * (1 - f) + (b.toNat : Rat) * f := by
    generalize ((min a.toNat b.toNat : Nat) : Rat) = mn at *; nlinarith
  have l2 : (a.toNat : Rat) * (1 - f) + (b.toNat : Rat) * f ≤ ((max a.toNat b.toNat : Nat) : Rat) := by
    generalize ((max a.toNat b.toNat : Nat) : Rat) = mx at *; nlinarith
  obtain ⟨f1, f2⟩ := floor_nat (q := (a.toNat : Rat) * (1 - f) + (b.toNat : Rat) * f) l1 (by linarith)
  have := a.toNat_lt
  have := b.toNat_lt
  rw [UInt8.toNat_ofNat', Nat.mod_eq_of_lt (by omega)]
  exact ⟨f1, f2⟩

/-- The blend factor of a position between two stops. -/
theorem factor_spec {rnd : Rat → Rat} (R : Rounding rnd) {s e t : Rat} (hs : rnd s = s) (he : rnd e = e) (h1 : s < t) (h2 : t ≤ e) :
    0 < rnd (e - s) ∧ 0 ≤ rnd (rnd (t - s) / rnd (e - s)) ∧ rnd (rnd (t - s) / rnd (e - s)) ≤ 1 := by
  have hd : 0 < rnd (e - s) := by
    have h0 : 0 ≤ rnd (e - s) := by have := R.mono (show 0 ≤ e - s by linarith); rwa [R.zero] at this
    rcases eq_or_lt_of_le h0 with h | h
    · have := R.sub he hs h.symm; linarith
    · exact h
  have hn : 0 ≤ rnd (t - s) := by have := R.mono (show 0 ≤ t - s by linarith); rwa [R.zero] at this
  have hle : rnd (t - s) ≤ rnd (e - s) := R.mono (by linarith)
  refine ⟨hd, ?_, ?_⟩
  · have := R.mono (div_nonneg hn (le_of_lt hd)); rwa [R.zero] at this
  · have : rnd (t - s) / rnd (e - s) ≤ 1 := by rw [div_le_one hd]; exact hle
    have := R.mono this
    rwa [R.one] at this

/-- The statement of C47 about channels, with a tolerance: every channel lies between the channels of the two stops, or up to
`tol` below. -/
def ChannelsBetween (tol : Nat) (a b c : RGBA) : Prop :=
  (min a.r.toNat b.r.toNat - tol ≤ c.r.toNat ∧ c.r.toNat ≤ max a.r.toNat b.r.toNat) ∧
  (min a.g.toNat b.g.toNat - tol ≤ c.g.toNat ∧ c.g.toNat ≤ max a.g.toNat b.g.toNat) ∧
  (min a.b.toNat b.b.toNat - tol ≤ c.b.toNat ∧ c.b.toNat ≤ max a.b.toNat b.b.toNat)

/-- Everything C47 claims, with a tolerance for the channels. -/
def C47Claim (rnd : Rat → Rat) (tol : Nat) (stops : List ColorStop) (t : Rat) : Prop :=
  (∀ s, stops.head? = some s → t ≤ s.t → interpolateColor rnd stops t = .first s.color) ∧
  (∀ s l, stops.head? = some s → stops.getLast? = some l → s.t < t → l.t ≤ t → interpolateColor rnd stops t = .last l.color) ∧
  (∀ s l, stops.head? = some s → stops.getLast? = some l → s.t < t → t < l.t →
    ∃ (i : Nat) (a b : ColorStop) (den factor : Rat) (c : RGBA), stops[i]? = some a ∧ stops[i + 1]? = some b ∧ a.t < t ∧ t ≤ b.t ∧
      interpolateColor rnd stops t = .between i den factor c ∧ den ≠ 0 ∧ 0 ≤ factor ∧ factor ≤ 1 ∧ c.a = 255 ∧
      ChannelsBetween tol a.color b.color c)

theorem claim_of {rnd : Rat → Rat} (R : Rounding rnd) {tol : Nat}
    (hb : ∀ (a b : UInt8) (f : Rat), 0 ≤ f → f ≤ 1 →
      min a.toNat b.toNat - tol ≤ (blendChan rnd a b f).toNat ∧ (blendChan rnd a b f).toNat ≤ max a.toNat b.toNat)
    {stops : List ColorStop} (hr : Repr64 rnd stops) (t : Rat) : C47Claim rnd tol stops t := by
  refine ⟨?_, ?_, ?_⟩
  · intro s hs ht
    cases stops with
    | nil => simp at hs
    | cons s0 rest =>
      simp only [List.head?_cons, Option.some.injEq] at hs
      subst hs
      unfold interpolateColor
      simp only
      rw [if_pos ht]
  · intro s l hs hl h1 h2
    cases stops with
    | nil => simp at hs
    | cons s0 rest =>
      simp only [List.head?_cons, Option.some.injEq] at hs
      subst hs
      unfold interpolateColor
      simp only
      rw [List.getLast?_eq_getLast_of_ne_nil (by simp), Option.some.injEq] at hl
      rw [if_neg (not_le.2 h1), hl, if_pos h2]
  · intro s l hs hl h1 h2
    cases stops with
    | nil => simp at hs
    | cons s0 rest =>
      simp only [List.head?_cons, Option.some.injEq] at hs
      subst hs
      rw [List.getLast?_eq_getLast_of_ne_nil (by simp), Option.some.injEq] at hl
      have hmem : ∃ l' ∈ rest, t ≤ l'.t := by
        have hm : (s0 :: rest).getLast (by simp) ∈ s0 :: rest := List.getLast_mem _
        rw [hl] at hm
        rcases List.mem_cons.1 hm with h | h
        · rw [h] at h2; exact absurd (lt_trans h1 h2) (lt_irrefl _)
        · exact ⟨l, h, le_of_lt h2⟩
      obtain ⟨k, a, b, g1, g2, g3, g4, _, g6⟩ := loop_spec rnd t rest 0 s0 h1 hmem
      have ra := hr a (List.mem_of_getElem? g1)
      have rb := hr b (List.mem_of_getElem? g2)
      obtain ⟨f0, f1, f2⟩ := factor_spec R ra rb g3 g4
      refine ⟨k, a, b, rnd (b.t - a.t), rnd (rnd (t - a.t) / rnd (b.t - a.t)),
        blendColors rnd a.color b.color (rnd (rnd (t - a.t) / rnd (b.t - a.t))), g1, g2, g3, g4, ?_, ne_of_gt f0, f1, f2, rfl, hb _ _ _ f1 f2, hb _ _ _ f1 f2, hb _ _ _ f1 f2⟩
      unfold interpolateColor
      simp only
      rw [if_neg (not_le.2 h1), hl, if_neg (not_le.2 h2), g6, Nat.zero_add]

/-- **C47 in exact arithmetic.**  For every non-empty list of stops (sorted or not) and every position: before the first stop the
colour is its colour, from the last one on it is the last one's, and in between it is the blend of two neighbouring stops around
the position, with a divisor that is not zero and a factor between 0 and 1, opaque, with every channel between theirs.  The
fall-back is never reached. -/
theorem C47_exact (stops : List ColorStop) (t : Rat) : C47Claim id 0 stops t :=
  claim_of Rounding.exact (fun a b _ h0 h1 => blendChan_exact a b h0 h1) (fun _ _ => rfl) t

/-- **C47, in `float64`.**  The same in the arithmetic of `float64` (stops at `float64` positions), except that a channel may be
one too small; see `C47_counterexample`. -/
theorem C47_float64_partial {stops : List ColorStop} (h : Repr64 float64Round stops) (t : Rat) : C47Claim float64Round 1 stops t :=
  claim_of Rounding.float64 (fun a b _ h0 h1 => blendChan_spec Rounding.float64 a b h0 h1) h t

/-- Neither the panic nor the fall-back occurs. -/
theorem C47_no_fallback {stops : List ColorStop} (hne : stops ≠ []) (h : Repr64 float64Round stops) (t : Rat) :
    interpolateColor float64Round stops t ≠ .panic ∧ interpolateColor float64Round stops t ≠ .fallback := by
  obtain ⟨h1, h2, h3⟩ := C47_float64_partial h t
  obtain ⟨s, rest, rfl⟩ := List.exists_cons_of_ne_nil hne
  have hl : (s :: rest).getLast? = some ((s :: rest).getLast (by simp)) := List.getLast?_eq_getLast_of_ne_nil (by simp)
  rcases le_or_gt t s.t with c | c
  · rw [h1 s rfl c]; exact ⟨by simp, by simp⟩
  · rcases le_or_gt ((s :: rest).getLast (by simp)).t t with d | d
    · rw [h2 s _ rfl hl c d]; exact ⟨by simp, by simp⟩
    · obtain ⟨i, a, b, den, f, col, _, _, _, _, e, _⟩ := h3 s _ rfl hl c d
      rw [e]; exact ⟨by simp, by simp⟩

/-- A gradient from white to white. -/
def whiteStops : List ColorStop := [⟨0, color_WHITE⟩, ⟨1, color_WHITE⟩]

/-- **C47 is false in `float64`**: in a gradient from white to white, the colour at the `float64` nearest to 3/7 has red 254. -/
theorem C47_counterexample : ¬ ∀ (stops : List ColorStop) (t : Rat), Repr64 float64Round stops → float64Round t = t →
    C47Claim float64Round 0 stops t := by
  intro h
  have hrep : Repr64 float64Round whiteStops := by
    intro s hs
    simp only [whiteStops, List.mem_cons, List.not_mem_nil, or_false] at hs
    rcases hs with rfl | rfl <;> decide +kernel
  obtain ⟨_, _, h3⟩ := h whiteStops (float64Round (3/7)) hrep (round_idem _)
  obtain ⟨i, a, b, den, f, c, ha, hb, _, _, e, _, _, _, _, hc⟩ := h3 ⟨0, color_WHITE⟩ ⟨1, color_WHITE⟩ rfl rfl (by decide +kernel) (by decide +kernel)
  have ha' : a.color = color_WHITE := by
    have := List.mem_of_getElem? ha
    simp only [whiteStops, List.mem_cons, List.not_mem_nil, or_false] at this
    rcases this with rfl | rfl <;> rfl
  have hb' : b.color = color_WHITE := by
    have := List.mem_of_getElem? hb
    simp only [whiteStops, List.mem_cons, List.not_mem_nil, or_false] at this
    rcases this with rfl | rfl <;> rfl
  have h254 : (interpolateColor float64Round whiteStops (float64Round (3/7))).color.map (·.r) = some 254 := by decide +kernel
  rw [e] at h254
  simp only [Interp.color, Option.map_some, Option.some.injEq] at h254
  have := hc.1.1
  rw [ha', hb', h254] at this
  revert this
  decide

/-- `NewGradient` keeps the stops and puts them in the order of their positions. -/
theorem C47_newGradient (angle : Rat) (stops : List ColorStop) :
    (newGradient angle stops).stops.Perm stops ∧ (newGradient angle stops).stops.Pairwise (fun a b => a.t ≤ b.t) := by
  refine ⟨List.mergeSort_perm _ _, ?_⟩
  have := List.pairwise_mergeSort (le := fun (a b : ColorStop) => decide (a.t ≤ b.t))
    (by intro a b c h1 h2; simp only [decide_eq_true_eq] at *; exact le_trans h1 h2)
    (by intro a b; simp only [Bool.or_eq_true, decide_eq_true_eq]; exact le_total _ _) stops
  exact this.imp fun h => by simpa using h

/-! ## Positions -/

theorem minProj_le {p : Rat} {ps : List Rat} : ∀ q ∈ p :: ps, minProj (p :: ps) ≤ q := by
  unfold minProj
  simp only
  induction ps generalizing p with
  | nil => intro q hq; simp only [List.mem_singleton] at hq; rw [hq]; simp
  | cons a l ih =>
    intro q hq
    rw [List.foldl_cons]
    have hle : ∀ (c : Rat) (l : List Rat), l.foldl (fun m q => if q < m then q else m) c ≤ c := by
      intro c l
      induction l generalizing c with
      | nil => simp
      | cons b l ih => rw [List.foldl_cons]; refine le_trans (ih _) ?_; split <;> linarith
    rcases List.mem_cons.1 hq with h | h
    · rw [h]
      refine le_trans (hle _ _) ?_
      split <;> linarith
    · rcases List.mem_cons.1 h with h | h
      · rw [h]
        refine le_trans (hle _ _) ?_
        split <;> linarith
      · exact ih q (List.mem_cons_of_mem _ h)

theorem le_maxProj {p : Rat} {ps : List Rat} : ∀ q ∈ p :: ps, q ≤ maxProj (p :: ps) := by
  unfold maxProj
  simp only
  induction ps generalizing p with
  | nil => intro q hq; simp only [List.mem_singleton] at hq; rw [hq]; simp
  | cons a l ih =>
    intro q hq
    rw [List.foldl_cons]
    have hle : ∀ (c : Rat) (l : List Rat), c ≤ l.foldl (fun m q => if q > m then q else m) c := by
      intro c l
      induction l generalizing c with
      | nil => simp
      | cons b l ih => rw [List.foldl_cons]; refine le_trans ?_ (ih _); split <;> linarith
    rcases List.mem_cons.1 hq with h | h
    · rw [h]
      refine le_trans ?_ (hle _ _)
      split <;> linarith
    · rcases List.mem_cons.1 h with h | h
      · rw [h]
        refine le_trans ?_ (hle _ _)
        split <;> linarith
      · exact ih q (List.mem_cons_of_mem _ h)

/-- The projection of a point lies between those of two corners. -/
theorem proj_bounds {rnd : Rat → Rat} (R : Rounding rnd) {dx dy : Rat} {x0 x1 y0 y1 x y : Int} (hx0 : x0 ≤ x) (hx1 : x ≤ x1) (hy0 : y0 ≤ y)
    (hy1 : y ≤ y1) : (∃ q ∈ cornerProj rnd dx dy x0 x1 y0 y1, q ≤ proj rnd dx dy x y) ∧
      (∃ q ∈ cornerProj rnd dx dy x0 x1 y0 y1, proj rnd dx dy x y ≤ q) := by
  have one : ∀ {a0 a a1 : Int} (d : Rat), a0 ≤ a → a ≤ a1 →
      ((rnd ((a0 : Rat) * d) ≤ rnd ((a : Rat) * d) ∧ rnd ((a : Rat) * d) ≤ rnd ((a1 : Rat) * d)) ∨
       (rnd ((a1 : Rat) * d) ≤ rnd ((a : Rat) * d) ∧ rnd ((a : Rat) * d) ≤ rnd ((a0 : Rat) * d))) := by
    intro a0 a a1 d h0 h1
    have h0' : (a0 : Rat) ≤ a := by exact_mod_cast h0
    have h1' : (a : Rat) ≤ a1 := by exact_mod_cast h1
    rcases le_total 0 d with hd | hd
    · left
      exact ⟨R.mono (mul_le_mul_of_nonneg_right h0' hd), R.mono (mul_le_mul_of_nonneg_right h1' hd)⟩
    · right
      exact ⟨R.mono (mul_le_mul_of_nonpos_right h1' hd), R.mono (mul_le_mul_of_nonpos_right h0' hd)⟩
  unfold cornerProj proj
  rcases one dx hx0 hx1 with ⟨a1, a2⟩ | ⟨a1, a2⟩ <;> rcases one dy hy0 hy1 with ⟨b1, b2⟩ | ⟨b1, b2⟩ <;>
    exact ⟨⟨_, by simp, R.mono (add_le_add a1 b1)⟩, ⟨_, by simp, R.mono (add_le_add a2 b2)⟩⟩

/-- The direction of a gradient: cosine and sine of an angle, one of them is at least a half (in fact at least 0.7). -/
def Direction (dx dy : Rat) : Prop := 1/2 ≤ dx ∨ dx ≤ -(1/2) ∨ 1/2 ≤ dy ∨ dy ≤ -(1/2)

theorem span_pos {rnd : Rat → Rat} (R : Rounding rnd) {dx dy : Rat} (hd : Direction dx dy) {w h : Int} (hw : 0 < w) (hh : 0 < h) :
    0 < gradientSpan rnd dx dy 0 w 0 h := by
  unfold gradientSpan
  simp only
  have c00 : proj rnd dx dy 0 0 = 0 := by simp [proj, R.zero]
  have cw : proj rnd dx dy w 0 = rnd ((w : Rat) * dx) := by simp [proj, R.zero, R.idem]
  have ch : proj rnd dx dy 0 h = rnd ((h : Rat) * dy) := by simp [proj, R.zero, R.idem]
  have up : ∀ {d : Rat} {n : Int}, 0 < n → 1/2 ≤ d → 1/2 ≤ rnd ((n : Rat) * d) := by
    intro d n hn h
    have : (1 : Rat) ≤ n := by exact_mod_cast hn
    have := R.mono (show (1/2 : Rat) ≤ n * d by nlinarith)
    rwa [R.half] at this
  have dn : ∀ {d : Rat} {n : Int}, 0 < n → d ≤ -(1/2) → rnd ((n : Rat) * d) ≤ -(1/2) := by
    intro d n hn h
    have := up (d := -d) hn (by linarith)
    rw [mul_neg, R.neg] at this
    linarith
  have lo := minProj_le (p := proj rnd dx dy 0 0) (ps := [proj rnd dx dy 0 h, proj rnd dx dy w 0, proj rnd dx dy w h])
  have hi := le_maxProj (p := proj rnd dx dy 0 0) (ps := [proj rnd dx dy 0 h, proj rnd dx dy w 0, proj rnd dx dy w h])
  have hge : (1/2 : Rat) ≤ maxProj (cornerProj rnd dx dy 0 w 0 h) - minProj (cornerProj rnd dx dy 0 w 0 h) := by
    have l0 := lo (proj rnd dx dy 0 0) (by simp)
    have h0 := hi (proj rnd dx dy 0 0) (by simp)
    have lw := lo (proj rnd dx dy w 0) (by simp)
    have hw' := hi (proj rnd dx dy w 0) (by simp)
    have lh := lo (proj rnd dx dy 0 h) (by simp)
    have hh' := hi (proj rnd dx dy 0 h) (by simp)
    have e : cornerProj rnd dx dy 0 w 0 h = proj rnd dx dy 0 0 :: [proj rnd dx dy 0 h, proj rnd dx dy w 0, proj rnd dx dy w h] := rfl
    rw [e]
    rcases hd with hd | hd | hd | hd
    · have := up hw hd; linarith
    · have := dn hw hd; linarith
    · have := up hh hd; linarith
    · have := dn hh hd; linarith
  have := R.mono hge
  rw [R.half] at this
  linarith

/-- **C47, positions.**  For every pixel of an image, every direction and every rounding: the divisor is not zero and the position
along the gradient lies between 0 and 1. -/
theorem C47_position {rnd : Rat → Rat} (R : Rounding rnd) {dx dy : Rat} (hd : Direction dx dy) {w h x y : Int} (hx0 : 0 ≤ x) (hx : x < w)
    (hy0 : 0 ≤ y) (hy : y < h) : gradientSpan rnd dx dy 0 w 0 h ≠ 0 ∧
      0 ≤ gradientPos rnd dx dy 0 w 0 h x y ∧ gradientPos rnd dx dy 0 w 0 h x y ≤ 1 := by
  have hs := span_pos R hd (w := w) (h := h) (by omega) (by omega)
  obtain ⟨⟨q1, m1, l1⟩, ⟨q2, m2, l2⟩⟩ := proj_bounds R (dx := dx) (dy := dy) hx0 (le_of_lt hx) hy0 (le_of_lt hy)
  have hmin : minProj (cornerProj rnd dx dy 0 w 0 h) ≤ proj rnd dx dy x y := le_trans (minProj_le q1 m1) l1
  have hmax : proj rnd dx dy x y ≤ maxProj (cornerProj rnd dx dy 0 w 0 h) := le_trans l2 (le_maxProj q2 m2)
  refine ⟨ne_of_gt hs, ?_, ?_⟩
  · unfold gradientPos
    simp only
    have : 0 ≤ rnd (proj rnd dx dy x y - minProj (cornerProj rnd dx dy 0 w 0 h)) := by
      have := R.mono (show 0 ≤ proj rnd dx dy x y - minProj (cornerProj rnd dx dy 0 w 0 h) by linarith)
      rwa [R.zero] at this
    have := R.mono (div_nonneg this (le_of_lt hs))
    rwa [R.zero] at this
  · unfold gradientPos
    simp only
    have : rnd (proj rnd dx dy x y - minProj (cornerProj rnd dx dy 0 w 0 h)) ≤ gradientSpan rnd dx dy 0 w 0 h := by
      unfold gradientSpan
      exact R.mono (by linarith)
    have : rnd (proj rnd dx dy x y - minProj (cornerProj rnd dx dy 0 w 0 h)) / gradientSpan rnd dx dy 0 w 0 h ≤ 1 := by
      rw [div_le_one hs]; exact this
    have := R.mono this
    rwa [R.one] at this

/-- **C55.**  A gradient only touches pixels of the foreground colour: any other pixel keeps its colour; and with at least one stop
(what `WithFgGradient` insists on) every pixel gets a colour. -/
theorem C55_only_foreground (g : LinearGradient) (hg : g.stops ≠ []) (hr : Repr64 float64Round g.stops) (dx dy : Rat) (w h : Int) (fg : RGBA)
    (x y : Int) (c : RGBA) : ∃ c', gradientPixel float64Round g dx dy w h fg x y c = some c' ∧ (c ≠ fg → c' = c) := by
  unfold gradientPixel
  by_cases hc : c = fg
  · rw [if_pos hc]
    obtain ⟨h1, h2⟩ := C47_no_fallback hg hr (gradientPos float64Round dx dy 0 w 0 h x y)
    generalize interpolateColor float64Round g.stops (gradientPos float64Round dx dy 0 w 0 h x y) = r at *
    cases r with
    | panic => exact absurd rfl h1
    | fallback => exact absurd rfl h2
    | first c0 => exact ⟨c0, rfl, fun h => absurd hc h⟩
    | last c0 => exact ⟨c0, rfl, fun h => absurd hc h⟩
    | between i d f c0 => exact ⟨c0, rfl, fun h => absurd hc h⟩
  · rw [if_neg hc]
    exact ⟨c, rfl, fun _ => rfl⟩

/-- The hypotheses are met: a gradient from red to blue at 45 degrees (the `float64` direction is about 0.7), middle of the image. -/
example : Direction (float64Round (7/10)) (-(float64Round (7/10))) ∧ Repr64 float64Round [⟨0, ⟨255, 0, 0, 255⟩⟩, ⟨1, ⟨0, 0, 255, 255⟩⟩] ∧
    gradientPixel float64Round ⟨[⟨0, ⟨255, 0, 0, 255⟩⟩, ⟨1, ⟨0, 0, 255, 255⟩⟩], 45⟩ (float64Round (7/10)) (-(float64Round (7/10))) 100 100
      ⟨0, 0, 0, 255⟩ 50 50 ⟨0, 0, 0, 255⟩ = some ⟨127, 0, 127, 255⟩ := by
  refine ⟨Or.inl (by decide +kernel), ?_, by decide +kernel⟩
  intro s hs
  simp only [List.mem_cons, List.not_mem_nil, or_false] at hs
  rcases hs with rfl | rfl <;> decide +kernel

end QR.Standard
