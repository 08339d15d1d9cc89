import Verif.Model.Shapes64
import Verif.Proof.Float64
import Verif.Proof.Shapes
/-!
# Shapes computed with `float64` are shapes
-/
namespace QR.Standard
open QR Plane

/-- What the theorems use of the rounding. -/
structure Rnd (rnd : Rat → Rat) : Prop where
  half : ∀ k : Int, -2 ^ 50 ≤ k → k ≤ 2 ^ 50 → rnd ((k : Rat) / 2) = k / 2
  near : ∀ q : Rat, q - (|q| + 1) / 2 ^ 50 ≤ rnd q ∧ rnd q ≤ q + (|q| + 1) / 2 ^ 50

theorem Rnd.exact : Rnd id where
  half _ _ _ := rfl
  near q := by
    have : (0 : Rat) ≤ (|q| + 1) / 2 ^ 50 := by positivity
    constructor <;> simp only [id] <;> linarith

theorem Rnd.float64 : Rnd float64Round where
  half k h1 h2 := by
    have pos : ∀ k : Int, 0 ≤ k → k ≤ 2 ^ 50 → float64Round ((k : Rat) / 2) = k / 2 := by
      intro k h0 h1
      have := round_rep (k := k) (j := -1) h0 (by omega) (by omega)
      rw [show ((2 : Rat) ^ (-1 : Int)) = 1 / 2 by norm_num] at this
      rw [show (k : Rat) / 2 = k * (1 / 2) by ring]
      exact this
    rcases le_or_gt 0 k with h | h
    · exact pos k h h2
    · have := pos (-k) (by omega) (by omega)
      push_cast at this
      rw [show -(k : Rat) / 2 = -((k : Rat) / 2) by ring, round_neg] at this
      linarith
  near q := by
    have pos : ∀ x : Rat, 0 < x → x - (x + 1) / 2 ^ 50 ≤ float64Round x ∧ float64Round x ≤ x + (x + 1) / 2 ^ 50 := by
      intro x h
      obtain ⟨a, b⟩ := roundEven_near (x / 2 ^ ulpExp x)
      have hu := two_zpow_pos (ulpExp x)
      have hs : (2 : Rat) ^ ulpExp x ≤ (x + 1) / 2 ^ 50 := by
        have e : (2 : Rat) ^ ulpExp x = 2 ^ (max (binExp x) (-1022)) * 2 ^ (-52 : Int) := by
          rw [← zpow_add₀ (by norm_num)]; rfl
        have h1 : (2 : Rat) ^ (max (binExp x) (-1022)) ≤ x + 1 := by
          rcases le_total (binExp x) (-1022) with hh | hh
          · rw [max_eq_right hh]
            have : (2 : Rat) ^ (-1022 : Int) ≤ 2 ^ (0 : Int) := two_zpow_le.2 (by omega)
            rw [zpow_zero] at this
            linarith
          · rw [max_eq_left hh]
            linarith [(binExp_spec h).1]
        rw [e]
        have h2 : (2 : Rat) ^ (-52 : Int) ≤ 1 / 2 ^ 50 := by norm_num
        have h3 : (0 : Rat) < 2 ^ (-52 : Int) := two_zpow_pos _
        calc (2 : Rat) ^ (max (binExp x) (-1022)) * 2 ^ (-52 : Int) ≤ (x + 1) * 2 ^ (-52 : Int) := mul_le_mul_of_nonneg_right h1 (le_of_lt h3)
          _ ≤ (x + 1) * (1 / 2 ^ 50) := mul_le_mul_of_nonneg_left h2 (by linarith)
          _ = (x + 1) / 2 ^ 50 := by ring
      have e : x / 2 ^ ulpExp x * 2 ^ ulpExp x = x := div_mul_cancel₀ x (ne_of_gt hu)
      rw [round_pos h]
      have a' := mul_le_mul_of_nonneg_right a (le_of_lt hu)
      have b' := mul_le_mul_of_nonneg_right b (le_of_lt hu)
      rw [sub_mul, e] at a'
      rw [add_mul, e] at b'
      constructor <;> linarith
    rcases lt_trichotomy q 0 with h | h | h
    · obtain ⟨a, b⟩ := pos (-q) (by linarith)
      rw [round_neg] at a b
      rw [abs_of_neg h]
      constructor <;> linarith
    · subst h; rw [round_zero]; norm_num
    · rw [abs_of_pos h]; exact pos q h

/-- Within a distance. -/
def Cl (e a b : Rat) : Prop := b - e ≤ a ∧ a ≤ b + e

/-- Figures whose numbers differ by at most `e`; outlines are to be the same. -/
def FigCl (e : Rat) : Figure → Figure → Prop
  | .rect x y w h, .rect x' y' w' h' => Cl e x x' ∧ Cl e y y' ∧ Cl e w w' ∧ Cl e h h'
  | .disc x y r, .disc x' y' r' => Cl e x x' ∧ Cl e y y' ∧ Cl e r r'
  | .outline s l, .outline s' l' => s = s' ∧ l = l'
  | _, _ => False

/-- The same for calls. -/
def CmdCl (e : Rat) : Cmd → Cmd → Prop
  | .add f, .add g => FigCl e f g
  | .fill, .fill => True
  | _, _ => False

theorem Cl.refl {e : Rat} (he : 0 ≤ e) (a : Rat) : Cl e a a := ⟨by linarith, by linarith⟩

theorem FigCl.refl {e : Rat} (he : 0 ≤ e) : ∀ f, FigCl e f f
  | .rect _ _ _ _ => ⟨Cl.refl he _, Cl.refl he _, Cl.refl he _, Cl.refl he _⟩
  | .disc _ _ _ => ⟨Cl.refl he _, Cl.refl he _, Cl.refl he _⟩
  | .outline _ _ => ⟨rfl, rfl⟩

theorem CmdCl.refl {e : Rat} (he : 0 ≤ e) : ∀ c, CmdCl e c c
  | .add f => FigCl.refl he f
  | .fill => trivial

theorem cmdsCl_refl {e : Rat} (he : 0 ≤ e) : ∀ l, List.Forall₂ (CmdCl e) l l
  | [] => .nil
  | c :: l => .cons (CmdCl.refl he c) (cmdsCl_refl he l)

theorem cmdsCl_append {e : Rat} : ∀ {a a' b b' : List Cmd}, List.Forall₂ (CmdCl e) a a' → List.Forall₂ (CmdCl e) b b' → List.Forall₂ (CmdCl e) (a ++ b) (a' ++ b')
  | _, _, _, _, .nil, h => h
  | _, _, _, _, .cons h t, h' => .cons h (cmdsCl_append t h')

theorem cmdsCl_when {e : Rat} {a a' : List Cmd} (b : Bool) (h : List.Forall₂ (CmdCl e) a a') : List.Forall₂ (CmdCl e) (when b a) (when b a') := by
  cases b
  · exact .nil
  · exact h

theorem cmdsCl_rect {e x y w h x' y' w' h' : Rat} (h1 : Cl e x x') (h2 : Cl e y y') (h3 : Cl e w w') (h4 : Cl e h h') :
    List.Forall₂ (CmdCl e) (drawRect x y w h) (drawRect x' y' w' h') := .cons ⟨h1, h2, h3, h4⟩ (.cons trivial .nil)

theorem Cl.mono {e e' a b : Rat} (h : Cl e a b) (he : e ≤ e') : Cl e' a b := ⟨by linarith [h.1], by linarith [h.2]⟩

/-- A context whose coordinates are whole numbers of ordinary size. -/
structure Whole (c : Ctx) : Prop where
  x : ∃ n : Int, c.x = n ∧ -2 ^ 30 ≤ n ∧ n ≤ 2 ^ 30
  y : ∃ n : Int, c.y = n ∧ -2 ^ 30 ≤ n ∧ n ≤ 2 ^ 30
  w : 0 ≤ c.w ∧ c.w ≤ 2 ^ 30
  h : 0 ≤ c.h ∧ c.h ≤ 2 ^ 30

section
variable {rnd : Rat → Rat} (H : Rnd rnd)
include H

theorem Rnd.halves {q : Rat} (k : Int) (h1 : -2 ^ 50 ≤ k) (h2 : k ≤ 2 ^ 50) (e : q = (k : Rat) / 2) : rnd q = q := by
  rw [e]; exact H.half k h1 h2

theorem Rnd.int (n : Int) (h1 : -2 ^ 49 ≤ n) (h2 : n ≤ 2 ^ 49) : rnd n = n :=
  H.halves (2 * n) (by omega) (by omega) (by push_cast; ring)

/-- One more rounding. -/
theorem Rnd.step {e a b : Rat} (h : Cl e a b) (he : e ≤ 1) (h1 : -2 ^ 32 ≤ b) (h2 : b ≤ 2 ^ 32) : Cl (e + 1 / 2 ^ 17) (rnd a) b := by
  obtain ⟨n1, n2⟩ := H.near a
  obtain ⟨c1, c2⟩ := h
  have : |a| ≤ 2 ^ 32 + 1 := abs_le.2 ⟨by linarith, by linarith⟩
  have : (|a| + 1) / 2 ^ 50 ≤ 1 / 2 ^ 17 := by
    rw [div_le_div_iff₀ (by norm_num) (by norm_num)]
    norm_num at this ⊢
    linarith
  constructor <;> linarith

theorem liquid_exact {c : Ctx} (hc : Whole c) : liquidBlock64 rnd c = liquidBlock c := by
  obtain ⟨⟨x, hx, x1, x2⟩, ⟨y, hy, y1, y2⟩, ⟨w1, w2⟩, h1, h2⟩ := hc
  have a1 : rnd (c.w : Rat) = c.w := H.int _ (by omega) (by omega)
  have a2 : rnd (c.h : Rat) = c.h := H.int _ (by omega) (by omega)
  have a3 : rnd ((c.w : Rat) / 2) = (c.w : Rat) / 2 := H.half _ (by omega) (by omega)
  have a4 : rnd ((c.h : Rat) / 2) = (c.h : Rat) / 2 := H.half _ (by omega) (by omega)
  have a5 : rnd (c.x + (c.w : Rat) / 2) = c.x + (c.w : Rat) / 2 := H.halves (2 * x + c.w) (by omega) (by omega) (by rw [hx]; push_cast; ring)
  have a6 : rnd (c.y + (c.h : Rat) / 2) = c.y + (c.h : Rat) / 2 := H.halves (2 * y + c.h) (by omega) (by omega) (by rw [hy]; push_cast; ring)
  have a7 : rnd (c.y + (c.h : Rat) / 2 + (c.w : Rat) / 2) = c.y + (c.h : Rat) / 2 + (c.w : Rat) / 2 :=
    H.halves (2 * y + c.h + c.w) (by omega) (by omega) (by rw [hy]; push_cast; ring)
  have a8 : rnd (c.y + (c.h : Rat) / 2 - (c.w : Rat) / 2) = c.y + (c.h : Rat) / 2 - (c.w : Rat) / 2 :=
    H.halves (2 * y + c.h - c.w) (by omega) (by omega) (by rw [hy]; push_cast; ring)
  have a9 : rnd (c.x + (c.w : Rat) / 2 + (c.w : Rat) / 2) = c.x + (c.w : Rat) / 2 + (c.w : Rat) / 2 :=
    H.halves (2 * x + c.w + c.w) (by omega) (by omega) (by rw [hx]; push_cast; ring)
  have a10 : rnd (c.x + (c.w : Rat) / 2 - (c.w : Rat) / 2) = c.x + (c.w : Rat) / 2 - (c.w : Rat) / 2 :=
    H.halves (2 * x + c.w - c.w) (by omega) (by omega) (by rw [hx]; push_cast; ring)
  have a11 : rnd (c.y - (c.w : Rat) / 2) = c.y - (c.w : Rat) / 2 := H.halves (2 * y - c.w) (by omega) (by omega) (by rw [hy]; push_cast; ring)
  have a12 : rnd (c.y - (c.h : Rat) / 2) = c.y - (c.h : Rat) / 2 := H.halves (2 * y - c.h) (by omega) (by omega) (by rw [hy]; push_cast; ring)
  have a13 : rnd (c.x - (c.w : Rat) / 2) = c.x - (c.w : Rat) / 2 := H.halves (2 * x - c.w) (by omega) (by omega) (by rw [hx]; push_cast; ring)
  have a14 : rnd (c.x + (c.w : Rat)) = c.x + (c.w : Rat) := H.halves (2 * x + 2 * c.w) (by omega) (by omega) (by rw [hx]; push_cast; ring)
  have a15 : rnd (c.x + (c.w : Rat) + (c.w : Rat) / 2) = c.x + (c.w : Rat) + (c.w : Rat) / 2 :=
    H.halves (2 * x + 3 * c.w) (by omega) (by omega) (by rw [hx]; push_cast; ring)
  have a16 : rnd (c.y + (c.h : Rat)) = c.y + (c.h : Rat) := H.halves (2 * y + 2 * c.h) (by omega) (by omega) (by rw [hy]; push_cast; ring)
  have a17 : rnd (c.y + (c.h : Rat) + (c.w : Rat) / 2) = c.y + (c.h : Rat) + (c.w : Rat) / 2 :=
    H.halves (2 * y + 2 * c.h + c.w) (by omega) (by omega) (by rw [hy]; push_cast; ring)
  have a18 : rnd (2 * ((c.w : Rat) / 2)) = 2 * ((c.w : Rat) / 2) := H.halves (2 * c.w) (by omega) (by omega) (by push_cast; ring)
  have a19 : rnd (2 * (c.w : Rat)) = 2 * (c.w : Rat) := H.halves (4 * c.w) (by omega) (by omega) (by push_cast; ring)
  have a20 : rnd (2 * (c.h : Rat)) = 2 * (c.h : Rat) := H.halves (4 * c.h) (by omega) (by omega) (by push_cast; ring)
  simp only [liquidBlock64, liquidBlock, a1, a2, a3, a4, a5, a6, a7, a8, a9, a10, a11, a12, a13, a14, a15, a16, a17, a18, a19, a20]

theorem rounded_exact {c : Ctx} (hc : Whole c) : roundedFinder64 rnd c = roundedFinder c := by
  obtain ⟨⟨x, hx, x1, x2⟩, ⟨y, hy, y1, y2⟩, ⟨w1, w2⟩, h1, h2⟩ := hc
  have a1 : rnd (c.w : Rat) = c.w := H.int _ (by omega) (by omega)
  have a2 : rnd (c.h : Rat) = c.h := H.int _ (by omega) (by omega)
  have a3 : rnd ((c.w : Rat) / 2) = (c.w : Rat) / 2 := H.half _ (by omega) (by omega)
  have a4 : rnd ((c.h : Rat) / 2) = (c.h : Rat) / 2 := H.half _ (by omega) (by omega)
  have a12 : rnd (c.y - (c.h : Rat) / 2) = c.y - (c.h : Rat) / 2 := H.halves (2 * y - c.h) (by omega) (by omega) (by rw [hy]; push_cast; ring)
  have a13 : rnd (c.x - (c.w : Rat) / 2) = c.x - (c.w : Rat) / 2 := H.halves (2 * x - c.w) (by omega) (by omega) (by rw [hx]; push_cast; ring)
  have a14 : rnd (c.x + (c.w : Rat)) = c.x + (c.w : Rat) := H.halves (2 * x + 2 * c.w) (by omega) (by omega) (by rw [hx]; push_cast; ring)
  have a15 : rnd (c.x + (c.w : Rat) + (c.w : Rat) / 2) = c.x + (c.w : Rat) + (c.w : Rat) / 2 :=
    H.halves (2 * x + 3 * c.w) (by omega) (by omega) (by rw [hx]; push_cast; ring)
  have a16 : rnd (c.y + (c.h : Rat)) = c.y + (c.h : Rat) := H.halves (2 * y + 2 * c.h) (by omega) (by omega) (by rw [hy]; push_cast; ring)
  have a17 : rnd (c.y + (c.h : Rat) + (c.h : Rat) / 2) = c.y + (c.h : Rat) + (c.h : Rat) / 2 :=
    H.halves (2 * y + 3 * c.h) (by omega) (by omega) (by rw [hy]; push_cast; ring)
  simp only [roundedFinder64, roundedFinder, a1, a2, a3, a4, a12, a13, a14, a15, a16, a17]

theorem square_exact {c : Ctx} (hc : Whole c) : squareFinder64 rnd c = squareFinder c ∧ drawRectangle64 rnd c = drawRectangle c := by
  obtain ⟨_, _, ⟨w1, w2⟩, h1, h2⟩ := hc
  have a1 : rnd (c.w : Rat) = c.w := H.int _ (by omega) (by omega)
  have a2 : rnd (c.h : Rat) = c.h := H.int _ (by omega) (by omega)
  simp only [squareFinder64, squareFinder, drawRectangle64, drawRectangle, a1, a2, and_self]

theorem circle_exact {c : Ctx} (hc : Whole c) : drawCircle64 rnd c = drawCircle c := by
  obtain ⟨⟨x, hx, x1, x2⟩, ⟨y, hy, y1, y2⟩, ⟨w1, w2⟩, h1, h2⟩ := hc
  have a1 : rnd (c.w : Rat) = c.w := H.int _ (by omega) (by omega)
  have a2 : rnd (c.h : Rat) = c.h := H.int _ (by omega) (by omega)
  have a3 : rnd ((c.w : Rat) / 2) = (c.w : Rat) / 2 := H.half _ (by omega) (by omega)
  have a4 : rnd ((c.h : Rat) / 2) = (c.h : Rat) / 2 := H.half _ (by omega) (by omega)
  have a5 : rnd (c.x + (c.w : Rat) / 2) = c.x + (c.w : Rat) / 2 := H.halves (2 * x + c.w) (by omega) (by omega) (by rw [hx]; push_cast; ring)
  have a6 : rnd (c.y + (c.h : Rat) / 2) = c.y + (c.h : Rat) / 2 := H.halves (2 * y + c.h) (by omega) (by omega) (by rw [hy]; push_cast; ring)
  have e1 : Int.tdiv c.w 2 = c.w / 2 := Int.tdiv_eq_ediv_of_nonneg w1
  have e2 : Int.tdiv c.h 2 = c.h / 2 := Int.tdiv_eq_ediv_of_nonneg h1
  have a7 : rnd ((if Int.tdiv c.h 2 ≤ Int.tdiv c.w 2 then Int.tdiv c.h 2 else Int.tdiv c.w 2 : Int) : Rat) =
      (if Int.tdiv c.h 2 ≤ Int.tdiv c.w 2 then Int.tdiv c.h 2 else Int.tdiv c.w 2 : Int) := by
    rw [e1, e2]
    apply H.int <;> split <;> omega
  simp only [drawCircle64, drawCircle, a1, a2, a3, a4, a5, a6, a7]

end

/-! ## The other functions: close to the exact ones -/

/-- The factor in use. -/
def DrawFn.factor : DrawFn → Rat
  | .vStripeBlock r => if r < 6 / 10 ∨ r > 1 then 85 / 100 else r
  | .squareBlocks s => blockScale s
  | .circleBlocks s => blockScale s
  | _ => 1

/-- The factor in use, with rounding. -/
def DrawFn.factor64 (rnd : Rat → Rat) : DrawFn → Rat
  | .vStripeBlock r => if rnd r < rnd (6 / 10) ∨ rnd r > 1 then rnd (85 / 100) else rnd r
  | .squareBlocks s => blockScaleRnd rnd s
  | .circleBlocks s => blockScaleRnd rnd s
  | _ => 1

/-- The same function with another factor. -/
inductive SameKind : DrawFn → DrawFn → Prop
  | same (d : DrawFn) : SameKind d d
  | hStripe (a b : Rat) : SameKind (.hStripeBlock a) (.hStripeBlock b)
  | vStripe (a b : Rat) : SameKind (.vStripeBlock a) (.vStripeBlock b)
  | square (a b : Rat) : SameKind (.squareBlocks a) (.squareBlocks b)
  | circle (a b : Rat) : SameKind (.circleBlocks a) (.circleBlocks b)

theorem Cl.half {e a b : Rat} (h : Cl e a b) : Cl (e / 2) (a / 2) (b / 2) := ⟨by linarith [h.1], by linarith [h.2]⟩

theorem Cl.twice {e a b : Rat} (h : Cl e a b) : Cl (2 * e) (2 * a) (2 * b) := ⟨by linarith [h.1], by linarith [h.2]⟩

theorem Cl.from {e a b : Rat} (h : Cl e a b) (c : Rat) : Cl e (c - a) (c - b) := ⟨by linarith [h.2], by linarith [h.1]⟩

theorem Cl.times {e a b w : Rat} (h : Cl e a b) (h0 : 0 ≤ w) (h1 : w ≤ 2 ^ 30) : Cl (2 ^ 30 * e) (w * a) (w * b) := by
  obtain ⟨h2, h3⟩ := h
  have he : 0 ≤ e := by linarith
  have k1 : w * e ≤ 2 ^ 30 * e := mul_le_mul_of_nonneg_right h1 he
  have k2 := mul_le_mul_of_nonneg_left h2 h0
  have k3 := mul_le_mul_of_nonneg_left h3 h0
  constructor <;> linarith

section
variable {rnd : Rat → Rat} (H : Rnd rnd)
include H

/-- A constant between 0 and 1. -/
theorem Rnd.const {q : Rat} (h0 : 0 ≤ q) (h1 : q ≤ 1) : Cl (1 / 2 ^ 49) (rnd q) q := by
  obtain ⟨a, b⟩ := H.near q
  rw [abs_of_nonneg h0] at a b
  have : (q + 1) / 2 ^ 50 ≤ 1 / 2 ^ 49 := by rw [div_le_div_iff₀ (by norm_num) (by norm_num)]; linarith
  constructor <;> linarith

/-- `fw * factor`, rounded. -/
theorem Rnd.scaled {w φ φ' : Rat} (hw : 0 ≤ w ∧ w ≤ 2 ^ 30) (hf : Cl (1 / 2 ^ 48) φ φ') (h0 : 0 ≤ φ') (h1 : φ' ≤ 1) : Cl (1 / 2 ^ 16) (rnd (w * φ)) (w * φ') := by
  have hb : w * φ' ≤ 2 ^ 30 := by nlinarith [hw.1, hw.2]
  have hb0 : 0 ≤ w * φ' := mul_nonneg hw.1 h0
  exact (H.step (hf.times hw.1 hw.2) (by norm_num) (by linarith) (by linarith)).mono (by norm_num)

/-- `fw * factor / 2`. -/
theorem Rnd.radius {w φ φ' : Rat} (hw : 0 ≤ w ∧ w ≤ 2 ^ 30) (hf : Cl (1 / 2 ^ 48) φ φ') (h0 : 0 ≤ φ') (h1 : φ' ≤ 1) :
    Cl (1 / 2 ^ 16) (rnd (rnd (w * φ) / 2)) (w * φ' / 2) := by
  have hb : w * φ' ≤ 2 ^ 30 := by nlinarith [hw.1, hw.2]
  have hb0 : 0 ≤ w * φ' := mul_nonneg hw.1 h0
  exact (H.step (H.scaled hw hf h0 h1).half (by norm_num) (by linarith) (by linarith)).mono (by norm_num)

/-- The centre minus a distance. -/
theorem Rnd.minus {e c r r' : Rat} (hc : -2 ^ 31 ≤ c ∧ c ≤ 2 ^ 31) (h : Cl e r r') (he : e ≤ 1) (h0 : 0 ≤ r') (h1 : r' ≤ 2 ^ 30) : Cl (e + 1 / 2 ^ 17) (rnd (c - r)) (c - r') :=
  H.step (h.from c) he (by linarith [hc.1]) (by linarith [hc.2])

/-- Twice a distance. -/
theorem Rnd.double {e r r' : Rat} (h : Cl e r r') (he : e ≤ 1 / 2) (h0 : 0 ≤ r') (h1 : r' ≤ 2 ^ 30) : Cl (2 * e + 1 / 2 ^ 17) (rnd (2 * r)) (2 * r') :=
  H.step h.twice (by linarith) (by linarith) (by linarith)

/-- A fifth of the radius, not yet rounded. -/
theorem Rnd.fifth0 {r r' : Rat} (h : Cl (1 / 2 ^ 16) r r') (h0 : 0 ≤ r') (h1 : r' ≤ 2 ^ 30) :
    Cl (1 / 2 ^ 16 + 2 ^ 30 * (1 / 2 ^ 49)) (r * rnd (2 / 10)) (r' * (2 / 10)) := by
  have k := H.const (q := 2 / 10) (by norm_num) (by norm_num)
  have k' : 0 ≤ rnd (2 / 10) ∧ rnd (2 / 10) ≤ 1 := ⟨by have := k.1; norm_num at this ⊢; linarith, by have := k.2; norm_num at this ⊢; linarith⟩
  have c1 : Cl (1 / 2 ^ 16) (r * rnd (2 / 10)) (r' * rnd (2 / 10)) := by
    obtain ⟨h2, h3⟩ := h
    have a := mul_le_mul_of_nonneg_right h2 k'.1
    have b := mul_le_mul_of_nonneg_right h3 k'.1
    have c : 1 / 2 ^ 16 * rnd (2 / 10) ≤ 1 / 2 ^ 16 * 1 := mul_le_mul_of_nonneg_left k'.2 (by norm_num)
    constructor <;> linarith
  have c2 : Cl (2 ^ 30 * (1 / 2 ^ 49)) (r' * rnd (2 / 10)) (r' * (2 / 10)) := k.times h0 h1
  exact ⟨by linarith [c1.1, c2.1], by linarith [c1.2, c2.2]⟩

/-- A fifth of the radius. -/
theorem Rnd.fifth {r r' : Rat} (h : Cl (1 / 2 ^ 16) r r') (h0 : 0 ≤ r') (h1 : r' ≤ 2 ^ 30) : Cl (1 / 2 ^ 15) (rnd (r * rnd (2 / 10))) (r' * (2 / 10)) := by
  exact (H.step (H.fifth0 h h0 h1) (by norm_num) (by linarith) (by linarith)).mono (by norm_num)

/-- What is computed exactly. -/
theorem Whole.exact {c : Ctx} (hc : Whole c) : rnd (c.w : Rat) = c.w ∧ rnd (c.h : Rat) = c.h ∧ rnd ((c.w : Rat) / 2) = (c.w : Rat) / 2 ∧
    rnd ((c.h : Rat) / 2) = (c.h : Rat) / 2 ∧ rnd (c.x + (c.w : Rat) / 2) = c.x + (c.w : Rat) / 2 ∧ rnd (c.y + (c.h : Rat) / 2) = c.y + (c.h : Rat) / 2 := by
  obtain ⟨⟨x, hx, x1, x2⟩, ⟨y, hy, y1, y2⟩, ⟨w1, w2⟩, h1, h2⟩ := hc
  exact ⟨H.int _ (by omega) (by omega), H.int _ (by omega) (by omega), H.half _ (by omega) (by omega), H.half _ (by omega) (by omega),
    H.halves (2 * x + c.w) (by omega) (by omega) (by rw [hx]; push_cast; ring), H.halves (2 * y + c.h) (by omega) (by omega) (by rw [hy]; push_cast; ring)⟩

omit H in
theorem Whole.bounds {c : Ctx} (hc : Whole c) : (0 ≤ (c.w : Rat) ∧ (c.w : Rat) ≤ 2 ^ 30) ∧ (0 ≤ (c.h : Rat) ∧ (c.h : Rat) ≤ 2 ^ 30) ∧
    (-2 ^ 31 ≤ c.x + (c.w : Rat) / 2 ∧ c.x + (c.w : Rat) / 2 ≤ 2 ^ 31) ∧ (-2 ^ 31 ≤ c.y + (c.h : Rat) / 2 ∧ c.y + (c.h : Rat) / 2 ≤ 2 ^ 31) := by
  obtain ⟨⟨x, hx, x1, x2⟩, ⟨y, hy, y1, y2⟩, ⟨w1, w2⟩, h1, h2⟩ := hc
  have w1' : (0 : Rat) ≤ c.w := by exact_mod_cast w1
  have w2' : (c.w : Rat) ≤ 2 ^ 30 := by exact_mod_cast w2
  have h1' : (0 : Rat) ≤ c.h := by exact_mod_cast h1
  have h2' : (c.h : Rat) ≤ 2 ^ 30 := by exact_mod_cast h2
  have x1' : (-2 ^ 30 : Rat) ≤ x := by exact_mod_cast x1
  have x2' : (x : Rat) ≤ 2 ^ 30 := by exact_mod_cast x2
  have y1' : (-2 ^ 30 : Rat) ≤ y := by exact_mod_cast y1
  have y2' : (y : Rat) ≤ 2 ^ 30 := by exact_mod_cast y2
  rw [hx, hy]
  refine ⟨⟨?_, ?_⟩, ⟨?_, ?_⟩, ⟨?_, ?_⟩, ?_, ?_⟩ <;> linarith

theorem near_stripes {c : Ctx} (hc : Whole c) {φ φ' : Rat} (hf : Cl (1 / 2 ^ 48) φ φ') (h0 : 0 ≤ φ') (h1 : φ' ≤ 1) :
    let r := rnd (rnd (c.w * φ) / 2)
    let r' := (c.w : Rat) * φ' / 2
    0 ≤ r' ∧ r' ≤ 2 ^ 30 ∧ Cl (1 / 1000) r r' ∧ Cl (1 / 1000) (rnd (2 * r)) (2 * r') ∧
      Cl (1 / 1000) (rnd (c.x + (c.w : Rat) / 2 - r)) (c.x + (c.w : Rat) / 2 - r') ∧ Cl (1 / 1000) (rnd (c.y + (c.h : Rat) / 2 - r)) (c.y + (c.h : Rat) / 2 - r') := by
  obtain ⟨bw, bh, bx, by'⟩ := hc.bounds
  have b0 : 0 ≤ (c.w : Rat) * φ' := mul_nonneg bw.1 h0
  have b1 : (c.w : Rat) * φ' ≤ 2 ^ 30 := by nlinarith [bw.1, bw.2]
  have hr := H.radius bw hf h0 h1
  have r0 : 0 ≤ (c.w : Rat) * φ' / 2 := by linarith
  have r1 : (c.w : Rat) * φ' / 2 ≤ 2 ^ 30 := by linarith
  exact ⟨r0, r1, hr.mono (by norm_num), (H.double hr (by norm_num) r0 r1).mono (by norm_num), (H.minus bx hr (by norm_num) r0 r1).mono (by norm_num),
    (H.minus by' hr (by norm_num) r0 r1).mono (by norm_num)⟩

theorem near_links {c : Ctx} (hc : Whole c) {φ φ' : Rat} (hf : Cl (1 / 2 ^ 48) φ φ') (h0 : 0 ≤ φ') (h1 : φ' ≤ 1) :
    let l := rnd (rnd (rnd (c.w * φ) / 2) * rnd (2 / 10))
    let l' := (c.w : Rat) * φ' / 2 * (2 / 10)
    Cl (1 / 1000) (rnd (2 * l)) (2 * l') ∧
      (∀ b, Cl (1 / 1000) (minusMul rnd b (c.x + (c.w : Rat) / 2) (rnd (rnd (c.w * φ) / 2)) (rnd (2 / 10))) (c.x + (c.w : Rat) / 2 - l')) ∧
      ∀ b, Cl (1 / 1000) (minusMul rnd b (c.y + (c.h : Rat) / 2) (rnd (rnd (c.w * φ) / 2)) (rnd (2 / 10))) (c.y + (c.h : Rat) / 2 - l') := by
  obtain ⟨bw, bh, bx, by'⟩ := hc.bounds
  have b0 : 0 ≤ (c.w : Rat) * φ' := mul_nonneg bw.1 h0
  have b1 : (c.w : Rat) * φ' ≤ 2 ^ 30 := by nlinarith [bw.1, bw.2]
  have hr := H.fifth (H.radius bw hf h0 h1) (by linarith) (by linarith)
  have r0 : 0 ≤ (c.w : Rat) * φ' / 2 * (2 / 10) := by linarith
  have r1 : (c.w : Rat) * φ' / 2 * (2 / 10) ≤ 2 ^ 30 := by linarith
  have hq := H.fifth0 (H.radius bw hf h0 h1) (by linarith) (by linarith)
  have key : ∀ b (q : Rat), -2 ^ 31 ≤ q ∧ q ≤ 2 ^ 31 → Cl (1 / 1000) (minusMul rnd b q (rnd (rnd (c.w * φ) / 2)) (rnd (2 / 10))) (q - (c.w : Rat) * φ' / 2 * (2 / 10)) := by
    intro b q bq
    cases b with
    | true => exact (H.minus bq hq (by norm_num) r0 r1).mono (by norm_num)
    | false => exact (H.minus bq hr (by norm_num) r0 r1).mono (by norm_num)
  exact ⟨(H.double hr (by norm_num) r0 r1).mono (by norm_num), fun b => key b _ bx, fun b => key b _ by'⟩

omit H in
theorem factor_range (d : DrawFn) : 1 / 10 ≤ d.factor ∧ d.factor ≤ 1 := by
  cases d <;> simp only [DrawFn.factor, blockScale] <;> (try split) <;> (try rename_i h; push Not at h) <;> constructor <;> (try norm_num) <;> linarith

/-- All drawing functions: what is drawn differs from the exact drawing by at most a thousandth of a pixel, if the factors in use hardly differ. -/
theorem cmds_near {c : Ctx} (hc : Whole c) (fuse : Nat → Bool) {d d' : DrawFn} (hk : SameKind d d') (hf : Cl (1 / 2 ^ 48) (d.factor64 rnd) d'.factor) :
    List.Forall₂ (CmdCl (1 / 1000)) (d.cmds64 rnd fuse c) (d'.cmds c) := by
  obtain ⟨a1, a2, a3, a4, a5, a6⟩ := hc.exact H
  have k90 : Cl (1 / 2 ^ 48) (rnd (9 / 10)) (9 / 10) := (H.const (by norm_num) (by norm_num)).mono (by norm_num)
  have k85 : Cl (1 / 2 ^ 48) (rnd (85 / 100)) (85 / 100) := (H.const (by norm_num) (by norm_num)).mono (by norm_num)
  have R : ∀ q, Cl (1 / 1000) q q := Cl.refl (by norm_num)
  obtain ⟨s0, s1, s2, s3, s4, s5⟩ := near_stripes H hc k90 (by norm_num) (by norm_num)
  obtain ⟨t0, t1, t2, t3, t4, t5⟩ := near_stripes H hc k85 (by norm_num) (by norm_num)
  obtain ⟨u3, u4, u5⟩ := near_links H hc k90 (by norm_num) (by norm_num)
  obtain ⟨v3, v4, v5⟩ := near_links H hc k85 (by norm_num) (by norm_num)
  obtain ⟨fr0, fr1⟩ := factor_range d'
  obtain ⟨w0, w1, w2, w3, w4, w5⟩ := near_stripes H hc hf (by linarith) fr1
  have stripe : ∀ a b, List.Forall₂ (CmdCl (1 / 1000)) (hStripeBlock64 rnd a c) (hStripeBlock b c) := by
    intro a b
    simp only [hStripeBlock64, hStripeBlock, a1, a2, a3, a4, a5, a6]
    exact cmdsCl_append (cmdsCl_append (cmdsCl_append (.cons ⟨R _, R _, s2⟩ .nil) (cmdsCl_when _ (cmdsCl_rect (R _) s5 (R _) s3)))
      (cmdsCl_when _ (cmdsCl_rect (R _) s5 (R _) s3))) (.cons trivial .nil)
  have vstripe : ∀ a b, Cl (1 / 2 ^ 48) (DrawFn.factor64 rnd (.vStripeBlock a)) (DrawFn.factor (.vStripeBlock b)) →
      List.Forall₂ (CmdCl (1 / 1000)) (vStripeBlock64 rnd a c) (vStripeBlock b c) := by
    intro a b hf
    obtain ⟨fr0, fr1⟩ := factor_range (.vStripeBlock b)
    obtain ⟨w0, w1, w2, w3, w4, w5⟩ := near_stripes H hc hf (by linarith) fr1
    simp only [DrawFn.factor, DrawFn.factor64] at w2 w3 w4 w5
    simp only [vStripeBlock64, vStripeBlock, a1, a2, a3, a4, a5, a6]
    exact cmdsCl_append (cmdsCl_append (cmdsCl_append (.cons ⟨R _, R _, w2⟩ .nil) (cmdsCl_when _ (cmdsCl_rect w4 (R _) w3 (R _))))
      (cmdsCl_when _ (cmdsCl_rect w4 (R _) w3 (R _)))) (.cons trivial .nil)
  have square : ∀ a b, Cl (1 / 2 ^ 48) (DrawFn.factor64 rnd (.squareBlocks a)) (DrawFn.factor (.squareBlocks b)) →
      List.Forall₂ (CmdCl (1 / 1000)) (squareBlocks64 rnd a c) (squareBlocks b c) := by
    intro a b hf
    obtain ⟨fr0, fr1⟩ := factor_range (.squareBlocks b)
    obtain ⟨w0, w1, w2, w3, w4, w5⟩ := near_stripes H hc hf (by linarith) fr1
    obtain ⟨bw, bh, bx, by'⟩ := hc.bounds
    have hs1 := H.scaled bw hf (by linarith) fr1
    have hs2 := H.scaled bh hf (by linarith) fr1
    have hr2 := H.radius bh hf (by linarith) fr1
    have b0 := mul_nonneg bh.1 (show 0 ≤ (DrawFn.squareBlocks b).factor by linarith)
    have b1 : (c.h : Rat) * (DrawFn.squareBlocks b).factor ≤ 2 ^ 30 := by nlinarith [bh.1, bh.2]
    have hm := H.minus by' hr2 (by norm_num) (by linarith) (by linarith)
    simp only [DrawFn.factor, DrawFn.factor64] at w4 hs1 hs2 hm
    simp only [squareBlocks64, squareBlocks, a1, a2, a3, a4, a5, a6]
    exact .cons ⟨w4, hm.mono (by norm_num), hs1.mono (by norm_num), hs2.mono (by norm_num)⟩ (.cons trivial .nil)
  have circle : ∀ a b, Cl (1 / 2 ^ 48) (DrawFn.factor64 rnd (.circleBlocks a)) (DrawFn.factor (.circleBlocks b)) →
      List.Forall₂ (CmdCl (1 / 1000)) (circleBlocks64 rnd a c) (circleBlocks b c) := by
    intro a b hf
    obtain ⟨fr0, fr1⟩ := factor_range (.circleBlocks b)
    obtain ⟨bw, bh, bx, by'⟩ := hc.bounds
    have hs := H.scaled (w := (c.w : Rat) / 2) ⟨by linarith [bw.1], by linarith [bw.1, bw.2]⟩ hf (by linarith) fr1
    simp only [DrawFn.factor, DrawFn.factor64] at hs
    simp only [circleBlocks64, circleBlocks, a1, a2, a3, a4, a5, a6]
    exact .cons ⟨R _, R _, hs.mono (by norm_num)⟩ (.cons trivial .nil)
  cases hk with
  | hStripe a b => exact stripe a b
  | vStripe a b => exact vstripe a b hf
  | square a b => exact square a b hf
  | circle a b => exact circle a b hf
  | same d =>
    cases d with
    | liquidBlock => rw [show DrawFn.cmds64 rnd fuse .liquidBlock c = DrawFn.cmds .liquidBlock c from liquid_exact H hc]; exact cmdsCl_refl (by norm_num) _
    | roundedFinder => rw [show DrawFn.cmds64 rnd fuse .roundedFinder c = DrawFn.cmds .roundedFinder c from rounded_exact H hc]; exact cmdsCl_refl (by norm_num) _
    | squareFinder => rw [show DrawFn.cmds64 rnd fuse .squareFinder c = DrawFn.cmds .squareFinder c from (square_exact H hc).1]; exact cmdsCl_refl (by norm_num) _
    | hStripeBlock a => exact stripe a a
    | vStripeBlock a => exact vstripe a a hf
    | squareBlocks a => exact square a a hf
    | circleBlocks a => exact circle a a hf
    | chainBlock =>
      change List.Forall₂ _ (chainBlock64 rnd fuse c) (chainBlock c)
      simp only [chainBlock64, chainBlock, a1, a2, a3, a4, a5, a6]
      exact cmdsCl_append (cmdsCl_append (cmdsCl_append (cmdsCl_append (cmdsCl_append (.cons ⟨R _, R _, s2⟩ .nil) (cmdsCl_when _ (cmdsCl_rect (u4 _) (R _) u3 (R _))))
        (cmdsCl_when _ (cmdsCl_rect (u4 _) (R _) u3 (R _)))) (cmdsCl_when _ (cmdsCl_rect (R _) (u5 _) (R _) u3))) (cmdsCl_when _ (cmdsCl_rect (R _) (u5 _) (R _) u3))) (.cons trivial .nil)
    | vChainBlock =>
      change List.Forall₂ _ (vChainBlock64 rnd fuse c) (vChainBlock c)
      simp only [vChainBlock64, vChainBlock, a1, a2, a3, a4, a5, a6]
      exact cmdsCl_append (cmdsCl_append (cmdsCl_append (.cons ⟨R _, R _, t2⟩ .nil) (cmdsCl_when _ (cmdsCl_rect (v4 _) (R _) v3 (R _))))
        (cmdsCl_when _ (cmdsCl_rect (v4 _) (R _) v3 (R _)))) (.cons trivial .nil)
    | hChainBlock =>
      change List.Forall₂ _ (hChainBlock64 rnd fuse c) (hChainBlock c)
      simp only [hChainBlock64, hChainBlock, a1, a2, a3, a4, a5, a6]
      exact cmdsCl_append (cmdsCl_append (cmdsCl_append (.cons ⟨R _, R _, t2⟩ .nil) (cmdsCl_when _ (cmdsCl_rect (R _) (v5 _) (R _) v3)))
        (cmdsCl_when _ (cmdsCl_rect (R _) (v5 _) (R _) v3))) (.cons trivial .nil)

/-- For every function there is an exact one that it is close to. -/
theorem exact_factor (d : DrawFn) : ∃ d', SameKind d d' ∧ Cl (1 / 2 ^ 48) (d.factor64 rnd) d'.factor := by
  have low : ∀ (q : Rat), 0 ≤ q → q ≤ 1 → ∀ φ, rnd q ≤ φ → φ ≤ 1 → q ≤ max φ q ∧ max φ q ≤ 1 ∧ Cl (1 / 2 ^ 48) φ (max φ q) := by
    intro q h0 h1 φ h2 h3
    have := H.const h0 h1
    refine ⟨le_max_right _ _, max_le h3 h1, ?_, ?_⟩
    · have : max φ q ≤ φ + 1 / 2 ^ 48 := max_le (by norm_num) (by have := this.1; norm_num at this ⊢; linarith)
      linarith
    · have := le_max_left φ q
      norm_num; linarith
  have one : Cl (1 / 2 ^ 48) (1 : Rat) 1 := Cl.refl (by norm_num) _
  have scale : ∀ s, ∃ s', Cl (1 / 2 ^ 48) (blockScaleRnd rnd s) (blockScale s') := by
    intro s
    by_cases h : rnd s < rnd (1 / 10) ∨ rnd s > 1
    · refine ⟨1, ?_⟩
      rw [show blockScaleRnd rnd s = 1 by unfold blockScaleRnd; rw [if_pos h], show blockScale 1 = 1 by unfold blockScale; norm_num]
      exact one
    · have e : blockScaleRnd rnd s = rnd s := by unfold blockScaleRnd; rw [if_neg h]
      push Not at h
      obtain ⟨k1, k2, k3⟩ := low (1 / 10) (by norm_num) (by norm_num) (rnd s) h.1 h.2
      refine ⟨max (rnd s) (1 / 10), ?_⟩
      · rw [e, show blockScale (max (rnd s) (1 / 10)) = max (rnd s) (1 / 10) by
          unfold blockScale; rw [if_neg]; push Not; exact ⟨k1, k2⟩]
        exact k3
  cases d with
  | vStripeBlock s =>
    by_cases h : rnd s < rnd (6 / 10) ∨ rnd s > 1
    · refine ⟨.vStripeBlock 0, .vStripe _ _, ?_⟩
      simp only [DrawFn.factor64, DrawFn.factor]
      rw [if_pos h, if_pos (by norm_num)]
      exact (H.const (by norm_num) (by norm_num)).mono (by norm_num)
    · have h' := h
      push Not at h
      obtain ⟨k1, k2, k3⟩ := low (6 / 10) (by norm_num) (by norm_num) (rnd s) h.1 h.2
      refine ⟨.vStripeBlock (max (rnd s) (6 / 10)), .vStripe _ _, ?_⟩
      simp only [DrawFn.factor64, DrawFn.factor]
      rw [if_neg h', if_neg (by push Not; exact ⟨k1, k2⟩)]
      exact k3
  | squareBlocks s => obtain ⟨s', h⟩ := scale s; exact ⟨.squareBlocks s', .square _ _, h⟩
  | circleBlocks s => obtain ⟨s', h⟩ := scale s; exact ⟨.circleBlocks s', .circle _ _, h⟩
  | liquidBlock => exact ⟨_, .same _, one⟩
  | hStripeBlock r => exact ⟨_, .same _, one⟩
  | chainBlock => exact ⟨_, .same _, one⟩
  | vChainBlock => exact ⟨_, .same _, one⟩
  | hChainBlock => exact ⟨_, .same _, one⟩
  | roundedFinder => exact ⟨_, .same _, one⟩
  | squareFinder => exact ⟨_, .same _, one⟩

end

end QR.Standard
