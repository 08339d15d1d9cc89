import Verif.Instances.Platforms
import Verif.Props.TurnDamage
/-!
# Instances of C109: damaged symbols in any direction
-/
namespace QR.Instances
open QR QR.Standard _root_.Spec

local notation "hE" => demo_ok
local notation "hc" => fresh_reachable
local notation "ha" => inOrder_arrival

/-- Three modules of the symbol `q7`, one of them a format module, have the wrong colour. -/
def threeWrong : List (Nat × Nat) := [(20, 20), (20, 21), (8, 1)]
def damaged (a : List (List Bool)) : List (List Bool) := Spec.picture 45 fun i j => if (i, j) ∈ threeWrong then !pixel a i j else pixel a i j

theorem damaged_pixel (a : List (List Bool)) {i j : Nat} (hi : i < 45) (hj : j < 45) (h : (i, j) ∉ threeWrong) : pixel a i j = pixel (damaged a) i j := by
  unfold damaged
  rw [Spec.pixel_picture hi hj, if_neg h]

theorem damaged_wrong (a : List (List Bool)) : wrongAt a (damaged a) (allCells 7) ≤ 3 ∧ wrongAt a (damaged a) formatCells1 ≤ 1 := by
  have key : ∀ l : List (Nat × Nat), (∀ p ∈ l, p.1 < 45 ∧ p.2 < 45) → wrongAt a (damaged a) l ≤ l.countP fun p => decide (p ∈ threeWrong) := by
    intro l hl
    refine List.countP_mono_left fun p hp hne => ?_
    rw [decide_eq_true_eq]
    by_contra hn
    have := damaged_pixel a (hl p hp).1 (hl p hp).2 hn
    rw [this] at hne
    simp at hne
  exact ⟨Nat.le_trans (key _ (by decide +kernel)) (by decide +kernel), Nat.le_trans (key _ (by decide)) (by decide)⟩

theorem damaged_finders : finderAt (damaged q7.mat.bitmap) 0 0 = true ∧ finderAt (damaged q7.mat.bitmap) 0 38 = true ∧ finderAt (damaged q7.mat.bitmap) 38 0 = true ∧
    finderAt (damaged q7.mat.bitmap) 38 38 = false := by
  obtain ⟨f1, f2, f3, f4⟩ := C101_three_finders hE hc ha q7_ok
  rw [q7_dim] at f2 f3 f4
  have far : ∀ x y, (x = 0 ∨ x = 38) → (y = 0 ∨ y = 38) → finderAt (damaged q7.mat.bitmap) x y = finderAt q7.mat.bitmap x y := by
    intro x y hx hy
    refine (Spec.finderAt_congr fun i j hi hj => damaged_pixel _ (by omega) (by omega) fun hm => ?_).symm
    simp only [threeWrong, List.mem_cons, Prod.mk.injEq, List.not_mem_nil, or_false] at hm
    omega
  exact ⟨(far 0 0 (.inl rfl) (.inl rfl)).trans f1, (far 0 38 (.inl rfl) (.inr rfl)).trans f2, (far 38 0 (.inr rfl) (.inl rfl)).trans f3,
    (far 38 38 (.inr rfl) (.inr rfl)).trans f4⟩

theorem damaged_rows (a : List (List Bool)) : (damaged a).length = q7.dimension ∧ ∀ r ∈ damaged a, r.length = q7.dimension := by
  rw [q7_dim]
  refine ⟨Spec.picture_length _ _, fun r hr => ?_⟩
  unfold damaged Spec.picture Spec.sheet at hr
  obtain ⟨i, _, rfl⟩ := List.mem_map.1 hr
  rw [List.length_map, List.length_range]

example : decodeDamagedAnyWay demoUnsjis (turn (mirror (damaged q7.mat.bitmap))) = some (nats hello) :=
  C109_few_modules hE rfl hc ha q7_ok hx q7_dim (by decide) (damaged_rows _).1 (damaged_rows _).2 damaged_finders.1 (by rw [q7_dim]; exact damaged_finders.2.1)
    (by rw [q7_dim]; exact damaged_finders.2.2.1) (damaged_wrong _).2 (damaged_wrong _).1 (.turned (.mirrored .straight))
example : decodeDamagedAnyWay demoUnsjis (turn (mirror (damaged q7.mat.bitmap))) = some (nats hello) :=
  C109_damage hE rfl hc ha q7_ok hx q7_dim (damaged_rows _).1 (damaged_rows _).2 damaged_finders.1 (by rw [q7_dim]; exact damaged_finders.2.1)
    (by rw [q7_dim]; exact damaged_finders.2.2.1) (by rw [q7_dim]; exact damaged_finders.2.2.2) (damaged_wrong _).2
    (Nat.le_trans (wrongFormat_le (by decide) (by decide) _ _) (Nat.le_trans (damaged_wrong _).1 (by decide)))
    (fun b hb => Nat.le_trans (wrongCodewords_le_wrong (by decide) (by decide) _ hb _ _) (Nat.le_trans (damaged_wrong _).1 ((C68_margin (by decide) (by decide)).1 _)))
    (.turned (.mirrored .straight))
example := C109_logo hE rfl hc ha q7_ok hx q7_dim level_ok grey showImage (o := { defaultOpts with logo := some logo, logoSafeZone := true }) ⟨.inr rfl, rfl, rfl⟩ (contrast rfl rfl)
  (by decide) (by decide) rfl ⟨rfl, rfl⟩ (by decide) (by decide)
example := C109_machine_logo hE rfl hc ha q7_ok hx q7_dim level_ok odd (.inl rfl) grey demo_rasters showImage over_ok diagonal chains (o := { drops with qrWidth := 21, logo := some logo, logoSafeZone := true })
  (limits_logo (.inl rfl) rfl rfl rfl) (by decide) chains_bold (fun _ h => by cases h) (contrast rfl rfl) (fun g h => by cases h) (by decide) (by decide) (by rw [q7_dim]; decide) rfl ⟨rfl, rfl⟩
  (by decide) (by decide)

end QR.Instances
