import Verif.Instances.Platforms
import Verif.Props.GreyShapes
/-!
# Instances of C108: shapes, halftone images and logos in JPEG
-/
namespace QR.Instances
open QR QR.Standard _root_.Spec

local notation "hE" => demo_ok
local notation "hc" => fresh_reachable
local notation "ha" => inOrder_arrival

example := C108_shapes hE hc ha q7_ok hx grey demo_rasters showImage over_ok diagonal liquid (o := { drops with logo := some large }) (by decide) ⟨trivial, trivial⟩ rfl
  (contrast rfl rfl) rfl (e := 63) rfl rfl (by decide) (by decide) (too_large rfl rfl rfl rfl)
/-- Yellow on a transparent blue. -/
example := C108_shapes hE hc ha q7_ok hx grey demo_rasters showImage over_ok diagonal liquid (o := { drops with qrColor := ⟨255, 255, 0, 255⟩, bgColor := ⟨0, 0, 255, 255⟩, bgTransparent := true })
  (by decide) ⟨trivial, trivial⟩ rfl ⟨rfl, Or.inl rfl⟩ rfl (e := 49) rfl rfl (by decide) (by decide) (fun _ h => by cases h)
example := C108_shapes_logo hE rfl hc ha q7_ok hx q7_dim level_ok grey demo_rasters showImage over_ok diagonal liquid (o := { dots with logo := some logo, logoSafeZone := true }) (by decide) trivial rfl
  (contrast rfl rfl) rfl (e := 63) rfl rfl (by decide) (by decide) (by decide) rfl ⟨rfl, rfl⟩ (by decide) (by decide)
example := C108_halftone hE hc ha q7_ok hx grey demo_rasters showImage over_ok diagonal liquid (o := { toned with logo := some large }) (himg := photo) rfl
  ⟨by decide, .inl rfl⟩ trivial (contrast rfl rfl) rfl (e := 63) rfl rfl (by decide) (by decide) (too_large rfl rfl rfl rfl)
example := C108_halftone_logo hE rfl hc ha q7_ok hx q7_dim level_ok grey demo_rasters showImage over_ok diagonal liquid
  (o := { toned with qrWidth := 30, shape := some (.custom 0), logo := some logo, logoSafeZone := true }) (himg := photo) rfl
  ⟨by decide, .inr ⟨by decide, by decide, rfl⟩⟩ ⟨trivial, trivial⟩ (contrast rfl rfl) rfl (e := 63) rfl rfl (by decide) (by decide) (by decide) rfl ⟨rfl, rfl⟩ (by decide) (by decide)
example := C108_machine hE hc ha q7_ok hx odd (.inl rfl) grey demo_rasters showImage over_ok diagonal chains (o := { toned with logo := some large })
  (limits_logo (.inr rfl) rfl rfl rfl) (by decide) trivial (fun _ _ => ⟨by decide, .inl rfl⟩) (contrast rfl rfl) rfl (e := 63) rfl rfl (by decide) (by decide)
  (by rw [q7_dim]; decide) (too_large rfl rfl rfl rfl)
example := C108_machine_logo hE rfl hc ha q7_ok hx q7_dim level_ok odd (.inl rfl) grey demo_rasters showImage over_ok diagonal chains
  (o := { drops with qrWidth := 21, logo := some logo, logoSafeZone := true })
  (limits_logo (.inl rfl) rfl rfl rfl) (by decide) chains_bold (fun _ h => by cases h) (contrast rfl rfl) rfl (e := 63) rfl rfl (by decide) (by decide) (by decide) (by rw [q7_dim]; decide) rfl ⟨rfl, rfl⟩
  (by decide) (by decide)
/-- From red to blue: all colours between have a brightness of at most 106. -/
theorem red_blue (a b : ColorStop) (h : Together demoGradient.stops a b) (k : RGBA) (hk : ChannelsBetween 1 a.color b.color k) : 0 ≤ brightness k.jpeg ∧ brightness k.jpeg ≤ 106 := by
  have hg : a.color.g = 0 ∧ b.color.g = 0 := by
    have e : demoGradient.stops = [⟨0, ⟨255, 0, 0, 255⟩⟩, ⟨1, ⟨0, 0, 255, 255⟩⟩] := by
      unfold demoGradient
      rw [newGradient_sorted (by simp)]
    have hs : ∀ s ∈ demoGradient.stops, s.color.g = 0 := by rw [e]; decide
    rcases h with ⟨h, rfl⟩ | ⟨i, h1, h2⟩
    · exact ⟨hs _ h, hs _ h⟩
    · exact ⟨hs _ (List.mem_of_getElem? h1), hs _ (List.mem_of_getElem? h2)⟩
  obtain ⟨_, ⟨_, h2⟩, _⟩ := hk
  rw [hg.1, hg.2] at h2
  have h0 : (0 : UInt8).toNat = 0 := rfl
  have hr := k.r.toNat_lt
  have hb := k.b.toNat_lt
  simp only [brightness, RGBA.jpeg]
  omega
example := C108_gradient hE hc ha q7_ok hx grey demo_rasters showImage over_ok diagonal liquid (o := { drops with qrGradient := some demoGradient, logo := some large }) (by decide) ⟨trivial, trivial⟩ rfl
  (contrast rfl rfl) rfl (gradient_ok rfl) rfl (e := 10) red_blue rfl (.inl (by decide)) (by decide) (too_large rfl rfl rfl rfl)
example := C108_gradient_machine hE hc ha q7_ok hx odd (.inl rfl) grey demo_rasters showImage over_ok diagonal chains (o := { toned with qrGradient := some demoGradient, logo := some large })
  (limits_logo (.inr rfl) rfl rfl rfl) (by decide) trivial (fun _ _ => ⟨by decide, .inl rfl⟩) (contrast rfl rfl) rfl (gradient_ok rfl) rfl (e := 10) red_blue rfl (.inl (by decide)) (by decide)
  (by rw [q7_dim]; decide) (too_large rfl rfl rfl rfl)
example := C108_gradient_machine_logo hE rfl hc ha q7_ok hx q7_dim level_ok odd (.inl rfl) grey demo_rasters showImage over_ok diagonal chains
  (o := { drops with qrWidth := 21, qrGradient := some demoGradient, logo := some logo, logoSafeZone := true })
  (limits_logo (.inl rfl) rfl rfl rfl) (by decide) chains_bold (fun _ h => by cases h) (contrast rfl rfl) rfl (gradient_ok rfl) rfl (e := 10) red_blue rfl (.inl (by decide)) (by decide) (by decide)
  (by rw [q7_dim]; decide) rfl ⟨rfl, rfl⟩ (by decide) (by decide)
example (blend : Blend) (put : Put) (hput : PutsOver put) (direction : Rat → Rat × Rat) (assembled : Nat → DrawFn × DrawFn) :=
  Cli.C108_cli demo_ok fresh_reachable inOrder_arrival noImage circles demo_borders q1_ok one_plain rfl (Or.inl ⟨by decide, Or.inl rfl⟩) grey demo_rasters blend hput direction assembled
example (blend : Blend) (put : Put) (hput : PutsOver put) (direction : Rat → Rat × Rat) (assembled : Nat → DrawFn × DrawFn) :=
  Cli.C108_cli demo_ok fresh_reachable inOrder_arrival someImage photoFlags demo_borders q1_ok one_plain rfl (Or.inr (Or.inl ⟨by decide, rfl⟩)) grey demo_rasters blend hput direction assembled
end QR.Instances
