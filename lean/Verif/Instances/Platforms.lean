import Verif.Instances.Programs
import Verif.Instances.Scans
import Verif.Props.CompressedArch
import Verif.Props.Painters
import Verif.Props.Machine
/-!
# Instances of C99, C100 and C106: platforms, writers shared by goroutines, machines
-/
namespace QR.Instances
open QR QR.Standard QR.Wasm _root_.Spec

local notation "hE" => demo_ok
local notation "hc" => fresh_reachable
local notation "ha" => inOrder_arrival

/-- `HELLO` in version 40. -/
abbrev opts40 : List EncodeOption := [.withEncodingMode encAlphanumeric, .withVersion 40]
theorem big_exists : ∃ q, newWith demoExt fresh inOrder .string hello opts40 = .ok q :=
  (C09_fails_iff hE hc ha (t := .string) (by simp) hello (opts := opts40) (m := .alnum) rfl (by decide)).2 (by simp only [Spec.Encodable]; decide)
noncomputable def q40 : QRCode := Classical.choose big_exists
theorem q40_ok : newWith demoExt fresh inOrder .string hello opts40 = .ok q40 := Classical.choose_spec big_exists
theorem q40_dim : q40.dimension = 177 := by
  obtain ⟨v, hv, hd, _⟩ := C11_dimension hE hc ha q40_ok
  have e : versionIn opts40 = some 40 := by decide
  rcases hv with h | ⟨h, _⟩
  · rw [e] at h
    have := Option.some.inj h
    omega
  · rw [e] at h; cases h

/-- With a logo, on all three platforms. -/
example (A : Arch) (hA : A = amd64 ∨ A = wasm ∨ A = i386) := C99_draw hE hc ha q7_ok grey (o := { defaultOpts with logo := some logo, logoSafeZone := true })
  ⟨by decide, by decide, by decide, by decide, (fun img h => by obtain rfl := Option.some.inj h; decide), fun img h => by obtain rfl := Option.some.inj h; decide⟩ (A := A)
  (by rcases hA with rfl | rfl | rfl <;> simp [amd64, wasm, i386])
example := C99_limits hE hc ha q7_ok grey small_default (b := 40) rfl
/-- Blocks of 200 pixels cannot be drawn on a 32-bit platform, nor in WebAssembly; blocks of 150 pixels can in WebAssembly. -/
example : drawOn i386 grey { defaultOpts with qrWidth := 200 } q40.mat = none ∧ drawOn wasm grey { defaultOpts with qrWidth := 200 } q40.mat = none := by
  have := C99_largest hE hc ha q40_ok q40_dim grey (o := { defaultOpts with qrWidth := 200 }) ⟨by decide, by decide, by decide, by decide, (fun _ h => by cases h), fun _ h => by cases h⟩ rfl
  rw [if_neg (by decide), if_neg (by decide)] at this
  exact this
example : drawOn i386 grey { defaultOpts with qrWidth := 150 } q40.mat = none ∧
    drawOn wasm grey { defaultOpts with qrWidth := 150 } q40.mat = draw grey { defaultOpts with qrWidth := 150 } q40.mat := by
  have := C99_largest hE hc ha q40_ok q40_dim grey (o := { defaultOpts with qrWidth := 150 }) ⟨by decide, by decide, by decide, by decide, (fun _ h => by cases h), fun _ h => by cases h⟩ rfl
  rw [if_neg (by decide), if_pos (by decide)] at this
  exact this

/-- The compressed writer: a padding of 4 and blocks of 300 pixels. -/
example := Compressed.C99_compressed hE hc ha q40_ok (A := i386) (Or.inl rfl) (by decide) (p := 4) (b := 300) (by decide) (by decide)
example : Compressed.imageOn i386 ⟨4, 300⟩ q40.mat = none ∧ Compressed.imageOn wasm ⟨4, 300⟩ q40.mat = Compressed.image ⟨4, 300⟩ q40.mat := by
  have := Compressed.C99_compressed_limits hE hc ha q40_ok (p := 4) (b := 300) (by decide) (by decide)
  rw [q40_dim, if_neg (by decide), if_pos (by decide)] at this
  exact ⟨this.1, this.2.1⟩

/-- The object of the README, with version 40, the alphanumeric mode and blocks of `w` pixels. -/
def widened (w : Int) : String → JS := fun k => if k = "encodeVersion" then .number 40 [] else if k = "encodeMode" then .number 8 [] else if k = "outputQrWidth" then .number w [] else squares k
theorem widened_call (w : Int) (save : Opts → Matrix → Saved) (hs : ∀ o m, save o m = .panics ↔ drawOn wasm grey o m = none) :
    genqrcode demoExt fresh inOrder save [.string hello, .object (widened w)] = .panics ↔ 32768 < (177 : Int) * (if w % 256 = 0 then 20 else w % 256) + 40 := by
  have k := C99_browser hE hc ha grey save hs (.string hello) (widened w) [] (ver := 40) (mode := 8) (w := w) (mar := 20) (t4 := [0x32, 0x30]) (tr := false) (ci := false) (lv := 3)
    (by simp [widened]; rfl) (by simp [widened]; rfl) (by simp [widened]; rfl) (by simp [widened]; exact s4) (by simp [widened]; exact s5) (by simp [widened]; exact s6)
    (by simp [widened]; exact s7) (by simp [widened]; exact s8) (by simp [widened]; exact s9) (by decide) (opts := opts40) (by decide) q40_ok
  rw [q40_dim] at k
  exact k
/-- Blocks of 200 pixels end the program, blocks of 20 do not. -/
example : ∃ save, genqrcode demoExt fresh inOrder save [.string hello, .object (widened 200)] = .panics ∧ genqrcode demoExt fresh inOrder save [.string hello, .object (widened 20)] ≠ .panics := by
  classical
  have hs : ∀ o m, (fun (o : Opts) (m : Matrix) => if drawOn wasm grey o m = none then Saved.panics else .image []) o m = .panics ↔ drawOn wasm grey o m = none := by
    intro o m
    simp only
    split <;> simp [*]
  exact ⟨_, (widened_call 200 _ hs).2 (by decide), fun h => absurd ((widened_call 20 _ hs).1 h) (by decide)⟩

/-! ## Writers shared by goroutines -/

section
open QR.Painters
/-- Every goroutine draws the symbol of `HELLO`; the even ones share writer 0, the odd ones have writers of their own, with a transparent background. -/
noncomputable abbrev painters : Nat → Job := fun i => ⟨if i % 2 = 0 then 0 else i, q7.mat⟩
abbrev brushes : Nat → Opts := fun w => if w = 0 then defaultOpts else { defaultOpts with bgTransparent := true }
theorem painters_apart (i : Nat) : ¬ SharesTransparent brushes painters i := by
  rintro ⟨ht, j, hj, hw⟩
  simp only at ht hw
  by_cases hi : i % 2 = 0
  · rw [if_pos hi] at ht
    cases ht
  · rw [if_neg hi] at hw
    split at hw
    · omega
    · exact hj hw
/-- Goroutines 0, 1 and 2 take turns for a while, then 1 finishes: it has made the calls of `draw`. -/
example : ∃ sched s, run grey brushes painters ([0, 1, 2, 1, 0] ++ sched) (start brushes painters) = some s ∧
    (s.painter 1).own.result = (draw grey { defaultOpts with bgTransparent := true } q7.mat).map (·.1) := by
  obtain ⟨s0, h0⟩ : ∃ s, run grey brushes painters [0, 1, 2, 1, 0] (start brushes painters) = some s := ⟨_, rfl⟩
  obtain ⟨n, s, _, h1, h2⟩ := C100_finishes grey brushes painters 1 s0
  have app : ∀ (a b : List Nat) (s s' s'' : St), run grey brushes painters a s = some s' → run grey brushes painters b s' = some s'' → run grey brushes painters (a ++ b) s = some s'' := by
    intro a
    induction a with
    | nil => intro b s s' s'' g1 g2; cases g1; exact g2
    | cons x a ih =>
      intro b s s' s'' g1 g2
      unfold run at g1
      rw [List.cons_append]
      unfold run
      cases hs : step grey brushes painters x s with
      | none => rw [hs] at g1; cases g1
      | some t => rw [hs] at g1; exact ih b t s' s'' g1 g2
  have h := app _ _ _ _ _ h0 h1
  exact ⟨_, s, h, C100_alone grey brushes painters h h2 (painters_apart 1)⟩
/-- No schedule of these goroutines has a data race; if the odd ones shared a writer too, some would. -/
example : ¬ ∃ sched s, run grey brushes painters sched (start brushes painters) = some s ∧ Race painters s :=
  fun h => (C100_race grey brushes painters).1 h |>.elim fun i hi => painters_apart i hi
example : ∃ sched s, run grey brushes (fun i => ⟨i % 2, q7.mat⟩) sched (start brushes fun i => ⟨i % 2, q7.mat⟩) = some s ∧ Race (fun i => ⟨i % 2, q7.mat⟩) s :=
  (C100_race grey brushes fun i => ⟨i % 2, q7.mat⟩).2 ⟨1, rfl, 3, by decide, rfl⟩
example := C100_shared grey (fun _ => glass) (fun _ => ⟨0, lightM⟩) (sched := List.replicate 17 0) rfl (i := 0) rfl rfl
end

/-- A machine with an `int` of 32 bits that fuses here and there. -/
abbrev odd : Machine := ⟨i386, fun x y i _ => (x % 2 == 0, (y + i) % 2 == 0), fun _ _ _ => everySecond, fusing⟩
theorem limits_logo {img : Image} (h : (img = logo ∨ img = large)) {o : Opts} (hb : o.borders = defaultOpts.borders) (hk : o.logoSizeMultiplier = 5) (hl : o.logo = some img) : Small o := by
  refine ⟨by rw [hb]; decide, by rw [hb]; decide, by rw [hb]; decide, by rw [hb]; decide, fun _ _ => by rw [hk]; decide, fun i hi => ?_⟩
  rw [hl] at hi
  obtain rfl := Option.some.inj hi
  rcases h with rfl | rfl <;> decide
example := C106_calls hE hc ha q7_ok grey (o := { toned with logo := some logo, logoSafeZone := true }) (limits_logo (.inl rfl) rfl rfl rfl) odd (.inl rfl)
/-- Blocks of 20 pixels with a halftone image, and blocks of 21 pixels without. -/
example := C106_text hE hc ha q7_ok hx odd (.inl rfl) grey demo_rasters showImage over_ok diagonal chains (o := { toned with qrGradient := some demoGradient, logo := some large })
  (limits_logo (.inr rfl) rfl rfl rfl) (by decide) trivial (fun _ _ => ⟨by decide, .inl rfl⟩) (contrast rfl rfl) (fun g h => by cases h; exact gradient_ok rfl) (by decide)
  (by rw [q7_dim]; decide) (too_large rfl rfl rfl rfl)
example := C106_text_logo hE rfl hc ha q7_ok hx q7_dim level_ok odd (.inl rfl) grey demo_rasters showImage over_ok diagonal chains (o := { drops with qrWidth := 21, logo := some logo, logoSafeZone := true })
  (limits_logo (.inl rfl) rfl rfl rfl) (by decide) chains_bold (fun _ h => by cases h) (contrast rfl rfl) (fun g h => by cases h) (by decide) (by decide) (by rw [q7_dim]; decide) rfl ⟨rfl, rfl⟩
  (by decide) (by decide)
/-- Drawn functions that need no flag, with a halftone image. -/
example := C106_text_logo hE rfl hc ha q7_ok hx q7_dim level_ok odd (.inl rfl) grey demo_rasters showImage over_ok diagonal chains
  (o := { toned with qrWidth := 30, shape := some (.custom 0), logo := some logo, logoSafeZone := true })
  (limits_logo (.inl rfl) rfl rfl rfl) (by decide) chains_bold (fun _ _ => ⟨by decide, .inr ⟨by decide, by decide, rfl⟩⟩) (contrast rfl rfl) (fun g h => by cases h) (by decide) (by decide)
  (by rw [q7_dim]; decide) rfl ⟨rfl, rfl⟩ (by decide) (by decide)
/-- The coordinates do differ: a third of 20 pixels has no `float64`, and fusing matters. -/
example : plusMul float64Round false (float64Round 40) (float64Round 1) (float64Round (float64Round 20 / 3)) ≠ 40 + 1 * (20 / 3) ∧
    plusMul float64Round false (float64Round 43) (float64Round 2) (float64Round (float64Round 20 / 3)) ≠ 43 + 2 * (20 / 3) := by decide +kernel

end QR.Instances
