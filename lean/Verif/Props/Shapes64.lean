import Verif.Props.ScanPixels
import Verif.Proof.Shapes64
/-!
# C105: shapes computed with `float64`
-/
namespace QR.Standard
open QR QR.Matrix Spec Plane

/-! ## What is drawn -/

/-- The context of a block of whole pixels. -/
theorem whole_iff (c : Ctx) : Whole c ↔ (∃ n : Int, c.x = n ∧ -2 ^ 30 ≤ n ∧ n ≤ 2 ^ 30) ∧ (∃ n : Int, c.y = n ∧ -2 ^ 30 ≤ n ∧ n ≤ 2 ^ 30) ∧
    (0 ≤ c.w ∧ c.w ≤ 2 ^ 30) ∧ 0 ≤ c.h ∧ c.h ≤ 2 ^ 30 := ⟨fun ⟨a, b, c, d⟩ => ⟨a, b, c, d⟩, fun ⟨a, b, c, d⟩ => ⟨a, b, c, d⟩⟩

/-- **C105, the functions with halves only.**  In blocks of whole pixels the rectangle, the circle, `LiquidBlock`, `RoundedFinder` and `SquareFinder` are computed by `float64` exactly. -/
theorem C105_exact (fuse : Nat → Bool) {c : Ctx} (hc : Whole c) :
    (∀ fin, LibShape.cmds64 float64Round fuse .rectangle fin c = LibShape.cmds .rectangle fin c) ∧ (∀ fin, LibShape.cmds64 float64Round fuse .circle fin c = LibShape.cmds .circle fin c) ∧
    DrawFn.cmds64 float64Round fuse .liquidBlock c = DrawFn.cmds .liquidBlock c ∧ DrawFn.cmds64 float64Round fuse .roundedFinder c = DrawFn.cmds .roundedFinder c ∧
    DrawFn.cmds64 float64Round fuse .squareFinder c = DrawFn.cmds .squareFinder c :=
  ⟨fun _ => (square_exact Rnd.float64 hc).2, fun _ => circle_exact Rnd.float64 hc, liquid_exact Rnd.float64 hc, rounded_exact Rnd.float64 hc, (square_exact Rnd.float64 hc).1⟩

/-- The factor given is treated by the range check as its exact value would be. -/
def DrawFn.decides (rnd : Rat → Rat) : DrawFn → Prop
  | .vStripeBlock r => (rnd r < rnd (6 / 10) ∨ rnd r > 1) ↔ (r < 6 / 10 ∨ r > 1)
  | .squareBlocks s => (rnd s < rnd (1 / 10) ∨ rnd s > 1) ↔ (s < 1 / 10 ∨ s > 1)
  | .circleBlocks s => (rnd s < rnd (1 / 10) ∨ rnd s > 1) ↔ (s < 1 / 10 ∨ s > 1)
  | _ => True

theorem factor_close {rnd : Rat → Rat} (H : Rnd rnd) {d : DrawFn} (hd : d.decides rnd) : Cl (1 / 2 ^ 48) (d.factor64 rnd) d.factor := by
  have one : Cl (1 / 2 ^ 48) (1 : Rat) 1 := Cl.refl (by norm_num) _
  have scale : ∀ s, ((rnd s < rnd (1 / 10) ∨ rnd s > 1) ↔ (s < 1 / 10 ∨ s > 1)) → Cl (1 / 2 ^ 48) (blockScaleRnd rnd s) (blockScale s) := by
    intro s hs
    unfold blockScaleRnd blockScale
    by_cases h : s < 1 / 10 ∨ s > 1
    · rw [if_pos (hs.2 h), if_pos h]; exact one
    · rw [if_neg (fun k => h (hs.1 k)), if_neg h]
      push Not at h
      exact (H.const (by linarith [h.1]) h.2).mono (by norm_num)
  cases d with
  | vStripeBlock s =>
    simp only [DrawFn.decides] at hd
    simp only [DrawFn.factor64, DrawFn.factor]
    by_cases h : s < 6 / 10 ∨ s > 1
    · rw [if_pos (hd.2 h), if_pos h]; exact (H.const (by norm_num) (by norm_num)).mono (by norm_num)
    · rw [if_neg (fun k => h (hd.1 k)), if_neg h]
      push Not at h
      exact (H.const (by linarith [h.1]) h.2).mono (by norm_num)
  | squareBlocks s => exact scale s hd
  | circleBlocks s => exact scale s hd
  | liquidBlock => exact one
  | hStripeBlock r => exact one
  | chainBlock => exact one
  | vChainBlock => exact one
  | hChainBlock => exact one
  | roundedFinder => exact one
  | squareFinder => exact one

/-- **C105, all functions.**  In blocks of whole pixels, what a drawing function draws when it computes with `float64` is what it draws when it computes exactly, call by call, with every number
off by at most a thousandth of a pixel; for any factor which the range check treats as its exact value. -/
theorem C105_close {c : Ctx} (hc : Whole c) (fuse : Nat → Bool) {d : DrawFn} (hd : d.decides float64Round) :
    List.Forall₂ (CmdCl (1 / 1000)) (d.cmds64 float64Round fuse c) (d.cmds c) := cmds_near (fuse := fuse) Rnd.float64 hc (.same d) (factor_close Rnd.float64 hd)

/-- For every factor, also one that rounding moves across a bound, there is an exact drawing with a factor hardly different from the one in use. -/
theorem C105_close_any {c : Ctx} (hc : Whole c) (fuse : Nat → Bool) (d : DrawFn) :
    ∃ d', SameKind d d' ∧ Cl (1 / 2 ^ 48) (d.factor64 float64Round) d'.factor ∧ List.Forall₂ (CmdCl (1 / 1000)) (d.cmds64 float64Round fuse c) (d'.cmds c) := by
  obtain ⟨d', h1, h2⟩ := exact_factor Rnd.float64 d
  exact ⟨d', h1, h2, cmds_near (fuse := fuse) Rnd.float64 hc h1 h2⟩

/-- **C105, which factors.**  The range check treats a factor as its exact value if it is one of the bounds or not within 2^-48 of them. -/
theorem C105_factors {r : Rat} (h1 : r = 1 ∨ 1 / 2 ^ 48 < |r - 1|) :
    (r = 6 / 10 ∨ 1 / 2 ^ 48 < |r - 6 / 10| → (DrawFn.vStripeBlock r).decides float64Round) ∧
    (r = 1 / 10 ∨ 1 / 2 ^ 48 < |r - 1 / 10| → (DrawFn.squareBlocks r).decides float64Round ∧ (DrawFn.circleBlocks r).decides float64Round) := by
  have H := Rnd.float64
  have key : ∀ b : Rat, 0 ≤ b → b ≤ 6 / 10 → r = b ∨ 1 / 2 ^ 48 < |r - b| → ((float64Round r < float64Round b ∨ float64Round r > 1) ↔ (r < b ∨ r > 1)) := by
    intro b b0 b1 hb
    have up : float64Round r > 1 ↔ r > 1 := by
      rcases h1 with rfl | h1
      · have : float64Round (1 : Rat) = 1 := by simpa using H.int 1 (by norm_num) (by norm_num)
        rw [this]
      · obtain ⟨n1, n2⟩ := H.near r
        rcases lt_or_ge r 1 with h | h
        · rw [abs_of_neg (by linarith)] at h1
          refine ⟨fun k => ?_, fun k => by linarith⟩
          exfalso
          have : |r| ≤ 1 - r + 1 := abs_le.2 ⟨by linarith, by linarith⟩
          have e : (|r| + 1) / 2 ^ 50 ≤ (1 - r + 2) / 2 ^ 50 := div_le_div_of_nonneg_right (by linarith) (by norm_num)
          have e2 : (1 - r + 2) / 2 ^ 50 = (1 - r) / 2 ^ 50 + 2 / 2 ^ 50 := by ring
          norm_num at h1 e e2 n2
          linarith
        · rw [abs_of_nonneg (by linarith)] at h1
          rw [abs_of_nonneg (by linarith)] at n1
          refine ⟨fun _ => ?_, fun _ => ?_⟩
          · have : (0 : Rat) < 1 / 2 ^ 48 := by norm_num
            linarith
          · norm_num at h1 n1 ⊢
            linarith
    have down : float64Round r < float64Round b ↔ r < b := by
      rcases hb with rfl | hb
      · simp
      · obtain ⟨n1, n2⟩ := H.near r
        obtain ⟨m1, m2⟩ := H.const b0 (by linarith)
        rcases lt_or_ge r b with h | h
        · rw [abs_of_neg (by linarith)] at hb
          refine ⟨fun _ => h, fun _ => ?_⟩
          have : |r| ≤ b - r + b := abs_le.2 ⟨by linarith, by linarith⟩
          have e : (|r| + 1) / 2 ^ 50 ≤ (b - r + 2) / 2 ^ 50 := div_le_div_of_nonneg_right (by linarith) (by norm_num)
          have e2 : (b - r + 2) / 2 ^ 50 = (b - r) / 2 ^ 50 + 2 / 2 ^ 50 := by ring
          norm_num at hb e e2 n2 m1
          linarith
        · rw [abs_of_nonneg (by linarith)] at hb
          rw [abs_of_nonneg (by linarith)] at n1
          refine ⟨fun k => ?_, fun k => by linarith⟩
          exfalso
          norm_num at hb n1 m2
          linarith
    rw [up, down]
  exact ⟨fun h => key _ (by norm_num) (by norm_num) h, fun h => ⟨key _ (by norm_num) (by norm_num) h, key _ (by norm_num) (by norm_num) h⟩⟩

/-! ## Still readable -/

/-- Not too thin, with the factor in use. -/
def DrawFn.bold64 (rnd : Rat → Rat) : DrawFn → Prop
  | .squareBlocks s => 2 / 5 < blockScaleRnd rnd s
  | .circleBlocks s => 2 / 5 < blockScaleRnd rnd s
  | _ => True

/-- The same for a shape. -/
def LibShape.bold64 (rnd : Rat → Rat) : LibShape → Prop
  | .assembled a b => a.bold64 rnd ∧ b.bold64 rnd
  | _ => True

theorem leftover_cl {e : Rat} : ∀ {l l' : List Cmd} {path path' : List Figure}, List.Forall₂ (CmdCl e) l l' → path.length = path'.length →
    (leftover path l).length = (leftover path' l').length
  | _, _, _, _, .nil, h => h
  | .add f :: l, .add g :: l', path, path', .cons hh ht, h => by
    simp only [leftover]
    exact leftover_cl ht (by simp [h])
  | .fill :: l, .fill :: l', path, path', .cons hh ht, h => by
    simp only [leftover]
    exact leftover_cl ht rfl
  | .add f :: l, .fill :: l', path, path', .cons hh ht, h => hh.elim
  | .fill :: l, .add f :: l', path, path', .cons hh ht, h => hh.elim

theorem forall₂_left {α β : Type} {R : α → β → Prop} : ∀ {l : List α} {l' : List β}, List.Forall₂ R l l' → ∀ a ∈ l, ∃ b ∈ l', R a b
  | _, _, .nil, _, h => by cases h
  | _, _, .cons hh ht, a, h => by
    rcases List.mem_cons.1 h with rfl | h
    · exact ⟨_, List.mem_cons_self, hh⟩
    · obtain ⟨b, h1, h2⟩ := forall₂_left ht a h
      exact ⟨b, List.mem_cons_of_mem _ h1, h2⟩

theorem forall₂_right {α β : Type} {R : α → β → Prop} : ∀ {l : List α} {l' : List β}, List.Forall₂ R l l' → ∀ b ∈ l', ∃ a ∈ l, R a b
  | _, _, .nil, _, h => by cases h
  | _, _, .cons hh ht, b, h => by
    rcases List.mem_cons.1 h with rfl | h
    · exact ⟨_, List.mem_cons_self, hh⟩
    · obtain ⟨a, h1, h2⟩ := forall₂_right ht b h
      exact ⟨a, List.mem_cons_of_mem _ h1, h2⟩

theorem near_zero' {d : Int} {a : Rat} (h1 : 2 * (d : Rat) + 1 - 1 / 4 ≤ a) (h2 : a ≤ 2 * (d : Rat) + 1 + 1 / 4) (h3 : -1 / 100 ≤ a) (h4 : a ≤ 2 + 1 / 100) : d = 0 := by
  have a : (-1 : Rat) < d := by linarith
  have b : (d : Rat) < 1 := by linarith
  have a' : -1 < d := by exact_mod_cast a
  have b' : d < 1 := by exact_mod_cast b
  omega

/-- A point covered by a figure close to one that stays in the block is in the block, but for a hundredth. -/
theorem cl_box {k tx ty : Rat} (hk : 5 ≤ k) {f g : Figure} (hg : Inner g) (hfg : FigCl (1 / 1000) f (figTr k ⟨tx, ty⟩ g)) {p : Pt} (hc : f.covers p) :
    (-1 / 100 ≤ (p.x - tx) / k ∧ (p.x - tx) / k ≤ 2 + 1 / 100) ∧ (-1 / 100 ≤ (p.y - ty) / k ∧ (p.y - ty) / k ≤ 2 + 1 / 100) := by
  have hk0 : 0 < k := by linarith
  have main : (tx - 1 / 100 * 5 ≤ p.x ∧ p.x ≤ tx + 2 * k + 1 / 100 * 5) ∧ (ty - 1 / 100 * 5 ≤ p.y ∧ p.y ≤ ty + 2 * k + 1 / 100 * 5) := by
    rcases hg with ⟨r, rfl, hr⟩ | ⟨x, y, w, h, rfl, h1, h2, h3, h4⟩
    · cases f with
      | disc a b s =>
        obtain ⟨⟨a1, a2⟩, ⟨b1, b2⟩, ⟨s1, s2⟩⟩ := hfg
        obtain ⟨c0, c1⟩ := hc
        have hkr : k * r ≤ k := by nlinarith
        have hs : s ≤ k + 1 / 1000 := by linarith
        have px : (p.x - a) * (p.x - a) < s * s := by nlinarith [mul_self_nonneg (p.y - b)]
        have py : (p.y - b) * (p.y - b) < s * s := by nlinarith [mul_self_nonneg (p.x - a)]
        have q1 : -s < p.x - a := by nlinarith
        have q2 : p.x - a < s := by nlinarith
        have q3 : -s < p.y - b := by nlinarith
        have q4 : p.y - b < s := by nlinarith
        refine ⟨⟨?_, ?_⟩, ?_, ?_⟩ <;> linarith
      | rect _ _ _ _ => exact hfg.elim
      | outline _ _ => exact hfg.elim
    · cases f with
      | rect a b u v =>
        obtain ⟨⟨a1, a2⟩, ⟨b1, b2⟩, ⟨u1, u2⟩, ⟨v1, v2⟩⟩ := hfg
        obtain ⟨c1, c2, c3, c4⟩ := hc
        have e1 : k * (x + w) ≤ k * 2 := mul_le_mul_of_nonneg_left h3 (by linarith)
        have e2 : k * (y + h) ≤ k * 2 := mul_le_mul_of_nonneg_left h4 (by linarith)
        have e3 := mul_nonneg (le_of_lt hk0) h1
        have e4 := mul_nonneg (le_of_lt hk0) h2
        simp only at a1 a2 b1 b2
        rw [mul_add] at e1 e2
        refine ⟨⟨?_, ?_⟩, ?_, ?_⟩ <;> linarith
      | disc _ _ _ => exact hfg.elim
      | outline _ _ => exact hfg.elim
  obtain ⟨⟨m1, m2⟩, m3, m4⟩ := main
  refine ⟨⟨?_, ?_⟩, ?_, ?_⟩
  · rw [le_div_iff₀ hk0]; linarith
  · rw [div_le_iff₀ hk0]; linarith
  · rw [le_div_iff₀ hk0]; linarith
  · rw [div_le_iff₀ hk0]; linarith

/-- The figure in the middle of the block. -/
def Middle (g : Figure) : Prop := ∃ ρ : Rat, 39 / 100 < ρ ∧ (g = .disc 1 1 ρ ∨ g = .rect (1 - ρ) (1 - ρ) (2 * ρ) (2 * ρ))

theorem cl_middle {k tx ty : Rat} (hk : 5 ≤ k) {f g : Figure} (hg : Middle g) (hfg : FigCl (1 / 1000) f (figTr k ⟨tx, ty⟩ g)) {p : Pt}
    (hp : Around 0 0 ⟨(p.x - tx) / k, (p.y - ty) / k⟩) : f.covers p := by
  have hk0 : 0 < k := by linarith
  obtain ⟨n1, n2, n3, n4⟩ := hp
  norm_num at n1 n2 n3 n4
  rw [le_div_iff₀ hk0] at n1 n3
  rw [div_le_iff₀ hk0] at n2 n4
  obtain ⟨ρ, hρ, rfl | rfl⟩ := hg
  · cases f with
    | disc a b s =>
      obtain ⟨⟨a1, a2⟩, ⟨b1, b2⟩, ⟨s1, s2⟩⟩ := hfg
      simp only at a1 a2 b1 b2
      have hkr : k * (39 / 100) < k * ρ := mul_lt_mul_of_pos_left hρ hk0
      have hs : k * (38 / 100) < s := by linarith
      have x1 : -(k * (26 / 100)) ≤ p.x - a := by linarith
      have x2 : p.x - a ≤ k * (26 / 100) := by linarith
      have y1 : -(k * (26 / 100)) ≤ p.y - b := by linarith
      have y2 : p.y - b ≤ k * (26 / 100) := by linarith
      have qx : (p.x - a) * (p.x - a) ≤ k * (26 / 100) * (k * (26 / 100)) := by nlinarith
      have qy : (p.y - b) * (p.y - b) ≤ k * (26 / 100) * (k * (26 / 100)) := by nlinarith
      have qs : k * (38 / 100) * (k * (38 / 100)) < s * s := by nlinarith
      refine ⟨by nlinarith, ?_⟩
      nlinarith [mul_pos hk0 hk0]
    | rect _ _ _ _ => exact hfg.elim
    | outline _ _ => exact hfg.elim
  · cases f with
    | rect a b u v =>
      obtain ⟨⟨a1, a2⟩, ⟨b1, b2⟩, ⟨u1, u2⟩, ⟨v1, v2⟩⟩ := hfg
      simp only at a1 a2 b1 b2
      have hkr : k * (39 / 100) < k * ρ := mul_lt_mul_of_pos_left hρ hk0
      have e1 : k * (1 - ρ) = k - k * ρ := by ring
      have e2 : k * (2 * ρ) = 2 * (k * ρ) := by ring
      rw [e1] at a1 a2 b1 b2
      rw [e2] at u1 u2 v1 v2
      refine ⟨?_, ?_, ?_, ?_⟩ <;> linarith
    | disc _ _ _ => exact hfg.elim
    | outline _ _ => exact hfg.elim

theorem factor_blockScale (s : Rat) : DrawFn.factor (.squareBlocks s) = blockScale s := rfl

/-- A drawing function computed with rounding, near the centres of blocks. -/
theorem fn64_near {rnd : Rat → Rat} (H : Rnd rnd) (fuse : Nat → Bool) (d : DrawFn) (hb : d.bold64 rnd) {c : Ctx} (hc : Whole c) (hh : c.h = c.w) (hw : 10 ≤ c.w) :
    BlockNear c (decide (d = .roundedFinder) = false) (d.cmds64 rnd fuse c) := by
  cases hk : d.keepsToBlock with
  | false =>
    have hcase : d = .liquidBlock ∨ d = .roundedFinder := by cases d <;> simp_all [DrawFn.keepsToBlock]
    rcases hcase with rfl | rfl
    · rw [show DrawFn.cmds64 rnd fuse .liquidBlock c = LibShape.cmds (.assembled .liquidBlock .liquidBlock) false c from liquid_exact H hc]
      exact lib_near (.assembled .liquidBlock .liquidBlock) ⟨trivial, trivial⟩ false hh hw
    · rw [show DrawFn.cmds64 rnd fuse .roundedFinder c = LibShape.cmds (.assembled .roundedFinder .roundedFinder) false c from rounded_exact H hc]
      exact lib_near (.assembled .roundedFinder .roundedFinder) ⟨trivial, trivial⟩ false hh hw
  | true =>
    obtain ⟨d', hsame, hf⟩ := exact_factor H d
    have hcl := cmds_near (fuse := fuse) H hc hsame hf
    have hk' : d'.keepsToBlock = true := by cases hsame <;> exact hk
    rw [cmds_unit d' hh] at hcl
    have hk5 : (5 : Rat) ≤ (c.w : Rat) / 2 := by
      have : (10 : Rat) ≤ c.w := by exact_mod_cast hw
      linarith
    refine ⟨fun f hfm dx dy p hp hcov => .inl ?_, fun _ => ?_, ?_⟩
    · obtain ⟨g', hg', hfg⟩ := forall₂_left hcl _ hfm
      obtain ⟨k0, hk0, rfl⟩ := List.mem_map.1 hg'
      cases k0 with
      | fill => exact hfg.elim
      | add g =>
        obtain ⟨⟨b1, b2⟩, b3, b4⟩ := cl_box hk5 (keeps_inner hk' hk0) hfg hcov
        obtain ⟨n1, n2, n3, n4⟩ := hp
        exact ⟨near_zero' n1 n2 b1 b2, near_zero' n3 n4 b3 b4⟩
    · have hmid : ∃ g, Middle g ∧ Cmd.add g ∈ unitCmds d' c.neighbours := by
        have hsc : ∀ s', Cl (1 / 2 ^ 48) (d.factor64 rnd) (blockScale s') → 2 / 5 < d.factor64 rnd → 39 / 100 < blockScale s' := by
          intro s' h h2
          have := h.2
          norm_num at this
          linarith
        cases d' with
        | liquidBlock => cases hk'
        | roundedFinder => cases hk'
        | hStripeBlock r => exact ⟨_, ⟨9 / 10, by norm_num, .inl rfl⟩, by simp [unitCmds]⟩
        | vStripeBlock r => exact ⟨_, ⟨vRatio r, by linarith [(vRatio_range r).1], .inl rfl⟩, by simp [unitCmds]⟩
        | chainBlock => exact ⟨_, ⟨9 / 10, by norm_num, .inl rfl⟩, by simp [unitCmds]⟩
        | vChainBlock => exact ⟨_, ⟨85 / 100, by norm_num, .inl rfl⟩, by simp [unitCmds]⟩
        | hChainBlock => exact ⟨_, ⟨85 / 100, by norm_num, .inl rfl⟩, by simp [unitCmds]⟩
        | squareFinder => exact ⟨.rect 0 0 2 2, ⟨1, by norm_num, .inr (by norm_num)⟩, by simp [unitCmds]⟩
        | squareBlocks s' =>
          have : ∃ s, d = .squareBlocks s := by cases hsame <;> exact ⟨_, rfl⟩
          obtain ⟨s, rfl⟩ := this
          exact ⟨_, ⟨blockScale s', hsc s' hf hb, .inr rfl⟩, by simp [unitCmds]⟩
        | circleBlocks s' =>
          have : ∃ s, d = .circleBlocks s := by cases hsame <;> exact ⟨_, rfl⟩
          obtain ⟨s, rfl⟩ := this
          exact ⟨_, ⟨blockScale s', hsc s' hf hb, .inl rfl⟩, by simp [unitCmds]⟩
      obtain ⟨g, hg, hgm⟩ := hmid
      obtain ⟨k0, hk0, hfg⟩ := forall₂_right hcl (cmdTr ((c.w : Rat) / 2) ⟨c.x, c.y⟩ (.add g)) (List.mem_map_of_mem hgm)
      cases k0 with
      | fill => exact hfg.elim
      | add f => exact ⟨f, hk0, fun p hp => cl_middle hk5 hg hfg hp⟩
    · have h1 := leftover_cl (path := []) (path' := []) hcl rfl
      rw [show leftover [] ((unitCmds d' c.neighbours).map (cmdTr ((c.w : Rat) / 2) ⟨c.x, c.y⟩)) = _ from leftover_map _ _ (unitCmds d' c.neighbours) [], unit_leftover] at h1
      exact List.eq_nil_of_length_eq_zero h1

/-- The shapes of this library, computed with rounding. -/
theorem lib64_near {rnd : Rat → Rat} (H : Rnd rnd) (fuse : Nat → Bool) (s : LibShape) (hb : s.bold64 rnd) (fin : Bool) {c : Ctx} (hc : Whole c) (hh : c.h = c.w) (hw : 10 ≤ c.w) :
    BlockNear c (needsSelf s fin = false) (s.cmds64 rnd fuse fin c) := by
  cases s with
  | rectangle =>
    rw [show LibShape.cmds64 rnd fuse .rectangle fin c = LibShape.cmds .rectangle fin c from (square_exact H hc).2]
    exact lib_near .rectangle trivial fin hh hw
  | circle =>
    rw [show LibShape.cmds64 rnd fuse .circle fin c = LibShape.cmds .circle fin c from circle_exact H hc]
    exact lib_near .circle trivial fin hh hw
  | assembled a b =>
    cases fin with
    | true => exact fn64_near H fuse a hb.1 hc hh hw
    | false => exact fn64_near H fuse b hb.2 hc hh hw

/-! ## The picture and the text -/

/-- What the shapes of this library do when they compute with `float64`. -/
def run64 (assembled : Nat → DrawFn × DrawFn) (fuse : Shape → Bool → Ctx → Nat → Bool) : Shape → Bool → Ctx → List Cmd :=
  fun sh fin c => (meaning assembled sh).cmds64 float64Round (fuse sh fin c) fin c

theorem module_whole {o : Opts} {m : Matrix} (hb : 0 ≤ o.borders.top ∧ 0 ≤ o.borders.right ∧ 0 ≤ o.borders.bottom ∧ 0 ≤ o.borders.left)
    (hcw : canvasW o m ≤ 2 ^ 30) (hch : canvasH o m ≤ 2 ^ 30) (bm : List (List Bool)) {x y : Nat} (hx : x < m.width) (hy : y < m.height) :
    Whole (moduleCtx o bm x y (m.raw x y)) := by
  have hbw := (blockWidth_pos o).1
  have m1 : ((x : Int) + 1) * o.qrBlockWidth ≤ m.width * o.qrBlockWidth := Int.mul_le_mul_of_nonneg_right (by omega) (by omega)
  have m2 : ((y : Int) + 1) * o.qrBlockWidth ≤ m.height * o.qrBlockWidth := Int.mul_le_mul_of_nonneg_right (by omega) (by omega)
  have m3 : 0 ≤ (x : Int) * o.qrBlockWidth := Int.mul_nonneg (by omega) (by omega)
  have m4 : 0 ≤ (y : Int) * o.qrBlockWidth := Int.mul_nonneg (by omega) (by omega)
  rw [Int.add_mul, Int.one_mul] at m1 m2
  unfold canvasW at hcw
  unfold canvasH at hch
  exact ⟨⟨_, rfl, by omega, by omega⟩, ⟨_, rfl, by omega, by omega⟩, ⟨by show 0 ≤ o.qrBlockWidth; omega, by show o.qrBlockWidth ≤ 2 ^ 30; omega⟩,
    by show 0 ≤ o.qrBlockWidth; omega, by show o.qrBlockWidth ≤ 2 ^ 30; omega⟩

/-- The picture with shapes computed with `float64`, without halftone. -/
theorem shapes64_picture (scale : Scaler) {cov : Coverage} (hcov : Rasters cov) (blend : Blend) {put : Put} (hput : PutsOver put) (direction : Rat → Rat × Rat)
    (assembled : Nat → DrawFn × DrawFn) (fuse : Shape → Bool → Ctx → Nat → Bool) {o : Opts} (hw : 10 ≤ o.qrBlockWidth) (hbold : (meaning assembled o.getShape).bold64 float64Round) (hht : o.halftone = none)
    (hcol : Contrast o) (hg : ∀ g, o.qrGradient = some g → GradientContrast o g) {m : Matrix} (hsq : m.width = m.height)
    (hb : 0 ≤ o.borders.top ∧ 0 ≤ o.borders.right ∧ 0 ≤ o.borders.bottom ∧ 0 ≤ o.borders.left) (hcw : canvasW o m ≤ 2 ^ 30) (hch : canvasH o m ≤ 2 ^ 30) (hpos : 0 < m.width)
    (hl : ∀ img, o.logo = some img → logoValid o m = true → img.minX = 0 ∧ img.minY = 0) :
    CentrePictureRun (draw scale o m) cov blend (plainGradient put direction) (meaning assembled o.getShape) (run64 assembled fuse) o m := by
  obtain ⟨bm, o', cv, _, he, hfold, s1, s2, hpix⟩ := shapes_body scale hcov blend (plainGradient put direction) (meaning assembled o.getShape) (run64 assembled fuse) hw hht hcol hsq hb hpos
    (fun bm x y hx hy => lib64_near Rnd.float64 _ _ hbold _ (module_whole hb hcw hch bm hx hy) rfl hw)
  exact picture_of_body blend (meaning assembled o.getShape) (run64 assembled fuse) hw hcol (fun g h => plain_keeps hcol (hg g h) hput direction) he hfold s1 s2 hpix hl

theorem canvas_attribute {o : Opts} {m : Matrix} {dim : Nat} (hw : m.width = dim) (hh : m.height = dim) : canvasW o m = (o.attribute dim).w ∧ canvasH o m = (o.attribute dim).h := by
  subst hw
  refine ⟨?_, ?_⟩
  · change _ = (m.width : Int) * o.qrBlockWidth + o.borders.right + o.borders.left
    unfold canvasW; omega
  · change _ = (m.width : Int) * o.qrBlockWidth + o.borders.top + o.borders.bottom
    unfold canvasH; rw [hh]

/-- **C105, readable.**  C83 with shapes computed with `float64`: any shape of this library that is not too thin in blocks of at least 10 pixels, on a picture of at most 2^30 pixels either way,
no halftone and no logo (or one that is too large), borders that are not negative, colours that can be told apart, with or without a gradient: drawing succeeds, and a scanner that looks at
one pixel at the centre of every block reads exactly the text. -/
theorem C105_text {E : Ext} {unsjis : Nat → Option Nat} (hE : E.Ok unsjis) {c : AlignCache} (hc : CacheReachable c)
    {arrival : List Nat} (ha : Arrival arrival) {t : TextType} {text : Bytes} {opts : List EncodeOption} {q : QRCode}
    (h : newWith E c arrival t text opts = .ok q)
    (hx : ¬ (modeIn opts = encAuto ∧ AlnumThenKanji E.sjis (nats text)))
    (scale : Scaler) {cov : Coverage} (hcov : Rasters cov) (blend : Blend) {put : Put} (hput : PutsOver put) (direction : Rat → Rat × Rat)
    (assembled : Nat → DrawFn × DrawFn) (fuse : Shape → Bool → Ctx → Nat → Bool) {o : Opts} (hw : 10 ≤ o.qrBlockWidth) (hbold : (meaning assembled o.getShape).bold64 float64Round) (hht : o.halftone = none)
    (hcol : Contrast o) (hg : ∀ g, o.qrGradient = some g → GradientContrast o g)
    (hb : 0 ≤ o.borders.top ∧ 0 ≤ o.borders.right ∧ 0 ≤ o.borders.bottom ∧ 0 ≤ o.borders.left)
    (hsize : (o.attribute q.dimension).w ≤ 2 ^ 30 ∧ (o.attribute q.dimension).h ≤ 2 ^ 30)
    (hl : ∀ img, o.logo = some img → ¬ (o.logoSizeMultiplier * (img.maxX - img.minX) ≤ (o.attribute q.dimension).w ∧
      o.logoSizeMultiplier * (img.maxY - img.minY) ≤ (o.attribute q.dimension).h)) :
    ∃ ops o' cv, draw scale o q.mat = some (ops, o') ∧ paintAllRun cov (run64 assembled fuse) blend (plainGradient put direction) ops = some cv ∧
      ∀ pt, AtCentres o q.dimension pt → decode unsjis (seenInk o q.dimension cv pt) = some (nats text) := by
  obtain ⟨hmw, hmh⟩ := mat_size hE hc ha h
  have hd : 0 < q.dimension := by obtain ⟨v, _, hd, _⟩ := C11_dimension hE hc ha h; omega
  obtain ⟨a1, a2⟩ := canvas_attribute (o := o) hmw hmh
  exact text_of_picture hE hc ha h hx (shapes64_picture scale hcov blend hput direction assembled fuse hw hbold hht hcol hg (hmw.trans hmh.symm) hb (by rw [a1]; exact hsize.1)
    (by rw [a2]; exact hsize.2) (by omega) (fun img hi hv => absurd (logoValid_iff hmw hmh hi |>.1 hv) (hl img hi))) hl

/-- **C105, with a logo** as in C69, for a scanner that corrects errors. -/
theorem C105_text_logo {E : Ext} {unsjis : Nat → Option Nat} (hE : E.Ok unsjis) (hRS : E.rs = rsEncode) {c : AlignCache} (hc : CacheReachable c)
    {arrival : List Nat} (ha : Arrival arrival) {t : TextType} {text : Bytes} {opts : List EncodeOption} {q : QRCode}
    (h : newWith E c arrival t text opts = .ok q)
    (hx : ¬ (modeIn opts = encAuto ∧ AlnumThenKanji E.sjis (nats text)))
    {v : Nat} (hv : q.dimension = 17 + 4 * v)
    (hlv : ¬ (levelIn opts = .L ∧ v ∈ [1, 2, 3, 4, 5, 6, 36] ∨ levelIn opts = .M ∧ v ∈ [2, 4]))
    (scale : Scaler) {cov : Coverage} (hcov : Rasters cov) (blend : Blend) {put : Put} (hput : PutsOver put) (direction : Rat → Rat × Rat)
    (assembled : Nat → DrawFn × DrawFn) (fuse : Shape → Bool → Ctx → Nat → Bool) {o : Opts} (hw : 10 ≤ o.qrBlockWidth) (hbold : (meaning assembled o.getShape).bold64 float64Round) (hht : o.halftone = none)
    (hcol : Contrast o) (hg : ∀ g, o.qrGradient = some g → GradientContrast o g)
    (hbx : 0 ≤ o.borders.left ∧ o.borders.left ≤ 2 * o.qrBlockWidth ∧ o.borders.right = o.borders.left)
    (hby : 0 ≤ o.borders.top ∧ o.borders.top ≤ 2 * o.qrBlockWidth ∧ o.borders.bottom = o.borders.top)
    (hsize : (o.attribute q.dimension).w ≤ 2 ^ 30 ∧ (o.attribute q.dimension).h ≤ 2 ^ 30)
    {img : Image} (hl : o.logo = some img) (hmin : img.minX = 0 ∧ img.minY = 0) (hmax : 0 ≤ img.maxX ∧ 0 ≤ img.maxY)
    (hk : 5 ≤ o.logoSizeMultiplier) :
    ∃ ops o' cv, draw scale o q.mat = some (ops, o') ∧ paintAllRun cov (run64 assembled fuse) blend (plainGradient put direction) ops = some cv ∧
      ∀ pt, AtCentres o q.dimension pt → decodeDamaged unsjis (seenInk o q.dimension cv pt) = some (nats text) := by
  obtain ⟨hmw, hmh⟩ := mat_size hE hc ha h
  obtain ⟨a1, a2⟩ := canvas_attribute (o := o) hmw hmh
  exact text_of_picture_logo hE hRS hc ha h hx hv hlv (shapes64_picture scale hcov blend hput direction assembled fuse hw hbold hht hcol hg (m := q.mat) (hmw.trans hmh.symm) (by omega)
    (by rw [a1]; exact hsize.1) (by rw [a2]; exact hsize.2)
    (by omega) (fun i hi _ => by rw [hl] at hi; cases hi; exact hmin)) hbx hby hl hmin hmax hk

end QR.Standard
