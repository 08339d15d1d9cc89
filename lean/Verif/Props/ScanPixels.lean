import Verif.Proof.Near
import Verif.Proof.Pixels
import Verif.Props.ScanShapesLogo
import Verif.Props.ScanGradient
/-!
# C83: pictures with shapes, pixel by pixel
-/
namespace QR.Standard
open QR QR.Matrix Spec Plane

/-- Not too thin: blocks made of a part of the square (`SquareBlocks`, `CircleBlocks`) use more than two fifths of its width. -/
def DrawFn.bold : DrawFn → Prop
  | .squareBlocks s => 2 / 5 < blockScale s
  | .circleBlocks s => 2 / 5 < blockScale s
  | _ => True

/-- The same for a shape. -/
def LibShape.bold : LibShape → Prop
  | .assembled a b => a.bold ∧ b.bold
  | _ => True

/-- Pixel `(px, py)` contains the centre of the block of module `(x, y)` (at its corner, if the width of the blocks is even). -/
def AtCentre (o : Opts) (x y : Nat) (px py : Int) : Prop :=
  (px : Rat) ≤ (centre o x y).x ∧ (centre o x y).x ≤ px + 1 ∧ (py : Rat) ≤ (centre o x y).y ∧ (centre o x y).y ≤ py + 1

/-! ## One block -/

/-- What is drawn for a block, near the centres of blocks. -/
structure UnitNear (mask : UInt16) (always : Prop) (u : List Cmd) : Prop where
  near : ∀ f, Cmd.add f ∈ u → ∀ (dx dy : Int) (q : Pt), Around dx dy q → f.covers q →
    (dx = 0 ∧ dy = 0) ∨ (flag mask 4 ∧ -1 ≤ dx ∧ dx ≤ 1 ∧ -1 ≤ dy ∧ dy ≤ 1 ∧ flag mask (3 * (dy + 1) + (dx + 1)).toNat)
  own : flag mask 4 ∨ always → ∃ f, Cmd.add f ∈ u ∧ ∀ q, Around 0 0 q → f.covers q
  left : leftover [] u = []

theorem rect_near {x y w h : Rat} (h1 : x ≤ 3 / 4) (h2 : 5 / 4 < x + w) (h3 : y ≤ 3 / 4) (h4 : 5 / 4 < y + h) {q : Pt} (hq : Around 0 0 q) : (Figure.rect x y w h).covers q := by
  obtain ⟨n1, n2, n3, n4⟩ := hq
  norm_num at n1 n2 n3 n4
  exact ⟨by linarith, by linarith, by linarith, by linarith⟩

theorem unit_own_near (d : DrawFn) (hd : d.bold) {mask : UInt16} (h : flag mask 4 ∨ d ≠ .roundedFinder) :
    ∃ f, Cmd.add f ∈ unitCmds d mask ∧ ∀ q, Around 0 0 q → f.covers q := by
  cases d with
  | liquidBlock => exact ⟨.disc 1 1 1, by simp [unitCmds, liquidUnit], fun q hq => disc_near (by norm_num) hq⟩
  | hStripeBlock r => exact ⟨.disc 1 1 (9 / 10), by simp [unitCmds], fun q hq => disc_near (by norm_num) hq⟩
  | vStripeBlock r => exact ⟨.disc 1 1 (vRatio r), by simp [unitCmds], fun q hq => disc_near (by linarith [(vRatio_range r).1]) hq⟩
  | chainBlock => exact ⟨.disc 1 1 (9 / 10), by simp [unitCmds], fun q hq => disc_near (by norm_num) hq⟩
  | vChainBlock => exact ⟨.disc 1 1 (85 / 100), by simp [unitCmds], fun q hq => disc_near (by norm_num) hq⟩
  | hChainBlock => exact ⟨.disc 1 1 (85 / 100), by simp [unitCmds], fun q hq => disc_near (by norm_num) hq⟩
  | squareBlocks s =>
    have hs : 2 / 5 < blockScale s := hd
    exact ⟨_, List.mem_cons_self, fun q hq => rect_near (by linarith) (by linarith) (by linarith) (by linarith) hq⟩
  | circleBlocks s => exact ⟨_, List.mem_cons_self, fun q hq => disc_near hd hq⟩
  | squareFinder => exact ⟨_, List.mem_cons_self, fun q hq => rect_near (by norm_num) (by norm_num) (by norm_num) (by norm_num) hq⟩
  | roundedFinder =>
    have h4 : flag mask 4 := by
      rcases h with h | h
      · exact h
      · exact absurd rfl h
    simp only [unitCmds, roundedUnit]
    have hs : mask &&& NSelf = NSelf := by
      have := flags_has (mask := mask) (bits := NSelf) (fun k hk => by
        have : k = 4 := by
          have e : NSelf.toNat = 2 ^ 4 := by decide
          rw [e, Nat.testBit_two_pow] at hk
          have := of_decide_eq_true hk; omega
        subst this; exact h4)
      unfold has at this
      simpa using this
    rw [if_neg (by simp [hs])]
    split
    · exact ⟨rBL3, by simp, fun q hq => (own_BL hq).1⟩
    split
    · exact ⟨rBL4, by simp, fun q hq => (own_BL hq).2⟩
    split
    · exact ⟨rBR3, by simp, fun q hq => (own_BR hq).1⟩
    split
    · exact ⟨rBR4, by simp, fun q hq => (own_BR hq).2⟩
    split
    · exact ⟨rTR3, by simp, fun q hq => (own_TR hq).1⟩
    split
    · exact ⟨rTR4, by simp, fun q hq => (own_TR hq).2⟩
    split
    · exact ⟨rTL3, by simp, fun q hq => (own_TL hq).1⟩
    split
    · exact ⟨rTL4, by simp, fun q hq => (own_TL hq).2⟩
    · exact ⟨.rect 0 0 2 2, by simp, fun q hq => rect_near (by norm_num) (by norm_num) (by norm_num) (by norm_num) hq⟩

/-- The circle shape, in half block widths, in blocks of at least 10 pixels. -/
theorem circle_bold {w : Int} (hw : 10 ≤ w) : ∃ r : Rat, 2 / 5 < r ∧ r ≤ 1 ∧ ((Int.tdiv w 2 : Int) : Rat) = (w : Rat) / 2 * r := by
  have e : Int.tdiv w 2 = w / 2 := Int.tdiv_eq_ediv_of_nonneg (by omega)
  have hw' : (0 : Rat) < w := by exact_mod_cast (by omega : 0 < w)
  have h1 : (2 * w : Rat) < 5 * (((w / 2 : Int) : Rat) * 2) := by exact_mod_cast (by omega : 2 * w < 5 * ((w / 2) * 2))
  have h2 : 2 * ((w / 2 : Int) : Rat) ≤ w := by exact_mod_cast (by omega : 2 * (w / 2) ≤ w)
  refine ⟨((w / 2 : Int) : Rat) * 2 / w, ?_, ?_, ?_⟩
  · rw [div_lt_div_iff₀ (by norm_num) hw']; linarith
  · rw [div_le_one hw']; linarith
  · rw [e]; field_simp

theorem lib_unit_near (s : LibShape) (hb : s.bold) (fin : Bool) {c : Ctx} (hh : c.h = c.w) (hw : 10 ≤ c.w) :
    ∃ u, s.cmds fin c = u.map (cmdTr ((c.w : Rat) / 2) ⟨c.x, c.y⟩) ∧ UnitNear c.neighbours (needsSelf s fin = false) u := by
  have hf (d : DrawFn) (hd : d.bold) (b : Bool) (hb : b = decide (d = .roundedFinder)) :
      ∃ u, d.cmds c = u.map (cmdTr ((c.w : Rat) / 2) ⟨c.x, c.y⟩) ∧ UnitNear c.neighbours (b = false) u :=
    ⟨_, cmds_unit d hh, fun _ hf _ _ _ hq hc => unit_near d hf hq hc, fun h => unit_own_near d hd (h.imp id fun h => by
      rw [hb] at h; exact of_decide_eq_false h), unit_leftover d _⟩
  cases s with
  | rectangle => exact hf .squareFinder trivial false (by decide)
  | assembled a b => cases fin with
    | true => exact hf a hb.1 _ rfl
    | false => exact hf b hb.2 _ rfl
  | circle =>
    obtain ⟨r, h0, h1, hr⟩ := circle_bold hw
    refine ⟨[.add (.disc 1 1 r), .fill], ?_, ⟨?_, ?_, rfl⟩⟩
    · simp only [LibShape.cmds, drawCircle, hh, le_refl, if_true, List.map_cons, List.map_nil, cmdTr, figTr, hr, mul_one]
    · intro f hf dx dy q hq hc
      have : f = .disc 1 1 r := by simpa using hf
      subst this
      obtain ⟨a, b, c, e⟩ := disc_box h1 hc
      obtain ⟨n1, n2, n3, n4⟩ := hq
      exact .inl ⟨near_zero n1 n2 a b, near_zero n3 n4 c e⟩
    · intro _; exact ⟨_, List.mem_cons_self, fun q hq => disc_near h0 hq⟩

/-! ## The paths filled -/

theorem mem_fills_add : ∀ (cmds : List Cmd) (path : List Figure) {q : List Figure} {f : Figure}, q ∈ fills path cmds → f ∈ q → f ∈ path ∨ Cmd.add f ∈ cmds
  | [], _, _, _, h, _ => by simp [fills] at h
  | .add g :: rest, path, q, f, h, hf => by
    rcases mem_fills_add rest (path ++ [g]) h hf with h | h
    · rcases List.mem_append.1 h with h | h
      · exact .inl h
      · rw [List.mem_singleton] at h; subst h; exact .inr List.mem_cons_self
    · exact .inr (List.mem_cons_of_mem _ h)
  | .fill :: rest, path, q, f, h, hf => by
    simp only [fills, List.mem_cons] at h
    rcases h with rfl | h
    · exact .inl hf
    · rcases mem_fills_add rest [] h hf with h | h
      · cases h
      · exact .inr (List.mem_cons_of_mem _ h)

theorem add_mem_fills : ∀ (cmds : List Cmd) (path : List Figure) {f : Figure}, leftover path cmds = [] → f ∈ path ∨ Cmd.add f ∈ cmds →
    ∃ q ∈ fills path cmds, f ∈ q
  | [], path, f, hl, h => by simp only [leftover] at hl; subst hl; simp at h
  | .add g :: rest, path, f, hl, h => by
    refine add_mem_fills rest (path ++ [g]) hl ?_
    rcases h with h | h
    · exact .inl (List.mem_append_left _ h)
    · rcases List.mem_cons.1 h with e | h
      · injection e with e; subst e; exact .inl (by simp)
      · exact .inr h
  | .fill :: rest, path, f, hl, h => by
    rcases h with h | h
    · exact ⟨path, by simp [fills], h⟩
    · rcases List.mem_cons.1 h with e | h
      · cases e
      · obtain ⟨q, hq, hf⟩ := add_mem_fills rest [] hl (.inr h)
        exact ⟨q, by simp [fills, hq], hf⟩

/-- A point close to a pixel at the centre of module `(i, j)`, in the coordinates of the block of module `(x, y)`. -/
theorem close_around {o : Opts} (hw : 10 ≤ o.qrBlockWidth) {i j : Nat} {px py : Int} (hc : AtCentre o i j px py) {p : Pt} (hp : CloseTo px py p) (x y : Nat) :
    Around ((i : Int) - x) ((j : Int) - y) (inUnit o x y p) := by
  obtain ⟨c1, c2, c3, c4⟩ := hc
  obtain ⟨p1, p2, p3, p4⟩ := hp
  have hb := bw_pos o
  have hw' : (10 : Rat) ≤ o.qrBlockWidth := by exact_mod_cast hw
  simp only [centre] at c1 c2 c3 c4
  refine ⟨?_, ?_, ?_, ?_⟩ <;> simp only [inUnit] <;> push_cast
  · rw [le_div_iff₀ hb]; nlinarith
  · rw [div_le_iff₀ hb]; nlinarith
  · rw [le_div_iff₀ hb]; nlinarith
  · rw [div_le_iff₀ hb]; nlinarith

/-- A point in the coordinates of the block of a context: the block is 2 wide and 2 high. -/
def inCtx (c : Ctx) (p : Pt) : Pt := ⟨(p.x - c.x) / ((c.w : Rat) / 2), (p.y - c.y) / ((c.w : Rat) / 2)⟩

/-- What is drawn for a block, near the centres of blocks, on the picture. -/
structure BlockNear (c : Ctx) (always : Prop) (l : List Cmd) : Prop where
  near : ∀ f, Cmd.add f ∈ l → ∀ (dx dy : Int) (p : Pt), Around dx dy (inCtx c p) → f.covers p →
    (dx = 0 ∧ dy = 0) ∨ (flag c.neighbours 4 ∧ -1 ≤ dx ∧ dx ≤ 1 ∧ -1 ≤ dy ∧ dy ≤ 1 ∧ flag c.neighbours (3 * (dy + 1) + (dx + 1)).toNat)
  own : flag c.neighbours 4 ∨ always → ∃ f, Cmd.add f ∈ l ∧ ∀ p, Around 0 0 (inCtx c p) → f.covers p
  left : leftover [] l = []

theorem tr_inCtx {c : Ctx} (hw : 0 < c.w) (p : Pt) : tr ((c.w : Rat) / 2) ⟨c.x, c.y⟩ (inCtx c p) = p := by
  have hw' : (0 : Rat) < c.w := by exact_mod_cast hw
  cases p
  simp only [tr, inCtx, Pt.mk.injEq]
  constructor <;> field_simp <;> ring

/-- The shapes of this library. -/
theorem lib_near (s : LibShape) (hb : s.bold) (fin : Bool) {c : Ctx} (hh : c.h = c.w) (hw : 10 ≤ c.w) : BlockNear c (needsSelf s fin = false) (s.cmds fin c) := by
  obtain ⟨u, hu, hU⟩ := lib_unit_near s hb fin hh hw
  have hbw : (0 : Rat) < (c.w : Rat) / 2 := by have : (0 : Rat) < c.w := by exact_mod_cast (by omega : 0 < c.w)
                                               linarith
  have htr : ∀ (f : Figure) (p : Pt), (figTr ((c.w : Rat) / 2) ⟨c.x, c.y⟩ f).covers p ↔ f.covers (inCtx c p) := by
    intro f p
    have := covers_tr hbw ⟨c.x, c.y⟩ (inCtx c p) f
    rwa [tr_inCtx (by omega)] at this
  rw [hu]
  refine ⟨fun f hf dx dy p hp hc => ?_, fun h => ?_, ?_⟩
  · obtain ⟨k, hk, e⟩ := List.mem_map.1 hf
    cases k with
    | fill => cases e
    | add g =>
      cases e
      exact hU.near g hk dx dy _ hp ((htr g p).1 hc)
  · obtain ⟨g, hg, hgc⟩ := hU.own h
    exact ⟨_, List.mem_map.2 ⟨_, hg, rfl⟩, fun p hp => (htr g p).2 (hgc _ hp)⟩
  · rw [show leftover [] (u.map (cmdTr ((c.w : Rat) / 2) ⟨c.x, c.y⟩)) = _ from leftover_map _ _ u [], hU.left]; rfl

theorem inCtx_module (o : Opts) (bm : List (List Bool)) (x y : Nat) (v : QRValue) (p : Pt) : inCtx (moduleCtx o bm x y v) p = inUnit o x y p := by
  simp only [inCtx, inUnit, moduleCtx, Pt.mk.injEq]
  have := bw_pos o
  constructor <;> push_cast <;> field_simp <;> ring

/-- What is drawn for a module touches only pixels at the centres of modules of the same colour, and covers the pixels at its own centre. -/
theorem module_pixels_run {o : Opts} (hw : 10 ≤ o.qrBlockWidth) (lib : LibShape) {m : Matrix} {bm : List (List Bool)}
    (hM : MaskOf o m bm) (x y : Nat) {l : List Cmd} (hU : BlockNear (moduleCtx o bm x y (m.raw x y)) (needsSelf lib (decide ((m.raw x y).ty = .finder)) = false) l) :
    leftover [] l = [] ∧
    (∀ i j px py, AtCentre o i j px py → ∀ path ∈ fills [] l, ∀ f ∈ path, ∀ p, CloseTo px py p → f.covers p →
      moduleColor o (m.raw x y) = moduleColor o (m.raw i j)) ∧
    (∀ px py, AtCentre o x y px py → x < m.width → y < m.height → (m.raw x y).bit = true →
      (safeOn o m = true → needsSelf lib (decide ((m.raw x y).ty = .finder)) = true → overlaps o m y x = false) →
      ∃ path ∈ fills [] l, ∃ f ∈ path, ∀ p, CloseTo px py p → f.covers p) := by
  refine ⟨hU.left, ?_, ?_⟩
  · intro i j px py hat path hpath f hf p hp hc
    have hadd : Cmd.add f ∈ l := by
      rcases mem_fills_add l [] hpath hf with h | h
      · cases h
      · exact h
    rcases hU.near f hadd _ _ p (by rw [inCtx_module]; exact close_around hw hat hp x y) hc with ⟨h1, h2⟩ | ⟨h4, h1, h2, h3, h5, h6⟩
    · have : x = i := by omega
      have : y = j := by omega
      subst x y; rfl
    · obtain ⟨nx, ny, e1, e2, _, _, d1, _⟩ := (hM.bits x y 0 0 (by omega) (by omega) (by omega) (by omega)).1 h4
      obtain ⟨kx, ky, f1, f2, _, _, d2, _⟩ := (hM.bits x y _ _ h1 h2 h3 h5).1 h6
      have : nx = x := by omega
      have : ny = y := by omega
      have : kx = i := by omega
      have : ky = j := by omega
      subst nx ny kx ky
      unfold moduleColor QRValue.qrbool
      rw [d1.trans d2.symm]
  · intro px py hat hx hy hb hself
    have hown : flag (getNeighbours bm x y) 4 ∨ needsSelf lib (decide ((m.raw x y).ty = .finder)) = false := by
      cases hn : needsSelf lib (decide ((m.raw x y).ty = .finder)) with
      | false => exact .inr rfl
      | true =>
        refine .inl ((hM.bits x y 0 0 (by omega) (by omega) (by omega) (by omega)).2 ⟨x, y, by omega, by omega, hx, hy, hb, ?_⟩)
        cases hs : safeOn o m with
        | false => rfl
        | true => rw [hself hs hn]; rfl
    obtain ⟨g, hg, hgc⟩ := hU.own hown
    obtain ⟨path, hp, hgp⟩ := add_mem_fills l [] hU.left (.inr hg)
    refine ⟨path, hp, g, hgp, fun p hcl => hgc p ?_⟩
    rw [inCtx_module]
    have := close_around hw hat hcl x y
    have e : ((x : Int) - x) = 0 ∧ ((y : Int) - y) = 0 := by omega
    rwa [e.1, e.2] at this

/-- The same for the shapes of this library. -/
theorem module_pixels {assembled : Nat → DrawFn × DrawFn} {o : Opts} (hw : 10 ≤ o.qrBlockWidth) (hbold : (meaning assembled o.getShape).bold) {m : Matrix} {bm : List (List Bool)}
    (hM : MaskOf o m bm) (x y : Nat) :
    leftover [] (cmdsIn assembled o bm m x y) = [] ∧
    (∀ i j px py, AtCentre o i j px py → ∀ path ∈ fills [] (cmdsIn assembled o bm m x y), ∀ f ∈ path, ∀ p, CloseTo px py p → f.covers p →
      moduleColor o (m.raw x y) = moduleColor o (m.raw i j)) ∧
    (∀ px py, AtCentre o x y px py → x < m.width → y < m.height → (m.raw x y).bit = true →
      (safeOn o m = true → needsSelf (meaning assembled o.getShape) (decide ((m.raw x y).ty = .finder)) = true → overlaps o m y x = false) →
      ∃ path ∈ fills [] (cmdsIn assembled o bm m x y), ∃ f ∈ path, ∀ p, CloseTo px py p → f.covers p) :=
  module_pixels_run hw _ hM x y (lib_near _ hbold _ rfl hw)

/-! ## The picture -/

theorem atCentre_inBlock {o : Opts} (hw : 10 ≤ o.qrBlockWidth) {x y : Nat} {px py : Int} (h : AtCentre o x y px py) :
    InBlock o x y px py ∧ o.borders.left + x * o.qrBlockWidth + 1 ≤ px ∧ px + 2 ≤ o.borders.left + (x + 1) * o.qrBlockWidth ∧
      o.borders.top + y * o.qrBlockWidth + 1 ≤ py ∧ py + 2 ≤ o.borders.top + (y + 1) * o.qrBlockWidth := by
  obtain ⟨c1, c2, c3, c4⟩ := h
  have hw' : (10 : Rat) ≤ o.qrBlockWidth := by exact_mod_cast hw
  simp only [centre] at c1 c2 c3 c4
  have a1 : o.borders.left + x * o.qrBlockWidth + 1 ≤ px := by
    have : ((o.borders.left + x * o.qrBlockWidth + 1 : Int) : Rat) ≤ px := by push_cast; linarith
    exact_mod_cast this
  have a2 : px + 2 ≤ o.borders.left + (x + 1) * o.qrBlockWidth := by
    have : ((px + 2 : Int) : Rat) ≤ ((o.borders.left + (x + 1) * o.qrBlockWidth : Int) : Rat) := by push_cast; linarith
    exact_mod_cast this
  have a3 : o.borders.top + y * o.qrBlockWidth + 1 ≤ py := by
    have : ((o.borders.top + y * o.qrBlockWidth + 1 : Int) : Rat) ≤ py := by push_cast; linarith
    exact_mod_cast this
  have a4 : py + 2 ≤ o.borders.top + (y + 1) * o.qrBlockWidth := by
    have : ((py + 2 : Int) : Rat) ≤ ((o.borders.top + (y + 1) * o.qrBlockWidth : Int) : Rat) := by push_cast; linarith
    exact_mod_cast this
  exact ⟨⟨by omega, by omega, by omega, by omega⟩, a1, a2, a3, a4⟩

theorem colourLeft_map (k : RGBA) : ∀ (cmds : List Cmd) (path : List Figure) (rest : List (RGBA × Cmd)),
    colourLeft path (cmds.map (fun c => (k, c)) ++ rest) = colourLeft (leftover path cmds) rest
  | [], _, _ => rfl
  | .add _ :: l, _, rest => colourLeft_map k l _ rest
  | .fill :: l, _, rest => colourLeft_map k l _ rest

theorem colourLeft_flatMap {α : Type} (g : α → RGBA) (h : α → List Cmd) : ∀ (l : List α), (∀ a ∈ l, leftover [] (h a) = []) →
    colourLeft [] (l.flatMap fun a => (h a).map fun c => (g a, c)) = []
  | [], _ => rfl
  | a :: l, hl => by
    simp only [List.flatMap_cons]
    rw [colourLeft_map, hl a List.mem_cons_self, colourLeft_flatMap g h l (fun b hb => hl b (List.mem_cons_of_mem _ hb))]

/-- The first calls. -/
def headOps (o : Opts) (m : Matrix) : List DrawOp :=
  [DrawOp.newContext (canvasW o m) (canvasH o m), DrawOp.fillRect o.backgroundColor.1 0 0 (canvasW o m) (canvasH o m)]

/-- Everything before the gradient and the logo, from the calls for the shapes. -/
theorem calls_body {cov : Coverage} (hcov : Rasters cov) (blend : Blend) (grad : GradientPainter)
    (run : Shape → Bool → Ctx → List Cmd) {o : Opts} (hw : 10 ≤ o.qrBlockWidth) (hcol : Contrast o) {m : Matrix} (hsq : m.width = m.height)
    (hb : 0 ≤ o.borders.top ∧ 0 ≤ o.borders.right ∧ 0 ≤ o.borders.bottom ∧ 0 ≤ o.borders.left) (hpos : 0 < m.width)
    {calls : List (Bool × Shape × Ctx)}
    (hdone : ∀ a ∈ calls, leftover [] (run a.2.1 a.1 a.2.2) = []) :
    ∃ cv, List.foldlM (Sheet.opRun cov run blend grad) ⟨⟨0, 0, fun _ _ => ⟨0, 0, 0, 0⟩⟩, []⟩ (headOps o m ++ calls.map fun a => DrawOp.shape a.1 a.2.1 a.2.2) = some ⟨cv, []⟩ ∧
      cv.w = canvasW o m ∧ cv.h = canvasH o m ∧
      ∀ x y px py, x < m.width → y < m.height → AtCentre o x y px py →
        (∀ a ∈ calls, ∀ path ∈ fills [] (run a.2.1 a.1 a.2.2), ∀ f ∈ path, ∀ p, CloseTo px py p → f.covers p →
          a.2.2.color = moduleColor o (m.raw x y)) →
        ((m.raw x y).bit = true → ∃ a ∈ calls, ∃ path ∈ fills [] (run a.2.1 a.1 a.2.2), ∃ f ∈ path, ∀ p, CloseTo px py p → f.covers p) →
        (0 ≤ px ∧ px < canvasW o m ∧ 0 ≤ py ∧ py < canvasH o m) ∧
        cv.pix px py = over (moduleColor o (m.raw x y)) (over o.backgroundColor.1 ⟨0, 0, 0, 0⟩) := by
  have hbw := (blockWidth_pos o).1
  have hmul : 0 < (m.width : Int) * o.qrBlockWidth := Int.mul_pos (by omega) hbw
  have hcw : 0 < canvasW o m ∧ 0 < canvasH o m := by
    unfold canvasW canvasH
    rw [← hsq]
    omega
  have hfills : colourFills [] (drawingRun run calls) =
      calls.flatMap fun a => (fills [] (run a.2.1 a.1 a.2.2)).map fun p => (a.2.2.color, p) :=
    colourFills_flatMap (fun a : Bool × Shape × Ctx => a.2.2.color) (fun a : Bool × Shape × Ctx => run a.2.1 a.1 a.2.2) _ hdone
  have hleft : colourLeft [] (drawingRun run calls) = [] :=
    colourLeft_flatMap (fun a : Bool × Shape × Ctx => a.2.2.color) (fun a : Bool × Shape × Ctx => run a.2.1 a.1 a.2.2) _ hdone
  have hmem : ∀ kp, kp ∈ colourFills [] (drawingRun run calls) ↔
      ∃ a ∈ calls, ∃ path ∈ fills [] (run a.2.1 a.1 a.2.2), kp = (a.2.2.color, path) := by
    intro kp
    rw [hfills, List.mem_flatMap]
    constructor
    · rintro ⟨a, ha, hmem⟩
      obtain ⟨path, hpath, rfl⟩ := List.mem_map.1 hmem
      exact ⟨a, ha, path, hpath, rfl⟩
    · rintro ⟨a, ha, path, hpath, rfl⟩
      exact ⟨a, ha, List.mem_map.2 ⟨path, hpath, rfl⟩⟩
  generalize hbg : Canvas.fillPath cov ⟨canvasW o m, canvasH o m, fun _ _ => ⟨0, 0, 0, 0⟩⟩ o.backgroundColor.1
    [.rect ((0 : Int) : Rat) ((0 : Int) : Rat) (canvasW o m) (canvasH o m)] = cv0
  have hcv0 : cv0.w = canvasW o m ∧ cv0.h = canvasH o m := by rw [← hbg]; exact ⟨rfl, rfl⟩
  refine ⟨(colourFills [] (drawingRun run calls)).foldl (fun cv kp => cv.fillPath cov kp.1 kp.2) cv0, ?_, ?_, ?_, ?_⟩
  · unfold headOps
    rw [List.foldlM_append]
    have : List.foldlM (Sheet.opRun cov run blend grad) ⟨⟨0, 0, fun _ _ => ⟨0, 0, 0, 0⟩⟩, []⟩ [DrawOp.newContext (canvasW o m) (canvasH o m),
        DrawOp.fillRect o.backgroundColor.1 0 0 (canvasW o m) (canvasH o m)] = some ⟨cv0, []⟩ := by
      rw [List.foldlM_cons, Sheet.opRun, if_neg (by omega), ← hbg]
      rfl
    rw [this]
    change List.foldlM (Sheet.opRun cov run blend grad) ⟨cv0, []⟩ _ = _
    rw [sheet_shapes, sheet_cmds, hleft]
  · rw [(fills_size cov _ cv0).1, hcv0.1]
  · rw [(fills_size cov _ cv0).2, hcv0.2]
  · intro x y px py hx hy hat hnear hown
    obtain ⟨⟨b1, b2, b3, b4⟩, c1, c2, c3, c4⟩ := atCentre_inBlock hw hat
    have m1 : ((x : Int) + 1) * o.qrBlockWidth ≤ m.width * o.qrBlockWidth := Int.mul_le_mul_of_nonneg_right (by omega) (by omega)
    have m2 : ((y : Int) + 1) * o.qrBlockWidth ≤ m.height * o.qrBlockWidth := Int.mul_le_mul_of_nonneg_right (by omega) (by omega)
    have m3 : 0 ≤ (x : Int) * o.qrBlockWidth := Int.mul_nonneg (by omega) (by omega)
    have m4 : 0 ≤ (y : Int) * o.qrBlockWidth := Int.mul_nonneg (by omega) (by omega)
    have hr : (0 ≤ px ∧ px < canvasW o m ∧ 0 ≤ py ∧ py < canvasH o m) ∧ 1 ≤ px ∧ px + 2 ≤ canvasW o m ∧ 1 ≤ py ∧ py + 2 ≤ canvasH o m := by
      unfold canvasW canvasH
      omega
    obtain ⟨hr, r1, r2, r3, r4⟩ := hr
    refine ⟨hr, ?_⟩
    rw [fills_pix cov _ cv0 hr.1 (by rw [hcv0.1]; exact hr.2.1) hr.2.2.1 (by rw [hcv0.2]; exact hr.2.2.2)]
    have hinit : cv0.pix px py = over o.backgroundColor.1 ⟨0, 0, 0, 0⟩ := by
      rw [← hbg]
      unfold Canvas.fillPath
      simp only
      rw [if_pos hr, hcov.inside _ _ _ ⟨_, List.mem_singleton.2 rfl, fun p hp => ?_⟩, cover_full]
      obtain ⟨p1, p2, p3, p4⟩ := hp
      have r1' : (1 : Rat) ≤ px := by exact_mod_cast r1
      have r2' : (px : Rat) + 2 ≤ (canvasW o m : Int) := by exact_mod_cast r2
      have r3' : (1 : Rat) ≤ py := by exact_mod_cast r3
      have r4' : (py : Rat) + 2 ≤ (canvasH o m : Int) := by exact_mod_cast r4
      refine ⟨?_, ?_, ?_, ?_⟩ <;> push_cast <;> linarith
    have hsame : ∀ kp ∈ colourFills [] (drawingRun run calls), cov kp.2 px py = 0 ∨ kp.1 = moduleColor o (m.raw x y) := by
      intro kp hkp
      obtain ⟨a, ha, path, hp, rfl⟩ := (hmem kp).1 hkp
      by_cases ht : ∃ f ∈ path, ∃ p, CloseTo px py p ∧ f.covers p
      · obtain ⟨f, hf, p, hcl, hc⟩ := ht
        exact .inr (hnear a ha path hp f hf p hcl hc)
      · exact .inl (hcov.outside _ _ _ fun f hf p hcl hc => ht ⟨f, hf, p, hcl, hc⟩)
    cases hbit : (m.raw x y).bit with
    | true =>
      have hk : moduleColor o (m.raw x y) = o.qrColor := moduleColor_dark hbit
      rw [hk] at hsame ⊢
      rw [over_opaque hcol.fg]
      refine fold_solid (cov := fun p => cov p px py) (fun p => hcov.most p px py) hcol.fg _ _ hsame (.inr ?_)
      obtain ⟨a, ha, path, hp, f, hf, hc⟩ := hown hbit
      have hclose : CloseTo px py ⟨px, py⟩ := by refine ⟨?_, ?_, ?_, ?_⟩ <;> simp only <;> linarith
      refine ⟨(a.2.2.color, path), (hmem _).2 ⟨a, ha, path, hp, rfl⟩, ?_, hcov.inside _ _ _ ⟨f, hf, hc⟩⟩
      rw [← hk]
      exact hnear a ha path hp f hf _ hclose (hc _ hclose)
    | false =>
      rw [hinit]
      have hkey : ∀ ma : UInt32, ma ≤ 0xffff → cover ma (moduleColor o (m.raw x y)) (over o.backgroundColor.1 ⟨0, 0, 0, 0⟩) = over o.backgroundColor.1 ⟨0, 0, 0, 0⟩ := by
        intro ma hma
        unfold moduleColor
        rw [show (m.raw x y).qrbool = (m.raw x y).bit from rfl, hbit, if_neg (by decide)]
        cases ht : o.bgTransparent with
        | true => rw [if_pos rfl, cover_clear]
        | false =>
          rw [if_neg (by decide)]
          rcases hcol.bg with h | ⟨ha, _⟩
          · rw [ht] at h; cases h
          · have : o.backgroundColor.1 = o.bgColor := by unfold Opts.backgroundColor; rw [ht]; rfl
            rw [this, over_opaque ha, cover_same hma ha]
      rw [← cover_full (moduleColor o (m.raw x y)), hkey _ (by decide)]
      refine fold_same (cov := fun p => cov p px py) _ fun kp hkp => ?_
      rcases hsame kp hkp with h | h
      · simp only [h]; exact cover_none _ _
      · simp only [h]; exact hkey _ (hcov.most _ _ _)

/-- Everything before the gradient and the logo. -/
theorem shapes_body (scale : Scaler) {cov : Coverage} (hcov : Rasters cov) (blend : Blend) (grad : GradientPainter)
    (lib : LibShape) (run : Shape → Bool → Ctx → List Cmd) {o : Opts} (hw : 10 ≤ o.qrBlockWidth) (hht : o.halftone = none)
    (hcol : Contrast o) {m : Matrix} (hsq : m.width = m.height)
    (hb : 0 ≤ o.borders.top ∧ 0 ≤ o.borders.right ∧ 0 ≤ o.borders.bottom ∧ 0 ≤ o.borders.left) (hpos : 0 < m.width)
    (hrun : ∀ bm x y, x < m.width → y < m.height → BlockNear (moduleCtx o bm x y (m.raw x y)) (needsSelf lib (decide ((m.raw x y).ty = .finder)) = false)
      (run o.getShape (decide ((m.raw x y).ty = .finder)) (moduleCtx o bm x y (m.raw x y)))) :
    ∃ bm o' cv, maskBitmap o m = some bm ∧ draw scale o m = some (bodyOps scale o m bm ++ tailOps o m, o') ∧
      List.foldlM (Sheet.opRun cov run blend grad) ⟨⟨0, 0, fun _ _ => ⟨0, 0, 0, 0⟩⟩, []⟩ (bodyOps scale o m bm) = some ⟨cv, []⟩ ∧
      cv.w = canvasW o m ∧ cv.h = canvasH o m ∧
      ∀ x y px py, x < m.width → y < m.height → AtCentre o x y px py →
        ((m.raw x y).bit = true → (safeOn o m = true → overlaps o m x y = false) ∧
          (safeOn o m = true → needsSelf lib (decide ((m.raw x y).ty = .finder)) = true → overlaps o m y x = false)) →
        (0 ≤ px ∧ px < canvasW o m ∧ 0 ≤ py ∧ py < canvasH o m) ∧
        cv.pix px py = over (moduleColor o (m.raw x y)) (over o.backgroundColor.1 ⟨0, 0, 0, 0⟩) := by
  obtain ⟨bm, hbm, hM⟩ := mask_any (o := o) hsq
  obtain ⟨o', _, he⟩ := draw_eq scale o m hbm
  generalize hcalls : (((m.iterate .row).filter fun a => drawnModule o m a.1 a.2.1).map fun a =>
        (decide ((m.raw a.1 a.2.1).ty = .finder), o.getShape, moduleCtx o bm a.1 a.2.1 (m.raw a.1 a.2.1))) = calls
  have hops : (m.iterate .row).flatMap (fun a => moduleOps scale (canvasW o m) (canvasH o m) m.width bm (safeOn o m) (logoW o m)
          (logoH o m) o a.1 a.2.1 a.2.2) = calls.map fun a => DrawOp.shape a.1 a.2.1 a.2.2 := by
    rw [← hcalls, List.map_map]
    have : ∀ l : List (Nat × Nat × QRValue), (∀ a ∈ l, a.2.2 = m.raw a.1 a.2.1) →
        l.flatMap (fun a => moduleOps scale (canvasW o m) (canvasH o m) m.width bm (safeOn o m) (logoW o m) (logoH o m) o a.1 a.2.1 a.2.2) =
        (l.filter fun a => drawnModule o m a.1 a.2.1).map ((fun a => DrawOp.shape a.1 a.2.1 a.2.2) ∘ fun a =>
          (decide ((m.raw a.1 a.2.1).ty = .finder), o.getShape, moduleCtx o bm a.1 a.2.1 (m.raw a.1 a.2.1))) := by
      intro l
      induction l with
      | nil => intro _; rfl
      | cons a l ih =>
        intro hl
        rw [List.flatMap_cons, ih (fun b hb => hl b (List.mem_cons_of_mem _ hb)), List.filter_cons]
        have ha := hl a List.mem_cons_self
        have hd : drawnModule o m a.1 a.2.1 = !(safeOn o m && blockOverlapsLogo a.1 a.2.1 o.qrBlockWidth o.borders.left o.borders.top (canvasW o m) (canvasH o m)
            (logoW o m) (logoH o m) && a.2.2.qrbool) := by
          unfold drawnModule overlaps
          rw [ha]
          rfl
        unfold moduleOps
        rw [hht, hd]
        cases safeOn o m && blockOverlapsLogo a.1 a.2.1 o.qrBlockWidth o.borders.left o.borders.top (canvasW o m) (canvasH o m) (logoW o m) (logoH o m) && a.2.2.qrbool with
        | true => simp
        | false => simp [ha]
    exact this _ fun a ha => (iterate_val ha).1
  have hpx := fun x y hx hy => module_pixels_run hw lib hM x y (hrun bm x y hx hy)
  have hmem : ∀ a, a ∈ calls ↔ ∃ x y, x < m.width ∧ y < m.height ∧ drawnModule o m x y = true ∧
      a = (decide ((m.raw x y).ty = .finder), o.getShape, moduleCtx o bm x y (m.raw x y)) := by
    intro a
    rw [← hcalls, List.mem_map]
    constructor
    · rintro ⟨b, hb', rfl⟩
      obtain ⟨hb1, hb2⟩ := List.mem_filter.1 hb'
      obtain ⟨_, hx, hy⟩ := iterate_val hb1
      exact ⟨b.1, b.2.1, hx, hy, hb2, rfl⟩
    · rintro ⟨x, y, hx, hy, hd, rfl⟩
      exact ⟨_, List.mem_filter.2 ⟨iterate_raw hx hy, hd⟩, rfl⟩
  obtain ⟨cv, h1, h2, h3, h4⟩ := calls_body hcov blend grad run hw hcol hsq hb hpos (calls := calls) (fun a ha => by
    obtain ⟨x, y, hx, hy, _, rfl⟩ := (hmem a).1 ha
    exact (hpx x y hx hy).1)
  refine ⟨bm, o', cv, hbm, he, by rw [show bodyOps scale o m bm = headOps o m ++ calls.map fun a => DrawOp.shape a.1 a.2.1 a.2.2 from congrArg _ hops]; exact h1, h2, h3, fun x y px py hx hy hat hok => h4 x y px py hx hy hat (fun a ha => ?_) (fun hbit => ?_)⟩
  · obtain ⟨x', y', hx', hy', _, rfl⟩ := (hmem a).1 ha
    exact (hpx x' y' hx' hy').2.1 x y px py hat
  · obtain ⟨g1, g2⟩ := hok hbit
    obtain ⟨path, hp, f, hf, hc⟩ := (hpx x y hx hy).2.2 px py hat hx hy hbit g2
    exact ⟨_, (hmem _).2 ⟨x, y, hx, hy, drawn_of g1, rfl⟩, path, hp, f, hf, hc⟩

theorem overChan_zero : overChan 0 0 0 = 0 := by decide +kernel

theorem over_clear_a {c : RGBA} (h : c.a = 0) : (over c ⟨0, 0, 0, 0⟩).a = 0 := by
  have : (over c ⟨0, 0, 0, 0⟩).a = overChan 0 c.a c.a := rfl
  rw [this, h]
  exact overChan_zero

/-- The part of the drawing that is the gradient. -/
def gradOps (o : Opts) : List DrawOp :=
  match o.qrGradient with
  | none => []
  | some g => [DrawOp.gradient g o.qrColor]

/-- One pixel of a module without a gradient. -/
theorem plain_ink {o : Opts} (hcol : Contrast o) (v : QRValue) : ink o (over (moduleColor o v) (over o.backgroundColor.1 ⟨0, 0, 0, 0⟩)) = v.bit := by
  cases hv : v.bit with
  | true =>
    rw [(contrast_iff hcol v).2 hv]
    unfold ink
    rw [hcol.fg]
    rcases hcol.bg with h | ⟨_, h⟩
    · rw [h]; rfl
    · rw [decide_eq_true (Ne.symm h), Bool.or_true]; rfl
  | false =>
    unfold moduleColor ink
    rw [show v.qrbool = v.bit from rfl, hv, if_neg (by decide)]
    rcases hcol.bg with h | ⟨ha, _⟩
    · have hb : o.backgroundColor.1.a = 0 := by unfold Opts.backgroundColor; rw [h]; rfl
      have h0 : (over o.backgroundColor.1 ⟨0, 0, 0, 0⟩).a = 0 := over_clear_a hb
      rw [h, if_pos rfl, over_clear, h0]
      rfl
    · cases ht : o.bgTransparent with
      | true =>
        have hb : o.backgroundColor.1.a = 0 := by unfold Opts.backgroundColor; rw [ht]; rfl
        have h0 : (over o.backgroundColor.1 ⟨0, 0, 0, 0⟩).a = 0 := over_clear_a hb
        rw [if_pos rfl, over_clear, h0]
        rfl
      | false =>
        rw [if_neg (by decide), over_opaque ha]
        simp

/-- The colour of a pixel after the gradient: that of a dark module is between those of two stops that follow each other (or one below), that of a light one is the background. -/
def Tone (o : Opts) (g : LinearGradient) (v : QRValue) (c : RGBA) : Prop :=
  if v.bit then ∃ a b, Together g.stops a b ∧ ChannelsBetween 1 a.color b.color c else c = o.bgColor

/-- Drawing succeeds and gives a picture in which every pixel at the centre of the block of a module shows the module's colour to the scanner, unless the logo may cover it (or its mirror
image); without a gradient it has that colour.  `drawn` is the result of `draw`, `run` says what the shapes do; `lib` is the shape in use, or one that needs the flags as it does. -/
def CentrePictureRun (drawn : Option (List DrawOp × Opts)) (cov : Coverage) (blend : Blend) (grad : GradientPainter) (lib : LibShape) (run : Shape → Bool → Ctx → List Cmd) (o : Opts) (m : Matrix) : Prop :=
  ∃ ops o' cv, drawn = some (ops, o') ∧ paintAllRun cov run blend grad ops = some cv ∧
    ∀ x y px py, x < m.width → y < m.height → AtCentre o x y px py → covered o m x y = false →
      (safeOn o m = true → needsSelf lib (decide ((m.raw x y).ty = .finder)) = true → overlaps o m y x = false) →
      ink o (cv.pix px py) = (m.raw x y).bit ∧
      (o.qrGradient = none → cv.pix px py = over (moduleColor o (m.raw x y)) (over o.backgroundColor.1 ⟨0, 0, 0, 0⟩)) ∧
      ∀ g, o.qrGradient = some g → o.bgTransparent = false → Tone o g (m.raw x y) (cv.pix px py)

/-- The same for the shapes of this library. -/
abbrev CentrePicture (scale : Scaler) (cov : Coverage) (blend : Blend) (put : Put) (direction : Rat → Rat × Rat) (assembled : Nat → DrawFn × DrawFn) (o : Opts) (m : Matrix) : Prop :=
  CentrePictureRun (draw scale o m) cov blend (plainGradient put direction) (meaning assembled o.getShape) (fun sh => (meaning assembled sh).cmds) o m

/-- Drawing the gradient succeeds and changes no module to the scanner. -/
def KeepsInk (o : Opts) (g : LinearGradient) (grad : GradientPainter) : Prop :=
  ∀ cv : Canvas, ∃ cv', grad cv g o.qrColor = some cv' ∧ cv'.w = cv.w ∧ cv'.h = cv.h ∧
    ∀ px py v, 0 ≤ px ∧ px < cv.w ∧ 0 ≤ py ∧ py < cv.h → cv.pix px py = over (moduleColor o v) (over o.backgroundColor.1 ⟨0, 0, 0, 0⟩) →
      ink o (cv'.pix px py) = v.bit ∧ (o.bgTransparent = false → Tone o g v (cv'.pix px py))

/-- One pixel of a module after the gradient, on a background that is not transparent. -/
theorem gradient_tone {o : Opts} {g : LinearGradient} (hcol : Contrast o) {put : Put} (hput : PutsOver put) (ht : o.bgTransparent = false) (v : QRValue)
    {c c0 : RGBA} (hc : (if over (moduleColor o v) (over o.backgroundColor.1 ⟨0, 0, 0, 0⟩) = o.qrColor then
      some c0 else some (over (moduleColor o v) (over o.backgroundColor.1 ⟨0, 0, 0, 0⟩))) = some c)
    (h0 : c0.a = 255 ∧ ∃ a b, Together g.stops a b ∧ ChannelsBetween 1 a.color b.color c0) :
    Tone o g v (put c (over (moduleColor o v) (over o.backgroundColor.1 ⟨0, 0, 0, 0⟩))) := by
  unfold Tone
  cases hv : v.bit with
  | true =>
    rw [if_pos ((contrast_iff hcol v).2 hv)] at hc
    cases hc
    rw [hput.solid _ _ h0.1, if_pos rfl]
    exact h0.2
  | false =>
    rw [if_neg (fun h => by rw [(contrast_iff hcol v).1 h] at hv; cases hv)] at hc
    cases hc
    rcases hcol.bg with h | ⟨ha, _⟩
    · rw [ht] at h; cases h
    · have e : over (moduleColor o v) (over o.backgroundColor.1 ⟨0, 0, 0, 0⟩) = o.bgColor := by
        unfold moduleColor
        rw [show v.qrbool = v.bit from rfl, hv, if_neg (by decide), ht, if_neg (by decide), over_opaque ha]
      rw [if_neg (by decide), e, hput.solid _ _ ha]

theorem plain_keeps {o : Opts} {g : LinearGradient} (hcol : Contrast o) (hgc : GradientContrast o g) {put : Put} (hput : PutsOver put) (direction : Rat → Rat × Rat) :
    KeepsInk o g (plainGradient put direction) := by
  intro cv
  obtain ⟨cv', hcv'⟩ : ∃ cv', cv.applyGradient put direction g o.qrColor = some cv' := by
    unfold Canvas.applyGradient
    rw [if_neg hgc.some_stop]
    exact ⟨_, rfl⟩
  refine ⟨cv', hcv', ?_⟩
  unfold Canvas.applyGradient at hcv'
  rw [if_neg hgc.some_stop] at hcv'
  cases hcv'
  refine ⟨rfl, rfl, fun px py v hr hcc => ?_⟩
  simp only
  rw [if_pos hr, hcc]
  unfold gradientPixel
  split
  · rename_i c hcc
    refine ⟨gradient_ink hcol hgc hput _ _ hcc, fun ht => ?_⟩
    obtain ⟨c0, e, h0⟩ := gradient_colour hgc.some_stop hgc.positions hgc.solid
        (gradientPos float64Round (direction g.angle).1 (direction g.angle).2 0 cv.w 0 cv.h px py)
    rw [e] at hcc
    exact gradient_tone hcol hput ht v hcc h0
  · rename_i hcc
    exfalso
    split at hcc
    · obtain ⟨c, e, _⟩ := gradient_colour hgc.some_stop hgc.positions hgc.solid
        (gradientPos float64Round (direction g.angle).1 (direction g.angle).2 0 cv.w 0 cv.h px py)
      rw [e] at hcc
      cases hcc
    · cases hcc

/-- With or without a gradient and a logo: every pixel at the centre of the block of a module shows the module's colour to the scanner, unless the logo may cover it (or its mirror image). -/
theorem picture_of_body {cov : Coverage} (blend : Blend) {grad : GradientPainter}
    (lib : LibShape) (run : Shape → Bool → Ctx → List Cmd) {o : Opts} (hw : 10 ≤ o.qrBlockWidth)
    (hcol : Contrast o) (hg : ∀ g, o.qrGradient = some g → KeepsInk o g grad) {m : Matrix} {drawn : Option (List DrawOp × Opts)} {body : List DrawOp} {o' : Opts} {cv : Canvas}
    (he : drawn = some (body ++ tailOps o m, o'))
    (hfold : List.foldlM (Sheet.opRun cov run blend grad) ⟨⟨0, 0, fun _ _ => ⟨0, 0, 0, 0⟩⟩, []⟩ body = some ⟨cv, []⟩)
    (s1 : cv.w = canvasW o m) (s2 : cv.h = canvasH o m)
    (hpix : ∀ x y px py, x < m.width → y < m.height → AtCentre o x y px py →
        ((m.raw x y).bit = true → (safeOn o m = true → overlaps o m x y = false) ∧
          (safeOn o m = true → needsSelf lib (decide ((m.raw x y).ty = .finder)) = true → overlaps o m y x = false)) →
        (0 ≤ px ∧ px < canvasW o m ∧ 0 ≤ py ∧ py < canvasH o m) ∧
        cv.pix px py = over (moduleColor o (m.raw x y)) (over o.backgroundColor.1 ⟨0, 0, 0, 0⟩))
    (hl : ∀ img, o.logo = some img → logoValid o m = true → img.minX = 0 ∧ img.minY = 0) :
    CentrePictureRun drawn cov blend grad lib run o m := by
  have hsafe : ∀ x y, covered o m x y = false → safeOn o m = true → overlaps o m x y = false := by
    intro x y hc hs
    unfold safeOn at hs
    unfold covered at hc
    have hv := (Bool.and_eq_true_iff.1 hs).1
    cases hlo : o.logo with
    | none => unfold logoValid logoSize at hv; rw [hlo] at hv; cases hv
    | some img => rw [hlo, hv] at hc; simpa using hc
  -- after the gradient
  have hgrad : ∃ cv', List.foldlM (Sheet.opRun cov run blend grad) ⟨⟨0, 0, fun _ _ => ⟨0, 0, 0, 0⟩⟩, []⟩
        (body ++ gradOps o) = some ⟨cv', []⟩ ∧
      cv'.w = canvasW o m ∧ cv'.h = canvasH o m ∧
      ∀ x y px py, x < m.width → y < m.height → AtCentre o x y px py → covered o m x y = false →
        (safeOn o m = true → needsSelf lib (decide ((m.raw x y).ty = .finder)) = true → overlaps o m y x = false) →
        ink o (cv'.pix px py) = (m.raw x y).bit ∧
        (o.qrGradient = none → cv'.pix px py = over (moduleColor o (m.raw x y)) (over o.backgroundColor.1 ⟨0, 0, 0, 0⟩)) ∧
        ∀ g, o.qrGradient = some g → o.bgTransparent = false → Tone o g (m.raw x y) (cv'.pix px py) := by
    unfold gradOps
    cases hgr : o.qrGradient with
    | none =>
      refine ⟨cv, by rw [List.append_nil]; exact hfold, s1, s2, fun x y px py hx hy hat hc hself => ?_⟩
      have hcc := (hpix x y px py hx hy hat (fun _ => ⟨hsafe x y hc, hself⟩)).2
      exact ⟨by rw [hcc]; exact plain_ink hcol _, fun _ => hcc, fun g hg => (nomatch hg)⟩
    | some g =>
      obtain ⟨cv', hcv', t1, t2, hink⟩ := hg g hgr cv
      refine ⟨cv', ?_, t1.trans s1, t2.trans s2, fun x y px py hx hy hat hc hself => ?_⟩
      · rw [List.foldlM_append, hfold]
        change (List.foldlM (Sheet.opRun cov run blend grad) ⟨cv, []⟩ [.gradient g o.qrColor]) = some ⟨cv', []⟩
        rw [List.foldlM_cons, Sheet.opRun, hcv']
        rfl
      · obtain ⟨hr, hcc⟩ := hpix x y px py hx hy hat (fun _ => ⟨hsafe x y hc, hself⟩)
        obtain ⟨i1, i2⟩ := hink px py _ (by rw [s1, s2]; exact hr) hcc
        exact ⟨i1, fun hn => (nomatch hn), fun g' hg' => by cases hg'; exact i2⟩
  obtain ⟨cv', hf', w1, w2, hink⟩ := hgrad
  by_cases hlo : ∃ img, o.logo = some img ∧ logoValid o m = true
  · obtain ⟨img, hlogo, hval⟩ := hlo
    obtain ⟨hmx, hmy⟩ := hl img hlogo hval
    have htail : tailOps o m = gradOps o ++
        [.image img (Int.tdiv (canvasW o m - logoW o m) 2) (Int.tdiv (canvasH o m - logoH o m) 2)] := by
      unfold tailOps gradOps
      rw [hlogo]
      cases o.qrGradient <;> simp only [hval, if_true]
    refine ⟨_, o', cv'.drawImage blend img (Int.tdiv (canvasW o m - logoW o m) 2) (Int.tdiv (canvasH o m - logoH o m) 2), he, ?_, ?_⟩
    · unfold paintAllRun
      rw [htail, ← List.append_assoc, List.foldlM_append, hf']
      rfl
    · intro x y px py hx hy hat hcov' hself
      have hin := (atCentre_inBlock hw hat).1
      suffices hsame : (cv'.drawImage blend img (Int.tdiv (canvasW o m - logoW o m) 2) (Int.tdiv (canvasH o m - logoH o m) 2)).pix px py = cv'.pix px py by
        rw [hsame]; exact hink x y px py hx hy hat hcov' hself
      unfold Canvas.drawImage
      simp only
      rw [if_neg]
      rintro ⟨⟨a1, a2, a3, a4⟩, _⟩
      unfold covered at hcov'
      rw [hlogo, hval] at hcov'
      simp only [Option.isSome_some, Bool.true_and] at hcov'
      have hlw : logoW o m = img.maxX - img.minX := by unfold logoW logoSize; rw [hlogo]
      have hlh : logoH o m = img.maxY - img.minY := by unfold logoH logoSize; rw [hlogo]
      unfold overlaps blockOverlapsLogo at hcov'
      obtain ⟨b1, b2, b3, b4⟩ := hin
      rw [Int.add_mul, Int.one_mul] at b2 b4
      have : (decide ((x : Int) * o.qrBlockWidth + o.borders.left + o.qrBlockWidth > Int.tdiv (canvasW o m - logoW o m) 2) &&
          decide ((x : Int) * o.qrBlockWidth + o.borders.left < Int.tdiv (canvasW o m - logoW o m) 2 + logoW o m) &&
          decide ((y : Int) * o.qrBlockWidth + o.borders.top + o.qrBlockWidth > Int.tdiv (canvasH o m - logoH o m) 2) &&
          decide ((y : Int) * o.qrBlockWidth + o.borders.top < Int.tdiv (canvasH o m - logoH o m) 2 + logoH o m)) = true := by
        simp only [Bool.and_eq_true, decide_eq_true_eq]
        generalize Int.tdiv (canvasW o m - logoW o m) 2 = lx at *
        generalize Int.tdiv (canvasH o m - logoH o m) 2 = ly at *
        refine ⟨⟨⟨?_, ?_⟩, ?_⟩, ?_⟩ <;> omega
      exact absurd this (by simpa using hcov')
  · have htail : tailOps o m = gradOps o := by
      unfold tailOps gradOps
      cases hlogo : o.logo with
      | none => cases o.qrGradient <;> rfl
      | some img =>
        cases o.qrGradient <;> simp only [if_neg (fun h => hlo ⟨img, hlogo, h⟩), List.append_nil]
    refine ⟨_, o', cv', he, ?_, hink⟩
    unfold paintAllRun
    rw [htail, hf']
    rfl

/-- The picture with shapes and without halftone. -/
theorem shapes_picture (scale : Scaler) {cov : Coverage} (hcov : Rasters cov) (blend : Blend) {put : Put} (hput : PutsOver put) (direction : Rat → Rat × Rat)
    (assembled : Nat → DrawFn × DrawFn) {o : Opts} (hw : 10 ≤ o.qrBlockWidth) (hbold : (meaning assembled o.getShape).bold) (hht : o.halftone = none)
    (hcol : Contrast o) (hg : ∀ g, o.qrGradient = some g → GradientContrast o g) {m : Matrix} (hsq : m.width = m.height)
    (hb : 0 ≤ o.borders.top ∧ 0 ≤ o.borders.right ∧ 0 ≤ o.borders.bottom ∧ 0 ≤ o.borders.left) (hpos : 0 < m.width)
    (hl : ∀ img, o.logo = some img → logoValid o m = true → img.minX = 0 ∧ img.minY = 0) :
    CentrePicture scale cov blend put direction assembled o m := by
  obtain ⟨bm, o', cv, _, he, hfold, s1, s2, hpix⟩ := shapes_body scale hcov blend (plainGradient put direction) (meaning assembled o.getShape) (fun sh => (meaning assembled sh).cmds) hw hht hcol hsq hb hpos
    (fun _ _ _ _ _ => lib_near _ hbold _ rfl hw)
  exact picture_of_body blend (meaning assembled o.getShape) (fun sh => (meaning assembled sh).cmds) hw hcol (fun g h => plain_keeps hcol (hg g h) hput direction) he hfold s1 s2 hpix hl

/-- The scanner looks at one pixel at the centre of every block. -/
def AtCentres (o : Opts) (dim : Nat) (pt : Nat → Nat → Int × Int) : Prop := ∀ x y, x < dim → y < dim → AtCentre o x y (pt x y).1 (pt x y).2

/-- From the picture to the text, without a logo. -/
theorem text_of_picture {E : Ext} {unsjis : Nat → Option Nat} (hE : E.Ok unsjis) {c : AlignCache} (hc : CacheReachable c)
    {arrival : List Nat} (ha : Arrival arrival) {t : TextType} {text : Bytes} {opts : List EncodeOption} {q : QRCode}
    (h : newWith E c arrival t text opts = .ok q)
    (hx : ¬ (modeIn opts = encAuto ∧ AlnumThenKanji E.sjis (nats text)))
    {drawn : Option (List DrawOp × Opts)} {cov : Coverage} {blend : Blend} {grad : GradientPainter}
    {lib : LibShape} {run : Shape → Bool → Ctx → List Cmd} {o : Opts} (hpic : CentrePictureRun drawn cov blend grad lib run o q.mat)
    (hl : ∀ img, o.logo = some img → ¬ (o.logoSizeMultiplier * (img.maxX - img.minX) ≤ (o.attribute q.dimension).w ∧
      o.logoSizeMultiplier * (img.maxY - img.minY) ≤ (o.attribute q.dimension).h)) :
    ∃ ops o' cv, drawn = some (ops, o') ∧ paintAllRun cov run blend grad ops = some cv ∧
      ∀ pt, AtCentres o q.dimension pt → decode unsjis (seenInk o q.dimension cv pt) = some (nats text) := by

  obtain ⟨hmw, hmh⟩ := mat_size hE hc ha h
  have hd : 0 < q.dimension := by obtain ⟨v, _, hd, _⟩ := C11_dimension hE hc ha h; omega
  have hval : ∀ img, o.logo = some img → logoValid o q.mat = false := by
    intro img hi
    rw [← Bool.not_eq_true]
    intro hv
    exact hl img hi (logoValid_iff hmw hmh hi |>.1 hv)
  have hcovd : ∀ x y, covered o q.mat x y = false := by
    intro x y
    unfold covered
    cases hlo : o.logo with
    | none => rfl
    | some img => rw [hval img hlo]; rfl
  have hsafe : safeOn o q.mat = false := by
    unfold safeOn
    cases hlo : o.logo with
    | none => unfold logoValid logoSize; rw [hlo]; rfl
    | some img => rw [hval img hlo]; rfl
  obtain ⟨ops, o', cv, h1, h2, h3⟩ := hpic
  refine ⟨ops, o', cv, h1, h2, fun pt hpt => ?_⟩
  have : seenInk o q.dimension cv pt = q.mat.bitmap :=
    scan_eq hmw hmh fun x y hx hy => (h3 x y _ _ (by omega) (by omega) (hpt x y hx hy) (hcovd x y) (fun hs => by rw [hsafe] at hs; cases hs)).1
  rw [this]
  exact C01_roundtrip_partial hE hc ha h hx

/-- From the picture to the text, with a logo. -/
theorem text_of_picture_logo {E : Ext} {unsjis : Nat → Option Nat} (hE : E.Ok unsjis) (hRS : E.rs = rsEncode) {c : AlignCache} (hc : CacheReachable c)
    {arrival : List Nat} (ha : Arrival arrival) {t : TextType} {text : Bytes} {opts : List EncodeOption} {q : QRCode}
    (h : newWith E c arrival t text opts = .ok q)
    (hx : ¬ (modeIn opts = encAuto ∧ AlnumThenKanji E.sjis (nats text)))
    {v : Nat} (hv : q.dimension = 17 + 4 * v)
    (hlv : ¬ (levelIn opts = .L ∧ v ∈ [1, 2, 3, 4, 5, 6, 36] ∨ levelIn opts = .M ∧ v ∈ [2, 4]))
    {drawn : Option (List DrawOp × Opts)} {cov : Coverage} {blend : Blend} {grad : GradientPainter}
    {lib : LibShape} {run : Shape → Bool → Ctx → List Cmd} {o : Opts} (hpic : CentrePictureRun drawn cov blend grad lib run o q.mat)
    (hbx : 0 ≤ o.borders.left ∧ o.borders.left ≤ 2 * o.qrBlockWidth ∧ o.borders.right = o.borders.left)
    (hby : 0 ≤ o.borders.top ∧ o.borders.top ≤ 2 * o.qrBlockWidth ∧ o.borders.bottom = o.borders.top)
    {img : Image} (hl : o.logo = some img) (hmin : img.minX = 0 ∧ img.minY = 0) (hmax : 0 ≤ img.maxX ∧ 0 ≤ img.maxY)
    (hk : 5 ≤ o.logoSizeMultiplier) :
    ∃ ops o' cv, drawn = some (ops, o') ∧ paintAllRun cov run blend grad ops = some cv ∧
      ∀ pt, AtCentres o q.dimension pt → decodeDamaged unsjis (seenInk o q.dimension cv pt) = some (nats text) := by

  obtain ⟨hmw, hmh⟩ := mat_size hE hc ha h
  have hs : side v = q.dimension := by rw [hv]; rfl
  obtain ⟨ops, o', cv, h1, h2, h3⟩ := hpic
  have hrange : ∀ x y, covered o q.mat x y = true → logoLo v ≤ x ∧ x ≤ logoHi v ∧ logoLo v ≤ y ∧ y ≤ logoHi v := fun x y hcov =>
    covered_range (hmw.trans hs.symm) (hmh.trans hs.symm) hl (by omega) (by omega) hk ⟨hbx.1, hby.1⟩ ⟨hbx.2.2, hby.2.2⟩ ⟨hbx.2.1, hby.2.1⟩ hcov
  refine ⟨ops, o', cv, h1, h2, fun pt hpt => ?_⟩
  refine middle_damage hE hRS hc ha h hx hv hlv (scan_length _ _ _) ?_
  intro i j hi hj hne
  rw [hs] at hi hj
  by_contra hn
  apply hne
  unfold seenInk
  rw [pixel_scan hi hj, (bitmap_spec q.mat).2 i j (by omega) (by omega), (h3 j i _ _ (by omega) (by omega) (hpt j i hj hi) ?_ ?_).1]
  · rw [← Bool.not_eq_true]
    intro hcv
    obtain ⟨g1, g2, g3, g4⟩ := hrange _ _ hcv
    exact hn ⟨g3, g4, g1, g2⟩
  · intro hsz _
    rw [← Bool.not_eq_true]
    intro ho
    have hcv : covered o q.mat i j = true := by
      unfold safeOn at hsz
      unfold covered
      rw [hl, ho]
      simpa using (Bool.and_eq_true_iff.1 hsz).1
    obtain ⟨g1, g2, g3, g4⟩ := hrange _ _ hcv
    exact hn ⟨g1, g2, g3, g4⟩

/-- **C83.**  Text, picture with shapes, text: with any shape of this library that is not too thin in blocks of at least 10 pixels, no halftone and no logo (or one that is too large to be
drawn), borders that are not negative, colours that can be told apart, with or without a gradient that can be told apart from the background: drawing succeeds, and a scanner that looks at one
pixel at the centre of every block reads exactly the text. -/
theorem C83_shapes {E : Ext} {unsjis : Nat → Option Nat} (hE : E.Ok unsjis) {c : AlignCache} (hc : CacheReachable c)
    {arrival : List Nat} (ha : Arrival arrival) {t : TextType} {text : Bytes} {opts : List EncodeOption} {q : QRCode}
    (h : newWith E c arrival t text opts = .ok q)
    (hx : ¬ (modeIn opts = encAuto ∧ AlnumThenKanji E.sjis (nats text)))
    (scale : Scaler) {cov : Coverage} (hcov : Rasters cov) (blend : Blend) {put : Put} (hput : PutsOver put) (direction : Rat → Rat × Rat)
    (assembled : Nat → DrawFn × DrawFn) {o : Opts} (hw : 10 ≤ o.qrBlockWidth) (hbold : (meaning assembled o.getShape).bold) (hht : o.halftone = none)
    (hcol : Contrast o) (hg : ∀ g, o.qrGradient = some g → GradientContrast o g)
    (hb : 0 ≤ o.borders.top ∧ 0 ≤ o.borders.right ∧ 0 ≤ o.borders.bottom ∧ 0 ≤ o.borders.left)
    (hl : ∀ img, o.logo = some img → ¬ (o.logoSizeMultiplier * (img.maxX - img.minX) ≤ (o.attribute q.dimension).w ∧
      o.logoSizeMultiplier * (img.maxY - img.minY) ≤ (o.attribute q.dimension).h)) :
    ∃ ops o' cv, draw scale o q.mat = some (ops, o') ∧ paintAllShapes cov (meaning assembled) blend put direction ops = some cv ∧
      ∀ pt, AtCentres o q.dimension pt → decode unsjis (seenInk o q.dimension cv pt) = some (nats text) := by
  obtain ⟨hmw, hmh⟩ := mat_size hE hc ha h
  have hd : 0 < q.dimension := by obtain ⟨v, _, hd, _⟩ := C11_dimension hE hc ha h; omega
  exact text_of_picture hE hc ha h hx (shapes_picture scale hcov blend hput direction assembled hw hbold hht hcol hg (hmw.trans hmh.symm) hb (by omega)
    (fun img hi hv => absurd (logoValid_iff hmw hmh hi |>.1 hv) (hl img hi))) hl

/-- **C83, with a logo.**  The same with a logo under the conditions of C69, for a scanner that corrects errors, whatever the logo shows and with or without a safe zone. -/
theorem C83_shapes_logo {E : Ext} {unsjis : Nat → Option Nat} (hE : E.Ok unsjis) (hRS : E.rs = rsEncode) {c : AlignCache} (hc : CacheReachable c)
    {arrival : List Nat} (ha : Arrival arrival) {t : TextType} {text : Bytes} {opts : List EncodeOption} {q : QRCode}
    (h : newWith E c arrival t text opts = .ok q)
    (hx : ¬ (modeIn opts = encAuto ∧ AlnumThenKanji E.sjis (nats text)))
    {v : Nat} (hv : q.dimension = 17 + 4 * v)
    (hlv : ¬ (levelIn opts = .L ∧ v ∈ [1, 2, 3, 4, 5, 6, 36] ∨ levelIn opts = .M ∧ v ∈ [2, 4]))
    (scale : Scaler) {cov : Coverage} (hcov : Rasters cov) (blend : Blend) {put : Put} (hput : PutsOver put) (direction : Rat → Rat × Rat)
    (assembled : Nat → DrawFn × DrawFn) {o : Opts} (hw : 10 ≤ o.qrBlockWidth) (hbold : (meaning assembled o.getShape).bold) (hht : o.halftone = none)
    (hcol : Contrast o) (hg : ∀ g, o.qrGradient = some g → GradientContrast o g)
    (hbx : 0 ≤ o.borders.left ∧ o.borders.left ≤ 2 * o.qrBlockWidth ∧ o.borders.right = o.borders.left)
    (hby : 0 ≤ o.borders.top ∧ o.borders.top ≤ 2 * o.qrBlockWidth ∧ o.borders.bottom = o.borders.top)
    {img : Image} (hl : o.logo = some img) (hmin : img.minX = 0 ∧ img.minY = 0) (hmax : 0 ≤ img.maxX ∧ 0 ≤ img.maxY)
    (hk : 5 ≤ o.logoSizeMultiplier) :
    ∃ ops o' cv, draw scale o q.mat = some (ops, o') ∧ paintAllShapes cov (meaning assembled) blend put direction ops = some cv ∧
      ∀ pt, AtCentres o q.dimension pt → decodeDamaged unsjis (seenInk o q.dimension cv pt) = some (nats text) := by
  obtain ⟨hmw, hmh⟩ := mat_size hE hc ha h
  exact text_of_picture_logo hE hRS hc ha h hx hv hlv (shapes_picture scale hcov blend hput direction assembled hw hbold hht hcol hg (m := q.mat) (hmw.trans hmh.symm) (by omega)
    (by omega) (fun i hi _ => by rw [hl] at hi; cases hi; exact hmin)) hbx hby hl hmin hmax hk

/-- A coverage of the assumed kind: the pixels on the edges are half covered. -/
noncomputable def demoCoverage : Coverage := fun path px py =>
  open Classical in
  if ∃ f ∈ path, ∀ p, CloseTo px py p → f.covers p then 0xffff
  else if ∀ f ∈ path, ∀ p, CloseTo px py p → ¬ f.covers p then 0 else 0x8000

theorem demo_rasters : Rasters demoCoverage := by
  classical
  refine ⟨fun path px py => ?_, fun path px py h => ?_, fun path px py h => ?_⟩
  · unfold demoCoverage
    split
    · decide
    · split <;> decide
  · unfold demoCoverage
    rw [if_pos h]
  · unfold demoCoverage
    rw [if_neg, if_pos h]
    rintro ⟨f, hf, hc⟩
    have hp : CloseTo px py ⟨px, py⟩ := by
      refine ⟨?_, ?_, ?_, ?_⟩ <;> simp only <;> linarith
    exact h f hf _ hp (hc _ hp)

/-- The hypotheses of C83 are met: the symbol `HELLO` of version 7 with liquid blocks and rounded finders, a gradient from red to blue, and a logo of 196 by 150 pixels with a safe zone. -/
example {c : AlignCache} (hc : CacheReachable c) {arrival : List Nat} (ha : Arrival arrival) (scale : Scaler) (blend : Blend) (direction : Rat → Rat × Rat)
    (chan : Int → Int → UInt32 × UInt32 × UInt32 × UInt32) :
    let put : Put := fun c old => if c.a = 0 then old else c
    let o : Opts := { defaultOpts with logo := some ⟨0, 0, 196, 150, chan⟩, logoSafeZone := true, shape := some (.custom 0), qrGradient := some demoGradient }
    ∃ q ops o' cv, newWith demoExt c arrival .string [72, 69, 76, 76, 79] [.withEncodingMode encAlphanumeric, .withMinimumVersion 7] = .ok q ∧
      draw scale o q.mat = some (ops, o') ∧ paintAllShapes demoCoverage (meaning fun _ => (.roundedFinder, .liquidBlock)) blend put direction ops = some cv ∧
      decodeDamaged demoUnsjis (seenInk o q.dimension cv fun x y => (o.borders.left + x * 20 + 10, o.borders.top + y * 20 + 9)) = some [72, 69, 76, 76, 79] := by
  intro put o
  obtain ⟨q, hq, hd⟩ := demo_symbol hc ha
  have d2 : 0 ≤ defaultOpts.borders.left ∧ defaultOpts.borders.left ≤ 2 * defaultOpts.qrBlockWidth ∧ defaultOpts.borders.right = defaultOpts.borders.left := by decide
  have d3 : 0 ≤ defaultOpts.borders.top ∧ defaultOpts.borders.top ≤ 2 * defaultOpts.qrBlockWidth ∧ defaultOpts.borders.bottom = defaultOpts.borders.top := by decide
  have d4 : (5 : Int) ≤ defaultOpts.logoSizeMultiplier := by decide
  have d5 : (10 : Int) ≤ defaultOpts.qrBlockWidth := by decide
  have d6 : defaultOpts.qrBlockWidth = 20 := by decide
  obtain ⟨k1, k2, _⟩ := demo_contrast
  have hput : PutsOver put := ⟨fun c old h => by simp only [put]; rw [if_neg (by rw [h]; decide)], fun c old h h0 => by simp only [put]; rw [if_pos h]; exact h0⟩
  obtain ⟨ops, o', cv, h1, h2, h3⟩ := C83_shapes_logo demo_ok rfl hc ha hq (fun h => absurd h.1 (by decide)) hd (by decide) scale demo_rasters blend hput direction
    (fun _ => (.roundedFinder, .liquidBlock)) (o := o) d5 ⟨trivial, trivial⟩ rfl ⟨k1.fg, k1.bg⟩
    (fun g hg => by cases hg; exact ⟨k2.some_stop, k2.positions, k2.solid, k2.bg⟩) d2 d3 rfl ⟨rfl, rfl⟩ ⟨by simp, by simp⟩ d4
  refine ⟨q, ops, o', cv, hq, h1, h2, h3 _ fun x y _ _ => ?_⟩
  have d7 : o.qrBlockWidth = 20 := d6
  unfold AtCentre
  simp only [centre]
  rw [d7]
  push_cast
  refine ⟨?_, ?_, ?_, ?_⟩ <;> linarith

end QR.Standard
