import Verif.Model.Shapes
import Verif.Proof.Plane
import Mathlib.Tactic.FieldSimp
import Mathlib.Tactic.NormNum
/-!
# Shapes in unit coordinates

Every drawing function draws the same figures in every block, up to scaling and translation; here are the figures for the block with the
corners (0,0) and (2,2).
-/
namespace QR.Standard
open QR Plane

/-- Scaling and translation of a figure. -/
def figTr (s : Rat) (t : Pt) : Figure → Figure
  | .rect x y w h => .rect (t.x + s * x) (t.y + s * y) (s * w) (s * h)
  | .disc cx cy r => .disc (t.x + s * cx) (t.y + s * cy) (s * r)
  | .outline a l => .outline (tr s t a) (l.map (Seg.tr s t))

theorem covers_tr {s : Rat} (hs : 0 < s) (t q : Pt) (f : Figure) : (figTr s t f).covers (tr s t q) ↔ f.covers q := by
  cases f with
  | rect x y w h =>
    simp only [figTr, Figure.covers, tr]
    have e1 : ∀ a b c : Rat, (c + s * a ≤ c + s * b) ↔ a ≤ b := fun a b c => by
      rw [add_le_add_iff_left]; exact mul_le_mul_iff_right₀ hs
    have e2 : ∀ a b c d : Rat, (c + s * a < c + s * b + s * d) ↔ a < b + d := fun a b c d => by
      rw [add_assoc, add_lt_add_iff_left, ← mul_add]; exact mul_lt_mul_iff_right₀ hs
    rw [e1, e1, e2, e2]
  | disc cx cy r =>
    simp only [figTr, Figure.covers, tr]
    have h2 : 0 < s * s := mul_pos hs hs
    have e1 : (t.x + s * q.x - (t.x + s * cx)) * (t.x + s * q.x - (t.x + s * cx)) + (t.y + s * q.y - (t.y + s * cy)) * (t.y + s * q.y - (t.y + s * cy))
      = s * s * ((q.x - cx) * (q.x - cx) + (q.y - cy) * (q.y - cy)) := by ring
    have e2 : s * r * (s * r) = s * s * (r * r) := by ring
    rw [e1, e2, mul_lt_mul_iff_right₀ h2, mul_pos_iff_of_pos_left hs]
  | outline a l => simp only [figTr, Figure.covers, windFrom_tr hs]

def cmdTr (s : Rat) (t : Pt) : Cmd → Cmd
  | .add f => .add (figTr s t f)
  | .fill => .fill

/-! ## Painted points and added figures -/

theorem fills_sub {p : Pt} : ∀ (cmds : List Cmd) (path : List Figure), (∃ q ∈ fills path cmds, ∃ f ∈ q, f.covers p) →
    (∃ f ∈ path, f.covers p) ∨ ∃ f, Cmd.add f ∈ cmds ∧ f.covers p
  | [], _, h => by simp [fills] at h
  | .add f :: rest, path, h => by
    rcases fills_sub rest (path ++ [f]) h with ⟨g, hg, hc⟩ | ⟨g, hg, hc⟩
    · rcases List.mem_append.1 hg with h' | h'
      · exact .inl ⟨g, h', hc⟩
      · rw [List.mem_singleton] at h'; subst h'; exact .inr ⟨g, List.mem_cons_self, hc⟩
    · exact .inr ⟨g, List.mem_cons_of_mem _ hg, hc⟩
  | .fill :: rest, path, ⟨q, hq, hf⟩ => by
    simp only [fills, List.mem_cons] at hq
    rcases hq with rfl | hq
    · exact .inl hf
    · rcases fills_sub rest [] ⟨q, hq, hf⟩ with ⟨g, hg, _⟩ | ⟨g, hg, hc⟩
      · cases hg
      · exact .inr ⟨g, List.mem_cons_of_mem _ hg, hc⟩

theorem painted_add {cmds : List Cmd} {p : Pt} (h : Painted cmds p) : ∃ f, Cmd.add f ∈ cmds ∧ f.covers p := by
  rcases fills_sub cmds [] h with ⟨g, hg, _⟩ | h
  · cases hg
  · exact h

theorem fills_sup {p : Pt} : ∀ (cmds : List Cmd) (path : List Figure), leftover path cmds = [] →
    ((∃ f ∈ path, f.covers p) ∨ ∃ f, Cmd.add f ∈ cmds ∧ f.covers p) → ∃ q ∈ fills path cmds, ∃ f ∈ q, f.covers p
  | [], path, hl, h => by
    simp only [leftover] at hl; subst hl; simp at h
  | .add f :: rest, path, hl, h => by
    refine fills_sup rest (path ++ [f]) hl ?_
    rcases h with ⟨g, hg, hc⟩ | ⟨g, hg, hc⟩
    · exact .inl ⟨g, List.mem_append_left _ hg, hc⟩
    · rcases List.mem_cons.1 hg with e | hg
      · injection e with e; subst e; exact .inl ⟨g, by simp, hc⟩
      · exact .inr ⟨g, hg, hc⟩
  | .fill :: rest, path, hl, h => by
    rcases h with ⟨g, hg, hc⟩ | ⟨g, hg, hc⟩
    · exact ⟨path, by simp [fills], g, hg, hc⟩
    · rcases List.mem_cons.1 hg with e | hg
      · cases e
      · obtain ⟨q, hq, hf⟩ := fills_sup rest [] hl (.inr ⟨g, hg, hc⟩)
        exact ⟨q, by simp [fills, hq], hf⟩

theorem painted_of {cmds : List Cmd} {p : Pt} (hl : leftover [] cmds = []) {f : Figure} (hf : Cmd.add f ∈ cmds) (hc : f.covers p) :
    Painted cmds p := fills_sup cmds [] hl (.inr ⟨f, hf, hc⟩)

/-- Nothing is left over if the last call fills. -/
theorem leftover_fill : ∀ (cmds : List Cmd) (path : List Figure), leftover path (cmds ++ [.fill]) = []
  | [], _ => rfl
  | .add f :: rest, path => leftover_fill rest (path ++ [f])
  | .fill :: rest, _ => leftover_fill rest []

/-! ## The flags of a mask -/

theorem has_flag {mask bits : UInt16} (h : has mask bits = true) {k : Nat} (hk : bits.toNat.testBit k = true) :
    mask.toNat.testBit k = true := by
  unfold has at h
  have e : mask &&& bits = bits := by simpa using h
  have := congrArg UInt16.toNat e
  rw [UInt16.toNat_and] at this
  have h2 : (mask.toNat &&& bits.toNat).testBit k = true := by rw [this]; exact hk
  rw [Nat.testBit_and] at h2
  simp only [Bool.and_eq_true] at h2
  exact h2.1

theorem flags_has {mask bits : UInt16} (h : ∀ k, bits.toNat.testBit k = true → mask.toNat.testBit k = true) : has mask bits = true := by
  unfold has
  have : mask &&& bits = bits := by
    apply UInt16.toNat_inj.1
    rw [UInt16.toNat_and]
    apply Nat.eq_of_testBit_eq
    intro k
    rw [Nat.testBit_and]
    cases hb : bits.toNat.testBit k with
    | false => simp
    | true => rw [h k hb]; rfl
  simp [this]

theorem self_flag {mask : UInt16} (h : ¬ (mask &&& NSelf ≠ NSelf)) : mask.toNat.testBit 4 = true :=
  has_flag (bits := NSelf) (by unfold has; simp at h; simp [h]) (by decide)

theorem no_flag {mask bits : UInt16} (h : (mask &&& bits == 0) = true) {k : Nat} (hk : bits.toNat.testBit k = true) :
    mask.toNat.testBit k = false := by
  have e : mask &&& bits = 0 := by simpa using h
  have := congrArg UInt16.toNat e
  rw [UInt16.toNat_and] at this
  have h2 : (mask.toNat &&& bits.toNat).testBit k = false := by rw [this]; simp
  rw [Nat.testBit_and, hk, Bool.and_true] at h2
  exact h2

/-! ## The figures in unit coordinates -/

def uTR : Figure := .outline ⟨1, 2⟩ [.line ⟨0, 1⟩, .line ⟨0, 0⟩, .line ⟨2, -1⟩, .quad ⟨2, 0⟩ ⟨3, 0⟩, .line ⟨2, 2⟩]
def uTL : Figure := .outline ⟨1, 2⟩ [.line ⟨2, 1⟩, .line ⟨2, -1⟩, .line ⟨0, -1⟩, .quad ⟨0, 0⟩ ⟨-1, 0⟩, .line ⟨-1, 2⟩]
def uBL : Figure := .outline ⟨1, 0⟩ [.line ⟨2, 1⟩, .line ⟨2, 3⟩, .line ⟨0, 3⟩, .quad ⟨0, 2⟩ ⟨-1, 2⟩, .line ⟨-1, 0⟩]
def uBR : Figure := .outline ⟨1, 0⟩ [.line ⟨0, 1⟩, .line ⟨0, 3⟩, .line ⟨2, 3⟩, .quad ⟨2, 2⟩ ⟨3, 2⟩, .line ⟨2, 0⟩]

def liquidUnit (mask : UInt16) : List Cmd :=
  (if mask = NRight ||| NSelf then drawRect 1 0 1 2
   else if mask = NTop ||| NSelf then drawRect 0 0 2 1
   else if mask = NLeft ||| NSelf then drawRect 0 0 1 2
   else if mask = NBot ||| NSelf then drawRect 0 1 2 1
   else if mask = NLeft ||| NSelf ||| NRight then drawRect (-1) 0 4 2
   else []) ++
  when (has mask (NLeft ||| NSelf ||| NRight)) (drawRect (-1) 0 4 2) ++
  when (has mask (NTop ||| NSelf ||| NBot)) (drawRect 0 (-1) 2 4) ++
  when (has mask (NLeft ||| NSelf)) (drawRect 0 0 1 2) ++
  when (has mask (NSelf ||| NRight)) (drawRect 1 0 1 2) ++
  when (has mask (NSelf ||| NTop)) (drawRect 0 0 2 1) ++
  when (has mask (NSelf ||| NBot)) (drawRect 0 1 2 1) ++
  when (has mask (NBot ||| NRight ||| NSelf) && mask &&& NBotRight == 0) [.add uBR, .fill] ++
  when (has mask (NBot ||| NLeft ||| NSelf) && mask &&& NBotLeft == 0) [.add uBL, .fill] ++
  when (has mask (NTop ||| NLeft ||| NSelf) && mask &&& NTopLeft == 0) [.add uTL, .fill] ++
  when (has mask (NTop ||| NRight ||| NSelf) && mask &&& NTopRight == 0) [.add uTR, .fill] ++
  [.add (.disc 1 1 1), .fill]

def vRatio (ratio : Rat) : Rat := if ratio < 6 / 10 ∨ ratio > 1 then 85 / 100 else ratio

def rBL3 : Figure := .outline ⟨0, 0⟩ [.quad ⟨2, 0⟩ ⟨2, 2⟩, .line ⟨0, 3⟩, .quad ⟨0, 2⟩ ⟨-1, 2⟩]
def rBL4 : Figure := .outline ⟨0, 0⟩ [.quad ⟨2, 0⟩ ⟨2, 2⟩, .line ⟨0, 2⟩]
def rBR3 : Figure := .outline ⟨0, 2⟩ [.quad ⟨0, 0⟩ ⟨2, 0⟩, .line ⟨3, 2⟩, .quad ⟨2, 2⟩ ⟨2, 3⟩]
def rBR4 : Figure := .outline ⟨0, 2⟩ [.quad ⟨0, 0⟩ ⟨2, 0⟩, .line ⟨2, 2⟩]
def rTR3 : Figure := .outline ⟨0, 0⟩ [.quad ⟨0, 2⟩ ⟨2, 2⟩, .line ⟨3, 0⟩, .quad ⟨2, 0⟩ ⟨2, -1⟩]
def rTR4 : Figure := .outline ⟨0, 0⟩ [.quad ⟨0, 2⟩ ⟨2, 2⟩, .line ⟨2, 0⟩]
def rTL3 : Figure := .outline ⟨0, 2⟩ [.quad ⟨2, 2⟩ ⟨2, 0⟩, .line ⟨0, -1⟩, .quad ⟨0, 0⟩ ⟨-1, 0⟩]
def rTL4 : Figure := .outline ⟨0, 2⟩ [.quad ⟨2, 2⟩ ⟨2, 0⟩, .line ⟨0, 0⟩]

def roundedUnit (mask : UInt16) : List Cmd :=
  if mask &&& NSelf ≠ NSelf then []
  else
    (if mask = NSelf ||| NBot ||| NLeft then [.add rBL3]
    else if mask = NSelf ||| NBot ||| NLeft ||| NBotLeft then [.add rBL4]
    else if mask = NSelf ||| NBot ||| NRight then [.add rBR3]
    else if mask = NSelf ||| NBot ||| NRight ||| NBotRight then [.add rBR4]
    else if mask = NSelf ||| NTop ||| NRight then [.add rTR3]
    else if mask = NSelf ||| NTop ||| NRight ||| NTopRight then [.add rTR4]
    else if mask = NSelf ||| NTop ||| NLeft then [.add rTL3]
    else if mask = NSelf ||| NTop ||| NLeft ||| NTopLeft then [.add rTL4, .fill]
    else [.add (.rect 0 0 2 2)]) ++ [.fill]

/-- The calls in unit coordinates. -/
def unitCmds : DrawFn → UInt16 → List Cmd
  | .liquidBlock, mask => liquidUnit mask
  | .hStripeBlock _, mask => [.add (.disc 1 1 (9 / 10))] ++
      when (has mask (NLeft ||| NSelf)) (drawRect 0 (1 / 10) 1 (18 / 10)) ++
      when (has mask (NRight ||| NSelf)) (drawRect 1 (1 / 10) 1 (18 / 10)) ++ [.fill]
  | .vStripeBlock ratio, mask => [.add (.disc 1 1 (vRatio ratio))] ++
      when (has mask (NTop ||| NSelf)) (drawRect (1 - vRatio ratio) 0 (2 * vRatio ratio) 1) ++
      when (has mask (NBot ||| NSelf)) (drawRect (1 - vRatio ratio) 1 (2 * vRatio ratio) 1) ++ [.fill]
  | .chainBlock, mask => [.add (.disc 1 1 (9 / 10))] ++
      when (has mask (NTop ||| NSelf)) (drawRect (82 / 100) 0 (36 / 100) 1) ++
      when (has mask (NBot ||| NSelf)) (drawRect (82 / 100) 1 (36 / 100) 1) ++
      when (has mask (NLeft ||| NSelf)) (drawRect 0 (82 / 100) 1 (36 / 100)) ++
      when (has mask (NRight ||| NSelf)) (drawRect 1 (82 / 100) 1 (36 / 100)) ++ [.fill]
  | .vChainBlock, mask => [.add (.disc 1 1 (85 / 100))] ++
      when (has mask (NTop ||| NSelf)) (drawRect (83 / 100) 0 (34 / 100) 1) ++
      when (has mask (NBot ||| NSelf)) (drawRect (83 / 100) 1 (34 / 100) 1) ++ [.fill]
  | .hChainBlock, mask => [.add (.disc 1 1 (85 / 100))] ++
      when (has mask (NLeft ||| NSelf)) (drawRect 0 (83 / 100) 1 (34 / 100)) ++
      when (has mask (NRight ||| NSelf)) (drawRect 1 (83 / 100) 1 (34 / 100)) ++ [.fill]
  | .squareBlocks size, _ => [.add (.rect (1 - blockScale size) (1 - blockScale size) (2 * blockScale size) (2 * blockScale size)), .fill]
  | .circleBlocks size, _ => [.add (.disc 1 1 (blockScale size)), .fill]
  | .roundedFinder, mask => roundedUnit mask
  | .squareFinder, _ => [.add (.rect 0 0 2 2), .fill]

theorem when_map (b : Bool) (l : List Cmd) (s : Rat) (t : Pt) : (when b l).map (cmdTr s t) = when b (l.map (cmdTr s t)) := by
  cases b <;> rfl

theorem drawRect_map (x y w h s : Rat) (t : Pt) : (drawRect x y w h).map (cmdTr s t) = drawRect (t.x + s * x) (t.y + s * y) (s * w) (s * h) := rfl

theorem rect_congr {x y w h x' y' w' h' : Rat} (h1 : x = x') (h2 : y = y') (h3 : w = w') (h4 : h = h') : drawRect x y w h = drawRect x' y' w' h' := by
  rw [h1, h2, h3, h4]

/-- Every drawing function draws its unit figures, scaled to the block. -/
theorem cmds_unit (d : DrawFn) {c : Ctx} (hwh : c.h = c.w) :
    d.cmds c = (unitCmds d c.neighbours).map (cmdTr ((c.w : Rat) / 2) ⟨c.x, c.y⟩) := by
  have hh : (c.h : Rat) = c.w := by rw [hwh]
  cases d with
  | liquidBlock =>
    simp only [DrawFn.cmds, liquidBlock, unitCmds, liquidUnit, List.map_append, when_map, apply_ite (List.map _), drawRect_map, hh, List.map_cons,
      List.map_nil, cmdTr, figTr, uTR, uTL, uBL, uBR, Seg.tr, tr, drawRect]
    ring_nf
  | roundedFinder =>
    simp only [DrawFn.cmds, roundedFinder, unitCmds, roundedUnit, List.map_append, apply_ite (List.map _), hh, List.map_cons,
      List.map_nil, cmdTr, figTr, rBL3, rBL4, rBR3, rBR4, rTR3, rTR4, rTL3, rTL4, Seg.tr, tr]
    ring_nf
  | hStripeBlock r =>
    simp only [DrawFn.cmds, hStripeBlock, unitCmds, List.map_append, when_map, drawRect_map, hh, List.map_cons, List.map_nil, cmdTr, figTr, drawRect]
    ring_nf
  | vStripeBlock r =>
    simp only [DrawFn.cmds, vStripeBlock, unitCmds, List.map_append, when_map, drawRect_map, hh, List.map_cons, List.map_nil, cmdTr, figTr, drawRect]
    rw [show (if r < 6 / 10 ∨ r > 1 then 85 / 100 else r) = vRatio r from rfl]
    ring_nf
  | chainBlock =>
    simp only [DrawFn.cmds, chainBlock, unitCmds, List.map_append, when_map, drawRect_map, hh, List.map_cons, List.map_nil, cmdTr, figTr, drawRect]
    ring_nf
  | vChainBlock =>
    simp only [DrawFn.cmds, vChainBlock, unitCmds, List.map_append, when_map, drawRect_map, hh, List.map_cons, List.map_nil, cmdTr, figTr, drawRect]
    ring_nf
  | hChainBlock =>
    simp only [DrawFn.cmds, hChainBlock, unitCmds, List.map_append, when_map, drawRect_map, hh, List.map_cons, List.map_nil, cmdTr, figTr, drawRect]
    ring_nf
  | squareBlocks s =>
    simp only [DrawFn.cmds, squareBlocks, unitCmds, hh, List.map_cons, List.map_nil, cmdTr, figTr]
    ring_nf
  | circleBlocks s =>
    simp only [DrawFn.cmds, circleBlocks, unitCmds, hh, List.map_cons, List.map_nil, cmdTr, figTr]
    ring_nf
  | squareFinder =>
    simp only [DrawFn.cmds, squareFinder, unitCmds, hh, List.map_cons, List.map_nil, cmdTr, figTr]
    ring_nf

end QR.Standard
