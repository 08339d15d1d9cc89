import Verif.Proof.Shapes
import Verif.Props.Standard
/-!
# C59, C60, C62, C63: the shapes
-/
namespace QR.Standard
open QR Plane

/-! ## Unit figures -/

theorem disc_box {r : Rat} (hr : r ≤ 1) {q : Pt} (h : (Figure.disc 1 1 r).covers q) : 0 ≤ q.x ∧ q.x ≤ 2 ∧ 0 ≤ q.y ∧ q.y ≤ 2 := by
  obtain ⟨h0, h⟩ := h
  have hx : (q.x - 1) * (q.x - 1) < 1 := by nlinarith [mul_self_nonneg (q.y - 1)]
  have hy : (q.y - 1) * (q.y - 1) < 1 := by nlinarith [mul_self_nonneg (q.x - 1)]
  refine ⟨?_, ?_, ?_, ?_⟩ <;> nlinarith

theorem disc_centre {r : Rat} (hr : 0 < r) : (Figure.disc 1 1 r).covers ⟨1, 1⟩ := by
  refine ⟨hr, ?_⟩
  have := mul_pos hr hr
  simpa using this

theorem vRatio_range (r : Rat) : 6 / 10 ≤ vRatio r ∧ vRatio r ≤ 1 := by
  unfold vRatio
  split
  · norm_num
  · rename_i h; push Not at h; exact ⟨h.1, h.2⟩

theorem blockScale_range (r : Rat) : 1 / 10 ≤ blockScale r ∧ blockScale r ≤ 1 := by
  unfold blockScale
  split
  · norm_num
  · rename_i h; push Not at h; exact ⟨h.1, h.2⟩

/-- Does the function keep to its block? -/
def DrawFn.keepsToBlock : DrawFn → Bool
  | .liquidBlock => false
  | .roundedFinder => false
  | _ => true

theorem mem_when {b : Bool} {l : List Cmd} {c : Cmd} : c ∈ when b l ↔ b = true ∧ c ∈ l := by
  cases b <;> simp [when]

theorem add_mem_drawRect {f : Figure} {x y w h : Rat} : Cmd.add f ∈ drawRect x y w h ↔ f = .rect x y w h := by
  simp [drawRect]

/-- A flag of the mask. -/
def flag (mask : UInt16) (k : Nat) : Prop := mask.toNat.testBit k = true

theorem liquid_figs {mask : UInt16} {f : Figure} (h : Cmd.add f ∈ liquidUnit mask) :
    (f = .rect 1 0 1 2 ∨ f = .rect 0 0 2 1 ∨ f = .rect 0 0 1 2 ∨ f = .rect 0 1 2 1 ∨ f = .disc 1 1 1) ∨
    (flag mask 4 ∧ ((f = .rect (-1) 0 4 2 ∧ flag mask 3 ∧ flag mask 5) ∨ (f = .rect 0 (-1) 2 4 ∧ flag mask 1 ∧ flag mask 7) ∨
      (f = uBR ∧ flag mask 7 ∧ flag mask 5) ∨ (f = uBL ∧ flag mask 7 ∧ flag mask 3) ∨ (f = uTL ∧ flag mask 1 ∧ flag mask 3) ∨
      (f = uTR ∧ flag mask 1 ∧ flag mask 5))) := by
  unfold liquidUnit at h
  simp only [List.mem_append] at h
  rcases h with ((((((((((( h | h) | h) | h) | h) | h) | h) | h) | h) | h) | h) | h)
  · split at h
    · rw [add_mem_drawRect] at h; exact .inl (by tauto)
    split at h
    · rw [add_mem_drawRect] at h; exact .inl (by tauto)
    split at h
    · rw [add_mem_drawRect] at h; exact .inl (by tauto)
    split at h
    · rw [add_mem_drawRect] at h; exact .inl (by tauto)
    split at h
    · rename_i hm
      rw [add_mem_drawRect] at h
      subst hm
      exact .inr ⟨by unfold flag; decide, .inl ⟨h, by unfold flag; decide, by unfold flag; decide⟩⟩
    · cases h
  · obtain ⟨h1, h⟩ := mem_when.1 h
    rw [add_mem_drawRect] at h
    exact .inr ⟨has_flag h1 (by decide), .inl ⟨h, has_flag h1 (by decide), has_flag h1 (by decide)⟩⟩
  · obtain ⟨h1, h⟩ := mem_when.1 h
    rw [add_mem_drawRect] at h
    exact .inr ⟨has_flag h1 (by decide), .inr (.inl ⟨h, has_flag h1 (by decide), has_flag h1 (by decide)⟩)⟩
  · obtain ⟨h1, h⟩ := mem_when.1 h
    rw [add_mem_drawRect] at h
    exact .inl (by tauto)
  · obtain ⟨h1, h⟩ := mem_when.1 h
    rw [add_mem_drawRect] at h
    exact .inl (by tauto)
  · obtain ⟨h1, h⟩ := mem_when.1 h
    rw [add_mem_drawRect] at h
    exact .inl (by tauto)
  · obtain ⟨h1, h⟩ := mem_when.1 h
    rw [add_mem_drawRect] at h
    exact .inl (by tauto)
  · obtain ⟨h1, h⟩ := mem_when.1 h
    rw [Bool.and_eq_true] at h1
    have h : f = uBR := by simpa using h
    exact .inr ⟨has_flag h1.1 (by decide), .inr (.inr (.inl ⟨h, has_flag h1.1 (by decide), has_flag h1.1 (by decide)⟩))⟩
  · obtain ⟨h1, h⟩ := mem_when.1 h
    rw [Bool.and_eq_true] at h1
    have h : f = uBL := by simpa using h
    exact .inr ⟨has_flag h1.1 (by decide), .inr (.inr (.inr (.inl ⟨h, has_flag h1.1 (by decide), has_flag h1.1 (by decide)⟩)))⟩
  · obtain ⟨h1, h⟩ := mem_when.1 h
    rw [Bool.and_eq_true] at h1
    have h : f = uTL := by simpa using h
    exact .inr ⟨has_flag h1.1 (by decide), .inr (.inr (.inr (.inr (.inl ⟨h, has_flag h1.1 (by decide), has_flag h1.1 (by decide)⟩))))⟩
  · obtain ⟨h1, h⟩ := mem_when.1 h
    rw [Bool.and_eq_true] at h1
    have h : f = uTR := by simpa using h
    exact .inr ⟨has_flag h1.1 (by decide), .inr (.inr (.inr (.inr (.inr ⟨h, has_flag h1.1 (by decide), has_flag h1.1 (by decide)⟩))))⟩
  · have h : f = .disc 1 1 1 := by simpa using h
    exact .inl (by tauto)

theorem rounded_figs {mask : UInt16} {f : Figure} (h : Cmd.add f ∈ roundedUnit mask) : flag mask 4 ∧
    (f = .rect 0 0 2 2 ∨ f = rBL4 ∨ f = rBR4 ∨ f = rTR4 ∨ f = rTL4 ∨ (f = rBL3 ∧ flag mask 7 ∧ flag mask 3) ∨
      (f = rBR3 ∧ flag mask 7 ∧ flag mask 5) ∨ (f = rTR3 ∧ flag mask 1 ∧ flag mask 5) ∨ (f = rTL3 ∧ flag mask 1 ∧ flag mask 3)) := by
  unfold roundedUnit at h
  split at h
  · cases h
  rename_i hs
  refine ⟨self_flag hs, ?_⟩
  rw [List.mem_append] at h
  rcases h with h | h
  swap
  · simp at h
  split at h
  · rename_i hm
    have h : f = rBL3 := by simpa using h
    subst hm
    exact .inr (.inr (.inr (.inr (.inr (.inl ⟨h, by unfold flag; decide, by unfold flag; decide⟩)))))
  split at h
  · have h : f = rBL4 := by simpa using h
    tauto
  split at h
  · rename_i hm
    have h : f = rBR3 := by simpa using h
    subst hm
    exact .inr (.inr (.inr (.inr (.inr (.inr (.inl ⟨h, by unfold flag; decide, by unfold flag; decide⟩))))))
  split at h
  · have h : f = rBR4 := by simpa using h
    tauto
  split at h
  · rename_i hm
    have h : f = rTR3 := by simpa using h
    subst hm
    exact .inr (.inr (.inr (.inr (.inr (.inr (.inr (.inl ⟨h, by unfold flag; decide, by unfold flag; decide⟩)))))))
  split at h
  · have h : f = rTR4 := by simpa using h
    tauto
  split at h
  · rename_i hm
    have h : f = rTL3 := by simpa using h
    subst hm
    exact .inr (.inr (.inr (.inr (.inr (.inr (.inr (.inr ⟨h, by unfold flag; decide, by unfold flag; decide⟩)))))))
  split at h
  · have h : f = rTL4 := by simpa using h
    tauto
  · have h : f = .rect 0 0 2 2 := by simpa using h
    tauto

/-- All figures but those of the two functions that look around are discs or rectangles in the block. -/
def Inner (f : Figure) : Prop :=
  (∃ r, f = .disc 1 1 r ∧ r ≤ 1) ∨ ∃ x y w h, f = .rect x y w h ∧ 0 ≤ x ∧ 0 ≤ y ∧ x + w ≤ 2 ∧ y + h ≤ 2

theorem inner_box {f : Figure} (hi : Inner f) {q : Pt} (hc : f.covers q) : 0 ≤ q.x ∧ q.x ≤ 2 ∧ 0 ≤ q.y ∧ q.y ≤ 2 := by
  rcases hi with ⟨r, rfl, hr⟩ | ⟨x, y, w, h, rfl, h1, h2, h3, h4⟩
  · exact disc_box hr hc
  · obtain ⟨g1, g2, g3, g4⟩ := hc
    refine ⟨?_, ?_, ?_, ?_⟩ <;> linarith

theorem inner_disc {r : Rat} (h : r ≤ 1) : Inner (.disc 1 1 r) := .inl ⟨r, rfl, h⟩
theorem inner_rect {x y w h : Rat} (h1 : 0 ≤ x) (h2 : 0 ≤ y) (h3 : x + w ≤ 2) (h4 : y + h ≤ 2) : Inner (.rect x y w h) :=
  .inr ⟨x, y, w, h, rfl, h1, h2, h3, h4⟩

theorem keeps_inner {d : DrawFn} (hd : d.keepsToBlock = true) {mask : UInt16} {f : Figure} (hf : Cmd.add f ∈ unitCmds d mask) : Inner f := by
  cases d with
  | liquidBlock => cases hd
  | roundedFinder => cases hd
  | hStripeBlock r =>
    simp only [unitCmds, List.mem_append, mem_when, add_mem_drawRect, List.mem_singleton, Cmd.add.injEq, reduceCtorEq, or_false] at hf
    rcases hf with (rfl | ⟨_, rfl⟩) | ⟨_, rfl⟩
    · exact inner_disc (by norm_num)
    all_goals apply inner_rect <;> norm_num
  | vStripeBlock r =>
    obtain ⟨h1, h2⟩ := vRatio_range r
    simp only [unitCmds, List.mem_append, mem_when, add_mem_drawRect, List.mem_singleton, Cmd.add.injEq, reduceCtorEq, or_false] at hf
    rcases hf with (rfl | ⟨_, rfl⟩) | ⟨_, rfl⟩
    · exact inner_disc h2
    all_goals apply inner_rect <;> linarith
  | chainBlock =>
    simp only [unitCmds, List.mem_append, mem_when, add_mem_drawRect, List.mem_singleton, Cmd.add.injEq, reduceCtorEq, or_false] at hf
    rcases hf with (((rfl | ⟨_, rfl⟩) | ⟨_, rfl⟩) | ⟨_, rfl⟩) | ⟨_, rfl⟩
    · exact inner_disc (by norm_num)
    all_goals apply inner_rect <;> norm_num
  | vChainBlock =>
    simp only [unitCmds, List.mem_append, mem_when, add_mem_drawRect, List.mem_singleton, Cmd.add.injEq, reduceCtorEq, or_false] at hf
    rcases hf with (rfl | ⟨_, rfl⟩) | ⟨_, rfl⟩
    · exact inner_disc (by norm_num)
    all_goals apply inner_rect <;> norm_num
  | hChainBlock =>
    simp only [unitCmds, List.mem_append, mem_when, add_mem_drawRect, List.mem_singleton, Cmd.add.injEq, reduceCtorEq, or_false] at hf
    rcases hf with (rfl | ⟨_, rfl⟩) | ⟨_, rfl⟩
    · exact inner_disc (by norm_num)
    all_goals apply inner_rect <;> norm_num
  | squareBlocks r =>
    obtain ⟨h1, h2⟩ := blockScale_range r
    simp only [unitCmds, List.mem_cons, Cmd.add.injEq, reduceCtorEq, or_false, List.not_mem_nil] at hf
    subst hf
    apply inner_rect <;> linarith
  | circleBlocks r =>
    obtain ⟨h1, h2⟩ := blockScale_range r
    simp only [unitCmds, List.mem_cons, Cmd.add.injEq, reduceCtorEq, or_false, List.not_mem_nil] at hf
    subst hf
    exact inner_disc h2
  | squareFinder =>
    simp only [unitCmds, List.mem_cons, Cmd.add.injEq, reduceCtorEq, or_false, List.not_mem_nil] at hf
    subst hf
    apply inner_rect <;> norm_num

/-- The figures that reach out of the block, with the flags under which they are drawn. -/
def Outer (mask : UInt16) (f : Figure) : Prop := flag mask 4 ∧
  ((f = .rect (-1) 0 4 2 ∧ flag mask 3 ∧ flag mask 5) ∨ (f = .rect 0 (-1) 2 4 ∧ flag mask 1 ∧ flag mask 7) ∨
   ((f = uBR ∨ f = rBR3) ∧ flag mask 7 ∧ flag mask 5) ∨ ((f = uBL ∨ f = rBL3) ∧ flag mask 7 ∧ flag mask 3) ∨
   ((f = uTL ∨ f = rTL3) ∧ flag mask 1 ∧ flag mask 3) ∨ ((f = uTR ∨ f = rTR3) ∧ flag mask 1 ∧ flag mask 5))

/-- The four corner pieces that stay in the block. -/
def Corner (f : Figure) : Prop := f = rBL4 ∨ f = rBR4 ∨ f = rTR4 ∨ f = rTL4

theorem figs (d : DrawFn) {mask : UInt16} {f : Figure} (hf : Cmd.add f ∈ unitCmds d mask) : Inner f ∨ Corner f ∨ Outer mask f := by
  cases hd : d.keepsToBlock with
  | true => exact .inl (keeps_inner hd hf)
  | false =>
    have hcase : d = .liquidBlock ∨ d = .roundedFinder := by cases d <;> simp_all [DrawFn.keepsToBlock]
    rcases hcase with rfl | rfl
    · rcases liquid_figs hf with h | ⟨h4, h⟩
      · rcases h with rfl | rfl | rfl | rfl | rfl
        · left; apply inner_rect <;> norm_num
        · left; apply inner_rect <;> norm_num
        · left; apply inner_rect <;> norm_num
        · left; apply inner_rect <;> norm_num
        · left; exact inner_disc le_rfl
      · refine .inr (.inr ⟨h4, ?_⟩)
        rcases h with h | h | h | h | h | h
        · exact .inl h
        · exact .inr (.inl h)
        · exact .inr (.inr (.inl ⟨.inl h.1, h.2⟩))
        · exact .inr (.inr (.inr (.inl ⟨.inl h.1, h.2⟩)))
        · exact .inr (.inr (.inr (.inr (.inl ⟨.inl h.1, h.2⟩))))
        · exact .inr (.inr (.inr (.inr (.inr ⟨.inl h.1, h.2⟩))))
    · obtain ⟨h4, h⟩ := rounded_figs hf
      rcases h with rfl | h | h | h | h | h | h | h | h
      · left; apply inner_rect <;> norm_num
      · exact .inr (.inl (.inl h))
      · exact .inr (.inl (.inr (.inl h)))
      · exact .inr (.inl (.inr (.inr (.inl h))))
      · exact .inr (.inl (.inr (.inr (.inr h))))
      · exact .inr (.inr ⟨h4, .inr (.inr (.inr (.inl ⟨.inr h.1, h.2⟩)))⟩)
      · exact .inr (.inr ⟨h4, .inr (.inr (.inl ⟨.inr h.1, h.2⟩))⟩)
      · exact .inr (.inr ⟨h4, .inr (.inr (.inr (.inr (.inr ⟨.inr h.1, h.2⟩))))⟩)
      · exact .inr (.inr ⟨h4, .inr (.inr (.inr (.inr (.inl ⟨.inr h.1, h.2⟩))))⟩)

/-- Do the points of a figure lie in a box?  (For rectangles: the corners.) -/
def inBox (f : Figure) (x0 x1 y0 y1 : Rat) : Bool :=
  match f with
  | .outline a l => (pts a l).all fun q => decide (x0 ≤ q.x ∧ q.x ≤ x1 ∧ y0 ≤ q.y ∧ q.y ≤ y1)
  | .rect x y w h => decide (x0 ≤ x ∧ x + w ≤ x1 ∧ y0 ≤ y ∧ y + h ≤ y1)
  | .disc _ _ _ => false

theorem inBox_covers {f : Figure} {x0 x1 y0 y1 : Rat} (h : inBox f x0 x1 y0 y1 = true) {q : Pt} (hc : f.covers q) :
    x0 ≤ q.x ∧ q.x ≤ x1 ∧ y0 ≤ q.y ∧ q.y ≤ y1 := by
  cases f with
  | outline a l =>
    refine covers_box (fun q hq => ?_) hc
    have := List.all_eq_true.1 h q hq
    simpa using this
  | rect x y w h' =>
    have := of_decide_eq_true h
    obtain ⟨g1, g2, g3, g4⟩ := hc
    obtain ⟨k1, k2, k3, k4⟩ := this
    refine ⟨?_, ?_, ?_, ?_⟩ <;> linarith
  | disc => cases h

theorem corner_box {f : Figure} (h : Corner f) {q : Pt} (hc : f.covers q) : 0 ≤ q.x ∧ q.x ≤ 2 ∧ 0 ≤ q.y ∧ q.y ≤ 2 := by
  rcases h with rfl | rfl | rfl | rfl <;> exact inBox_covers (by decide +kernel) hc

theorem outer_box {mask : UInt16} {f : Figure} (h : Outer mask f) {q : Pt} (hc : f.covers q) :
    -1 ≤ q.x ∧ q.x ≤ 3 ∧ -1 ≤ q.y ∧ q.y ≤ 3 := by
  obtain ⟨_, h⟩ := h
  rcases h with ⟨rfl, _⟩ | ⟨rfl, _⟩ | ⟨rfl | rfl, _⟩ | ⟨rfl | rfl, _⟩ | ⟨rfl | rfl, _⟩ | ⟨rfl | rfl, _⟩ <;>
    exact inBox_covers (by decide +kernel) hc

/-- Which of the nine centres around does the figure cover? -/
def hits (f : Figure) : List (Int × Int) :=
  ([(-1, -1), (0, -1), (1, -1), (-1, 0), (0, 0), (1, 0), (-1, 1), (0, 1), (1, 1)] : List (Int × Int)).filter
    fun d => decide (f.covers ⟨2 * (d.1 : Rat) + 1, 2 * (d.2 : Rat) + 1⟩)

theorem outer_hits : hits uBR = [(0, 0)] ∧ hits uBL = [(-1, 0), (0, 0)] ∧ hits uTL = [(0, -1), (-1, 0), (0, 0)] ∧ hits uTR = [(0, 0)] ∧
    hits rBR3 = [(0, 0)] ∧ hits rBL3 = [(0, 0)] ∧ hits rTL3 = [(0, 0)] ∧ hits rTR3 = [(0, 0)] ∧
    hits (.rect (-1) 0 4 2) = [(-1, 0), (0, 0)] ∧ hits (.rect 0 (-1) 2 4) = [(0, -1), (0, 0)] := by decide +kernel

theorem mem_hits {f : Figure} {dx dy : Int} (h1 : -1 ≤ dx) (h2 : dx ≤ 1) (h3 : -1 ≤ dy) (h4 : dy ≤ 1)
    (hc : f.covers ⟨2 * (dx : Rat) + 1, 2 * (dy : Rat) + 1⟩) : (dx, dy) ∈ hits f := by
  unfold hits
  rw [List.mem_filter]
  refine ⟨?_, by simpa using hc⟩
  have hx : dx = -1 ∨ dx = 0 ∨ dx = 1 := by omega
  have hy : dy = -1 ∨ dy = 0 ∨ dy = 1 := by omega
  rcases hx with rfl | rfl | rfl <;> rcases hy with rfl | rfl | rfl <;> decide

theorem box_zero {d : Int} (h0 : (0 : Rat) ≤ 2 * (d : Rat) + 1) (h1 : 2 * (d : Rat) + 1 ≤ 2) : d = 0 := by
  have a : (-1 : Rat) < d := by linarith
  have b : (d : Rat) < 1 := by linarith
  have a' : -1 < d := by exact_mod_cast a
  have b' : d < 1 := by exact_mod_cast b
  omega

/-- The centres a drawing function covers: its own, and, if it is dark, those of dark neighbours. -/
theorem unit_centres (d : DrawFn) {mask : UInt16} {f : Figure} (hf : Cmd.add f ∈ unitCmds d mask) {dx dy : Int}
    (hc : f.covers ⟨2 * (dx : Rat) + 1, 2 * (dy : Rat) + 1⟩) :
    (dx = 0 ∧ dy = 0) ∨ (flag mask 4 ∧ -1 ≤ dx ∧ dx ≤ 1 ∧ -1 ≤ dy ∧ dy ≤ 1 ∧ flag mask (3 * (dy + 1) + (dx + 1)).toNat) := by
  rcases figs d hf with h | h | h
  · obtain ⟨a, b, c, e⟩ := inner_box h hc
    exact .inl ⟨box_zero a b, box_zero c e⟩
  · obtain ⟨a, b, c, e⟩ := corner_box h hc
    exact .inl ⟨box_zero a b, box_zero c e⟩
  · obtain ⟨a, b, c, e⟩ := outer_box h hc
    have a' : -1 ≤ dx := by have : (-1 : Rat) ≤ dx := by linarith
                            exact_mod_cast this
    have b' : dx ≤ 1 := by have : (dx : Rat) ≤ 1 := by linarith
                           exact_mod_cast this
    have c' : -1 ≤ dy := by have : (-1 : Rat) ≤ dy := by linarith
                            exact_mod_cast this
    have e' : dy ≤ 1 := by have : (dy : Rat) ≤ 1 := by linarith
                           exact_mod_cast this
    have hm := mem_hits a' b' c' e' hc
    obtain ⟨e1, e2, e3, e4, e5, e6, e7, e8, e9, e10⟩ := outer_hits
    obtain ⟨h4, h⟩ := h
    rcases h with ⟨rfl, g1, g2⟩ | ⟨rfl, g1, g2⟩ | ⟨rfl | rfl, g1, g2⟩ | ⟨rfl | rfl, g1, g2⟩ | ⟨rfl | rfl, g1, g2⟩ | ⟨rfl | rfl, g1, g2⟩
    · rw [e9] at hm
      simp only [List.mem_cons, Prod.mk.injEq, List.not_mem_nil, or_false] at hm
      rcases hm with ⟨rfl, rfl⟩ | hm
      · exact .inr ⟨h4, a', b', c', e', g1⟩
      · exact .inl hm
    · rw [e10] at hm
      simp only [List.mem_cons, Prod.mk.injEq, List.not_mem_nil, or_false] at hm
      rcases hm with ⟨rfl, rfl⟩ | hm
      · exact .inr ⟨h4, a', b', c', e', g1⟩
      · exact .inl hm
    · rw [e1] at hm
      simp only [List.mem_cons, Prod.mk.injEq, List.not_mem_nil, or_false] at hm
      exact .inl hm
    · rw [e5] at hm
      simp only [List.mem_cons, Prod.mk.injEq, List.not_mem_nil, or_false] at hm
      exact .inl hm
    · rw [e2] at hm
      simp only [List.mem_cons, Prod.mk.injEq, List.not_mem_nil, or_false] at hm
      rcases hm with ⟨rfl, rfl⟩ | hm
      · exact .inr ⟨h4, a', b', c', e', g2⟩
      · exact .inl hm
    · rw [e6] at hm
      simp only [List.mem_cons, Prod.mk.injEq, List.not_mem_nil, or_false] at hm
      exact .inl hm
    · rw [e3] at hm
      simp only [List.mem_cons, Prod.mk.injEq, List.not_mem_nil, or_false] at hm
      rcases hm with ⟨rfl, rfl⟩ | ⟨rfl, rfl⟩ | hm
      · exact .inr ⟨h4, a', b', c', e', g1⟩
      · exact .inr ⟨h4, a', b', c', e', g2⟩
      · exact .inl hm
    · rw [e7] at hm
      simp only [List.mem_cons, Prod.mk.injEq, List.not_mem_nil, or_false] at hm
      exact .inl hm
    · rw [e4] at hm
      simp only [List.mem_cons, Prod.mk.injEq, List.not_mem_nil, or_false] at hm
      exact .inl hm
    · rw [e8] at hm
      simp only [List.mem_cons, Prod.mk.injEq, List.not_mem_nil, or_false] at hm
      exact .inl hm

/-- Out of its block a function paints only at the side of a dark neighbour, if it is dark itself, and at most half a block wide. -/
def Reach (mask : UInt16) (q : Pt) : Prop := -1 ≤ q.x ∧ q.x ≤ 3 ∧ -1 ≤ q.y ∧ q.y ≤ 3 ∧ (q.x < 0 → flag mask 4 ∧ flag mask 3) ∧
  (2 < q.x → flag mask 4 ∧ flag mask 5) ∧ (q.y < 0 → flag mask 4 ∧ flag mask 1) ∧ (2 < q.y → flag mask 4 ∧ flag mask 7)

theorem reach_of_box {mask : UInt16} {q : Pt} (h : 0 ≤ q.x ∧ q.x ≤ 2 ∧ 0 ≤ q.y ∧ q.y ≤ 2) : Reach mask q := by
  obtain ⟨a, b, c, e⟩ := h
  refine ⟨by linarith, by linarith, by linarith, by linarith, ?_, ?_, ?_, ?_⟩ <;> intro h <;> linarith

theorem reach_of {mask : UInt16} {q : Pt} {x0 x1 y0 y1 : Rat} (h : x0 ≤ q.x ∧ q.x ≤ x1 ∧ y0 ≤ q.y ∧ q.y ≤ y1) (h4 : flag mask 4)
    (h3 : x0 = 0 ∨ (x0 = -1 ∧ flag mask 3)) (h5 : x1 = 2 ∨ (x1 = 3 ∧ flag mask 5)) (h1 : y0 = 0 ∨ (y0 = -1 ∧ flag mask 1))
    (h7 : y1 = 2 ∨ (y1 = 3 ∧ flag mask 7)) : Reach mask q := by
  obtain ⟨a, b, c, e⟩ := h
  refine ⟨?_, ?_, ?_, ?_, ?_, ?_, ?_, ?_⟩
  · rcases h3 with rfl | ⟨rfl, _⟩ <;> linarith
  · rcases h5 with rfl | ⟨rfl, _⟩ <;> linarith
  · rcases h1 with rfl | ⟨rfl, _⟩ <;> linarith
  · rcases h7 with rfl | ⟨rfl, _⟩ <;> linarith
  · intro hq; rcases h3 with rfl | ⟨rfl, g⟩
    · linarith
    · exact ⟨h4, g⟩
  · intro hq; rcases h5 with rfl | ⟨rfl, g⟩
    · linarith
    · exact ⟨h4, g⟩
  · intro hq; rcases h1 with rfl | ⟨rfl, g⟩
    · linarith
    · exact ⟨h4, g⟩
  · intro hq; rcases h7 with rfl | ⟨rfl, g⟩
    · linarith
    · exact ⟨h4, g⟩

theorem unit_reach (d : DrawFn) {mask : UInt16} {f : Figure} (hf : Cmd.add f ∈ unitCmds d mask) {q : Pt} (hc : f.covers q) : Reach mask q := by
  rcases figs d hf with h | h | ⟨h4, h⟩
  · exact reach_of_box (inner_box h hc)
  · exact reach_of_box (corner_box h hc)
  · rcases h with ⟨rfl, g1, g2⟩ | ⟨rfl, g1, g2⟩ | ⟨rfl | rfl, g1, g2⟩ | ⟨rfl | rfl, g1, g2⟩ | ⟨rfl | rfl, g1, g2⟩ | ⟨rfl | rfl, g1, g2⟩
    · exact reach_of (inBox_covers (x0 := -1) (x1 := 3) (y0 := 0) (y1 := 2) (by decide +kernel) hc) h4 (.inr ⟨rfl, g1⟩) (.inr ⟨rfl, g2⟩) (.inl rfl) (.inl rfl)
    · exact reach_of (inBox_covers (x0 := 0) (x1 := 2) (y0 := -1) (y1 := 3) (by decide +kernel) hc) h4 (.inl rfl) (.inl rfl) (.inr ⟨rfl, g1⟩) (.inr ⟨rfl, g2⟩)
    · exact reach_of (inBox_covers (x0 := 0) (x1 := 3) (y0 := 0) (y1 := 3) (by decide +kernel) hc) h4 (.inl rfl) (.inr ⟨rfl, g2⟩) (.inl rfl) (.inr ⟨rfl, g1⟩)
    · exact reach_of (inBox_covers (x0 := 0) (x1 := 3) (y0 := 0) (y1 := 3) (by decide +kernel) hc) h4 (.inl rfl) (.inr ⟨rfl, g2⟩) (.inl rfl) (.inr ⟨rfl, g1⟩)
    · exact reach_of (inBox_covers (x0 := -1) (x1 := 2) (y0 := 0) (y1 := 3) (by decide +kernel) hc) h4 (.inr ⟨rfl, g2⟩) (.inl rfl) (.inl rfl) (.inr ⟨rfl, g1⟩)
    · exact reach_of (inBox_covers (x0 := -1) (x1 := 2) (y0 := 0) (y1 := 3) (by decide +kernel) hc) h4 (.inr ⟨rfl, g2⟩) (.inl rfl) (.inl rfl) (.inr ⟨rfl, g1⟩)
    · exact reach_of (inBox_covers (x0 := -1) (x1 := 2) (y0 := -1) (y1 := 2) (by decide +kernel) hc) h4 (.inr ⟨rfl, g2⟩) (.inl rfl) (.inr ⟨rfl, g1⟩) (.inl rfl)
    · exact reach_of (inBox_covers (x0 := -1) (x1 := 2) (y0 := -1) (y1 := 2) (by decide +kernel) hc) h4 (.inr ⟨rfl, g2⟩) (.inl rfl) (.inr ⟨rfl, g1⟩) (.inl rfl)
    · exact reach_of (inBox_covers (x0 := 0) (x1 := 3) (y0 := -1) (y1 := 2) (by decide +kernel) hc) h4 (.inl rfl) (.inr ⟨rfl, g2⟩) (.inr ⟨rfl, g1⟩) (.inl rfl)
    · exact reach_of (inBox_covers (x0 := 0) (x1 := 3) (y0 := -1) (y1 := 2) (by decide +kernel) hc) h4 (.inl rfl) (.inr ⟨rfl, g2⟩) (.inr ⟨rfl, g1⟩) (.inl rfl)

/-- Nothing is left in the path. -/
theorem unit_leftover (d : DrawFn) (mask : UInt16) : leftover [] (unitCmds d mask) = [] := by
  cases d with
  | squareBlocks s => exact leftover_fill [_] []
  | circleBlocks s => exact leftover_fill [_] []
  | squareFinder => exact leftover_fill [_] []
  | roundedFinder =>
    simp only [unitCmds, roundedUnit]
    split
    · rfl
    · exact leftover_fill _ []
  | liquidBlock =>
    simp only [unitCmds, liquidUnit]
    rw [show ([Cmd.add (.disc 1 1 1), .fill] : List Cmd) = [.add (.disc 1 1 1)] ++ [.fill] from rfl, ← List.append_assoc]
    exact leftover_fill _ []
  | _ => exact leftover_fill _ []

theorem corner_centres : (rBL3.covers ⟨1, 1⟩ ∧ rBL4.covers ⟨1, 1⟩ ∧ rBR3.covers ⟨1, 1⟩ ∧ rBR4.covers ⟨1, 1⟩) ∧
    (rTR3.covers ⟨1, 1⟩ ∧ rTR4.covers ⟨1, 1⟩ ∧ rTL3.covers ⟨1, 1⟩ ∧ rTL4.covers ⟨1, 1⟩) ∧ (Figure.rect 0 0 2 2).covers ⟨1, 1⟩ := by
  decide +kernel

/-- A dark block covers its own centre. -/
theorem unit_own (d : DrawFn) {mask : UInt16} (h4 : flag mask 4) : ∃ f, Cmd.add f ∈ unitCmds d mask ∧ f.covers ⟨1, 1⟩ := by
  cases d with
  | liquidBlock => exact ⟨.disc 1 1 1, by simp [unitCmds, liquidUnit], disc_centre (by norm_num)⟩
  | hStripeBlock r => exact ⟨.disc 1 1 (9 / 10), by simp [unitCmds], disc_centre (by norm_num)⟩
  | vStripeBlock r => exact ⟨.disc 1 1 (vRatio r), by simp [unitCmds], disc_centre (by linarith [(vRatio_range r).1])⟩
  | chainBlock => exact ⟨.disc 1 1 (9 / 10), by simp [unitCmds], disc_centre (by norm_num)⟩
  | vChainBlock => exact ⟨.disc 1 1 (85 / 100), by simp [unitCmds], disc_centre (by norm_num)⟩
  | hChainBlock => exact ⟨.disc 1 1 (85 / 100), by simp [unitCmds], disc_centre (by norm_num)⟩
  | squareBlocks s =>
    have := (blockScale_range s).1
    refine ⟨_, List.mem_cons_self, ?_⟩
    refine ⟨?_, ?_, ?_, ?_⟩ <;> simp only <;> linarith
  | circleBlocks s => exact ⟨_, List.mem_cons_self, disc_centre (by linarith [(blockScale_range s).1])⟩
  | squareFinder => exact ⟨_, List.mem_cons_self, corner_centres.2.2⟩
  | roundedFinder =>
    obtain ⟨⟨a1, a2, a3, a4⟩, ⟨b1, b2, b3, b4⟩, c1⟩ := corner_centres
    simp only [unitCmds, roundedUnit]
    have hs : mask &&& NSelf = NSelf := by
      have := flags_has (mask := mask) (bits := NSelf) (fun k hk => by
        have : k = 4 := by
          have e : NSelf.toNat = 2 ^ 4 := by decide
          rw [e, Nat.testBit_two_pow] at hk
          have := of_decide_eq_true hk; omega
        subst this; exact h4)
      unfold has at this
      simpa using this
    rw [if_neg (by simp [hs])]
    split
    · exact ⟨rBL3, by simp, a1⟩
    split
    · exact ⟨rBL4, by simp, a2⟩
    split
    · exact ⟨rBR3, by simp, a3⟩
    split
    · exact ⟨rBR4, by simp, a4⟩
    split
    · exact ⟨rTR3, by simp, b1⟩
    split
    · exact ⟨rTR4, by simp, b2⟩
    split
    · exact ⟨rTL3, by simp, b3⟩
    split
    · exact ⟨rTL4, by simp, b4⟩
    · exact ⟨_, by simp, c1⟩

/-! ## Shapes in their blocks -/

/-- What is drawn for a block is a scaled copy of unit figures with these properties. -/
structure UnitFor (mask : UInt16) (u : List Cmd) : Prop where
  centres : ∀ f, Cmd.add f ∈ u → ∀ dx dy : Int, f.covers ⟨2 * (dx : Rat) + 1, 2 * (dy : Rat) + 1⟩ →
    (dx = 0 ∧ dy = 0) ∨ (flag mask 4 ∧ -1 ≤ dx ∧ dx ≤ 1 ∧ -1 ≤ dy ∧ dy ≤ 1 ∧ flag mask (3 * (dy + 1) + (dx + 1)).toNat)
  reach : ∀ f, Cmd.add f ∈ u → ∀ q, f.covers q → Reach mask q
  own : flag mask 4 → ∃ f, Cmd.add f ∈ u ∧ f.covers ⟨1, 1⟩
  left : leftover [] u = []

theorem drawFn_unit (d : DrawFn) (mask : UInt16) : UnitFor mask (unitCmds d mask) :=
  ⟨fun _ hf _ _ hc => unit_centres d hf hc, fun _ hf _ hc => unit_reach d hf hc, unit_own d, unit_leftover d mask⟩

/-- The radius of the circle shape, in half block widths. -/
theorem circle_ratio {w : Int} (hw : 2 ≤ w) : ∃ r : Rat, 0 < r ∧ r ≤ 1 ∧ ((Int.tdiv w 2 : Int) : Rat) = (w : Rat) / 2 * r := by
  have e : Int.tdiv w 2 = w / 2 := Int.tdiv_eq_ediv_of_nonneg (by omega)
  have hw' : (0 : Rat) < w := by exact_mod_cast (by omega : 0 < w)
  have h1 : (0 : Rat) < ((w / 2 : Int) : Rat) := by exact_mod_cast (by omega : 0 < w / 2)
  have h2 : 2 * ((w / 2 : Int) : Rat) ≤ w := by exact_mod_cast (by omega : 2 * (w / 2) ≤ w)
  refine ⟨((w / 2 : Int) : Rat) * 2 / w, by positivity, ?_, ?_⟩
  · rw [div_le_one hw']; linarith
  · rw [e]; field_simp

theorem lib_unit (s : LibShape) (fin : Bool) {c : Ctx} (hh : c.h = c.w) (hw : 0 < c.w) (hcirc : s = .circle → 2 ≤ c.w) :
    ∃ u, s.cmds fin c = u.map (cmdTr ((c.w : Rat) / 2) ⟨c.x, c.y⟩) ∧ UnitFor c.neighbours u := by
  have hf (d : DrawFn) : ∃ u, d.cmds c = u.map (cmdTr ((c.w : Rat) / 2) ⟨c.x, c.y⟩) ∧ UnitFor c.neighbours u :=
    ⟨_, cmds_unit d hh, drawFn_unit d _⟩
  cases s with
  | rectangle => exact hf .squareFinder
  | assembled a b => cases fin with
    | true => exact hf a
    | false => exact hf b
  | circle =>
    obtain ⟨r, h0, h1, hr⟩ := circle_ratio (hcirc rfl)
    refine ⟨[.add (.disc 1 1 r), .fill], ?_, ?_, ?_, ?_, ?_⟩
    · simp only [LibShape.cmds, drawCircle, hh, le_refl, if_true, List.map_cons, List.map_nil, cmdTr, figTr, hr, mul_one]
    · intro f hf dx dy hc
      have : f = .disc 1 1 r := by simpa using hf
      subst this
      obtain ⟨a, b, c, e⟩ := disc_box h1 hc
      exact .inl ⟨box_zero a b, box_zero c e⟩
    · intro f hf q hc
      have : f = .disc 1 1 r := by simpa using hf
      subst this
      exact reach_of_box (disc_box h1 hc)
    · intro _; exact ⟨_, List.mem_cons_self, disc_centre h0⟩
    · rfl

/-! ## Fills in colour -/

theorem colourFills_map (k : RGBA) : ∀ (cmds : List Cmd) (path : List Figure) (rest : List (RGBA × Cmd)),
    colourFills path (cmds.map (fun c => (k, c)) ++ rest) = (fills path cmds).map (fun p => (k, p)) ++ colourFills (leftover path cmds) rest
  | [], path, rest => rfl
  | .add f :: l, path, rest => by
    simp only [List.map_cons, List.cons_append, colourFills, fills, leftover]
    exact colourFills_map k l _ rest
  | .fill :: l, path, rest => by
    simp only [List.map_cons, List.cons_append, colourFills, fills, leftover]
    rw [colourFills_map k l _ rest]

theorem colourFills_flatMap {α : Type} (g : α → RGBA) (h : α → List Cmd) : ∀ (l : List α), (∀ a ∈ l, leftover [] (h a) = []) →
    colourFills [] (l.flatMap fun a => (h a).map fun c => (g a, c)) = l.flatMap fun a => (fills [] (h a)).map fun p => (g a, p)
  | [], _ => rfl
  | a :: l, hl => by
    simp only [List.flatMap_cons]
    rw [colourFills_map, hl a List.mem_cons_self, colourFills_flatMap g h l (fun b hb => hl b (List.mem_cons_of_mem _ hb))]

theorem fills_map (s : Rat) (t : Pt) : ∀ (u : List Cmd) (path : List Figure),
    fills (path.map (figTr s t)) (u.map (cmdTr s t)) = (fills path u).map (List.map (figTr s t))
  | [], _ => rfl
  | .add f :: l, path => by
    simp only [List.map_cons, cmdTr, fills]
    rw [← fills_map s t l (path ++ [f]), List.map_append]; rfl
  | .fill :: l, path => by
    simp only [List.map_cons, cmdTr, fills]
    rw [← fills_map s t l []]; rfl

theorem leftover_map (s : Rat) (t : Pt) : ∀ (u : List Cmd) (path : List Figure),
    leftover (path.map (figTr s t)) (u.map (cmdTr s t)) = (leftover path u).map (figTr s t)
  | [], _ => rfl
  | .add f :: l, path => by
    simp only [List.map_cons, cmdTr, leftover]
    rw [← leftover_map s t l (path ++ [f]), List.map_append]; rfl
  | .fill :: l, path => by
    simp only [List.map_cons, cmdTr, leftover]
    rw [← leftover_map s t l []]; rfl

theorem painted_tr {s : Rat} (hs : 0 < s) (t q : Pt) (u : List Cmd) : Painted (u.map (cmdTr s t)) (tr s t q) ↔ Painted u q := by
  unfold Painted
  rw [show fills [] (u.map (cmdTr s t)) = _ from fills_map s t u []]
  simp only [List.mem_map]
  constructor
  · rintro ⟨_, ⟨path, hp, rfl⟩, f, hf, hc⟩
    obtain ⟨g, hg, rfl⟩ := List.mem_map.1 hf
    exact ⟨path, hp, g, hg, (covers_tr hs t q g).1 hc⟩
  · rintro ⟨path, hp, f, hf, hc⟩
    exact ⟨_, ⟨path, hp, rfl⟩, _, List.mem_map_of_mem hf, (covers_tr hs t q f).2 hc⟩

/-! ## C59 -/

/-- The shapes: the two built-in ones, and assembled ones (`shapes.Assemble(drawFinder, drawBlock)`). -/
def meaning (assembled : Nat → DrawFn × DrawFn) : Shape → LibShape
  | .rectangle => .rectangle
  | .circle => .circle
  | .custom k => .assembled (assembled k).1 (assembled k).2

/-- The centre of the block of module `(i, j)`. -/
def centre (o : Opts) (i j : Nat) : Pt :=
  ⟨o.borders.left + o.qrBlockWidth * (i + 1 / 2), o.borders.top + o.qrBlockWidth * (j + 1 / 2)⟩

theorem iterate_val {m : Matrix} {a : Nat × Nat × QRValue} (h : a ∈ m.iterate .row) : a.2.2 = m.raw a.1 a.2.1 ∧ a.1 < m.width ∧ a.2.1 < m.height := by
  obtain ⟨x, y, v⟩ := a
  refine ⟨?_, mem_iterate.1 ⟨v, h⟩⟩
  unfold Matrix.iterate at h
  obtain ⟨p, _, hp⟩ := List.mem_map.1 h
  simp only [Prod.mk.injEq] at hp
  obtain ⟨rfl, rfl, rfl⟩ := hp
  rfl

theorem iterate_raw {m : Matrix} {x y : Nat} (hx : x < m.width) (hy : y < m.height) : (x, y, m.raw x y) ∈ m.iterate .row := by
  obtain ⟨v, hv⟩ := mem_iterate.2 ⟨hx, hy⟩
  have := (iterate_val hv).1
  simp only at this
  rw [← this]; exact hv

theorem getLast_all {α : Type} {l : List α} {P : α → Prop} (h : ∀ a ∈ l, P a) : l.getLast? = none ∨ ∃ a, l.getLast? = some a ∧ P a := by
  cases hl : l.getLast? with
  | none => exact .inl rfl
  | some a => exact .inr ⟨a, rfl, h a (List.mem_of_getLast? hl)⟩

/-- The context of module `(x, y)` (see `C40_calls`). -/
def ctxOf (o : Opts) (m : Matrix) (x y : Nat) : Ctx where
  x := (((x : Int) * o.qrBlockWidth + o.borders.left : Int) : Rat)
  y := (((y : Int) * o.qrBlockWidth + o.borders.top : Int) : Rat)
  w := o.qrBlockWidth
  h := o.qrBlockWidth
  color := if (m.raw x y).bit then o.qrColor else if o.bgTransparent then ⟨0, 0, 0, 0⟩ else o.bgColor
  neighbours := getNeighbours m.bitmap x y

/-- What is drawn for module `(x, y)`. -/
def cmdsOf (assembled : Nat → DrawFn × DrawFn) (o : Opts) (m : Matrix) (x y : Nat) : List Cmd :=
  (meaning assembled o.getShape).cmds (decide ((m.raw x y).ty = .finder)) (ctxOf o m x y)

/-- A point in the coordinates of the block of module `(x, y)`. -/
def inUnit (o : Opts) (x y : Nat) (p : Pt) : Pt :=
  ⟨(p.x - ((x : Int) * o.qrBlockWidth + o.borders.left : Int)) * 2 / o.qrBlockWidth,
   (p.y - ((y : Int) * o.qrBlockWidth + o.borders.top : Int)) * 2 / o.qrBlockWidth⟩

theorem bw_pos (o : Opts) : (0 : Rat) < o.qrBlockWidth := by exact_mod_cast (blockWidth_pos o).1

theorem tr_inUnit (o : Opts) (m : Matrix) (x y : Nat) (p : Pt) :
    tr ((o.qrBlockWidth : Rat) / 2) ⟨(ctxOf o m x y).x, (ctxOf o m x y).y⟩ (inUnit o x y p) = p := by
  have := bw_pos o
  simp only [tr, inUnit, ctxOf]
  cases p
  simp only [Pt.mk.injEq]
  constructor <;> field_simp <;> ring

/-- What is drawn for a module, in unit coordinates. -/
theorem module_unit {assembled : Nat → DrawFn × DrawFn} {o : Opts} (hcirc : o.getShape = .circle → 2 ≤ o.qrBlockWidth) (m : Matrix) (x y : Nat) :
    ∃ u, UnitFor (getNeighbours m.bitmap x y) u ∧ leftover [] (cmdsOf assembled o m x y) = [] ∧
      ∀ p, Painted (cmdsOf assembled o m x y) p ↔ Painted u (inUnit o x y p) := by
  have hcirc' : meaning assembled o.getShape = .circle → 2 ≤ o.qrBlockWidth := by
    intro h
    cases hg : o.getShape with
    | circle => exact hcirc hg
    | rectangle => rw [hg] at h; cases h
    | custom k => rw [hg] at h; cases h
  obtain ⟨u, hu, hU⟩ := lib_unit (meaning assembled o.getShape) (decide ((m.raw x y).ty = .finder)) (c := ctxOf o m x y) rfl
    (blockWidth_pos o).1 hcirc'
  have hbw : (0 : Rat) < (o.qrBlockWidth : Rat) / 2 := by have := bw_pos o; linarith
  refine ⟨u, hU, ?_, ?_⟩
  · unfold cmdsOf
    rw [hu, show leftover [] (u.map _) = _ from leftover_map _ _ u [], hU.left]; rfl
  · intro p
    have := painted_tr hbw ⟨(ctxOf o m x y).x, (ctxOf o m x y).y⟩ (inUnit o x y p) u
    rw [tr_inUnit] at this
    unfold cmdsOf
    rw [hu]
    exact this

/-- The last colour of a point, from what is drawn for the modules. -/
theorem colour_modules (scale : Scaler) (o : Opts) (m : Matrix) (hh : o.halftone = none) (hs : safeOn o m = false)
    (assembled : Nat → DrawFn × DrawFn) (hcirc : o.getShape = .circle → 2 ≤ o.qrBlockWidth) :
    ∃ ops o', draw scale o m = some (ops, o') ∧
      (∀ p, (∀ x y, x < m.width → y < m.height → ¬Painted (cmdsOf assembled o m x y) p) →
        colourAt (drawing (meaning assembled) (shapeCalls ops)) p = none) ∧
      (∀ p k, (∀ x y, x < m.width → y < m.height → Painted (cmdsOf assembled o m x y) p → (ctxOf o m x y).color = k) →
        (∃ x y, x < m.width ∧ y < m.height ∧ Painted (cmdsOf assembled o m x y) p) →
        colourAt (drawing (meaning assembled) (shapeCalls ops)) p = some k) := by
  obtain ⟨ops, o', hd, hcalls⟩ := C40_calls scale o m hh hs
  refine ⟨ops, o', hd, ?_⟩
  have hcalls' : shapeCalls ops = (m.iterate .row).map fun a => (decide ((m.raw a.1 a.2.1).ty = .finder), o.getShape, ctxOf o m a.1 a.2.1) := by
    rw [hcalls]
    refine List.map_congr_left fun a ha => ?_
    rw [(iterate_val ha).1]; rfl
  have hfills : colourFills [] (drawing (meaning assembled) (shapeCalls ops)) =
      (m.iterate .row).flatMap fun a => (fills [] (cmdsOf assembled o m a.1 a.2.1)).map fun p => ((ctxOf o m a.1 a.2.1).color, p) := by
    rw [hcalls']
    unfold drawing
    rw [List.flatMap_map]
    exact colourFills_flatMap (fun a : Nat × Nat × QRValue => (ctxOf o m a.1 a.2.1).color)
      (fun a : Nat × Nat × QRValue => cmdsOf assembled o m a.1 a.2.1) _ (fun a _ => by
        obtain ⟨u, _, h, _⟩ := module_unit (assembled := assembled) hcirc m a.1 a.2.1
        exact h)
  have hmem : ∀ p kp, kp ∈ (colourFills [] (drawing (meaning assembled) (shapeCalls ops))).filter (fun kp => kp.2.any fun f => decide (f.covers p)) ↔
      ∃ x y path, x < m.width ∧ y < m.height ∧ path ∈ fills [] (cmdsOf assembled o m x y) ∧ (∃ f ∈ path, f.covers p) ∧
        kp = ((ctxOf o m x y).color, path) := by
    intro p kp
    rw [hfills, List.mem_filter, List.mem_flatMap]
    constructor
    · rintro ⟨⟨a, ha, hmem⟩, hcov⟩
      obtain ⟨path, hpath, rfl⟩ := List.mem_map.1 hmem
      obtain ⟨f, hf, hfc⟩ := List.any_eq_true.1 hcov
      obtain ⟨_, hx, hy⟩ := iterate_val ha
      exact ⟨a.1, a.2.1, path, hx, hy, hpath, ⟨f, hf, of_decide_eq_true hfc⟩, rfl⟩
    · rintro ⟨x, y, path, hx, hy, hpath, ⟨f, hf, hfc⟩, rfl⟩
      exact ⟨⟨_, iterate_raw hx hy, List.mem_map.2 ⟨path, hpath, rfl⟩⟩, List.any_eq_true.2 ⟨f, hf, decide_eq_true hfc⟩⟩
  refine ⟨?_, ?_⟩
  · intro p hp
    have : (colourFills [] (drawing (meaning assembled) (shapeCalls ops))).filter (fun kp => kp.2.any fun f => decide (f.covers p)) = [] := by
      apply List.eq_nil_iff_forall_not_mem.2
      intro kp hkp
      obtain ⟨x, y, path, hx, hy, h1, ⟨f, hf, hc⟩, _⟩ := (hmem p kp).1 hkp
      exact hp x y hx hy ⟨path, h1, f, hf, hc⟩
    unfold colourAt
    rw [this]; rfl
  · intro p k hk ⟨x, y, hx, hy, path, hp, f, hf, hc⟩
    have hgood : ∀ kp ∈ (colourFills [] (drawing (meaning assembled) (shapeCalls ops))).filter (fun kp => kp.2.any fun f => decide (f.covers p)),
        kp.1 = k := by
      intro kp hkp
      obtain ⟨x, y, path, hx, hy, h1, ⟨f, hf, hc⟩, rfl⟩ := (hmem p kp).1 hkp
      exact hk x y hx hy ⟨path, h1, f, hf, hc⟩
    have hone := (hmem p ((ctxOf o m x y).color, path)).2 ⟨x, y, path, hx, hy, hp, ⟨f, hf, hc⟩, rfl⟩
    unfold colourAt
    rcases getLast_all hgood with h | ⟨a, ha, h⟩
    · rw [List.getLast?_eq_none_iff.1 h] at hone; cases hone
    · rw [ha, Option.map_some, h]

theorem flag_dark {m : Matrix} {x y i j : Nat} {dx dy : Int} (h1 : -1 ≤ dx) (h2 : dx ≤ 1) (h3 : -1 ≤ dy) (h4 : dy ≤ 1) (hi : (i : Int) = x + dx)
    (hj : (j : Int) = y + dy) (h : flag (getNeighbours m.bitmap x y) (3 * (dy + 1) + (dx + 1)).toNat) :
    (m.raw i j).bit = true ∧ i < m.width ∧ j < m.height := by
  obtain ⟨nx, ny, e1, e2, e3, e4, e5⟩ := ((C41_neighbours m x y).1 dx dy h1 h2 h3 h4).1 h
  have : nx = i := by omega
  have : ny = j := by omega
  subst nx ny; exact ⟨e5, e3, e4⟩

theorem flag_exists {m : Matrix} {x y : Nat} (dx dy : Int) (h1 : -1 ≤ dx) (h2 : dx ≤ 1) (h3 : -1 ≤ dy) (h4 : dy ≤ 1)
    (h : flag (getNeighbours m.bitmap x y) (3 * (dy + 1) + (dx + 1)).toNat) : ∃ nx ny : Nat, (nx : Int) = x + dx ∧ (ny : Int) = y + dy := by
  obtain ⟨nx, ny, e1, e2, _⟩ := ((C41_neighbours m x y).1 dx dy h1 h2 h3 h4).1 h
  exact ⟨nx, ny, e1, e2⟩

theorem dark_flag {m : Matrix} {x y i j : Nat} {dx dy : Int} (h1 : -1 ≤ dx) (h2 : dx ≤ 1) (h3 : -1 ≤ dy) (h4 : dy ≤ 1) (hi : (i : Int) = x + dx)
    (hj : (j : Int) = y + dy) (hb : (m.raw i j).bit = true) (hx : i < m.width) (hy : j < m.height) :
    flag (getNeighbours m.bitmap x y) (3 * (dy + 1) + (dx + 1)).toNat :=
  ((C41_neighbours m x y).1 dx dy h1 h2 h3 h4).2 ⟨i, j, hi, hj, hx, hy, hb⟩

theorem inUnit_centre (o : Opts) (x y i j : Nat) :
    inUnit o x y (centre o i j) = ⟨2 * (((i : Int) - x : Int) : Rat) + 1, 2 * (((j : Int) - y : Int) : Rat) + 1⟩ := by
  have := bw_pos o
  simp only [inUnit, centre, Pt.mk.injEq]
  constructor <;> push_cast <;> field_simp <;> ring

/-- **C59.**  With a shape of this library, the centre of every dark module ends up in the foreground colour, and the centre of every light
module in the background colour (given to it by its block, or left from the beginning). -/
theorem C59_centres_partial (scale : Scaler) (o : Opts) (m : Matrix) (hh : o.halftone = none) (hs : safeOn o m = false)
    (assembled : Nat → DrawFn × DrawFn) (hcirc : o.getShape = .circle → 2 ≤ o.qrBlockWidth) :
    ∃ ops o', draw scale o m = some (ops, o') ∧ ∀ i j, i < m.width → j < m.height →
      ((m.raw i j).bit = true → colourAt (drawing (meaning assembled) (shapeCalls ops)) (centre o i j) = some o.qrColor) ∧
      ((m.raw i j).bit = false → colourAt (drawing (meaning assembled) (shapeCalls ops)) (centre o i j) = none ∨
        colourAt (drawing (meaning assembled) (shapeCalls ops)) (centre o i j) =
          some (if o.bgTransparent then ⟨0, 0, 0, 0⟩ else o.bgColor)) := by
  obtain ⟨ops, o', hd, hnone, hsome⟩ := colour_modules scale o m hh hs assembled hcirc
  refine ⟨ops, o', hd, ?_⟩
  intro i j hi hj
  have hgood : ∀ x y, x < m.width → y < m.height → Painted (cmdsOf assembled o m x y) (centre o i j) →
      (ctxOf o m x y).color = if (m.raw i j).bit then o.qrColor else if o.bgTransparent then ⟨0, 0, 0, 0⟩ else o.bgColor := by
    intro x y hx hy hP
    obtain ⟨u, hU, _, hp⟩ := module_unit (assembled := assembled) hcirc m x y
    rw [hp, inUnit_centre] at hP
    obtain ⟨g, hg, hgc⟩ := painted_add hP
    rcases hU.centres g hg _ _ hgc with ⟨h1, h2⟩ | ⟨h4, h1, h2, h3, h5, h6⟩
    · have : x = i := by omega
      have : y = j := by omega
      subst x y; rfl
    · have d1 := (flag_dark (i := x) (j := y) (dx := 0) (dy := 0) (by omega) (by omega) (by omega) (by omega) (by omega) (by omega) h4).1
      have d2 := (flag_dark (i := i) (j := j) h1 h2 h3 h5 (by omega) (by omega) h6).1
      simp only [ctxOf, d1, d2]
  constructor
  · intro hb
    rw [hb] at hgood
    refine hsome _ _ hgood ⟨i, j, hi, hj, ?_⟩
    obtain ⟨u, hU, _, hp⟩ := module_unit (assembled := assembled) hcirc m i j
    rw [hp, inUnit_centre]
    obtain ⟨f, hf, hc⟩ := hU.own (dark_flag (dx := 0) (dy := 0) (by omega) (by omega) (by omega) (by omega) (by omega) (by omega) hb hi hj)
    refine painted_of hU.left hf ?_
    have e : (⟨2 * (((i : Int) - i : Int) : Rat) + 1, 2 * (((j : Int) - j : Int) : Rat) + 1⟩ : Pt) = ⟨1, 1⟩ := by simp
    rw [e]; exact hc
  · intro hb
    rw [hb] at hgood
    by_cases hex : ∃ x y, x < m.width ∧ y < m.height ∧ Painted (cmdsOf assembled o m x y) (centre o i j)
    · exact .inr (hsome _ _ hgood hex)
    · exact .inl (hnone _ (fun x y hx hy hP => hex ⟨x, y, hx, hy, hP⟩))

/-- **C59, the exception.**  Circles in blocks one pixel wide have the radius `1 / 2 = 0`: nothing is drawn at all. -/
theorem C59_counterexample (scale : Scaler) (o : Opts) (m : Matrix) (hh : o.halftone = none) (hs : safeOn o m = false)
    (assembled : Nat → DrawFn × DrawFn) (hcirc : o.getShape = .circle) (hw : o.qrWidth = 1) :
    ∃ ops o', draw scale o m = some (ops, o') ∧ ∀ p, colourAt (drawing (meaning assembled) (shapeCalls ops)) p = none := by
  obtain ⟨ops, o', hd, hcalls⟩ := C40_calls scale o m hh hs
  refine ⟨ops, o', hd, fun p => ?_⟩
  have hbw : o.qrBlockWidth = 1 := by unfold Opts.qrBlockWidth; rw [hw]; rfl
  unfold colourAt
  have hfills : colourFills [] (drawing (meaning assembled) (shapeCalls ops)) =
      (shapeCalls ops).flatMap fun a => (fills [] ((meaning assembled a.2.1).cmds a.1 a.2.2)).map fun p => (a.2.2.color, p) := by
    refine colourFills_flatMap (fun a : Bool × Shape × Ctx => a.2.2.color) (fun a : Bool × Shape × Ctx => (meaning assembled a.2.1).cmds a.1 a.2.2) _ ?_
    intro a ha
    rw [hcalls] at ha
    obtain ⟨v, hv, rfl⟩ := List.mem_map.1 ha
    simp only [hcirc, meaning, LibShape.cmds, drawCircle]
    rfl
  have : (colourFills [] (drawing (meaning assembled) (shapeCalls ops))).filter (fun kp => kp.2.any fun f => decide (f.covers p)) = [] := by
    apply List.eq_nil_iff_forall_not_mem.2
    intro kp hkp
    obtain ⟨hmem, hcov⟩ := List.mem_filter.1 hkp
    rw [hfills, hcalls] at hmem
    obtain ⟨a, ha, hmem⟩ := List.mem_flatMap.1 hmem
    obtain ⟨v, hv, rfl⟩ := List.mem_map.1 ha
    obtain ⟨path, hpath, rfl⟩ := List.mem_map.1 hmem
    obtain ⟨f, hf, hc⟩ := List.any_eq_true.1 hcov
    simp only [hcirc, meaning, LibShape.cmds, drawCircle, hbw, fills, List.nil_append, List.mem_singleton] at hpath
    subst hpath
    rw [List.mem_singleton] at hf
    subst hf
    have := (of_decide_eq_true hc).1
    revert this
    decide
  rw [this]; rfl

/-! ## C60 -/

/-- **C60, the quiet zone.**  With a shape of this library, no point outside the symbol is painted. -/
theorem C60_quiet_zone (scale : Scaler) (o : Opts) (m : Matrix) (hh : o.halftone = none) (hs : safeOn o m = false)
    (assembled : Nat → DrawFn × DrawFn) (hcirc : o.getShape = .circle → 2 ≤ o.qrBlockWidth) :
    ∃ ops o', draw scale o m = some (ops, o') ∧ ∀ p : Pt,
      (p.x < o.borders.left ∨ o.borders.left + m.width * o.qrBlockWidth < p.x ∨ p.y < o.borders.top ∨
        o.borders.top + m.height * o.qrBlockWidth < p.y) →
      colourAt (drawing (meaning assembled) (shapeCalls ops)) p = none := by
  obtain ⟨ops, o', hd, hnone, hsome⟩ := colour_modules scale o m hh hs assembled hcirc
  refine ⟨ops, o', hd, fun p hp => hnone p fun x y hx hy hP => ?_⟩
  obtain ⟨u, hU, _, he⟩ := module_unit (assembled := assembled) hcirc m x y
  rw [he] at hP
  obtain ⟨g, hg, hgc⟩ := painted_add hP
  obtain ⟨b1, b2, b3, b4, r1, r2, r3, r4⟩ := hU.reach g hg _ hgc
  have hbw := bw_pos o
  have hx' : (x : Rat) + 1 ≤ m.width := by exact_mod_cast hx
  have hy' : (y : Rat) + 1 ≤ m.height := by exact_mod_cast hy
  have hx0 : (0 : Rat) ≤ x := by exact_mod_cast Nat.zero_le x
  have hy0 : (0 : Rat) ≤ y := by exact_mod_cast Nat.zero_le y
  -- unit coordinates
  have ex : p.x = o.borders.left + o.qrBlockWidth * (x + (inUnit o x y p).x / 2) := by
    simp only [inUnit]; push_cast; field_simp; ring
  have ey : p.y = o.borders.top + o.qrBlockWidth * (y + (inUnit o x y p).y / 2) := by
    simp only [inUnit]; push_cast; field_simp; ring
  generalize (inUnit o x y p).x = qx at *
  generalize (inUnit o x y p).y = qy at *
  rcases hp with h | h | h | h
  · have : qx < 0 := by
      by_contra hc; push Not at hc
      have := mul_nonneg hbw.le (by linarith : (0 : Rat) ≤ x + qx / 2)
      linarith
    have hf := (r1 this).2
    by_cases hx1 : x = 0
    · subst hx1
      obtain ⟨nx, ny, e1, _⟩ := flag_exists (-1) 0 (by omega) (by omega) (by omega) (by omega) hf
      omega
    · have : (1 : Rat) ≤ x := by exact_mod_cast Nat.one_le_iff_ne_zero.2 hx1
      have := mul_nonneg hbw.le (by linarith : (0 : Rat) ≤ x + qx / 2)
      linarith
  · have hw : (o.qrBlockWidth : Rat) * m.width < o.qrBlockWidth * (x + qx / 2) := by linarith
    have hw := lt_of_mul_lt_mul_left hw hbw.le
    have hf := (r2 (by linarith)).2
    have := (flag_dark (i := x + 1) (j := y) (dx := 1) (dy := 0) (by omega) (by omega) (by omega) (by omega) (by push_cast; omega) (by omega) hf).2.1
    have : (x : Rat) + 2 ≤ m.width := by exact_mod_cast this
    linarith
  · have : qy < 0 := by
      by_contra hc; push Not at hc
      have := mul_nonneg hbw.le (by linarith : (0 : Rat) ≤ y + qy / 2)
      linarith
    have hf := (r3 this).2
    by_cases hy1 : y = 0
    · subst hy1
      obtain ⟨nx, ny, _, e1⟩ := flag_exists 0 (-1) (by omega) (by omega) (by omega) (by omega) hf
      omega
    · have : (1 : Rat) ≤ y := by exact_mod_cast Nat.one_le_iff_ne_zero.2 hy1
      have := mul_nonneg hbw.le (by linarith : (0 : Rat) ≤ y + qy / 2)
      linarith
  · have hw : (o.qrBlockWidth : Rat) * m.height < o.qrBlockWidth * (y + qy / 2) := by linarith
    have hw := lt_of_mul_lt_mul_left hw hbw.le
    have hf := (r4 (by linarith)).2
    have := (flag_dark (i := x) (j := y + 1) (dx := 0) (dy := 1) (by omega) (by omega) (by omega) (by omega) (by omega) (by push_cast; omega) hf).2.2
    have : (y : Rat) + 2 ≤ m.height := by exact_mod_cast this
    linarith

/-- **C60, the block.**  Every function but `LiquidBlock` and `RoundedFinder` paints inside its block; these two paint out of it only towards
dark neighbours of a dark module, and at most half a block wide.  None leaves anything in the path. -/
theorem C60_block (d : DrawFn) (c : Ctx) (hh : c.h = c.w) (hw : 0 < c.w) :
    (∀ p, Painted (d.cmds c) p →
      (c.x - c.w / 2 ≤ p.x ∧ p.x ≤ c.x + c.w + c.w / 2 ∧ c.y - c.w / 2 ≤ p.y ∧ p.y ≤ c.y + c.w + c.w / 2) ∧
      (p.x < c.x → c.neighbours.toNat.testBit 4 ∧ c.neighbours.toNat.testBit 3) ∧
      (c.x + c.w < p.x → c.neighbours.toNat.testBit 4 ∧ c.neighbours.toNat.testBit 5) ∧
      (p.y < c.y → c.neighbours.toNat.testBit 4 ∧ c.neighbours.toNat.testBit 1) ∧
      (c.y + c.w < p.y → c.neighbours.toNat.testBit 4 ∧ c.neighbours.toNat.testBit 7) ∧
      (d ≠ .liquidBlock → d ≠ .roundedFinder → c.x ≤ p.x ∧ p.x ≤ c.x + c.w ∧ c.y ≤ p.y ∧ p.y ≤ c.y + c.w)) ∧
    leftover [] (d.cmds c) = [] := by
  have hw' : (0 : Rat) < c.w := by exact_mod_cast hw
  have hs : (0 : Rat) < (c.w : Rat) / 2 := by linarith
  refine ⟨fun p hP => ?_, ?_⟩
  · have et : tr ((c.w : Rat) / 2) ⟨c.x, c.y⟩ ⟨(p.x - c.x) * 2 / c.w, (p.y - c.y) * 2 / c.w⟩ = p := by
      cases p; simp only [tr, Pt.mk.injEq]
      constructor <;> field_simp <;> ring
    rw [cmds_unit d hh, ← et, painted_tr hs] at hP
    obtain ⟨f, hf, hc⟩ := painted_add hP
    obtain ⟨b1, b2, b3, b4, r1, r2, r3, r4⟩ := unit_reach d hf hc
    simp only at b1 b2 b3 b4 r1 r2 r3 r4
    rw [le_div_iff₀ hw'] at b1 b3
    rw [div_le_iff₀ hw'] at b2 b4
    refine ⟨⟨?_, ?_, ?_, ?_⟩, ?_, ?_, ?_, ?_, ?_⟩
    · linarith
    · linarith
    · linarith
    · linarith
    · intro h; exact r1 (by rw [div_lt_iff₀ hw']; linarith)
    · intro h; exact r2 (by rw [lt_div_iff₀ hw']; linarith)
    · intro h; exact r3 (by rw [div_lt_iff₀ hw']; linarith)
    · intro h; exact r4 (by rw [lt_div_iff₀ hw']; linarith)
    · intro h1 h2
      have hk : d.keepsToBlock = true := by cases d <;> first | rfl | exact absurd rfl h1 | exact absurd rfl h2
      obtain ⟨a1, a2, a3, a4⟩ := inner_box (keeps_inner hk hf) hc
      simp only at a1 a2 a3 a4
      rw [le_div_iff₀ hw'] at a1 a3
      rw [div_le_iff₀ hw'] at a2 a4
      refine ⟨?_, ?_, ?_, ?_⟩ <;> linarith
  · rw [cmds_unit d hh, show leftover [] ((unitCmds d c.neighbours).map _) = _ from leftover_map _ _ _ [], unit_leftover]; rfl

/-! ## C62 -/

/-- **C62, vertical stripes.**  Between two dark modules of its column, a dark module drawn by `VStripeBlock(ratio)` is a stripe of the width
`ratio` (0.85 if `ratio` is not in [0.6, 1]) times the block width, in the middle of the block. -/
theorem C62_v_stripe (ratio : Rat) (c : Ctx) (hh : c.h = c.w) (hw : 0 < c.w) (h1 : c.neighbours.toNat.testBit 1 = true)
    (h4 : c.neighbours.toNat.testBit 4 = true) (h7 : c.neighbours.toNat.testBit 7 = true) (p : Pt) :
    Painted ((DrawFn.vStripeBlock ratio).cmds c) p ↔
      (c.x + c.w / 2 - c.w * (if 6 / 10 ≤ ratio ∧ ratio ≤ 1 then ratio else 85 / 100) / 2 ≤ p.x ∧
       p.x < c.x + c.w / 2 + c.w * (if 6 / 10 ≤ ratio ∧ ratio ≤ 1 then ratio else 85 / 100) / 2) ∧ c.y ≤ p.y ∧ p.y < c.y + c.w := by
  have hw' : (0 : Rat) < c.w := by exact_mod_cast hw
  have hs : (0 : Rat) < (c.w : Rat) / 2 := by linarith
  have er : (if 6 / 10 ≤ ratio ∧ ratio ≤ 1 then ratio else 85 / 100) = vRatio ratio := by
    unfold vRatio
    by_cases h : 6 / 10 ≤ ratio ∧ ratio ≤ 1
    · rw [if_pos h, if_neg]; rintro (g | g) <;> linarith [h.1, h.2]
    · rw [if_neg h, if_pos]; by_contra hc; push Not at hc; exact h ⟨hc.1, hc.2⟩
  rw [er]
  obtain ⟨l1, l2⟩ := vRatio_range ratio
  have et : tr ((c.w : Rat) / 2) ⟨c.x, c.y⟩ ⟨(p.x - c.x) * 2 / c.w, (p.y - c.y) * 2 / c.w⟩ = p := by
    cases p; simp only [tr, Pt.mk.injEq]
    constructor <;> field_simp <;> ring
  have hu : Painted ((DrawFn.vStripeBlock ratio).cmds c) p ↔ Painted (unitCmds (.vStripeBlock ratio) c.neighbours) ⟨(p.x - c.x) * 2 / c.w, (p.y - c.y) * 2 / c.w⟩ := by
    rw [cmds_unit _ hh]
    have := painted_tr hs ⟨c.x, c.y⟩ ⟨(p.x - c.x) * 2 / c.w, (p.y - c.y) * 2 / c.w⟩ (unitCmds (.vStripeBlock ratio) c.neighbours)
    rw [et] at this
    exact this
  rw [hu]
  have ex : p.x = c.x + c.w / 2 * ((p.x - c.x) * 2 / c.w) := by field_simp; ring
  have ey : p.y = c.y + c.w / 2 * ((p.y - c.y) * 2 / c.w) := by field_simp; ring
  have g1 : has c.neighbours (NTop ||| NSelf) = true := flags_has fun i hi => by
    rw [show (NTop ||| NSelf).toNat = 2 ^ 1 ||| 2 ^ 4 from by decide, Nat.testBit_or, Nat.testBit_two_pow, Nat.testBit_two_pow] at hi
    simp only [Bool.or_eq_true, decide_eq_true_eq] at hi
    rcases hi with rfl | rfl
    · exact h1
    · exact h4
  have g7 : has c.neighbours (NBot ||| NSelf) = true := flags_has fun i hi => by
    rw [show (NBot ||| NSelf).toNat = 2 ^ 7 ||| 2 ^ 4 from by decide, Nat.testBit_or, Nat.testBit_two_pow, Nat.testBit_two_pow] at hi
    simp only [Bool.or_eq_true, decide_eq_true_eq] at hi
    rcases hi with rfl | rfl
    · exact h7
    · exact h4
  have hiff : Painted (unitCmds (.vStripeBlock ratio) c.neighbours) ⟨(p.x - c.x) * 2 / c.w, (p.y - c.y) * 2 / c.w⟩ ↔
      ∃ f, Cmd.add f ∈ unitCmds (.vStripeBlock ratio) c.neighbours ∧ f.covers ⟨(p.x - c.x) * 2 / c.w, (p.y - c.y) * 2 / c.w⟩ :=
    ⟨painted_add, fun ⟨f, hf, hc⟩ => painted_of (unit_leftover _ _) hf hc⟩
  rw [hiff]
  simp only [unitCmds, g1, g7, when, if_true, drawRect, List.mem_append, List.mem_cons, List.not_mem_nil, or_false, Cmd.add.injEq, reduceCtorEq]
  generalize vRatio ratio = ρ at *
  generalize (p.x - c.x) * 2 / c.w = qx at *
  generalize (p.y - c.y) * 2 / c.w = qy at *
  have iff1 : (c.x + c.w / 2 - c.w * ρ / 2 ≤ p.x ∧ p.x < c.x + c.w / 2 + c.w * ρ / 2) ↔ (1 - ρ ≤ qx ∧ qx < 1 + ρ) := by
    rw [ex]
    constructor
    · rintro ⟨a, b⟩
      constructor
      · by_contra hc; push Not at hc; have := mul_lt_mul_of_pos_left hc hs; linarith
      · by_contra hc; push Not at hc; have := mul_le_mul_of_nonneg_left hc hs.le; linarith
    · rintro ⟨a, b⟩
      have := mul_le_mul_of_nonneg_left a hs.le
      have := mul_lt_mul_of_pos_left b hs
      constructor <;> linarith
  have iff2 : (c.y ≤ p.y ∧ p.y < c.y + c.w) ↔ (0 ≤ qy ∧ qy < 2) := by
    rw [ey]
    constructor
    · rintro ⟨a, b⟩
      constructor
      · by_contra hc; push Not at hc; have := mul_lt_mul_of_pos_left hc hs; linarith
      · by_contra hc; push Not at hc; have := mul_le_mul_of_nonneg_left hc hs.le; linarith
    · rintro ⟨a, b⟩
      have := mul_le_mul_of_nonneg_left a hs.le
      have := mul_lt_mul_of_pos_left b hs
      constructor <;> linarith
  rw [iff1, iff2]
  constructor
  · rintro ⟨f, (rfl | rfl) | rfl, hc⟩
    · obtain ⟨h0, h⟩ := hc
      simp only at h
      have hx : (qx - 1) * (qx - 1) < ρ * ρ := by nlinarith [mul_self_nonneg (qy - 1)]
      have hy : (qy - 1) * (qy - 1) < ρ * ρ := by nlinarith [mul_self_nonneg (qx - 1)]
      have ax := abs_lt.1 (lt_of_pow_lt_pow_left₀ 2 h0.le (by rw [sq_abs]; nlinarith) : |qx - 1| < ρ)
      have ay := abs_lt.1 (lt_of_pow_lt_pow_left₀ 2 h0.le (by rw [sq_abs]; nlinarith) : |qy - 1| < ρ)
      refine ⟨⟨?_, ?_⟩, ?_, ?_⟩ <;> linarith [ax.1, ax.2, ay.1, ay.2]
    · obtain ⟨a1, a2, a3, a4⟩ := hc
      simp only at a1 a2 a3 a4
      refine ⟨⟨?_, ?_⟩, ?_, ?_⟩ <;> linarith
    · obtain ⟨a1, a2, a3, a4⟩ := hc
      simp only at a1 a2 a3 a4
      refine ⟨⟨?_, ?_⟩, ?_, ?_⟩ <;> linarith
  · rintro ⟨⟨a1, a2⟩, a3, a4⟩
    by_cases hq : qy < 1
    · exact ⟨_, .inl (.inr rfl), by refine ⟨?_, ?_, ?_, ?_⟩ <;> simp only <;> linarith⟩
    · push Not at hq
      exact ⟨_, .inr rfl, by refine ⟨?_, ?_, ?_, ?_⟩ <;> simp only <;> linarith⟩

/-- **C63, what is true.**  Between two dark modules of its row, a dark module drawn by `HStripeBlock(ratio)` is a stripe in the middle of the block
whose height is 0.9 times that of the block, whatever the ratio. -/
theorem C63_h_stripe_partial (ratio : Rat) (c : Ctx) (hh : c.h = c.w) (hw : 0 < c.w) (h3 : c.neighbours.toNat.testBit 3 = true)
    (h4 : c.neighbours.toNat.testBit 4 = true) (h5 : c.neighbours.toNat.testBit 5 = true) (p : Pt) :
    Painted ((DrawFn.hStripeBlock ratio).cmds c) p ↔
      (c.y + c.w / 2 - c.w * (9 / 10) / 2 ≤ p.y ∧ p.y < c.y + c.w / 2 + c.w * (9 / 10) / 2) ∧ c.x ≤ p.x ∧ p.x < c.x + c.w := by
  have hw' : (0 : Rat) < c.w := by exact_mod_cast hw
  have hs : (0 : Rat) < (c.w : Rat) / 2 := by linarith
  have et : tr ((c.w : Rat) / 2) ⟨c.x, c.y⟩ ⟨(p.x - c.x) * 2 / c.w, (p.y - c.y) * 2 / c.w⟩ = p := by
    cases p; simp only [tr, Pt.mk.injEq]
    constructor <;> field_simp <;> ring
  have hu : Painted ((DrawFn.hStripeBlock ratio).cmds c) p ↔ Painted (unitCmds (.hStripeBlock ratio) c.neighbours) ⟨(p.x - c.x) * 2 / c.w, (p.y - c.y) * 2 / c.w⟩ := by
    rw [cmds_unit _ hh]
    have := painted_tr hs ⟨c.x, c.y⟩ ⟨(p.x - c.x) * 2 / c.w, (p.y - c.y) * 2 / c.w⟩ (unitCmds (.hStripeBlock ratio) c.neighbours)
    rw [et] at this
    exact this
  rw [hu]
  have ex : p.x = c.x + c.w / 2 * ((p.x - c.x) * 2 / c.w) := by field_simp; ring
  have ey : p.y = c.y + c.w / 2 * ((p.y - c.y) * 2 / c.w) := by field_simp; ring
  have g1 : has c.neighbours (NLeft ||| NSelf) = true := flags_has fun i hi => by
    rw [show (NLeft ||| NSelf).toNat = 2 ^ 3 ||| 2 ^ 4 from by decide, Nat.testBit_or, Nat.testBit_two_pow, Nat.testBit_two_pow] at hi
    simp only [Bool.or_eq_true, decide_eq_true_eq] at hi
    rcases hi with rfl | rfl
    · exact h3
    · exact h4
  have g7 : has c.neighbours (NRight ||| NSelf) = true := flags_has fun i hi => by
    rw [show (NRight ||| NSelf).toNat = 2 ^ 5 ||| 2 ^ 4 from by decide, Nat.testBit_or, Nat.testBit_two_pow, Nat.testBit_two_pow] at hi
    simp only [Bool.or_eq_true, decide_eq_true_eq] at hi
    rcases hi with rfl | rfl
    · exact h5
    · exact h4
  have hiff : Painted (unitCmds (.hStripeBlock ratio) c.neighbours) ⟨(p.x - c.x) * 2 / c.w, (p.y - c.y) * 2 / c.w⟩ ↔
      ∃ f, Cmd.add f ∈ unitCmds (.hStripeBlock ratio) c.neighbours ∧ f.covers ⟨(p.x - c.x) * 2 / c.w, (p.y - c.y) * 2 / c.w⟩ :=
    ⟨painted_add, fun ⟨f, hf, hc⟩ => painted_of (unit_leftover _ _) hf hc⟩
  rw [hiff]
  simp only [unitCmds, g1, g7, when, if_true, drawRect, List.mem_append, List.mem_cons, List.not_mem_nil, or_false, Cmd.add.injEq, reduceCtorEq]
  generalize (p.x - c.x) * 2 / c.w = qx at *
  generalize (p.y - c.y) * 2 / c.w = qy at *
  have iff1 : (c.y + c.w / 2 - c.w * (9 / 10) / 2 ≤ p.y ∧ p.y < c.y + c.w / 2 + c.w * (9 / 10) / 2) ↔ (1 / 10 ≤ qy ∧ qy < 19 / 10) := by
    rw [ey]
    constructor
    · rintro ⟨a, b⟩
      constructor
      · by_contra hc; push Not at hc; have := mul_lt_mul_of_pos_left hc hs; linarith
      · by_contra hc; push Not at hc; have := mul_le_mul_of_nonneg_left hc hs.le; linarith
    · rintro ⟨a, b⟩
      have := mul_le_mul_of_nonneg_left a hs.le
      have := mul_lt_mul_of_pos_left b hs
      constructor <;> linarith
  have iff2 : (c.x ≤ p.x ∧ p.x < c.x + c.w) ↔ (0 ≤ qx ∧ qx < 2) := by
    rw [ex]
    constructor
    · rintro ⟨a, b⟩
      constructor
      · by_contra hc; push Not at hc; have := mul_lt_mul_of_pos_left hc hs; linarith
      · by_contra hc; push Not at hc; have := mul_le_mul_of_nonneg_left hc hs.le; linarith
    · rintro ⟨a, b⟩
      have := mul_le_mul_of_nonneg_left a hs.le
      have := mul_lt_mul_of_pos_left b hs
      constructor <;> linarith
  rw [iff1, iff2]
  constructor
  · rintro ⟨f, (rfl | rfl) | rfl, hc⟩
    · obtain ⟨h0, h⟩ := hc
      simp only at h
      have h0' : (0 : Rat) < 9 / 10 := by norm_num
      have hx : (qx - 1) * (qx - 1) < 9 / 10 * (9 / 10) := by nlinarith [mul_self_nonneg (qy - 1)]
      have hy : (qy - 1) * (qy - 1) < 9 / 10 * (9 / 10) := by nlinarith [mul_self_nonneg (qx - 1)]
      have ax := abs_lt.1 (lt_of_pow_lt_pow_left₀ 2 h0'.le (by rw [sq_abs]; nlinarith) : |qx - 1| < 9 / 10)
      have ay := abs_lt.1 (lt_of_pow_lt_pow_left₀ 2 h0'.le (by rw [sq_abs]; nlinarith) : |qy - 1| < 9 / 10)
      refine ⟨⟨?_, ?_⟩, ?_, ?_⟩ <;> linarith [ax.1, ax.2, ay.1, ay.2]
    · obtain ⟨a1, a2, a3, a4⟩ := hc
      simp only at a1 a2 a3 a4
      refine ⟨⟨?_, ?_⟩, ?_, ?_⟩ <;> linarith
    · obtain ⟨a1, a2, a3, a4⟩ := hc
      simp only at a1 a2 a3 a4
      refine ⟨⟨?_, ?_⟩, ?_, ?_⟩ <;> linarith
  · rintro ⟨⟨a1, a2⟩, a3, a4⟩
    by_cases hq : qx < 1
    · exact ⟨_, .inl (.inr rfl), by refine ⟨?_, ?_, ?_, ?_⟩ <;> simp only <;> linarith⟩
    · push Not at hq
      exact ⟨_, .inr rfl, by refine ⟨?_, ?_, ?_, ?_⟩ <;> simp only <;> linarith⟩

/-- **C63 is false**: with the ratio 0.6 a stripe of 0.6 block heights is promised, but points out of it are painted. -/
theorem C63_counterexample : ¬ ∀ (ratio : Rat) (c : Ctx) (p : Pt), 6 / 10 ≤ ratio → ratio ≤ 1 → c.h = c.w → 0 < c.w →
    c.neighbours.toNat.testBit 3 = true → c.neighbours.toNat.testBit 4 = true → c.neighbours.toNat.testBit 5 = true →
    Painted ((DrawFn.hStripeBlock ratio).cmds c) p →
      c.y + c.w / 2 - c.w * ratio / 2 ≤ p.y ∧ p.y < c.y + c.w / 2 + c.w * ratio / 2 := by
  intro h
  have := h (6 / 10) ⟨0, 0, 20, 20, ⟨0, 0, 0, 255⟩, NLeft ||| NSelf ||| NRight⟩ ⟨10, 18⟩ (by norm_num) (by norm_num) rfl (by decide) (by decide) (by decide)
    (by decide) ⟨[.disc 10 10 9, .rect 0 1 10 18], by decide +kernel, .disc 10 10 9, by simp, by decide +kernel⟩
  have := this.2
  norm_num at this

end QR.Standard
