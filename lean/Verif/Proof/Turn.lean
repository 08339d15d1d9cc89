import Verif.Spec.Turn
import Verif.Spec.Symbol
/-!
# The eight views of a symbol
-/
namespace Spec

/-- Rows and columns exchanged, rows reversed, columns reversed: where module `(i, j)` of a view comes from. -/
def place (n : Nat) (g : Bool × Bool × Bool) (i j : Nat) : Nat × Nat :=
  let p := if g.1 then (j, i) else (i, j)
  (if g.2.1 then n - 1 - p.1 else p.1, if g.2.2 then n - 1 - p.2 else p.2)

def view (n : Nat) (bm : List (List Bool)) (g : Bool × Bool × Bool) : List (List Bool) :=
  picture n fun i j => pixel bm (place n g i j).1 (place n g i j).2

theorem sheet_length (h w f) : (sheet h w f).length = h := by simp [sheet]

theorem sheet_width (h w f) : width (sheet h w f) = if h = 0 then 0 else w := by
  cases h with
  | zero => rfl
  | succ h => simp [width, sheet, List.range_succ_eq_map]

theorem pixel_sheet {h w f i j} (hi : i < h) (hj : j < w) : pixel (sheet h w f) i j = f i j := by
  simp [pixel, sheet, List.getD_eq_getElem?_getD, hi, hj]

theorem pixel_sheet_out {h w f i j} (hn : ¬ (i < h ∧ j < w)) : pixel (sheet h w f) i j = false := by
  by_cases hi : i < h
  · have hj : w ≤ j := by omega
    simp [pixel, sheet, List.getD_eq_getElem?_getD, hi, hj]
  · simp [pixel, sheet, List.getD_eq_getElem?_getD, Nat.not_lt.1 hi]

theorem sheet_congr {h w f g} (e : ∀ i j, i < h → j < w → f i j = g i j) : sheet h w f = sheet h w g := by
  unfold sheet
  apply List.map_congr_left
  intro i hi
  apply List.map_congr_left
  intro j hj
  exact e i j (List.mem_range.1 hi) (List.mem_range.1 hj)

theorem picture_length (n f) : (picture n f).length = n := sheet_length _ _ _

theorem picture_width (n f) : width (picture n f) = n := by
  rw [picture, sheet_width]; split <;> simp_all

theorem pixel_picture {n f i j} (hi : i < n) (hj : j < n) : pixel (picture n f) i j = f i j := pixel_sheet hi hj

theorem picture_congr {n f g} (h : ∀ i j, i < n → j < n → f i j = g i j) : picture n f = picture n g := sheet_congr h

theorem picture_pixel {n bm} (hr : bm.length = n) (hc : ∀ r ∈ bm, r.length = n) : picture n (pixel bm) = bm := by
  apply List.ext_getElem
  · simp [picture, sheet, hr]
  · intro i h1 h2
    have hi : i < n := by omega
    simp only [picture, sheet, List.getElem_map, List.getElem_range]
    have hl := hc _ (List.getElem_mem h2)
    apply List.ext_getElem
    · simp [hl]
    · intro j h3 h4
      simp [pixel, List.getD_eq_getElem?_getD, h2, h4]

theorem place_lt {n g i j} (hi : i < n) (hj : j < n) : (place n g i j).1 < n ∧ (place n g i j).2 < n := by
  obtain ⟨a, b, c⟩ := g
  cases a <;> cases b <;> cases c <;> simp [place] <;> omega

theorem view_id {n bm} (hr : bm.length = n) (hc : ∀ r ∈ bm, r.length = n) : view n bm (false, false, false) = bm := by
  rw [← picture_pixel hr hc]
  apply picture_congr
  intro i j _ _
  simp only [place, Bool.false_eq_true, if_false]
  rw [picture_pixel hr hc]

/-- A quarter turn of a view. -/
def turnG (g : Bool × Bool × Bool) : Bool × Bool × Bool :=
  if g.1 then (false, g.2.1, !g.2.2) else (true, !g.2.1, g.2.2)

/-- The mirror image of a view. -/
def mirrorG (g : Bool × Bool × Bool) : Bool × Bool × Bool :=
  if g.1 then (true, !g.2.1, g.2.2) else (false, g.2.1, !g.2.2)

theorem turn_view (n bm g) : turn (view n bm g) = view n bm (turnG g) := by
  unfold turn
  rw [show (view n bm g).length = n from picture_length _ _, show width (view n bm g) = n from picture_width _ _]
  apply picture_congr
  intro i j hi hj
  rw [view, pixel_picture (by omega) hi]
  have e : place n g (n - 1 - j) i = place n (turnG g) i j := by
    obtain ⟨a, b, c⟩ := g
    cases a <;> cases b <;> cases c <;> simp [place, turnG] <;> omega
  rw [e]

theorem mirror_view (n bm g) : mirror (view n bm g) = view n bm (mirrorG g) := by
  unfold mirror
  rw [show (view n bm g).length = n from picture_length _ _, show width (view n bm g) = n from picture_width _ _]
  apply picture_congr
  intro i j hi hj
  rw [view, pixel_picture hi (by omega)]
  have e : place n g i (n - 1 - j) = place n (mirrorG g) i j := by
    obtain ⟨a, b, c⟩ := g
    cases a <;> cases b <;> cases c <;> simp [place, mirrorG] <;> omega
  rw [e]

theorem seen_view {n bm s} (hr : bm.length = n) (hc : ∀ r ∈ bm, r.length = n) (h : Seen bm s) : ∃ g, s = view n bm g := by
  induction h with
  | straight => exact ⟨_, (view_id hr hc).symm⟩
  | turned _ ih => obtain ⟨g, rfl⟩ := ih; exact ⟨_, turn_view _ _ _⟩
  | mirrored _ ih => obtain ⟨g, rfl⟩ := ih; exact ⟨_, mirror_view _ _ _⟩

theorem views_view (n bm g) : views (view n bm g) =
    [g, turnG g, turnG (turnG g), turnG (turnG (turnG g)), mirrorG g, turnG (mirrorG g), turnG (turnG (mirrorG g)),
      turnG (turnG (turnG (mirrorG g)))].map (view n bm) := by
  simp only [views, quarters, turn_view, mirror_view, List.map, List.cons_append, List.nil_append]

/-- The bitmap is among the views of each of its views. -/
theorem mem_views_view {n bm g} (hr : bm.length = n) (hc : ∀ r ∈ bm, r.length = n) : bm ∈ views (view n bm g) := by
  have : (false, false, false) ∈ [g, turnG g, turnG (turnG g), turnG (turnG (turnG g)), mirrorG g, turnG (mirrorG g),
      turnG (turnG (mirrorG g)), turnG (turnG (turnG (mirrorG g)))] := by
    have all : ∀ g : Bool × Bool × Bool, (false, false, false) ∈ [g, turnG g, turnG (turnG g), turnG (turnG (turnG g)), mirrorG g,
        turnG (mirrorG g), turnG (turnG (mirrorG g)), turnG (turnG (turnG (mirrorG g)))] := by
      rintro ⟨a, b, c⟩; cases a <;> cases b <;> cases c <;> decide
    exact all g
  rw [views_view]
  have h := List.mem_map_of_mem (f := view n bm) this
  rwa [view_id hr hc] at h

theorem finderAt_iff {bm a b} : finderAt bm a b = true ↔
    ∀ i j, i < 7 → j < 7 → pixel bm (a + i) (b + j) = (cheb i j 3 3 != 2) := by
  simp only [finderAt, List.all_eq_true, List.mem_range, beq_iff_eq]
  exact ⟨fun h i j hi hj => h i hi j hj, fun h i hi j hj => h i j hi hj⟩

/-- Each of the six views in which the lower right corner is moved to another place shows three finder patterns only if
there is one in the lower right corner. -/
theorem finder_lower_right {n bm g} (hn : 7 ≤ n) (h1 : finderAt (view n bm g) 0 0 = true)
    (h2 : finderAt (view n bm g) 0 (n - 7) = true) (h3 : finderAt (view n bm g) (n - 7) 0 = true)
    (hg : g.2.1 = true ∨ g.2.2 = true) : finderAt bm (n - 7) (n - 7) = true := by
  rw [finderAt_iff] at h1 h2 h3 ⊢
  have px : ∀ i j, i < n → j < n → pixel (view n bm g) i j = pixel bm (place n g i j).1 (place n g i j).2 :=
    fun i j hi hj => pixel_picture hi hj
  intro i j hi hj
  -- the place `(i', j')` inside the finder of the view
  obtain ⟨a, b, c⟩ := g
  have key : ∀ x y i' j', i' < 7 → j' < 7 → x + i' < n → y + j' < n →
      pixel (view n bm (a, b, c)) (x + i') (y + j') = (cheb i' j' 3 3 != 2) →
      place n (a, b, c) (x + i') (y + j') = (n - 7 + i, n - 7 + j) → cheb i' j' 3 3 = cheb i j 3 3 →
      pixel bm (n - 7 + i) (n - 7 + j) = (cheb i j 3 3 != 2) := by
    intro x y i' j' _ _ hx hy hp he hc
    rw [px _ _ hx hy, he, hc] at hp
    exact hp
  have sym : cheb (6 - i) j 3 3 = cheb i j 3 3 ∧ cheb i (6 - j) 3 3 = cheb i j 3 3 ∧ cheb (6 - i) (6 - j) 3 3 = cheb i j 3 3 ∧
      cheb j i 3 3 = cheb i j 3 3 ∧ cheb (6 - j) i 3 3 = cheb i j 3 3 ∧ cheb j (6 - i) 3 3 = cheb i j 3 3 ∧
      cheb (6 - j) (6 - i) 3 3 = cheb i j 3 3 := by
    simp only [cheb, dist]; refine ⟨?_, ?_, ?_, ?_, ?_, ?_, ?_⟩ <;> omega
  obtain ⟨s1, s2, s3, s4, s5, s6, s7⟩ := sym
  cases a <;> cases b <;> cases c <;> simp only [Bool.false_eq_true, or_self] at hg
  · -- (i, n-1-j): upper right... columns reversed: lower right comes from lower left
    exact key (n - 7) 0 i (6 - j) hi (by omega) (by omega) (by omega) (h3 _ _ hi (by omega)) (by simp [place]; omega) s2
  · exact key 0 (n - 7) (6 - i) j (by omega) hj (by omega) (by omega) (h2 _ _ (by omega) hj) (by simp [place]; omega) s1
  · exact key 0 0 (6 - i) (6 - j) (by omega) (by omega) (by omega) (by omega) (h1 _ _ (by omega) (by omega)) (by simp [place]; omega) s3
  · -- swapped: place (x, y) = (y, n-1-x)
    exact key 0 (n - 7) (6 - j) i (by omega) hi (by omega) (by omega) (h2 _ _ (by omega) hi) (by simp [place]; omega) s5
  · exact key (n - 7) 0 j (6 - i) hj (by omega) (by omega) (by omega) (h3 _ _ hj (by omega)) (by simp [place]; omega) s6
  · exact key 0 0 (6 - j) (6 - i) (by omega) (by omega) (by omega) (by omega) (h1 _ _ (by omega) (by omega)) (by simp [place]; omega) s7

/-- Read in the mirror, no format word is a format word. -/
theorem format_mirror : ∀ f ∈ formats, ∀ f' ∈ formats,
    bitsToNat (numBits 15 (formatWord f.1 f.2)).reverse ≠ formatWord f'.1 f'.2 := by
  decide +kernel

theorem readCells_swap {n bm} (hn : 9 ≤ n) :
    readCells (view n bm (true, false, false)) formatCells1 =
      bitsToNat (formatCells1.map fun p => pixel bm p.1 p.2).reverse := by
  have px : ∀ i j, i < 9 → j < 9 → pixel (view n bm (true, false, false)) i j = pixel bm j i := by
    intro i j hi hj
    rw [view, pixel_picture (by omega) (by omega)]; rfl
  have : (formatCells1.map fun (i, j) => pixel (view n bm (true, false, false)) i j) =
      (formatCells1.map fun p => pixel bm p.1 p.2).reverse := by
    simp only [formatCells1, List.map_cons, List.map_nil, List.reverse_cons, List.reverse_nil, List.nil_append, List.cons_append]
    rw [px _ _ (by omega) (by omega), px _ _ (by omega) (by omega), px _ _ (by omega) (by omega), px _ _ (by omega) (by omega),
      px _ _ (by omega) (by omega), px _ _ (by omega) (by omega), px _ _ (by omega) (by omega), px _ _ (by omega) (by omega),
      px _ _ (by omega) (by omega), px _ _ (by omega) (by omega), px _ _ (by omega) (by omega), px _ _ (by omega) (by omega),
      px _ _ (by omega) (by omega), px _ _ (by omega) (by omega), px _ _ (by omega) (by omega)]
  exact congrArg bitsToNat this

theorem mem_formats (lv : Level) {k : Nat} (hk : k < 8) : (lv, k) ∈ formats := by
  have : ∀ k < 8, (lv, k) ∈ formats := by cases lv <;> decide
  exact this k hk

theorem bits_formatWord : ∀ f ∈ formats, bitsToNat (numBits 15 (formatWord f.1 f.2)) = formatWord f.1 f.2 := by decide +kernel

variable {v : Nat} {lv : Level} {k : Nat} {stream : List Bool} {bm : List (List Bool)}

theorem symbol_format (h : IsSymbol v lv k stream bm) : (readFormat bm).isSome = true := by
  unfold readFormat
  rw [List.find?_isSome]
  refine ⟨(lv, k), mem_formats lv h.mask, ?_⟩
  have : readCells bm formatCells1 = bitsToNat (formatCells1.map fun p => pixel bm p.1 p.2) := rfl
  simp only [this, h.format1, bits_formatWord _ (mem_formats lv h.mask), beq_self_eq_true]

theorem symbol_no_mirror (h : IsSymbol v lv k stream bm) : readFormat (view (side v) bm (true, false, false)) = none := by
  unfold readFormat
  rw [List.find?_eq_none]
  intro f hf
  have h9 : 9 ≤ side v := by unfold side; omega
  have := format_mirror _ (mem_formats lv h.mask) f hf
  simp only [readCells_swap h9, h.format1]
  intro e
  exact this (beq_iff_eq.1 e).symm

theorem pattern_finder (h1 : 1 ≤ v) {i j : Nat} (hi : i < 7) (hj : j < 7) :
    patternColour v i j = some (cheb i j 3 3 != 2) ∧
    patternColour v i (side v - 7 + j) = some (cheb i j 3 3 != 2) ∧
    patternColour v (side v - 7 + i) j = some (cheb i j 3 3 != 2) := by
  have hs : 21 ≤ side v := by unfold side; omega
  generalize hn : side v = n at *
  have a1 : inFinderArea v i j = true := by simp [inFinderArea]; omega
  have a2 : inFinderArea v i (n - 7 + j) = true := by simp [inFinderArea, hn]; omega
  have a3 : inFinderArea v (n - 7 + i) j = true := by simp [inFinderArea, hn]; omega
  have d : ∀ d : Nat, d ≤ 3 → (decide (d ≤ 1) || d == 3) = (d != 2) := by decide
  have c3 : cheb i j 3 3 ≤ 3 := by simp only [cheb, dist]; omega
  have far : ∀ x y : Nat, 4 ≤ (x - y) + (y - x) → ∀ a b, 4 ≤ cheb a x b y ∧ 4 ≤ cheb x a y b := by
    intro x y h a b
    exact ⟨Nat.le_trans h (Nat.le_max_right _ _), Nat.le_trans h (Nat.le_max_left _ _)⟩
  have near : ∀ a b c m : Nat, a = m → m ≤ 3 → 4 ≤ b → 4 ≤ c → min a (min b c) = m ∧ min b (min a c) = m ∧ min b (min c a) = m := by
    intro a b c m _ _ _ _; omega
  have sh : ∀ x : Nat, dist (n - 7 + x) (n - 4) = dist x 3 := by intro x; simp only [dist]; omega
  refine ⟨?_, ?_, ?_⟩
  · simp only [patternColour, a1, if_true, finderColour, hn]
    rw [(near _ _ _ _ rfl c3 (far j (n - 4) (by omega) _ _).1 (far i (n - 4) (by omega) _ _).2).1, d _ c3]
  · simp only [patternColour, a2, if_true, finderColour, hn]
    have e : cheb i (n - 7 + j) 3 (n - 4) = cheb i j 3 3 := by simp only [cheb, sh]
    rw [(near _ _ _ _ e c3 (far (n - 7 + j) 3 (by omega) _ _).1 (far i (n - 4) (by omega) _ _).2).2.1, d _ c3]
  · simp only [patternColour, a3, if_true, finderColour, hn]
    have e : cheb (n - 7 + i) j (n - 4) 3 = cheb i j 3 3 := by simp only [cheb, sh]
    rw [(near _ _ _ _ e c3 (far (n - 7 + i) 3 (by omega) _ _).2 (far j (n - 4) (by omega) _ _).1).2.2, d _ c3]

theorem symbol_upright (h : IsSymbol v lv k stream bm) : upright bm = true := by
  have hs : 21 ≤ side v := by have := h.version; unfold side; omega
  simp only [upright, Bool.and_eq_true, h.rows]
  refine ⟨⟨⟨?_, ?_⟩, ?_⟩, symbol_format h⟩ <;> rw [finderAt_iff] <;> intro i j hi hj
  · rw [Nat.zero_add, Nat.zero_add]; exact h.pattern _ _ _ (by omega) (by omega) (pattern_finder h.version.1 hi hj).1
  · rw [Nat.zero_add]; exact h.pattern _ _ _ (by omega) (by omega) (pattern_finder h.version.1 hi hj).2.1
  · rw [Nat.zero_add]; exact h.pattern _ _ _ (by omega) (by omega) (pattern_finder h.version.1 hi hj).2.2

/-- From version 2 on an alignment pattern keeps the lower right corner from looking like a finder pattern. -/
theorem align_pattern : ∀ v, 2 ≤ v → v ≤ 40 → patternColour v (side v - 7) (side v - 6) = some false := by
  have : ∀ v ∈ List.range 41, 2 ≤ v → patternColour v (side v - 7) (side v - 6) = some false := by decide +kernel
  intro v h2 h40
  exact this v (List.mem_range.2 (by omega)) h2

theorem symbol_lower_right (h : IsSymbol v lv k stream bm) (h2 : 2 ≤ v) : finderAt bm (side v - 7) (side v - 7) = false := by
  have hs : 25 ≤ side v := by unfold side; omega
  refine Bool.eq_false_iff.2 fun hx => ?_
  rw [finderAt_iff] at hx
  have := hx 0 1 (by omega) (by omega)
  rw [Nat.add_zero, show side v - 7 + 1 = side v - 6 by omega,
    h.pattern _ _ _ (by omega) (by omega) (align_pattern v h2 h.version.2)] at this
  exact absurd this (by decide)

/-- Only the symbol itself, of all its views, is right way up. -/
theorem symbol_only (h : IsSymbol v lv k stream bm) (hf : finderAt bm (side v - 7) (side v - 7) = false) {g}
    (hu : upright (view (side v) bm g) = true) : g = (false, false, false) := by
  have hs : 21 ≤ side v := by have := h.version; unfold side; omega
  simp only [upright, Bool.and_eq_true, show (view (side v) bm g).length = side v from picture_length _ _] at hu
  obtain ⟨⟨⟨h1, h2⟩, h3⟩, h4⟩ := hu
  obtain ⟨a, b, c⟩ := g
  by_cases hg : b = true ∨ c = true
  · have := finder_lower_right (by omega) h1 h2 h3 hg
    rw [hf] at this; exact absurd this (by decide)
  · have hb : b = false := by cases b <;> simp_all
    have hc : c = false := by cases c <;> simp_all
    subst hb hc
    cases a with
    | false => rfl
    | true => rw [symbol_no_mirror h] at h4; exact absurd h4 (by decide)

theorem find_view (h : IsSymbol v lv k stream bm) (hf : finderAt bm (side v - 7) (side v - 7) = false) {s}
    (hs : Seen bm s) : (views s).find? upright = some bm := by
  obtain ⟨g, rfl⟩ := seen_view h.rows h.cols hs
  have hm := mem_views_view (g := g) h.rows h.cols
  cases e : (views (view (side v) bm g)).find? upright with
  | none => exact absurd (symbol_upright h) (List.find?_eq_none.1 e _ hm)
  | some x =>
    have hu := List.find?_some e
    have hx := List.mem_of_find?_eq_some e
    rw [views_view, List.mem_map] at hx
    obtain ⟨g', _, rfl⟩ := hx
    rw [symbol_only h hf hu, view_id h.rows h.cols]

/-- The way back from a view: turns and mirrorings. -/
def apply (bm : List (List Bool)) : List Bool → List (List Bool)
  | [] => bm
  | true :: l => apply (turn bm) l
  | false :: l => apply (mirror bm) l

def applyG (g : Bool × Bool × Bool) : List Bool → Bool × Bool × Bool
  | [] => g
  | true :: l => applyG (turnG g) l
  | false :: l => applyG (mirrorG g) l

theorem apply_view (n bm) : ∀ l g, apply (view n bm g) l = view n bm (applyG g l)
  | [], _ => rfl
  | true :: l, g => by rw [apply, turn_view, apply_view n bm l, applyG]
  | false :: l, g => by rw [apply, mirror_view, apply_view n bm l, applyG]

theorem applyG_back (g : Bool × Bool × Bool) : ∃ l, applyG g l = (false, false, false) ∧
    ∀ g', applyG g' l = (false, false, false) → g' = g := by
  have all : ∀ g : Bool × Bool × Bool, ∃ l ∈ [[], [true], [true, true], [true, true, true], [false], [false, true],
      [false, true, true], [false, true, true, true]], applyG g l = (false, false, false) ∧
      ∀ a b c, applyG (a, b, c) l = (false, false, false) → (a, b, c) = g := by
    rintro ⟨a, b, c⟩; cases a <;> cases b <;> cases c <;> decide
  obtain ⟨l, _, h1, h2⟩ := all g
  exact ⟨l, h1, fun ⟨a, b, c⟩ h => h2 a b c h⟩

/-- The eight views are different. -/
theorem view_inj (h : IsSymbol v lv k stream bm) (hf : finderAt bm (side v - 7) (side v - 7) = false) {g g'}
    (e : view (side v) bm g = view (side v) bm g') : g = g' := by
  obtain ⟨l, h1, h2⟩ := applyG_back g'
  have := congrArg (fun s => apply s l) e
  simp only [apply_view, h1, view_id h.rows h.cols] at this
  exact h2 g (symbol_only h hf (by rw [this]; exact symbol_upright h))

theorem views_nodup (h : IsSymbol v lv k stream bm) (hf : finderAt bm (side v - 7) (side v - 7) = false) {s}
    (hs : Seen bm s) : (views s).Nodup := by
  obtain ⟨g, rfl⟩ := seen_view h.rows h.cols hs
  rw [views_view]
  have all : ∀ g : Bool × Bool × Bool, [g, turnG g, turnG (turnG g), turnG (turnG (turnG g)), mirrorG g,
        turnG (mirrorG g), turnG (turnG (mirrorG g)), turnG (turnG (turnG (mirrorG g)))].Nodup := by
    rintro ⟨a, b, c⟩; cases a <;> cases b <;> cases c <;> decide
  exact List.Pairwise.map _ (fun _ _ hne e => hne (view_inj h hf e)) (all g)

end Spec
