import Verif.Props.Shapes
/-!
# C61, C62: joined modules, and the sizes of blocks
-/
namespace QR.Standard
open QR Plane

/-- Functions that join dark modules of a row. -/
def DrawFn.JoinsRow : DrawFn → Prop
  | .liquidBlock | .hStripeBlock _ | .chainBlock | .hChainBlock => True
  | _ => False

/-- Functions that join dark modules of a column. -/
def DrawFn.JoinsColumn : DrawFn → Prop
  | .liquidBlock | .vStripeBlock _ | .chainBlock | .vChainBlock => True
  | _ => False

theorem has_two {mask bits : UInt16} {k : Nat} (e : bits.toNat = 2 ^ k ||| 2 ^ 4) (hk : flag mask k) (h4 : flag mask 4) : has mask bits = true :=
  flags_has fun i hi => by
    rw [e, Nat.testBit_or, Nat.testBit_two_pow, Nat.testBit_two_pow] at hi
    simp only [Bool.or_eq_true, decide_eq_true_eq] at hi
    rcases hi with rfl | rfl
    · exact hk
    · exact h4

theorem rect_covers {x y w h : Rat} {q : Pt} (h1 : x ≤ q.x) (h2 : q.x < x + w) (h3 : y ≤ q.y) (h4 : q.y < y + h) : (Figure.rect x y w h).covers q :=
  ⟨h1, h2, h3, h4⟩

theorem unit_right {d : DrawFn} (hd : d.JoinsRow) {mask : UInt16} (h4 : flag mask 4) (h5 : flag mask 5) {t : Rat} (h0 : 0 ≤ t) (h1 : t < 1) :
    Painted (unitCmds d mask) ⟨1 + t, 1⟩ := by
  cases d with
  | liquidBlock =>
    have hh : has mask (NSelf ||| NRight) = true := has_two (k := 5) (by decide) h5 h4
    exact painted_of (f := .rect 1 0 1 2) (unit_leftover _ _) (by simp [unitCmds, liquidUnit, when, hh, drawRect])
      (rect_covers (by simp only; linarith) (by simp only; linarith) (by norm_num) (by norm_num))
  | hStripeBlock r =>
    have hh : has mask (NRight ||| NSelf) = true := has_two (k := 5) (by decide) h5 h4
    exact painted_of (f := .rect 1 (1 / 10) 1 (18 / 10)) (unit_leftover _ _) (by simp [unitCmds, when, hh, drawRect])
      (rect_covers (by simp only; linarith) (by simp only; linarith) (by norm_num) (by norm_num))
  | chainBlock =>
    have hh : has mask (NRight ||| NSelf) = true := has_two (k := 5) (by decide) h5 h4
    exact painted_of (f := .rect 1 (82 / 100) 1 (36 / 100)) (unit_leftover _ _) (by simp [unitCmds, when, hh, drawRect])
      (rect_covers (by simp only; linarith) (by simp only; linarith) (by norm_num) (by norm_num))
  | hChainBlock =>
    have hh : has mask (NRight ||| NSelf) = true := has_two (k := 5) (by decide) h5 h4
    exact painted_of (f := .rect 1 (83 / 100) 1 (34 / 100)) (unit_leftover _ _) (by simp [unitCmds, when, hh, drawRect])
      (rect_covers (by simp only; linarith) (by simp only; linarith) (by norm_num) (by norm_num))
  | _ => cases hd

theorem unit_left {d : DrawFn} (hd : d.JoinsRow) {mask : UInt16} (h4 : flag mask 4) (h3 : flag mask 3) {t : Rat} (h0 : 0 < t) (h1 : t ≤ 1) :
    Painted (unitCmds d mask) ⟨1 - t, 1⟩ := by
  cases d with
  | liquidBlock =>
    have hh : has mask (NLeft ||| NSelf) = true := has_two (k := 3) (by decide) h3 h4
    exact painted_of (f := .rect 0 0 1 2) (unit_leftover _ _) (by simp [unitCmds, liquidUnit, when, hh, drawRect])
      (rect_covers (by simp only; linarith) (by simp only; linarith) (by norm_num) (by norm_num))
  | hStripeBlock r =>
    have hh : has mask (NLeft ||| NSelf) = true := has_two (k := 3) (by decide) h3 h4
    exact painted_of (f := .rect 0 (1 / 10) 1 (18 / 10)) (unit_leftover _ _) (by simp [unitCmds, when, hh, drawRect])
      (rect_covers (by simp only; linarith) (by simp only; linarith) (by norm_num) (by norm_num))
  | chainBlock =>
    have hh : has mask (NLeft ||| NSelf) = true := has_two (k := 3) (by decide) h3 h4
    exact painted_of (f := .rect 0 (82 / 100) 1 (36 / 100)) (unit_leftover _ _) (by simp [unitCmds, when, hh, drawRect])
      (rect_covers (by simp only; linarith) (by simp only; linarith) (by norm_num) (by norm_num))
  | hChainBlock =>
    have hh : has mask (NLeft ||| NSelf) = true := has_two (k := 3) (by decide) h3 h4
    exact painted_of (f := .rect 0 (83 / 100) 1 (34 / 100)) (unit_leftover _ _) (by simp [unitCmds, when, hh, drawRect])
      (rect_covers (by simp only; linarith) (by simp only; linarith) (by norm_num) (by norm_num))
  | _ => cases hd

theorem unit_down {d : DrawFn} (hd : d.JoinsColumn) {mask : UInt16} (h4 : flag mask 4) (h7 : flag mask 7) {t : Rat} (h0 : 0 ≤ t) (h1 : t < 1) :
    Painted (unitCmds d mask) ⟨1, 1 + t⟩ := by
  cases d with
  | liquidBlock =>
    have hh : has mask (NSelf ||| NBot) = true := has_two (k := 7) (by decide) h7 h4
    exact painted_of (f := .rect 0 1 2 1) (unit_leftover _ _) (by simp [unitCmds, liquidUnit, when, hh, drawRect])
      (rect_covers (by norm_num) (by norm_num) (by simp only; linarith) (by simp only; linarith))
  | vStripeBlock r =>
    have hr := (vRatio_range r).1
    have hh : has mask (NBot ||| NSelf) = true := has_two (k := 7) (by decide) h7 h4
    exact painted_of (f := .rect (1 - vRatio r) 1 (2 * vRatio r) 1) (unit_leftover _ _) (by simp [unitCmds, when, hh, drawRect])
      (rect_covers (by simp only; linarith) (by simp only; linarith) (by simp only; linarith) (by simp only; linarith))
  | chainBlock =>
    have hh : has mask (NBot ||| NSelf) = true := has_two (k := 7) (by decide) h7 h4
    exact painted_of (f := .rect (82 / 100) 1 (36 / 100) 1) (unit_leftover _ _) (by simp [unitCmds, when, hh, drawRect])
      (rect_covers (by norm_num) (by norm_num) (by simp only; linarith) (by simp only; linarith))
  | vChainBlock =>
    have hh : has mask (NBot ||| NSelf) = true := has_two (k := 7) (by decide) h7 h4
    exact painted_of (f := .rect (83 / 100) 1 (34 / 100) 1) (unit_leftover _ _) (by simp [unitCmds, when, hh, drawRect])
      (rect_covers (by norm_num) (by norm_num) (by simp only; linarith) (by simp only; linarith))
  | _ => cases hd

theorem unit_up {d : DrawFn} (hd : d.JoinsColumn) {mask : UInt16} (h4 : flag mask 4) (h1' : flag mask 1) {t : Rat} (h0 : 0 < t) (h1 : t ≤ 1) :
    Painted (unitCmds d mask) ⟨1, 1 - t⟩ := by
  cases d with
  | liquidBlock =>
    have hh : has mask (NSelf ||| NTop) = true := has_two (k := 1) (by decide) h1' h4
    exact painted_of (f := .rect 0 0 2 1) (unit_leftover _ _) (by simp [unitCmds, liquidUnit, when, hh, drawRect])
      (rect_covers (by norm_num) (by norm_num) (by simp only; linarith) (by simp only; linarith))
  | vStripeBlock r =>
    have hr := (vRatio_range r).1
    have hh : has mask (NTop ||| NSelf) = true := has_two (k := 1) (by decide) h1' h4
    exact painted_of (f := .rect (1 - vRatio r) 0 (2 * vRatio r) 1) (unit_leftover _ _) (by simp [unitCmds, when, hh, drawRect])
      (rect_covers (by simp only; linarith) (by simp only; linarith) (by simp only; linarith) (by simp only; linarith))
  | chainBlock =>
    have hh : has mask (NTop ||| NSelf) = true := has_two (k := 1) (by decide) h1' h4
    exact painted_of (f := .rect (82 / 100) 0 (36 / 100) 1) (unit_leftover _ _) (by simp [unitCmds, when, hh, drawRect])
      (rect_covers (by norm_num) (by norm_num) (by simp only; linarith) (by simp only; linarith))
  | vChainBlock =>
    have hh : has mask (NTop ||| NSelf) = true := has_two (k := 1) (by decide) h1' h4
    exact painted_of (f := .rect (83 / 100) 0 (34 / 100) 1) (unit_leftover _ _) (by simp [unitCmds, when, hh, drawRect])
      (rect_covers (by norm_num) (by norm_num) (by simp only; linarith) (by simp only; linarith))
  | _ => cases hd

/-- The function that draws module `(x, y)` with the assembled shape of these two functions. -/
def fnOf (fs : DrawFn × DrawFn) (m : Matrix) (x y : Nat) : DrawFn := if (m.raw x y).ty = .finder then fs.1 else fs.2

theorem cmdsOf_custom {assembled : Nat → DrawFn × DrawFn} {o : Opts} {k : Nat} (hk : o.getShape = .custom k) (m : Matrix) (x y : Nat) (q : Pt) :
    Painted (cmdsOf assembled o m x y) (tr ((o.qrBlockWidth : Rat) / 2) ⟨(ctxOf o m x y).x, (ctxOf o m x y).y⟩ q) ↔
      Painted (unitCmds (fnOf (assembled k) m x y) (getNeighbours m.bitmap x y)) q := by
  have e : cmdsOf assembled o m x y = (fnOf (assembled k) m x y).cmds (ctxOf o m x y) := by
    unfold cmdsOf fnOf
    rw [hk]
    by_cases h : (m.raw x y).ty = .finder
    · simp only [h, decide_true, if_true, meaning, LibShape.cmds]
    · simp only [h, decide_false, if_false, meaning, LibShape.cmds]
  rw [e, cmds_unit _ rfl]
  exact painted_tr (by have := bw_pos o; simp only [ctxOf]; linarith) _ _ _

/-- The module of a point in the middle of a row, if light. -/
theorem light_near {assembled : Nat → DrawFn × DrawFn} {o : Opts} {m : Matrix} {p : Pt} (hcirc : o.getShape = .circle → 2 ≤ o.qrBlockWidth)
    {x y : Nat} (hx : x < m.width) (hy : y < m.height) (hP : Painted (cmdsOf assembled o m x y) p) (hl : (m.raw x y).bit = false) :
    0 ≤ (inUnit o x y p).x ∧ (inUnit o x y p).x ≤ 2 ∧ 0 ≤ (inUnit o x y p).y ∧ (inUnit o x y p).y ≤ 2 := by
  obtain ⟨u, hU, _, he⟩ := module_unit (assembled := assembled) hcirc m x y
  rw [he] at hP
  obtain ⟨g, hg, hgc⟩ := painted_add hP
  obtain ⟨b1, b2, b3, b4, r1, r2, r3, r4⟩ := hU.reach g hg _ hgc
  have no : ¬flag (getNeighbours m.bitmap x y) 4 := by
    intro h4
    have := (flag_dark (i := x) (j := y) (dx := 0) (dy := 0) (by omega) (by omega) (by omega) (by omega) (by omega) (by omega) h4).1
    rw [hl] at this; cases this
  refine ⟨?_, ?_, ?_, ?_⟩ <;> by_contra hc <;> push Not at hc
  · exact no (r1 hc).1
  · exact no (r2 hc).1
  · exact no (r3 hc).1
  · exact no (r4 hc).1

theorem between {n : Int} {t : Rat} (h0 : 0 ≤ t) (h1 : t ≤ 1) (a : 0 ≤ 2 * (n : Rat) + 1 + 2 * t) (b : 2 * (n : Rat) + 1 + 2 * t ≤ 2) : n = 0 ∨ n = -1 := by
  have a' : (-2 : Rat) < n := by linarith
  have b' : (n : Rat) < 1 := by linarith
  have a'' : -2 < n := by exact_mod_cast a'
  have b'' : n < 1 := by exact_mod_cast b'
  omega

/-- **C61, rows.**  With `LiquidBlock`, `HStripeBlock`, `ChainBlock` or `HChainBlock`, the line between the centres of two adjacent dark
modules of a row is painted in the foreground colour. -/
theorem C61_rows (scale : Scaler) (o : Opts) (m : Matrix) (hh : o.halftone = none) (hs : safeOn o m = false)
    (assembled : Nat → DrawFn × DrawFn) (k : Nat) (hk : o.getShape = .custom k) :
    ∃ ops o', draw scale o m = some (ops, o') ∧ ∀ i j, i + 1 < m.width → j < m.height →
      (m.raw i j).bit = true → (m.raw (i + 1) j).bit = true →
      (fnOf (assembled k) m i j).JoinsRow → (fnOf (assembled k) m (i + 1) j).JoinsRow →
      ∀ t : Rat, 0 ≤ t → t ≤ 1 →
        colourAt (drawing (meaning assembled) (shapeCalls ops)) ⟨(centre o i j).x + t * o.qrBlockWidth, (centre o i j).y⟩ = some o.qrColor := by
  have hcirc : o.getShape = .circle → 2 ≤ o.qrBlockWidth := by rw [hk]; intro h; cases h
  obtain ⟨ops, o', hd, hnone, hsome⟩ := colour_modules scale o m hh hs assembled hcirc
  refine ⟨ops, o', hd, ?_⟩
  intro i j hi hj hb1 hb2 hf1 hf2 t h0 h1
  have hbw := bw_pos o
  refine hsome _ _ ?_ ?_
  · intro x y hx hy hP
    cases hl : (m.raw x y).bit with
    | true => simp only [ctxOf, hl, if_true]
    | false =>
      exfalso
      obtain ⟨a, b, c, e⟩ := light_near hcirc hx hy hP hl
      have ex : (inUnit o x y ⟨(centre o i j).x + t * o.qrBlockWidth, (centre o i j).y⟩).x = 2 * (((i : Int) - x : Int) : Rat) + 1 + 2 * t := by
        simp only [inUnit, centre]; push_cast; field_simp; ring
      have ey : (inUnit o x y ⟨(centre o i j).x + t * o.qrBlockWidth, (centre o i j).y⟩).y = 2 * (((j : Int) - y : Int) : Rat) + 1 := by
        simp only [inUnit, centre]; push_cast; field_simp; ring
      rw [ex] at a b
      rw [ey] at c e
      have := box_zero c e
      rcases between h0 h1 a b with h | h
      · have : x = i := by omega
        have : y = j := by omega
        subst x y; rw [hb1] at hl; cases hl
      · have : x = i + 1 := by omega
        have : y = j := by omega
        subst x y; rw [hb2] at hl; cases hl
  · have s1 := dark_flag (x := i) (y := j) (i := i) (j := j) (dx := 0) (dy := 0) (by omega) (by omega) (by omega) (by omega) (by omega) (by omega) hb1 (by omega) hj
    have s2 := dark_flag (x := i + 1) (y := j) (i := i + 1) (j := j) (dx := 0) (dy := 0) (by omega) (by omega) (by omega) (by omega) (by omega) (by omega) hb2 (by omega) hj
    by_cases ht : t < 1 / 2
    · refine ⟨i, j, by omega, hj, ?_⟩
      have e : (⟨(centre o i j).x + t * o.qrBlockWidth, (centre o i j).y⟩ : Pt) =
          tr ((o.qrBlockWidth : Rat) / 2) ⟨(ctxOf o m i j).x, (ctxOf o m i j).y⟩ ⟨1 + 2 * t, 1⟩ := by
        simp only [centre, tr, ctxOf, Pt.mk.injEq]
        constructor <;> push_cast <;> ring
      rw [e, cmdsOf_custom hk]
      exact unit_right hf1 s1 (dark_flag (i := i + 1) (j := j) (dx := 1) (dy := 0) (by omega) (by omega) (by omega) (by omega) (by omega) (by omega) hb2 (by omega) hj)
        (by linarith) (by linarith)
    · push Not at ht
      refine ⟨i + 1, j, hi, hj, ?_⟩
      have e : (⟨(centre o i j).x + t * o.qrBlockWidth, (centre o i j).y⟩ : Pt) =
          tr ((o.qrBlockWidth : Rat) / 2) ⟨(ctxOf o m (i + 1) j).x, (ctxOf o m (i + 1) j).y⟩ ⟨1 - (2 - 2 * t), 1⟩ := by
        simp only [centre, tr, ctxOf, Pt.mk.injEq]
        constructor <;> push_cast <;> ring
      rw [e, cmdsOf_custom hk]
      by_cases h2 : t = 1
      · subst h2
        obtain ⟨f, hf, hc⟩ := unit_own (fnOf (assembled k) m (i + 1) j) s2
        refine painted_of (unit_leftover _ _) hf ?_
        have : (⟨1 - (2 - 2 * 1), 1⟩ : Pt) = ⟨1, 1⟩ := by norm_num
        rw [this]; exact hc
      · have : t < 1 := lt_of_le_of_ne h1 h2
        exact unit_left hf2 s2 (dark_flag (i := i) (j := j) (dx := -1) (dy := 0) (by omega) (by omega) (by omega) (by omega) (by push_cast; omega) (by omega) hb1 (by omega) hj)
          (by linarith) (by linarith)

/-- **C61, columns.**  With `LiquidBlock`, `VStripeBlock`, `ChainBlock` or `VChainBlock`, the line between the centres of two adjacent dark
modules of a column is painted in the foreground colour. -/
theorem C61_columns (scale : Scaler) (o : Opts) (m : Matrix) (hh : o.halftone = none) (hs : safeOn o m = false)
    (assembled : Nat → DrawFn × DrawFn) (k : Nat) (hk : o.getShape = .custom k) :
    ∃ ops o', draw scale o m = some (ops, o') ∧ ∀ i j, i < m.width → j + 1 < m.height →
      (m.raw i j).bit = true → (m.raw i (j + 1)).bit = true →
      (fnOf (assembled k) m i j).JoinsColumn → (fnOf (assembled k) m i (j + 1)).JoinsColumn →
      ∀ t : Rat, 0 ≤ t → t ≤ 1 →
        colourAt (drawing (meaning assembled) (shapeCalls ops)) ⟨(centre o i j).x, (centre o i j).y + t * o.qrBlockWidth⟩ = some o.qrColor := by
  have hcirc : o.getShape = .circle → 2 ≤ o.qrBlockWidth := by rw [hk]; intro h; cases h
  obtain ⟨ops, o', hd, hnone, hsome⟩ := colour_modules scale o m hh hs assembled hcirc
  refine ⟨ops, o', hd, ?_⟩
  intro i j hi hj hb1 hb2 hf1 hf2 t h0 h1
  have hbw := bw_pos o
  refine hsome _ _ ?_ ?_
  · intro x y hx hy hP
    cases hl : (m.raw x y).bit with
    | true => simp only [ctxOf, hl, if_true]
    | false =>
      exfalso
      obtain ⟨a, b, c, e⟩ := light_near hcirc hx hy hP hl
      have ex : (inUnit o x y ⟨(centre o i j).x, (centre o i j).y + t * o.qrBlockWidth⟩).x = 2 * (((i : Int) - x : Int) : Rat) + 1 := by
        simp only [inUnit, centre]; push_cast; field_simp; ring
      have ey : (inUnit o x y ⟨(centre o i j).x, (centre o i j).y + t * o.qrBlockWidth⟩).y = 2 * (((j : Int) - y : Int) : Rat) + 1 + 2 * t := by
        simp only [inUnit, centre]; push_cast; field_simp; ring
      rw [ex] at a b
      rw [ey] at c e
      have := box_zero a b
      rcases between h0 h1 c e with h | h
      · have : x = i := by omega
        have : y = j := by omega
        subst x y; rw [hb1] at hl; cases hl
      · have : x = i := by omega
        have : y = j + 1 := by omega
        subst x y; rw [hb2] at hl; cases hl
  · have s1 := dark_flag (x := i) (y := j) (i := i) (j := j) (dx := 0) (dy := 0) (by omega) (by omega) (by omega) (by omega) (by omega) (by omega) hb1 hi (by omega)
    have s2 := dark_flag (x := i) (y := j + 1) (i := i) (j := j + 1) (dx := 0) (dy := 0) (by omega) (by omega) (by omega) (by omega) (by omega) (by omega) hb2 hi hj
    by_cases ht : t < 1 / 2
    · refine ⟨i, j, hi, by omega, ?_⟩
      have e : (⟨(centre o i j).x, (centre o i j).y + t * o.qrBlockWidth⟩ : Pt) =
          tr ((o.qrBlockWidth : Rat) / 2) ⟨(ctxOf o m i j).x, (ctxOf o m i j).y⟩ ⟨1, 1 + 2 * t⟩ := by
        simp only [centre, tr, ctxOf, Pt.mk.injEq]
        constructor <;> push_cast <;> ring
      rw [e, cmdsOf_custom hk]
      exact unit_down hf1 s1 (dark_flag (i := i) (j := j + 1) (dx := 0) (dy := 1) (by omega) (by omega) (by omega) (by omega) (by omega) (by omega) hb2 hi hj)
        (by linarith) (by linarith)
    · push Not at ht
      refine ⟨i, j + 1, hi, hj, ?_⟩
      have e : (⟨(centre o i j).x, (centre o i j).y + t * o.qrBlockWidth⟩ : Pt) =
          tr ((o.qrBlockWidth : Rat) / 2) ⟨(ctxOf o m i (j + 1)).x, (ctxOf o m i (j + 1)).y⟩ ⟨1, 1 - (2 - 2 * t)⟩ := by
        simp only [centre, tr, ctxOf, Pt.mk.injEq]
        constructor <;> push_cast <;> ring
      rw [e, cmdsOf_custom hk]
      by_cases h2 : t = 1
      · subst h2
        obtain ⟨f, hf, hc⟩ := unit_own (fnOf (assembled k) m i (j + 1)) s2
        refine painted_of (unit_leftover _ _) hf ?_
        have : (⟨1, 1 - (2 - 2 * 1)⟩ : Pt) = ⟨1, 1⟩ := by norm_num
        rw [this]; exact hc
      · have : t < 1 := lt_of_le_of_ne h1 h2
        exact unit_up hf2 s2 (dark_flag (i := i) (j := j) (dx := 0) (dy := -1) (by omega) (by omega) (by omega) (by omega) (by omega) (by push_cast; omega) hb1 hi (by omega))
          (by linarith) (by linarith)

/-! ## C62: sizes -/

/-- **C62, squares.**  `SquareBlocks(size)` paints the square in the middle of the block whose side is `size` (1 if `size` is not in [0.1, 1])
times the block width. -/
theorem C62_square (size : Rat) (c : Ctx) (hh : c.h = c.w) (p : Pt) :
    Painted ((DrawFn.squareBlocks size).cmds c) p ↔
      let side : Rat := c.w * (if 1 / 10 ≤ size ∧ size ≤ 1 then size else 1)
      (c.x + c.w / 2 - side / 2 ≤ p.x ∧ p.x < c.x + c.w / 2 + side / 2) ∧ c.y + c.w / 2 - side / 2 ≤ p.y ∧ p.y < c.y + c.w / 2 + side / 2 := by
  have er : (if 1 / 10 ≤ size ∧ size ≤ 1 then size else 1) = blockScale size := by
    unfold blockScale
    by_cases h : 1 / 10 ≤ size ∧ size ≤ 1
    · rw [if_pos h, if_neg]; rintro (g | g) <;> linarith [h.1, h.2]
    · rw [if_neg h, if_pos]; by_contra hc; push Not at hc; exact h ⟨hc.1, hc.2⟩
  rw [er]
  simp only [DrawFn.cmds, squareBlocks, Painted, fills, List.nil_append, List.mem_singleton, exists_eq_left, Figure.covers, hh]
  constructor
  · rintro ⟨a, b, c, d⟩; refine ⟨⟨?_, ?_⟩, ?_, ?_⟩ <;> linarith
  · rintro ⟨⟨a, b⟩, c, d⟩; refine ⟨?_, ?_, ?_, ?_⟩ <;> linarith

/-- **C62, circles.**  `CircleBlocks(size)` paints the disc around the middle of the block whose diameter is `size` times the block width. -/
theorem C62_circle (size : Rat) (c : Ctx) (hw : 0 < c.w) (p : Pt) :
    Painted ((DrawFn.circleBlocks size).cmds c) p ↔
      let r : Rat := c.w / 2 * (if 1 / 10 ≤ size ∧ size ≤ 1 then size else 1)
      (p.x - (c.x + c.w / 2)) * (p.x - (c.x + c.w / 2)) + (p.y - (c.y + c.h / 2)) * (p.y - (c.y + c.h / 2)) < r * r := by
  have er : (if 1 / 10 ≤ size ∧ size ≤ 1 then size else 1) = blockScale size := by
    unfold blockScale
    by_cases h : 1 / 10 ≤ size ∧ size ≤ 1
    · rw [if_pos h, if_neg]; rintro (g | g) <;> linarith [h.1, h.2]
    · rw [if_neg h, if_pos]; by_contra hc; push Not at hc; exact h ⟨hc.1, hc.2⟩
  rw [er]
  have hw' : (0 : Rat) < c.w := by exact_mod_cast hw
  have hs := (blockScale_range size).1
  have hr : 0 < (c.w : Rat) / 2 * blockScale size := mul_pos (by linarith) (by linarith)
  simp only [DrawFn.cmds, circleBlocks, Painted, fills, List.nil_append, List.mem_singleton, exists_eq_left, Figure.covers, hr, true_and]

/-! ## The curve of the specification -/

/-- The points `(1-t)² a + 2 t (1-t) c + t² b` of a quadratic Bézier curve are those with `v² = 4 u w` (see `bulgeWind`). -/
theorem bezier_curve (a c b : Pt) (t : Rat) :
    let p : Pt := ⟨(1 - t) * (1 - t) * a.x + 2 * t * (1 - t) * c.x + t * t * b.x, (1 - t) * (1 - t) * a.y + 2 * t * (1 - t) * c.y + t * t * b.y⟩
    cross a p b * cross a p b = 4 * cross p c b * cross a c p := by
  simp only [cross]; ring

/-! ## A concrete case -/

/-- An L of three dark modules. -/
def shapeM : Matrix := ⟨2, 2, [[DATA_V1, DATA_V1], [DATA_V0, DATA_V1]]⟩

/-- Rounded finders and liquid blocks. -/
def liquidO : Opts := { defaultOpts with shape := some (.custom 0) }

/-- The hypotheses of C59, C60 and C61 are met by the example, and evaluation of the drawing gives the colours the theorems promise: at the
centres of the four modules, on the line between two dark ones, and in the quiet zone. -/
example : liquidO.halftone = none ∧ safeOn liquidO shapeM = false ∧ liquidO.getShape = .custom 0 ∧
    ((draw (fun _ _ _ _ => (0, 0, 0, 0)) liquidO shapeM).map fun r =>
      let cmds := drawing (meaning fun _ => (.roundedFinder, .liquidBlock)) (shapeCalls r.1)
      ([centre liquidO 0 0, centre liquidO 0 1, centre liquidO 1 0, centre liquidO 1 1, ⟨(centre liquidO 0 1).x + 10, (centre liquidO 0 1).y⟩, ⟨39, 50⟩].map
        (colourAt cmds))) = some [some color_BLACK, some color_BLACK, some color_WHITE, some color_BLACK, some color_BLACK, none] := by
  decide +kernel

end QR.Standard
