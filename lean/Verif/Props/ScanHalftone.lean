import Verif.Props.ScanShapesLogo
/-!
# C81: halftone pictures with shapes and a logo
-/
namespace QR.Standard
open QR QR.Matrix Spec Plane

/-- The last colour of a point, from the calls; every call fills what it adds to the path. -/
theorem colour_calls (lib : Shape → LibShape) {calls : List (Bool × Shape × Ctx)}
    (hleft : ∀ a ∈ calls, leftover [] ((lib a.2.1).cmds a.1 a.2.2) = []) (p : Pt) :
    ((∀ a ∈ calls, ¬ Painted ((lib a.2.1).cmds a.1 a.2.2) p) → colourAt (drawing lib calls) p = none) ∧
    (∀ k, (∀ a ∈ calls, Painted ((lib a.2.1).cmds a.1 a.2.2) p → a.2.2.color = k) → (∃ a ∈ calls, Painted ((lib a.2.1).cmds a.1 a.2.2) p) →
      colourAt (drawing lib calls) p = some k) := by
  have hfills : colourFills [] (drawing lib calls) = calls.flatMap fun a => (fills [] ((lib a.2.1).cmds a.1 a.2.2)).map fun p => (a.2.2.color, p) :=
    colourFills_flatMap (fun a : Bool × Shape × Ctx => a.2.2.color) (fun a : Bool × Shape × Ctx => (lib a.2.1).cmds a.1 a.2.2) _ hleft
  have hmem : ∀ kp, kp ∈ (colourFills [] (drawing lib calls)).filter (fun kp => kp.2.any fun f => decide (f.covers p)) ↔
      ∃ a ∈ calls, ∃ path, path ∈ fills [] ((lib a.2.1).cmds a.1 a.2.2) ∧ (∃ f ∈ path, f.covers p) ∧ kp = (a.2.2.color, path) := by
    intro kp
    rw [hfills, List.mem_filter, List.mem_flatMap]
    constructor
    · rintro ⟨⟨a, ha, hmem⟩, hcov⟩
      obtain ⟨path, hpath, rfl⟩ := List.mem_map.1 hmem
      obtain ⟨f, hf, hfc⟩ := List.any_eq_true.1 hcov
      exact ⟨a, ha, path, hpath, ⟨f, hf, of_decide_eq_true hfc⟩, rfl⟩
    · rintro ⟨a, ha, path, hpath, ⟨f, hf, hfc⟩, rfl⟩
      exact ⟨⟨a, ha, List.mem_map.2 ⟨path, hpath, rfl⟩⟩, List.any_eq_true.2 ⟨f, hf, decide_eq_true hfc⟩⟩
  refine ⟨?_, ?_⟩
  · intro hp
    have : (colourFills [] (drawing lib calls)).filter (fun kp => kp.2.any fun f => decide (f.covers p)) = [] := by
      apply List.eq_nil_iff_forall_not_mem.2
      intro kp hkp
      obtain ⟨a, ha, path, h1, ⟨f, hf, hc⟩, _⟩ := (hmem kp).1 hkp
      exact hp a ha ⟨path, h1, f, hf, hc⟩
    unfold colourAt
    rw [this]; rfl
  · intro k hk ⟨a, ha, path, hp, f, hf, hc⟩
    have hgood : ∀ kp ∈ (colourFills [] (drawing lib calls)).filter (fun kp => kp.2.any fun f => decide (f.covers p)), kp.1 = k := by
      intro kp hkp
      obtain ⟨a, ha, path, h1, ⟨f, hf, hc⟩, rfl⟩ := (hmem kp).1 hkp
      exact hk a ha ⟨path, h1, f, hf, hc⟩
    have hone := (hmem (a.2.2.color, path)).2 ⟨a, ha, path, hp, ⟨f, hf, hc⟩, rfl⟩
    unfold colourAt
    rcases getLast_all hgood with h | ⟨b, hb, h⟩
    · rw [List.getLast?_eq_none_iff.1 h] at hone; cases hone
    · rw [hb, Option.map_some, h]

/-- Sub-block `(s, t)` of the data module `(x, y)`. -/
def subCtx (scale : Scaler) (o : Opts) (m : Matrix) (img : Image) (x y s t : Nat) : Ctx where
  x := (((x : Int) * o.qrBlockWidth + o.borders.left : Int) : Rat) + (s : Rat) * ((o.qrBlockWidth : Rat) / 3)
  y := (((y : Int) * o.qrBlockWidth + o.borders.top : Int) : Rat) + (t : Rat) * ((o.qrBlockWidth : Rat) / 3)
  w := o.qrBlockWidth / 3
  h := o.qrBlockWidth / 3
  color := if s = 1 ∧ t = 1 then moduleColor o (m.raw x y) else halftoneColor scale img (m.width * 3) o.bgTransparent (x * 3 + s) (y * 3 + t)
  neighbours := 0

theorem floor_third {bw : Int} : ((bw : Rat) / 3).floor = bw / 3 := by
  apply Int.le_antisymm
  · apply Int.le_of_lt_add_one
    rw [Rat.floor_lt_iff]
    have h1 : bw < (bw / 3 + 1) * 3 := by omega
    have h2 : (bw : Rat) < (((bw / 3 + 1) * 3 : Int) : Rat) := Rat.intCast_lt_intCast.2 h1
    push_cast at h2 ⊢
    linarith
  · rw [Rat.le_floor_iff]
    have h1 : (bw / 3) * 3 ≤ bw := by omega
    have h2 : (((bw / 3) * 3 : Int) : Rat) ≤ (bw : Rat) := Rat.intCast_le_intCast.2 h1
    push_cast at h2 ⊢
    linarith

/-- **C53 with a safe zone.**  The calls for the shapes with a halftone image: nine for a data module, one for every other one; none for a dark module whose block overlaps the logo
if there is a safe zone. -/
theorem halftone_calls (scale : Scaler) {o : Opts} {m : Matrix} (hsq : m.width = m.height) {img : Image} (hh : o.halftone = some img) :
    ∃ ops o' bm, draw scale o m = some (ops, o') ∧ MaskOf o m bm ∧ ∀ a, a ∈ shapeCalls ops ↔ ∃ x y, x < m.width ∧ y < m.height ∧ drawnModule o m x y = true ∧
      (((m.raw x y).ty = .data ∧ ∃ s t, s < 3 ∧ t < 3 ∧ a = (false, o.getShape, subCtx scale o m img x y s t)) ∨
       ((m.raw x y).ty ≠ .data ∧ a = (decide ((m.raw x y).ty = .finder), o.getShape, moduleCtx o bm x y (m.raw x y)))) := by
  obtain ⟨bm, hbm, hM⟩ : ∃ bm, maskBitmap o m = some bm ∧ MaskOf o m bm := mask_any hsq
  obtain ⟨o', _, he⟩ := draw_eq scale o m hbm
  refine ⟨_, o', bm, he, hM, fun a => ?_⟩
  rw [shapeCalls_append, shapeCalls_append, (tail_shapes o m).1, List.append_nil]
  have h0 : shapeCalls [DrawOp.newContext (canvasW o m) (canvasH o m), .fillRect o.backgroundColor.1 0 0 (canvasW o m) (canvasH o m)] = [] := rfl
  rw [h0, List.nil_append]
  have hone : ∀ x y, a ∈ shapeCalls (moduleOps scale (canvasW o m) (canvasH o m) m.width bm (safeOn o m) (logoW o m) (logoH o m) o x y (m.raw x y)) ↔
      drawnModule o m x y = true ∧ (((m.raw x y).ty = .data ∧ ∃ s t, s < 3 ∧ t < 3 ∧ a = (false, o.getShape, subCtx scale o m img x y s t)) ∨
       ((m.raw x y).ty ≠ .data ∧ a = (decide ((m.raw x y).ty = .finder), o.getShape, moduleCtx o bm x y (m.raw x y)))) := by
    intro x y
    unfold moduleOps drawnModule
    rw [show blockOverlapsLogo x y o.qrBlockWidth o.borders.left o.borders.top (canvasW o m) (canvasH o m) (logoW o m) (logoH o m) =
      overlaps o m x y from rfl, hh]
    cases hc : (safeOn o m && overlaps o m x y && (m.raw x y).qrbool) with
    | true =>
      rw [if_pos rfl]
      rw [show (m.raw x y).qrbool = (m.raw x y).bit from rfl] at hc
      rw [hc]
      simp [shapeCalls]
    | false =>
      rw [if_neg (by simp)]
      rw [show (m.raw x y).qrbool = (m.raw x y).bit from rfl] at hc
      rw [hc]
      simp only [Bool.not_false, true_and]
      by_cases hd : (m.raw x y).ty = .data
      · rw [if_pos hd]
        simp only [hd, true_and, ne_eq, not_true_eq_false, false_and, or_false]
        unfold subOps shapeCalls
        rw [filterMap_flatMap, floor_third]
        simp only [List.filterMap_map, List.mem_flatMap, List.mem_range, List.mem_filterMap, Function.comp]
        constructor
        · rintro ⟨s, hs, t, ht, e⟩
          refine ⟨s, t, hs, ht, ?_⟩
          exact (Option.some.inj e).symm
        · rintro ⟨s, t, hs, ht, rfl⟩
          exact ⟨s, hs, t, ht, rfl⟩
      · rw [if_neg hd]
        simp only [hd, false_and, ne_eq, not_false_eq_true, true_and, false_or]
        unfold shapeCalls
        simp only [List.filterMap_cons, List.filterMap_nil, List.mem_singleton]
  unfold shapeCalls at hone ⊢
  rw [filterMap_flatMap, List.mem_flatMap]
  constructor
  · rintro ⟨b, hb, ha⟩
    obtain ⟨hv, hx, hy⟩ := iterate_val hb
    rw [hv] at ha
    exact ⟨b.1, b.2.1, hx, hy, (hone _ _).1 ha⟩
  · rintro ⟨x, y, hx, hy, h⟩
    exact ⟨_, iterate_raw hx hy, (hone x y).2 h⟩

/-- Which third of which block a coordinate in the middle of a block belongs to. -/
theorem third_closed {bw w left : Rat} (hbw : 0 < bw) (hw : w ≤ bw / 3) {i x k : Nat} (hk : k < 3)
    (h1 : (x : Rat) * bw + left + (k : Rat) * (bw / 3) ≤ left + bw * (i + 1 / 2)) (h2 : left + bw * (i + 1 / 2) ≤ (x : Rat) * bw + left + (k : Rat) * (bw / 3) + w) :
    x = i ∧ k = 1 := by
  have a1 : ((6 * x + 2 * k : Nat) : Rat) * bw ≤ ((6 * i + 3 : Nat) : Rat) * bw := by push_cast; linarith
  have a2 : ((6 * i + 3 : Nat) : Rat) * bw ≤ ((6 * x + 2 * k + 2 : Nat) : Rat) * bw := by push_cast; linarith
  have b1 : 6 * x + 2 * k ≤ 6 * i + 3 := by exact_mod_cast le_of_mul_le_mul_right a1 hbw
  have b2 : 6 * i + 3 ≤ 6 * x + 2 * k + 2 := by exact_mod_cast le_of_mul_le_mul_right a2 hbw
  omega

/-- In halftone pictures the block function draws the sub-blocks as it should: rectangles; or a shape that needs no flag, circles in sub-blocks of at least two pixels, and sub-blocks that
fill the block. -/
def SubBlocks (o : Opts) (s : LibShape) : Prop :=
  3 ≤ o.qrBlockWidth ∧ (o.getShape = .rectangle ∨ (o.qrBlockWidth % 3 = 0 ∧ needsSelf s false = false ∧ (o.getShape = .circle → 6 ≤ o.qrBlockWidth)))

theorem sub_unit {assembled : Nat → DrawFn × DrawFn} {o : Opts} (hS : SubBlocks o (meaning assembled o.getShape)) (scale : Scaler) (m : Matrix) (img : Image) (x y s t : Nat) :
    ∃ u, UnitFor 0 u ∧ leftover [] ((meaning assembled o.getShape).cmds false (subCtx scale o m img x y s t)) = [] ∧
      (∀ q, Painted ((meaning assembled o.getShape).cmds false (subCtx scale o m img x y s t))
        (tr (((o.qrBlockWidth / 3 : Int) : Rat) / 2) ⟨(subCtx scale o m img x y s t).x, (subCtx scale o m img x y s t).y⟩ q) ↔ Painted u q) ∧
      (needsSelf (meaning assembled o.getShape) false = false → ∃ f, Cmd.add f ∈ u ∧ f.covers ⟨1, 1⟩) := by
  have hcirc' : meaning assembled o.getShape = .circle → 2 ≤ o.qrBlockWidth / 3 := by
    intro h
    rcases hS.2 with hr | ⟨_, _, hc⟩
    · rw [hr] at h; cases h
    · cases hg : o.getShape with
      | circle => have := hc hg; omega
      | rectangle => rw [hg] at h; cases h
      | custom k => rw [hg] at h; cases h
  obtain ⟨u, hu, hU, hA⟩ := lib_unit_always (meaning assembled o.getShape) false (c := subCtx scale o m img x y s t) rfl hcirc'
  have h3 := hS.1
  have hw : (0 : Rat) < ((o.qrBlockWidth / 3 : Int) : Rat) / 2 := by
    have : (0 : Rat) < ((o.qrBlockWidth / 3 : Int) : Rat) := by exact_mod_cast (by omega : 0 < o.qrBlockWidth / 3)
    linarith
  refine ⟨u, hU, ?_, ?_, hA⟩
  · rw [hu, show leftover [] (u.map _) = _ from leftover_map _ _ u [], hU.left]; rfl
  · intro q
    rw [hu]
    exact painted_tr hw _ q u

theorem tr_surj {w : Rat} (hw : 0 < w) (t p : Pt) : tr (w / 2) t ⟨(p.x - t.x) * 2 / w, (p.y - t.y) * 2 / w⟩ = p := by
  have : w ≠ 0 := ne_of_gt hw
  cases p
  simp only [tr, Pt.mk.injEq]
  constructor <;> field_simp <;> ring

/-- Sub-blocks paint no centre but the middle one that of its own block. -/
theorem sub_painted {assembled : Nat → DrawFn × DrawFn} {o : Opts} (hS : SubBlocks o (meaning assembled o.getShape)) {scale : Scaler} {m : Matrix} {img : Image}
    {x y s t i j : Nat} (hs : s < 3) (ht : t < 3) (hP : Painted ((meaning assembled o.getShape).cmds false (subCtx scale o m img x y s t)) (centre o i j)) :
    x = i ∧ y = j ∧ s = 1 ∧ t = 1 := by
  obtain ⟨u, hU, _, hp, _⟩ := sub_unit hS scale m img x y s t
  have h3 := hS.1
  have hbw : (0 : Rat) < (o.qrBlockWidth : Rat) := bw_pos o
  have hw : (0 : Rat) < ((o.qrBlockWidth / 3 : Int) : Rat) := by exact_mod_cast (by omega : 0 < o.qrBlockWidth / 3)
  have hle : ((o.qrBlockWidth / 3 : Int) : Rat) ≤ (o.qrBlockWidth : Rat) / 3 := by
    have : (((o.qrBlockWidth / 3) * 3 : Int) : Rat) ≤ (o.qrBlockWidth : Rat) := Rat.intCast_le_intCast.2 (by omega)
    push_cast at this
    linarith
  have e := tr_surj hw ⟨(subCtx scale o m img x y s t).x, (subCtx scale o m img x y s t).y⟩ (centre o i j)
  rw [← e, hp] at hP
  obtain ⟨f, hf, hc⟩ := painted_add hP
  obtain ⟨_, _, _, _, r1, r2, r3, r4⟩ := hU.reach f hf _ hc
  have hno : ∀ k, ¬ flag 0 k := by
    intro k h
    have : (0 : UInt16).toNat = 0 := rfl
    unfold flag at h
    rw [this, Nat.zero_testBit] at h
    cases h
  have b1 : 0 ≤ ((centre o i j).x - (subCtx scale o m img x y s t).x) * 2 / ((o.qrBlockWidth / 3 : Int) : Rat) := by
    by_contra hn; exact hno _ (r1 (not_le.1 hn)).1
  have b2 : ((centre o i j).x - (subCtx scale o m img x y s t).x) * 2 / ((o.qrBlockWidth / 3 : Int) : Rat) ≤ 2 := by
    by_contra hn; exact hno _ (r2 (not_le.1 hn)).1
  have b3 : 0 ≤ ((centre o i j).y - (subCtx scale o m img x y s t).y) * 2 / ((o.qrBlockWidth / 3 : Int) : Rat) := by
    by_contra hn; exact hno _ (r3 (not_le.1 hn)).1
  have b4 : ((centre o i j).y - (subCtx scale o m img x y s t).y) * 2 / ((o.qrBlockWidth / 3 : Int) : Rat) ≤ 2 := by
    by_contra hn; exact hno _ (r4 (not_le.1 hn)).1
  rw [le_div_iff₀ hw] at b1 b3
  rw [div_le_iff₀ hw] at b2 b4
  simp only [centre, subCtx] at b1 b2 b3 b4
  push_cast at b1 b2 b3 b4 hle
  obtain ⟨e1, e2⟩ := third_closed (i := i) (x := x) (left := o.borders.left) hbw hle hs (by linarith) (by linarith)
  obtain ⟨e3, e4⟩ := third_closed (i := j) (x := y) (left := o.borders.top) hbw hle ht (by linarith) (by linarith)
  exact ⟨e1, e3, e2, e4⟩

/-- The middle sub-block covers the centre. -/
theorem sub_own {assembled : Nat → DrawFn × DrawFn} {o : Opts} (hS : SubBlocks o (meaning assembled o.getShape)) (scale : Scaler) (m : Matrix) (img : Image) (i j : Nat) :
    Painted ((meaning assembled o.getShape).cmds false (subCtx scale o m img i j 1 1)) (centre o i j) := by
  have h3 := hS.1
  have hbw : (0 : Rat) < (o.qrBlockWidth : Rat) := bw_pos o
  have hw : (0 : Rat) < ((o.qrBlockWidth / 3 : Int) : Rat) := by exact_mod_cast (by omega : 0 < o.qrBlockWidth / 3)
  have hw6 : (o.qrBlockWidth : Rat) < 6 * ((o.qrBlockWidth / 3 : Int) : Rat) := by
    have : (o.qrBlockWidth : Rat) < ((6 * (o.qrBlockWidth / 3) : Int) : Rat) := Rat.intCast_lt_intCast.2 (by omega)
    push_cast at this
    exact this
  rcases hS.2 with hr | ⟨hmod, hns, _⟩
  · rw [hr]
    refine painted_of rfl (f := .rect (subCtx scale o m img i j 1 1).x (subCtx scale o m img i j 1 1).y ((o.qrBlockWidth / 3 : Int) : Rat) ((o.qrBlockWidth / 3 : Int) : Rat))
      List.mem_cons_self ?_
    simp only [Figure.covers, centre, subCtx]
    push_cast at hw6 ⊢
    refine ⟨by linarith, by linarith, by linarith, by linarith⟩
  · obtain ⟨u, hU, _, hp, hA⟩ := sub_unit hS scale m img i j 1 1
    obtain ⟨f, hf, hc⟩ := hA hns
    have := (hp ⟨1, 1⟩).2 (painted_of hU.left hf hc)
    have e : tr (((o.qrBlockWidth / 3 : Int) : Rat) / 2) ⟨(subCtx scale o m img i j 1 1).x, (subCtx scale o m img i j 1 1).y⟩ ⟨1, 1⟩ = centre o i j := by
      have e3 : (o.qrBlockWidth : Rat) = 3 * ((o.qrBlockWidth / 3 : Int) : Rat) := by
        have : o.qrBlockWidth = 3 * (o.qrBlockWidth / 3) := by omega
        exact_mod_cast congrArg (Int.cast : Int → Rat) this
      simp only [tr, centre, subCtx, Pt.mk.injEq]
      generalize ((o.qrBlockWidth / 3 : Int) : Rat) = w at *
      push_cast
      rw [e3]
      constructor <;> ring
    rwa [e] at this

/-- **C81, the centres.**  With a halftone image and a library shape that draws its sub-blocks (`SubBlocks`), with or without logo and safe zone: the centres have the colours of C80, whatever
the halftone image shows. -/
theorem C81_centres (scale : Scaler) {o : Opts} {m : Matrix} (hsq : m.width = m.height) {img : Image} (hh : o.halftone = some img)
    (assembled : Nat → DrawFn × DrawFn) (hS : SubBlocks o (meaning assembled o.getShape)) :
    ∃ ops o', draw scale o m = some (ops, o') ∧ ∀ i j, i < m.width → j < m.height →
      ((m.raw i j).bit = true → (safeOn o m = true → overlaps o m i j = false) →
        (safeOn o m = true → needsSelf (meaning assembled o.getShape) (decide ((m.raw i j).ty = .finder)) = true → overlaps o m j i = false) →
        colourAt (drawing (meaning assembled) (shapeCalls ops)) (centre o i j) = some o.qrColor) ∧
      ((m.raw i j).bit = false → colourAt (drawing (meaning assembled) (shapeCalls ops)) (centre o i j) = none ∨
        colourAt (drawing (meaning assembled) (shapeCalls ops)) (centre o i j) =
          some (if o.bgTransparent then ⟨0, 0, 0, 0⟩ else o.bgColor)) := by
  obtain ⟨ops, o', bm, hd, hM, hcalls⟩ := halftone_calls scale hsq hh
  refine ⟨ops, o', hd, ?_⟩
  have hcirc : o.getShape = .circle → 2 ≤ o.qrBlockWidth := by intro _; have := hS.1; omega
  have hleft : ∀ a ∈ shapeCalls ops, leftover [] ((meaning assembled a.2.1).cmds a.1 a.2.2) = [] := by
    intro a ha
    obtain ⟨x, y, _, _, _, ⟨_, s, t, _, _, rfl⟩ | ⟨_, rfl⟩⟩ := (hcalls a).1 ha
    · obtain ⟨u, _, h, _⟩ := sub_unit hS scale m img x y s t
      exact h
    · obtain ⟨u, _, h, _⟩ := module_unit_in (assembled := assembled) hcirc bm m x y
      exact h
  intro i j hi hj
  obtain ⟨hnone, hsome⟩ := colour_calls (meaning assembled) hleft (centre o i j)
  have hgood : ∀ a ∈ shapeCalls ops, Painted ((meaning assembled a.2.1).cmds a.1 a.2.2) (centre o i j) → a.2.2.color = moduleColor o (m.raw i j) := by
    intro a ha hP
    obtain ⟨x, y, _, _, _, ⟨_, s, t, h1, h2, rfl⟩ | ⟨_, rfl⟩⟩ := (hcalls a).1 ha
    · obtain ⟨rfl, rfl, rfl, rfl⟩ := sub_painted hS h1 h2 hP
      simp only [subCtx, and_self, if_true]
    · exact painted_same hcirc hM hP
  constructor
  · intro hb hno hself
    rw [moduleColor_dark hb] at hgood
    refine hsome _ hgood ?_
    by_cases hdt : (m.raw i j).ty = .data
    · exact ⟨(false, o.getShape, subCtx scale o m img i j 1 1), (hcalls _).2 ⟨i, j, hi, hj, drawn_of hno, .inl ⟨hdt, 1, 1, by omega, by omega, rfl⟩⟩,
        sub_own hS scale m img i j⟩
    · exact ⟨(decide ((m.raw i j).ty = .finder), o.getShape, moduleCtx o bm i j (m.raw i j)), (hcalls _).2 ⟨i, j, hi, hj, drawn_of hno, .inr ⟨hdt, rfl⟩⟩,
        painted_own hcirc hM hi hj hb hself⟩
  · intro hb
    rw [moduleColor_light hb] at hgood
    by_cases hex : ∃ a ∈ shapeCalls ops, Painted ((meaning assembled a.2.1).cmds a.1 a.2.2) (centre o i j)
    · exact .inr (hsome _ hgood hex)
    · exact .inl (hnone (fun a ha hP => hex ⟨a, ha, hP⟩))

/-- **C81.**  Text, halftone picture with shapes, text: no logo, distinguishable colours, and a shape that draws its sub-blocks: the centres of the blocks show exactly the text, whatever the
halftone image shows. -/
theorem C81_halftone {E : Ext} {unsjis : Nat → Option Nat} (hE : E.Ok unsjis) {c : AlignCache} (hc : CacheReachable c)
    {arrival : List Nat} (ha : Arrival arrival) {t : TextType} {text : Bytes} {opts : List EncodeOption} {q : QRCode}
    (h : newWith E c arrival t text opts = .ok q)
    (hx : ¬ (modeIn opts = encAuto ∧ AlnumThenKanji E.sjis (nats text)))
    (scale : Scaler) {o : Opts} (hcol : Contrast o) {img : Image} (hh : o.halftone = some img) (hl : o.logo = none)
    (assembled : Nat → DrawFn × DrawFn) (hS : SubBlocks o (meaning assembled o.getShape)) :
    ∃ ops o', draw scale o q.mat = some (ops, o') ∧
      decode unsjis (seenCentres o q.dimension (drawing (meaning assembled) (shapeCalls ops))) = some (nats text) := by
  obtain ⟨hw, hhh⟩ := mat_size hE hc ha h
  have hs : safeOn o q.mat = false := by
    unfold safeOn logoValid logoSize; rw [hl]; rfl
  obtain ⟨ops, o', hd, hp⟩ := C81_centres scale (o := o) (m := q.mat) (hw.trans hhh.symm) hh assembled hS
  refine ⟨ops, o', hd, ?_⟩
  rw [seenCentres_eq hw hhh (fun x y hx' hy' => ?_)]
  · exact C01_roundtrip_partial hE hc ha h hx
  · obtain ⟨p1, p2⟩ := hp x y (by omega) (by omega)
    cases hb : (q.mat.raw x y).bit with
    | true => exact decide_eq_true (p1 hb (fun h => by rw [hs] at h; cases h) (fun h => by rw [hs] at h; cases h))
    | false =>
      refine decide_eq_false fun hcc => ?_
      rcases p2 hb with hn | hn
      · rw [hn] at hcc; cases hcc
      · rw [hn, Option.some.injEq] at hcc
        exact light_ne hcol hcc

/-- **C81, with a logo** as in C69 and C80, with or without a safe zone. -/
theorem C81_halftone_logo {E : Ext} {unsjis : Nat → Option Nat} (hE : E.Ok unsjis) (hRS : E.rs = rsEncode) {c : AlignCache} (hc : CacheReachable c)
    {arrival : List Nat} (ha : Arrival arrival) {t : TextType} {text : Bytes} {opts : List EncodeOption} {q : QRCode}
    (h : newWith E c arrival t text opts = .ok q)
    (hx : ¬ (modeIn opts = encAuto ∧ AlnumThenKanji E.sjis (nats text)))
    {v : Nat} (hv : q.dimension = 17 + 4 * v)
    (hlv : ¬ (levelIn opts = .L ∧ v ∈ [1, 2, 3, 4, 5, 6, 36] ∨ levelIn opts = .M ∧ v ∈ [2, 4]))
    (scale : Scaler) {o : Opts} (hcol : Contrast o) {himg : Image} (hht : o.halftone = some himg)
    (assembled : Nat → DrawFn × DrawFn) (hS : SubBlocks o (meaning assembled o.getShape))
    (hbx : 0 ≤ o.borders.left ∧ o.borders.left ≤ 2 * o.qrBlockWidth ∧ o.borders.right = o.borders.left)
    (hby : 0 ≤ o.borders.top ∧ o.borders.top ≤ 2 * o.qrBlockWidth ∧ o.borders.bottom = o.borders.top)
    {img : Image} (hl : o.logo = some img) (hmin : img.minX = 0 ∧ img.minY = 0) (hmax : 0 ≤ img.maxX ∧ 0 ≤ img.maxY)
    (hk : 5 ≤ o.logoSizeMultiplier) :
    ∃ ops o', draw scale o q.mat = some (ops, o') ∧ ∀ logo : Pt → Bool,
      decodeDamaged unsjis (seenCentresLogo o q.dimension ops (drawing (meaning assembled) (shapeCalls ops)) logo) = some (nats text) := by
  obtain ⟨hw, hh⟩ := mat_size hE hc ha h
  obtain ⟨ops, o', hd, hp⟩ := C81_centres scale (o := o) (m := q.mat) (hw.trans hh.symm) hht assembled hS
  exact ⟨ops, o', hd, centres_logo hE hRS hc ha h hx hv hlv hcol assembled hbx hby hl hmin hmax hk hd hp⟩

/-- The hypotheses are met: liquid blocks in blocks of 21 pixels. -/
example (himg img : Image) : let o : Opts := { defaultOpts with halftone := some himg, qrWidth := 21, shape := some (.custom 0), logo := some img, logoSafeZone := true }
    SubBlocks o (meaning (fun _ => (.roundedFinder, .liquidBlock)) o.getShape) ∧ Contrast o := by
  have d1 : defaultOpts.bgColor ≠ defaultOpts.qrColor := by decide
  exact ⟨⟨by show (3 : Int) ≤ 21; decide, Or.inr ⟨by show (21 : Int) % 3 = 0; decide, rfl, fun h => by cases h⟩⟩, ⟨rfl, Or.inr ⟨rfl, d1⟩⟩⟩

end QR.Standard
