import Verif.Props.Scan
import Verif.Props.Shapes
/-!
# C72: shapes and halftone pictures, and back

The drawing is looked at in the plane (`Model/Shapes.lean`): `colourAt` is the colour a point got last.  The scanner looks at the centres of the blocks.
-/
namespace QR.Standard
open QR Matrix Spec Plane

/-- What a scanner sees of a drawing that looks at the centres of the blocks. -/
def seenCentres (o : Opts) (dim : Nat) (cmds : List (RGBA × Cmd)) : List (List Bool) :=
  (List.range dim).map fun y => (List.range dim).map fun x => decide (colourAt cmds (centre o x y) = some o.qrColor)

theorem seenCentres_eq {m : Matrix} {dim : Nat} (hw : m.width = dim) (hh : m.height = dim) {o : Opts} {cmds : List (RGBA × Cmd)}
    (h : ∀ x y, x < dim → y < dim → decide (colourAt cmds (centre o x y) = some o.qrColor) = (m.raw x y).bit) : seenCentres o dim cmds = m.bitmap := by
  have : seenCentres o dim cmds = scan dim (fun px py => decide (colourAt cmds (centre o px.toNat py.toNat) = some o.qrColor)) (fun x y => ((x : Int), (y : Int))) := rfl
  rw [this]
  exact scan_eq hw hh h

theorem light_ne {o : Opts} (h : Contrast o) : (if o.bgTransparent then (⟨0, 0, 0, 0⟩ : RGBA) else o.bgColor) ≠ o.qrColor := by
  intro hc
  have hfg := h.fg
  cases ht : o.bgTransparent with
  | true => rw [ht, if_pos rfl] at hc; rw [← hc] at hfg; exact absurd hfg (by decide)
  | false =>
    rw [ht, if_neg (by decide)] at hc
    rcases h.bg with hb | hb
    · rw [ht] at hb; cases hb
    · exact hb.2 hc

/-- **C72, shapes.** With any shape of this library (circles in blocks of at least two pixels), no halftone and no logo in effect with a safe zone, colours that can be told apart: the
centres of the blocks show the text. -/
theorem C72_shapes {E : Ext} {unsjis : Nat → Option Nat} (hE : E.Ok unsjis) {c : AlignCache} (hc : CacheReachable c)
    {arrival : List Nat} (ha : Arrival arrival) {t : TextType} {text : Bytes} {opts : List EncodeOption} {q : QRCode}
    (h : newWith E c arrival t text opts = .ok q)
    (hx : ¬ (modeIn opts = encAuto ∧ AlnumThenKanji E.sjis (nats text)))
    (scale : Scaler) {o : Opts} (hcol : Contrast o) (hh : o.halftone = none) (hl : o.logo = none ∨ o.logoSafeZone = false)
    (assembled : Nat → DrawFn × DrawFn) (hcirc : o.getShape = .circle → 2 ≤ o.qrBlockWidth) :
    ∃ ops o', draw scale o q.mat = some (ops, o') ∧
      decode unsjis (seenCentres o q.dimension (drawing (meaning assembled) (shapeCalls ops))) = some (nats text) := by
  obtain ⟨hw, hhh⟩ := mat_size hE hc ha h
  have hs : safeOn o q.mat = false := by
    unfold safeOn
    rcases hl with hl | hl
    · unfold logoValid logoSize; rw [hl]; rfl
    · rw [hl, Bool.and_false]
  obtain ⟨ops, o', hd, hp⟩ := C59_centres_partial scale o q.mat hh hs assembled hcirc
  refine ⟨ops, o', hd, ?_⟩
  rw [seenCentres_eq hw hhh (fun x y hx' hy' => ?_)]
  · exact C01_roundtrip_partial hE hc ha h hx
  · obtain ⟨p1, p2⟩ := hp x y (by omega) (by omega)
    cases hb : (q.mat.raw x y).bit with
    | true => exact decide_eq_true (p1 hb)
    | false =>
      refine decide_eq_false fun hcc => ?_
      rcases p2 hb with hn | hn
      · rw [hn] at hcc; cases hcc
      · rw [hn, Option.some.injEq] at hcc
        exact light_ne hcol hcc

/-! ## Halftone -/

/-- The fills of a drawing of rectangles. -/
theorem rect_fills (assembled : Nat → DrawFn × DrawFn) : ∀ calls : List (Bool × Shape × Ctx), (∀ a ∈ calls, a.2.1 = .rectangle) →
    colourFills [] (drawing (meaning assembled) calls) = calls.map fun a => (a.2.2.color, [Figure.rect a.2.2.x a.2.2.y a.2.2.w a.2.2.h]) := by
  intro calls
  induction calls with
  | nil => intro _; rfl
  | cons a calls ih =>
    intro h
    have ha := h a (by simp)
    have hi := ih fun b hb => h b (by simp [hb])
    rw [List.map_cons, ← hi]
    unfold drawing
    rw [List.flatMap_cons, ha]
    rfl

/-- Which third of which block a coordinate in the middle of a block belongs to. -/
theorem third {bw w left : Rat} (hbw : 0 < bw) (hw : w ≤ bw / 3) {i x k : Nat} (hk : k < 3)
    (h1 : (x : Rat) * bw + left + (k : Rat) * (bw / 3) ≤ left + bw * (i + 1 / 2)) (h2 : left + bw * (i + 1 / 2) < (x : Rat) * bw + left + (k : Rat) * (bw / 3) + w) :
    x = i ∧ k = 1 := by
  have a1 : ((6 * x + 2 * k : Nat) : Rat) * bw ≤ ((6 * i + 3 : Nat) : Rat) * bw := by push_cast; linarith
  have a2 : ((6 * i + 3 : Nat) : Rat) * bw < ((6 * x + 2 * k + 2 : Nat) : Rat) * bw := by push_cast; linarith
  have b1 : 6 * x + 2 * k ≤ 6 * i + 3 := by exact_mod_cast le_of_mul_le_mul_right a1 hbw
  have b2 : 6 * i + 3 < 6 * x + 2 * k + 2 := by exact_mod_cast lt_of_mul_lt_mul_right a2 (le_of_lt hbw)
  omega

theorem whole {bw left : Rat} (hbw : 0 < bw) {i x : Nat} (h1 : (x : Rat) * bw + left ≤ left + bw * (i + 1 / 2)) (h2 : left + bw * (i + 1 / 2) < (x : Rat) * bw + left + bw) : x = i := by
  have a1 : ((2 * x : Nat) : Rat) * bw ≤ ((2 * i + 1 : Nat) : Rat) * bw := by push_cast; linarith
  have a2 : ((2 * i + 1 : Nat) : Rat) * bw < ((2 * x + 2 : Nat) : Rat) * bw := by push_cast; linarith
  have b1 : 2 * x ≤ 2 * i + 1 := by exact_mod_cast le_of_mul_le_mul_right a1 hbw
  have b2 : 2 * i + 1 < 2 * x + 2 := by exact_mod_cast lt_of_mul_lt_mul_right a2 (le_of_lt hbw)
  omega

/-- **C72, halftone, the centres.** With a halftone image, rectangles, no logo in effect with a safe zone and blocks of at least three pixels: the centre of every block has the colour
of its module, whatever the halftone image shows. -/
theorem C72_halftone_centres (scale : Scaler) {o : Opts} {m : Matrix} {img : Image} (hh : o.halftone = some img) (hs : safeOn o m = false)
    (hr : o.getShape = .rectangle) (h3 : 3 ≤ o.qrBlockWidth) (assembled : Nat → DrawFn × DrawFn) :
    ∃ ops o', draw scale o m = some (ops, o') ∧ ∀ i j, i < m.width → j < m.height →
      colourAt (drawing (meaning assembled) (shapeCalls ops)) (centre o i j) =
        some (if (m.raw i j).bit then o.qrColor else if o.bgTransparent then ⟨0, 0, 0, 0⟩ else o.bgColor) := by
  obtain ⟨ops, o', hd, hcalls⟩ := C53_halftone scale hh hs
  refine ⟨ops, o', hd, fun i j hi hj => ?_⟩
  have hrect : ∀ a ∈ shapeCalls ops, a.2.1 = .rectangle := by
    intro a ha
    rw [hcalls] at ha
    obtain ⟨b, _, ha⟩ := List.mem_flatMap.1 ha
    split at ha
    · obtain ⟨ij, _, rfl⟩ := List.mem_map.1 ha
      exact hr
    · rw [List.mem_singleton] at ha
      subst ha
      exact hr
  have hbw : (0 : Rat) < (o.qrBlockWidth : Rat) := bw_pos o
  have hw : ((o.qrBlockWidth / 3 : Int) : Rat) ≤ (o.qrBlockWidth : Rat) / 3 := by
    have : (((o.qrBlockWidth / 3) * 3 : Int) : Rat) ≤ (o.qrBlockWidth : Rat) := Rat.intCast_le_intCast.2 (by omega)
    push_cast at this
    linarith
  have hw6 : (o.qrBlockWidth : Rat) < 6 * ((o.qrBlockWidth / 3 : Int) : Rat) := by
    have : (o.qrBlockWidth : Rat) < ((6 * (o.qrBlockWidth / 3) : Int) : Rat) := Rat.intCast_lt_intCast.2 (by omega)
    push_cast at this
    exact this
  have hgood : ∀ kp ∈ (colourFills [] (drawing (meaning assembled) (shapeCalls ops))).filter (fun kp => kp.2.any fun f => decide (f.covers (centre o i j))),
      kp.1 = if (m.raw i j).bit then o.qrColor else if o.bgTransparent then ⟨0, 0, 0, 0⟩ else o.bgColor := by
    intro kp hkp
    rw [rect_fills assembled _ hrect, List.mem_filter] at hkp
    obtain ⟨hm, hcov⟩ := hkp
    obtain ⟨a, ha, rfl⟩ := List.mem_map.1 hm
    simp only [List.any_cons, List.any_nil, Bool.or_false, decide_eq_true_eq] at hcov
    obtain ⟨c1, c2, c3, c4⟩ := hcov
    rw [hcalls] at ha
    obtain ⟨b, hb, ha⟩ := List.mem_flatMap.1 ha
    obtain ⟨hv, hbx, hby⟩ := iterate_val hb
    split at ha
    · obtain ⟨ij, hij, rfl⟩ := List.mem_map.1 ha
      have h01 : ij.1 < 3 ∧ ij.2 < 3 := by
        have : ∀ p ∈ ([(0, 0), (0, 1), (0, 2), (1, 0), (1, 1), (1, 2), (2, 0), (2, 1), (2, 2)] : List (Nat × Nat)), p.1 < 3 ∧ p.2 < 3 := by decide
        exact this ij hij
      simp only [centre] at c1 c2 c3 c4 ⊢
      push_cast at c1 c2 c3 c4
      obtain ⟨e1, e2⟩ := third hbw hw h01.1 c1 c2
      obtain ⟨e3, e4⟩ := third hbw hw h01.2 c3 c4
      have : ij = (1, 1) := Prod.ext e2 e4
      rw [if_pos this, hv, e1, e3]
    · rw [List.mem_singleton] at ha
      subst ha
      simp only [centre, moduleCtx] at c1 c2 c3 c4 ⊢
      push_cast at c1 c2 c3 c4
      have e1 := whole hbw c1 c2
      have e3 := whole hbw c3 c4
      rw [hv, e1, e3]
      rfl
  have hex : ∃ a ∈ shapeCalls ops, (Figure.rect a.2.2.x a.2.2.y a.2.2.w a.2.2.h).covers (centre o i j) := by
    rw [hcalls]
    by_cases hdt : (m.raw i j).ty = .data
    · refine Exists.intro (false, o.getShape, ({
          x := (((i : Int) * o.qrBlockWidth + o.borders.left : Int) : Rat) + ((1 : Nat) : Rat) * ((o.qrBlockWidth : Rat) / 3),
          y := (((j : Int) * o.qrBlockWidth + o.borders.top : Int) : Rat) + ((1 : Nat) : Rat) * ((o.qrBlockWidth : Rat) / 3),
          w := o.qrBlockWidth / 3, h := o.qrBlockWidth / 3,
          color := if (m.raw i j).bit then o.qrColor else if o.bgTransparent then ⟨0, 0, 0, 0⟩ else o.bgColor, neighbours := 0 } : Ctx)) (And.intro ?memp ?covp)
      case memp =>
        refine List.mem_flatMap.2 ⟨(i, j, m.raw i j), iterate_raw hi hj, ?_⟩
        rw [if_pos hdt]
        exact List.mem_map.2 ⟨(1, 1), by simp, rfl⟩
      case covp =>
        simp only [Figure.covers, centre]
        push_cast
        refine ⟨by linarith, by linarith, by linarith, by linarith⟩
    · refine Exists.intro (decide ((m.raw i j).ty = .finder), o.getShape, moduleCtx o m.bitmap i j (m.raw i j)) (And.intro ?memr ?covr)
      case memr =>
        refine List.mem_flatMap.2 ⟨(i, j, m.raw i j), iterate_raw hi hj, ?_⟩
        rw [if_neg hdt]
        exact List.mem_singleton.2 rfl
      case covr =>
        simp only [Figure.covers, centre, moduleCtx]
        push_cast
        refine ⟨by linarith, by linarith, by linarith, by linarith⟩
  have hone : ∃ kp, kp ∈ (colourFills [] (drawing (meaning assembled) (shapeCalls ops))).filter (fun kp => kp.2.any fun f => decide (f.covers (centre o i j))) := by
    obtain ⟨a, ha, hcov⟩ := hex
    rw [rect_fills assembled _ hrect]
    refine ⟨_, List.mem_filter.2 ⟨List.mem_map.2 ⟨a, ha, rfl⟩, ?_⟩⟩
    simp only [List.any_cons, List.any_nil, Bool.or_false, decide_eq_true_eq]
    exact hcov
  unfold colourAt
  obtain ⟨kp, hkp⟩ := hone
  rcases getLast_all hgood with h | ⟨a, ha, h⟩
  · rw [List.getLast?_eq_none_iff.1 h] at hkp; cases hkp
  · rw [ha, Option.map_some, h]

/-- **C72, halftone.** Text, halftone picture, text. -/
theorem C72_halftone {E : Ext} {unsjis : Nat → Option Nat} (hE : E.Ok unsjis) {c : AlignCache} (hc : CacheReachable c)
    {arrival : List Nat} (ha : Arrival arrival) {t : TextType} {text : Bytes} {opts : List EncodeOption} {q : QRCode}
    (h : newWith E c arrival t text opts = .ok q)
    (hx : ¬ (modeIn opts = encAuto ∧ AlnumThenKanji E.sjis (nats text)))
    (scale : Scaler) {o : Opts} (hcol : Contrast o) {img : Image} (hh : o.halftone = some img) (hl : o.logo = none ∨ o.logoSafeZone = false)
    (hr : o.getShape = .rectangle) (h3 : 3 ≤ o.qrBlockWidth) (assembled : Nat → DrawFn × DrawFn) :
    ∃ ops o', draw scale o q.mat = some (ops, o') ∧
      decode unsjis (seenCentres o q.dimension (drawing (meaning assembled) (shapeCalls ops))) = some (nats text) := by
  obtain ⟨hw, hhh⟩ := mat_size hE hc ha h
  have hs : safeOn o q.mat = false := by
    unfold safeOn
    rcases hl with hl | hl
    · unfold logoValid logoSize; rw [hl]; rfl
    · rw [hl, Bool.and_false]
  obtain ⟨ops, o', hd, hp⟩ := C72_halftone_centres scale (m := q.mat) hh hs hr h3 assembled
  refine ⟨ops, o', hd, ?_⟩
  rw [seenCentres_eq hw hhh (fun x y hx' hy' => ?_)]
  · exact C01_roundtrip_partial hE hc ha h hx
  · rw [hp x y (by omega) (by omega)]
    cases hb : (q.mat.raw x y).bit with
    | true => exact decide_eq_true rfl
    | false => exact decide_eq_false fun hcc => light_ne hcol (Option.some.inj hcc)

/-- **C72, the exception.** In blocks of one or two pixels a halftone picture shows nothing of the data modules: the sub-blocks have the width `⌊2 / 3⌋ = 0`. -/
theorem C72_counterexample (scale : Scaler) {o : Opts} {m : Matrix} {img : Image} (hh : o.halftone = some img) (hs : safeOn o m = false)
    (hr : o.getShape = .rectangle) (h2 : o.qrBlockWidth ≤ 2) (assembled : Nat → DrawFn × DrawFn) :
    ∃ ops o', draw scale o m = some (ops, o') ∧ ∀ i j, i < m.width → j < m.height → (m.raw i j).ty = .data →
      colourAt (drawing (meaning assembled) (shapeCalls ops)) (centre o i j) = none := by
  obtain ⟨ops, o', hd, hcalls⟩ := C53_halftone scale hh hs
  refine ⟨ops, o', hd, fun i j hi hj hdata => ?_⟩
  have hrect : ∀ a ∈ shapeCalls ops, a.2.1 = .rectangle := by
    intro a ha
    rw [hcalls] at ha
    obtain ⟨b, _, ha⟩ := List.mem_flatMap.1 ha
    split at ha
    · obtain ⟨ij, _, rfl⟩ := List.mem_map.1 ha
      exact hr
    · rw [List.mem_singleton] at ha
      subst ha
      exact hr
  have hpos := (blockWidth_pos o).1
  have hbw : (0 : Rat) < (o.qrBlockWidth : Rat) := bw_pos o
  have hw : ((o.qrBlockWidth / 3 : Int) : Rat) = 0 := by rw [show o.qrBlockWidth / 3 = 0 by omega]; rfl
  have : (colourFills [] (drawing (meaning assembled) (shapeCalls ops))).filter (fun kp => kp.2.any fun f => decide (f.covers (centre o i j))) = [] := by
    apply List.eq_nil_iff_forall_not_mem.2
    intro kp hkp
    rw [rect_fills assembled _ hrect, List.mem_filter] at hkp
    obtain ⟨hm, hcov⟩ := hkp
    obtain ⟨a, ha, rfl⟩ := List.mem_map.1 hm
    simp only [List.any_cons, List.any_nil, Bool.or_false, decide_eq_true_eq] at hcov
    obtain ⟨c1, c2, c3, c4⟩ := hcov
    rw [hcalls] at ha
    obtain ⟨b, hb, ha⟩ := List.mem_flatMap.1 ha
    obtain ⟨hv, hbx, hby⟩ := iterate_val hb
    split at ha
    · obtain ⟨ij, hij, rfl⟩ := List.mem_map.1 ha
      simp only [hw] at c1 c2
      linarith
    · rename_i hnd
      rw [List.mem_singleton] at ha
      subst ha
      simp only [centre, moduleCtx] at c1 c2 c3 c4
      push_cast at c1 c2 c3 c4
      have e1 := whole hbw c1 c2
      have e3 := whole hbw c3 c4
      rw [hv, e1, e3] at hnd
      exact hnd hdata
  unfold colourAt
  rw [this]; rfl

/-- The hypotheses are met: the default options with circles, and with a halftone image. -/
example (img : Image) : Contrast { defaultOpts with shape := some .circle } ∧ (2 : Int) ≤ Opts.qrBlockWidth { defaultOpts with shape := some .circle } ∧
    Contrast { defaultOpts with halftone := some img } ∧ Opts.getShape { defaultOpts with halftone := some img } = .rectangle ∧
    (3 : Int) ≤ Opts.qrBlockWidth { defaultOpts with halftone := some img } := by
  have d1 : defaultOpts.bgColor ≠ defaultOpts.qrColor := by decide
  have d2 : (3 : Int) ≤ defaultOpts.qrBlockWidth := by decide
  refine ⟨⟨rfl, Or.inr ⟨rfl, d1⟩⟩, ?_, ⟨rfl, Or.inr ⟨rfl, d1⟩⟩, rfl, d2⟩
  have : (2 : Int) ≤ defaultOpts.qrBlockWidth := by decide
  exact this

end QR.Standard
