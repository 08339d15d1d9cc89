import Verif.Props.ScanShapes
/-!
# C80: shapes and a logo, with or without a safe zone

`Props/Shapes.lean` looks at drawings without a safe zone.  With a safe zone some dark modules are not drawn, and the neighbour masks come from a bitmap
with some (transposed, see C43) modules cleared.
-/
namespace QR.Standard
open QR QR.Matrix Spec Plane

/-- Is module `(x, y)` drawn? -/
def drawnModule (o : Opts) (m : Matrix) (x y : Nat) : Bool := !(safeOn o m && overlaps o m x y && (m.raw x y).bit)

/-- What is drawn for module `(x, y)`, with the neighbours taken from `bm`. -/
def cmdsIn (assembled : Nat → DrawFn × DrawFn) (o : Opts) (bm : List (List Bool)) (m : Matrix) (x y : Nat) : List Cmd :=
  (meaning assembled o.getShape).cmds (decide ((m.raw x y).ty = .finder)) (moduleCtx o bm x y (m.raw x y))

/-- The neighbours in `bm` are dark modules; `bm` has all of them whose mirror image does not overlap the logo. -/
structure MaskOf (o : Opts) (m : Matrix) (bm : List (List Bool)) : Prop where
  bits : ∀ (x y : Nat) (dx dy : Int), -1 ≤ dx → dx ≤ 1 → -1 ≤ dy → dy ≤ 1 →
        (flag (getNeighbours bm x y) (3 * (dy + 1) + (dx + 1)).toNat ↔
          ∃ nx ny : Nat, (nx : Int) = x + dx ∧ (ny : Int) = y + dy ∧ nx < m.width ∧ ny < m.height ∧ (m.raw nx ny).bit = true ∧
            (safeOn o m && overlaps o m ny nx) = false)

/-- The bitmap for the neighbours, with or without a safe zone. -/
theorem mask_any {o : Opts} {m : Matrix} (hsq : m.width = m.height) : ∃ bm, maskBitmap o m = some bm ∧ MaskOf o m bm := by
  cases hs : safeOn o m with
  | false =>
    refine ⟨_, maskBitmap_off hs, ⟨?_⟩⟩
    intro x y dx dy a b c d
    rw [show flag (getNeighbours m.bitmap x y) _ ↔ _ from (C41_neighbours m x y).1 dx dy a b c d]
    simp [hs]
  | true =>
    obtain ⟨bm, hbm, hT, hpx⟩ := maskBitmap_on hsq hs
    refine ⟨bm, hbm, ⟨?_⟩⟩
    intro x y dx dy a b c d
    obtain ⟨h1, _⟩ := neighbours_table hT x y
    have hd : dirBit dx dy = (3 * (dy + 1) + (dx + 1)).toNat := by unfold dirBit; congr 1; omega
    have hb := h1 dx dy a b c d
    rw [hd] at hb
    refine hb.trans ?_
    constructor
    · rintro ⟨g1, g2, g3, g4, g5⟩
      refine ⟨((x : Int) + dx).toNat, ((y : Int) + dy).toNat, by omega, by omega, by omega, by omega, ?_⟩
      rw [hpx _ _ (by omega) (by omega)] at g5
      cases ho : overlaps o m ((y : Int) + dy).toNat ((x : Int) + dx).toNat
      · rw [ho, if_neg (by simp)] at g5; exact ⟨g5, by simp⟩
      · rw [ho, if_pos rfl] at g5; cases g5
    · rintro ⟨nx, ny, e1, e2, h3, h4, h5, h6⟩
      have en : ((x : Int) + dx).toNat = nx := by omega
      have em : ((y : Int) + dy).toNat = ny := by omega
      refine ⟨by omega, by omega, by omega, by omega, ?_⟩
      rw [en, em, hpx _ _ h3 h4, if_neg (by rw [hs, Bool.true_and] at h6; rw [h6]; simp)]
      exact h5

/-- The calls for the shapes, with or without a safe zone. -/
theorem calls_any (scale : Scaler) {o : Opts} {m : Matrix} (hsq : m.width = m.height) (hh : o.halftone = none) :
    ∃ ops o' bm, draw scale o m = some (ops, o') ∧ MaskOf o m bm ∧
      shapeCalls ops = ((m.iterate .row).filter fun a => drawnModule o m a.1 a.2.1).map fun a =>
        (decide ((m.raw a.1 a.2.1).ty = .finder), o.getShape, moduleCtx o bm a.1 a.2.1 (m.raw a.1 a.2.1)) := by
  obtain ⟨bm, hbm, hM⟩ := mask_any (o := o) hsq
  cases hs : safeOn o m with
  | false =>
    rw [maskBitmap_off hs, Option.some.injEq] at hbm
    subst hbm
    obtain ⟨ops, o', he, hc⟩ := C40_calls scale o m hh hs
    refine ⟨ops, o', m.bitmap, he, hM, ?_⟩
    rw [hc, List.filter_eq_self.2 (fun a _ => by unfold drawnModule; rw [hs]; rfl)]
    refine List.map_congr_left fun a ha => ?_
    rw [(iterate_val ha).1]; rfl
  | true =>
    obtain ⟨ops, o', he, hc⟩ := safe_calls scale hh hs hbm
    refine ⟨ops, o', bm, he, hM, ?_⟩
    rw [hc]
    have hf : ((m.iterate .row).filter fun a => !(overlaps o m a.1 a.2.1 && a.2.2.bit)) = (m.iterate .row).filter fun a => drawnModule o m a.1 a.2.1 := by
      refine List.filter_congr fun a ha => ?_
      unfold drawnModule
      rw [hs, Bool.true_and, (iterate_val ha).1]
    rw [hf]
    refine List.map_congr_left fun a ha => ?_
    rw [(iterate_val (List.mem_of_mem_filter ha)).1]

/-- Does the drawing function for this kind of module draw nothing if the module's own flag is not set?  Only `RoundedFinder` does. -/
def needsSelf (s : LibShape) (fin : Bool) : Bool :=
  match s, fin with
  | .assembled a _, true => decide (a = .roundedFinder)
  | .assembled _ b, false => decide (b = .roundedFinder)
  | _, _ => false

theorem unit_always {d : DrawFn} (hd : d ≠ .roundedFinder) (mask : UInt16) : ∃ f, Cmd.add f ∈ unitCmds d mask ∧ f.covers ⟨1, 1⟩ := by
  cases d with
  | liquidBlock => exact ⟨.disc 1 1 1, by simp [unitCmds, liquidUnit], disc_centre (by norm_num)⟩
  | hStripeBlock r => exact ⟨.disc 1 1 (9 / 10), by simp [unitCmds], disc_centre (by norm_num)⟩
  | vStripeBlock r => exact ⟨.disc 1 1 (vRatio r), by simp [unitCmds], disc_centre (by linarith [(vRatio_range r).1])⟩
  | chainBlock => exact ⟨.disc 1 1 (9 / 10), by simp [unitCmds], disc_centre (by norm_num)⟩
  | vChainBlock => exact ⟨.disc 1 1 (85 / 100), by simp [unitCmds], disc_centre (by norm_num)⟩
  | hChainBlock => exact ⟨.disc 1 1 (85 / 100), by simp [unitCmds], disc_centre (by norm_num)⟩
  | squareBlocks s =>
    have := (blockScale_range s).1
    refine ⟨_, List.mem_cons_self, ?_⟩
    refine ⟨?_, ?_, ?_, ?_⟩ <;> simp only <;> linarith
  | circleBlocks s => exact ⟨_, List.mem_cons_self, disc_centre (by linarith [(blockScale_range s).1])⟩
  | squareFinder => exact ⟨_, List.mem_cons_self, corner_centres.2.2⟩
  | roundedFinder => exact absurd rfl hd

/-- `lib_unit`, and the centre is covered whatever the neighbours. -/
theorem lib_unit_always (s : LibShape) (fin : Bool) {c : Ctx} (hh : c.h = c.w) (hcirc : s = .circle → 2 ≤ c.w) :
    ∃ u, s.cmds fin c = u.map (cmdTr ((c.w : Rat) / 2) ⟨c.x, c.y⟩) ∧ UnitFor c.neighbours u ∧
      (needsSelf s fin = false → ∃ f, Cmd.add f ∈ u ∧ f.covers ⟨1, 1⟩) := by
  have hf (d : DrawFn) (b : Bool) (hb : b = decide (d = .roundedFinder)) : ∃ u, d.cmds c = u.map (cmdTr ((c.w : Rat) / 2) ⟨c.x, c.y⟩) ∧ UnitFor c.neighbours u ∧
      (b = false → ∃ f, Cmd.add f ∈ u ∧ f.covers ⟨1, 1⟩) :=
    ⟨_, cmds_unit d hh, drawFn_unit d _, fun h => unit_always (by rw [hb] at h; exact of_decide_eq_false h) _⟩
  cases s with
  | rectangle => exact hf .squareFinder false (by decide)
  | assembled a b => cases fin with
    | true => exact hf a _ rfl
    | false => exact hf b _ rfl
  | circle =>
    obtain ⟨r, h0, h1, hr⟩ := circle_ratio (hcirc rfl)
    refine ⟨[.add (.disc 1 1 r), .fill], ?_, ⟨?_, ?_, ?_, rfl⟩, fun _ => ⟨_, List.mem_cons_self, disc_centre h0⟩⟩
    · simp only [LibShape.cmds, drawCircle, hh, le_refl, if_true, List.map_cons, List.map_nil, cmdTr, figTr, hr, mul_one]
    · intro f hf dx dy hc
      have : f = .disc 1 1 r := by simpa using hf
      subst this
      obtain ⟨a, b, c, e⟩ := disc_box h1 hc
      exact .inl ⟨box_zero a b, box_zero c e⟩
    · intro f hf q hc
      have : f = .disc 1 1 r := by simpa using hf
      subst this
      exact reach_of_box (disc_box h1 hc)
    · intro _; exact ⟨_, List.mem_cons_self, disc_centre h0⟩

/-- What is drawn for a module, in unit coordinates. -/
theorem module_unit_in {assembled : Nat → DrawFn × DrawFn} {o : Opts} (hcirc : o.getShape = .circle → 2 ≤ o.qrBlockWidth) (bm : List (List Bool)) (m : Matrix)
    (x y : Nat) : ∃ u, UnitFor (getNeighbours bm x y) u ∧ leftover [] (cmdsIn assembled o bm m x y) = [] ∧
      (∀ p, Painted (cmdsIn assembled o bm m x y) p ↔ Painted u (inUnit o x y p)) ∧
      (needsSelf (meaning assembled o.getShape) (decide ((m.raw x y).ty = .finder)) = false → ∃ f, Cmd.add f ∈ u ∧ f.covers ⟨1, 1⟩) := by
  have hcirc' : meaning assembled o.getShape = .circle → 2 ≤ o.qrBlockWidth := by
    intro h
    cases hg : o.getShape with
    | circle => exact hcirc hg
    | rectangle => rw [hg] at h; cases h
    | custom k => rw [hg] at h; cases h
  obtain ⟨u, hu, hU, hA⟩ := lib_unit_always (meaning assembled o.getShape) (decide ((m.raw x y).ty = .finder)) (c := moduleCtx o bm x y (m.raw x y)) rfl hcirc'
  have hbw : (0 : Rat) < (o.qrBlockWidth : Rat) / 2 := by have := bw_pos o; linarith
  refine ⟨u, hU, ?_, ?_, hA⟩
  · unfold cmdsIn
    rw [hu, show leftover [] (u.map _) = _ from leftover_map _ _ u [], hU.left]; rfl
  · intro p
    have := painted_tr hbw ⟨(moduleCtx o bm x y (m.raw x y)).x, (moduleCtx o bm x y (m.raw x y)).y⟩ (inUnit o x y p) u
    rw [show tr ((o.qrBlockWidth : Rat) / 2) ⟨(moduleCtx o bm x y (m.raw x y)).x, (moduleCtx o bm x y (m.raw x y)).y⟩ (inUnit o x y p) = p from
      tr_inUnit o m x y p] at this
    unfold cmdsIn
    rw [hu]
    exact this

/-- The last colour of a point, from what is drawn for the modules. -/
theorem colour_drawn (assembled : Nat → DrawFn × DrawFn) {o : Opts} (hcirc : o.getShape = .circle → 2 ≤ o.qrBlockWidth) {bm : List (List Bool)} {m : Matrix}
    {calls : List (Bool × Shape × Ctx)}
    (hcalls : calls = ((m.iterate .row).filter fun a => drawnModule o m a.1 a.2.1).map fun a =>
        (decide ((m.raw a.1 a.2.1).ty = .finder), o.getShape, moduleCtx o bm a.1 a.2.1 (m.raw a.1 a.2.1))) :
      (∀ p, (∀ x y, x < m.width → y < m.height → drawnModule o m x y = true → ¬Painted (cmdsIn assembled o bm m x y) p) →
        colourAt (drawing (meaning assembled) calls) p = none) ∧
      (∀ p k, (∀ x y, x < m.width → y < m.height → drawnModule o m x y = true → Painted (cmdsIn assembled o bm m x y) p → moduleColor o (m.raw x y) = k) →
        (∃ x y, x < m.width ∧ y < m.height ∧ drawnModule o m x y = true ∧ Painted (cmdsIn assembled o bm m x y) p) →
        colourAt (drawing (meaning assembled) calls) p = some k) := by
  have hfills : colourFills [] (drawing (meaning assembled) calls) =
      ((m.iterate .row).filter fun a => drawnModule o m a.1 a.2.1).flatMap fun a =>
        (fills [] (cmdsIn assembled o bm m a.1 a.2.1)).map fun p => (moduleColor o (m.raw a.1 a.2.1), p) := by
    rw [hcalls]
    unfold drawing
    rw [List.flatMap_map]
    exact colourFills_flatMap (fun a : Nat × Nat × QRValue => moduleColor o (m.raw a.1 a.2.1))
      (fun a : Nat × Nat × QRValue => cmdsIn assembled o bm m a.1 a.2.1) _ (fun a _ => by
        obtain ⟨u, _, h, _⟩ := module_unit_in (assembled := assembled) hcirc bm m a.1 a.2.1
        exact h)
  have hmem : ∀ p kp, kp ∈ (colourFills [] (drawing (meaning assembled) calls)).filter (fun kp => kp.2.any fun f => decide (f.covers p)) ↔
      ∃ x y path, x < m.width ∧ y < m.height ∧ drawnModule o m x y = true ∧ path ∈ fills [] (cmdsIn assembled o bm m x y) ∧ (∃ f ∈ path, f.covers p) ∧
        kp = (moduleColor o (m.raw x y), path) := by
    intro p kp
    rw [hfills, List.mem_filter, List.mem_flatMap]
    constructor
    · rintro ⟨⟨a, ha, hmem⟩, hcov⟩
      obtain ⟨path, hpath, rfl⟩ := List.mem_map.1 hmem
      obtain ⟨f, hf, hfc⟩ := List.any_eq_true.1 hcov
      obtain ⟨ha1, ha2⟩ := List.mem_filter.1 ha
      obtain ⟨_, hx, hy⟩ := iterate_val ha1
      exact ⟨a.1, a.2.1, path, hx, hy, ha2, hpath, ⟨f, hf, of_decide_eq_true hfc⟩, rfl⟩
    · rintro ⟨x, y, path, hx, hy, hd, hpath, ⟨f, hf, hfc⟩, rfl⟩
      exact ⟨⟨_, List.mem_filter.2 ⟨iterate_raw hx hy, hd⟩, List.mem_map.2 ⟨path, hpath, rfl⟩⟩, List.any_eq_true.2 ⟨f, hf, decide_eq_true hfc⟩⟩
  refine ⟨?_, ?_⟩
  · intro p hp
    have : (colourFills [] (drawing (meaning assembled) calls)).filter (fun kp => kp.2.any fun f => decide (f.covers p)) = [] := by
      apply List.eq_nil_iff_forall_not_mem.2
      intro kp hkp
      obtain ⟨x, y, path, hx, hy, hd, h1, ⟨f, hf, hc⟩, _⟩ := (hmem p kp).1 hkp
      exact hp x y hx hy hd ⟨path, h1, f, hf, hc⟩
    unfold colourAt
    rw [this]; rfl
  · intro p k hk ⟨x, y, hx, hy, hd, path, hp, f, hf, hc⟩
    have hgood : ∀ kp ∈ (colourFills [] (drawing (meaning assembled) calls)).filter (fun kp => kp.2.any fun f => decide (f.covers p)),
        kp.1 = k := by
      intro kp hkp
      obtain ⟨x, y, path, hx, hy, hd, h1, ⟨f, hf, hc⟩, rfl⟩ := (hmem p kp).1 hkp
      exact hk x y hx hy hd ⟨path, h1, f, hf, hc⟩
    have hone := (hmem p (moduleColor o (m.raw x y), path)).2 ⟨x, y, path, hx, hy, hd, hp, ⟨f, hf, hc⟩, rfl⟩
    unfold colourAt
    rcases getLast_all hgood with h | ⟨a, ha, h⟩
    · rw [List.getLast?_eq_none_iff.1 h] at hone; cases hone
    · rw [ha, Option.map_some, h]

/-- What is drawn for a module changes only centres of modules of the same colour. -/
theorem painted_same {assembled : Nat → DrawFn × DrawFn} {o : Opts} (hcirc : o.getShape = .circle → 2 ≤ o.qrBlockWidth) {m : Matrix} {bm : List (List Bool)}
    (hM : MaskOf o m bm) {x y i j : Nat} (hP : Painted (cmdsIn assembled o bm m x y) (centre o i j)) : moduleColor o (m.raw x y) = moduleColor o (m.raw i j) := by
  obtain ⟨u, hU, _, hp, _⟩ := module_unit_in (assembled := assembled) hcirc bm m x y
  rw [hp, inUnit_centre] at hP
  obtain ⟨g, hg, hgc⟩ := painted_add hP
  rcases hU.centres g hg _ _ hgc with ⟨h1, h2⟩ | ⟨h4, h1, h2, h3, h5, h6⟩
  · have : x = i := by omega
    have : y = j := by omega
    subst x y; rfl
  · obtain ⟨nx, ny, e1, e2, _, _, d1, _⟩ := (hM.bits x y 0 0 (by omega) (by omega) (by omega) (by omega)).1 h4
    obtain ⟨kx, ky, f1, f2, _, _, d2, _⟩ := (hM.bits x y _ _ h1 h2 h3 h5).1 h6
    have : nx = x := by omega
    have : ny = y := by omega
    have : kx = i := by omega
    have : ky = j := by omega
    subst nx ny kx ky
    unfold moduleColor QRValue.qrbool
    rw [d1.trans d2.symm]

/-- The centre of a dark module is covered by what is drawn for it. -/
theorem painted_own {assembled : Nat → DrawFn × DrawFn} {o : Opts} (hcirc : o.getShape = .circle → 2 ≤ o.qrBlockWidth) {m : Matrix} {bm : List (List Bool)}
    (hM : MaskOf o m bm) {i j : Nat} (hi : i < m.width) (hj : j < m.height) (hb : (m.raw i j).bit = true)
    (hself : safeOn o m = true → needsSelf (meaning assembled o.getShape) (decide ((m.raw i j).ty = .finder)) = true → overlaps o m j i = false) :
    Painted (cmdsIn assembled o bm m i j) (centre o i j) := by
  obtain ⟨u, hU, _, hp, hA⟩ := module_unit_in (assembled := assembled) hcirc bm m i j
  rw [hp, inUnit_centre]
  have hown : ∃ f, Cmd.add f ∈ u ∧ f.covers ⟨1, 1⟩ := by
    cases hn : needsSelf (meaning assembled o.getShape) (decide ((m.raw i j).ty = .finder)) with
    | false => exact hA hn
    | true =>
      refine hU.own ((hM.bits i j 0 0 (by omega) (by omega) (by omega) (by omega)).2 ⟨i, j, by omega, by omega, hi, hj, hb, ?_⟩)
      cases hs : safeOn o m with
      | false => rfl
      | true => rw [hself hs hn]; rfl
  obtain ⟨f, hf, hc⟩ := hown
  refine painted_of hU.left hf ?_
  have e : (⟨2 * (((i : Int) - i : Int) : Rat) + 1, 2 * (((j : Int) - j : Int) : Rat) + 1⟩ : Pt) = ⟨1, 1⟩ := by simp
  rw [e]; exact hc

theorem drawn_of {o : Opts} {m : Matrix} {i j : Nat} (h : safeOn o m = true → overlaps o m i j = false) : drawnModule o m i j = true := by
  unfold drawnModule
  cases hs : safeOn o m with
  | false => rfl
  | true => rw [h hs]; rfl

theorem moduleColor_dark {o : Opts} {v : QRValue} (h : v.bit = true) : moduleColor o v = o.qrColor := by
  unfold moduleColor QRValue.qrbool
  rw [h, if_pos rfl]

theorem moduleColor_light {o : Opts} {v : QRValue} (h : v.bit = false) : moduleColor o v = if o.bgTransparent then ⟨0, 0, 0, 0⟩ else o.bgColor := by
  unfold moduleColor QRValue.qrbool
  rw [h, if_neg (by simp)]

/-- **C80, the centres.**  With any shape of this library, with or without logo and safe zone: the centre of a light module ends up in the background colour (given to
it by its block, or left from the beginning).  The centre of a dark module ends up in the foreground colour, if the safe zone does not remove the module (its
block does not overlap the logo) and, only where `RoundedFinder` draws it, the module at the mirrored place does not overlap the logo (see C43). -/
theorem C80_centres (scale : Scaler) {o : Opts} {m : Matrix} (hsq : m.width = m.height) (hh : o.halftone = none)
    (assembled : Nat → DrawFn × DrawFn) (hcirc : o.getShape = .circle → 2 ≤ o.qrBlockWidth) :
    ∃ ops o', draw scale o m = some (ops, o') ∧ ∀ i j, i < m.width → j < m.height →
      ((m.raw i j).bit = true → (safeOn o m = true → overlaps o m i j = false) →
        (safeOn o m = true → needsSelf (meaning assembled o.getShape) (decide ((m.raw i j).ty = .finder)) = true → overlaps o m j i = false) →
        colourAt (drawing (meaning assembled) (shapeCalls ops)) (centre o i j) = some o.qrColor) ∧
      ((m.raw i j).bit = false → colourAt (drawing (meaning assembled) (shapeCalls ops)) (centre o i j) = none ∨
        colourAt (drawing (meaning assembled) (shapeCalls ops)) (centre o i j) =
          some (if o.bgTransparent then ⟨0, 0, 0, 0⟩ else o.bgColor)) := by
  obtain ⟨ops, o', bm, hd, hM, hcalls⟩ := calls_any scale hsq hh
  refine ⟨ops, o', hd, ?_⟩
  obtain ⟨hnone, hsome⟩ := colour_drawn assembled hcirc hcalls
  intro i j hi hj
  have hgood : ∀ x y, x < m.width → y < m.height → drawnModule o m x y = true → Painted (cmdsIn assembled o bm m x y) (centre o i j) →
      moduleColor o (m.raw x y) = moduleColor o (m.raw i j) := fun x y _ _ _ hP => painted_same hcirc hM hP
  constructor
  · intro hb hno hself
    rw [moduleColor_dark hb] at hgood
    exact hsome _ _ hgood ⟨i, j, hi, hj, drawn_of hno, painted_own hcirc hM hi hj hb hself⟩
  · intro hb
    rw [moduleColor_light hb] at hgood
    by_cases hex : ∃ x y, x < m.width ∧ y < m.height ∧ drawnModule o m x y = true ∧ Painted (cmdsIn assembled o bm m x y) (centre o i j)
    · exact .inr (hsome _ _ hgood hex)
    · exact .inl (hnone _ (fun x y hx hy hd hP => hex ⟨x, y, hx, hy, hd, hP⟩))

/-- `RoundedFinder` draws nothing without the module's own flag. -/
theorem lib_unit_lost {s : LibShape} {fin : Bool} (h : needsSelf s fin = true) {c : Ctx} (hh : c.h = c.w) (h4 : ¬ flag c.neighbours 4) : s.cmds fin c = [] := by
  have hf : DrawFn.roundedFinder.cmds c = [] := by
    rw [cmds_unit .roundedFinder hh]
    simp only [unitCmds, roundedUnit]
    rw [if_pos, List.map_nil]
    intro he
    exact h4 (self_flag (fun hn => hn he))
  cases s with
  | rectangle => cases fin <;> cases h
  | circle => cases fin <;> cases h
  | assembled a b => cases fin with
    | true => rw [show a = .roundedFinder from of_decide_eq_true h]; exact hf
    | false => rw [show b = .roundedFinder from of_decide_eq_true h]; exact hf

/-- **C80, the exception.**  Where `RoundedFinder` draws a dark module that does not overlap the logo, but the module at the mirrored place does, nothing is drawn for it. -/
theorem C80_lost (scale : Scaler) {o : Opts} {m : Matrix} (hsq : m.width = m.height) (hh : o.halftone = none) (hs : safeOn o m = true)
    (assembled : Nat → DrawFn × DrawFn) (hcirc : o.getShape = .circle → 2 ≤ o.qrBlockWidth) :
    ∃ ops o', draw scale o m = some (ops, o') ∧ ∀ i j, i < m.width → j < m.height →
      needsSelf (meaning assembled o.getShape) (decide ((m.raw i j).ty = .finder)) = true → overlaps o m j i = true →
        colourAt (drawing (meaning assembled) (shapeCalls ops)) (centre o i j) = none := by
  obtain ⟨ops, o', bm, hd, hM, hcalls⟩ := calls_any scale hsq hh
  refine ⟨ops, o', hd, ?_⟩
  obtain ⟨hnone, hsome⟩ := colour_drawn assembled hcirc hcalls
  intro i j hi hj hn ho
  refine hnone _ fun x y hx hy _ hP => ?_
  by_cases he : x = i ∧ y = j
  · obtain ⟨rfl, rfl⟩ := he
    have h4 : ¬ flag (getNeighbours bm x y) 4 := by
      intro h4
      obtain ⟨nx, ny, e1, e2, _, _, _, d⟩ := (hM.bits x y 0 0 (by omega) (by omega) (by omega) (by omega)).1 h4
      have : nx = x := by omega
      have : ny = y := by omega
      subst nx ny
      rw [hs, ho] at d
      cases d
    unfold cmdsIn at hP
    rw [lib_unit_lost (c := moduleCtx o bm x y (m.raw x y)) hn rfl h4] at hP
    obtain ⟨_, hp, _⟩ := hP
    cases hp
  · obtain ⟨u, hU, _, hp, _⟩ := module_unit_in (assembled := assembled) hcirc bm m x y
    rw [hp, inUnit_centre] at hP
    obtain ⟨g, hg, hgc⟩ := painted_add hP
    rcases hU.centres g hg _ _ hgc with ⟨h1, h2⟩ | ⟨h4, h1, h2, h3, h5, h6⟩
    · omega
    · obtain ⟨kx, ky, f1, f2, _, _, _, d2⟩ := (hM.bits x y _ _ h1 h2 h3 h5).1 h6
      have : kx = i := by omega
      have : ky = j := by omega
      subst kx ky
      rw [hs, ho] at d2
      cases d2

/-- Point `p` of the picture is in a logo. -/
def InLogo (ops : List DrawOp) (p : Pt) : Prop :=
  ∃ a ∈ images ops, (a.2.1 : Rat) ≤ p.x ∧ p.x < ((a.2.1 + (a.1.maxX - a.1.minX) : Int) : Rat) ∧
    (a.2.2 : Rat) ≤ p.y ∧ p.y < ((a.2.2 + (a.1.maxY - a.1.minY) : Int) : Rat)

instance (ops : List DrawOp) (p : Pt) : Decidable (InLogo ops p) := by unfold InLogo; infer_instance

/-- What a scanner sees that looks at the centres of the blocks: the shapes, and inside a logo whatever the logo shows (`logo`). -/
def seenCentresLogo (o : Opts) (dim : Nat) (ops : List DrawOp) (cmds : List (RGBA × Cmd)) (logo : Pt → Bool) : List (List Bool) :=
  (List.range dim).map fun y => (List.range dim).map fun x =>
    if InLogo ops (centre o x y) then logo (centre o x y) else decide (colourAt cmds (centre o x y) = some o.qrColor)

theorem seenCentresLogo_pixel {o : Opts} {dim : Nat} {ops : List DrawOp} {cmds : List (RGBA × Cmd)} {logo : Pt → Bool} {x y : Nat} (hx : x < dim) (hy : y < dim)
    (hn : ¬ InLogo ops (centre o x y)) : pixel (seenCentresLogo o dim ops cmds logo) y x = decide (colourAt cmds (centre o x y) = some o.qrColor) := by
  have : seenCentresLogo o dim ops cmds logo = scan dim (fun px py => if InLogo ops (centre o px.toNat py.toNat) then logo (centre o px.toNat py.toNat) else
    decide (colourAt cmds (centre o px.toNat py.toNat) = some o.qrColor)) (fun x y => ((x : Int), (y : Int))) := rfl
  rw [this, pixel_scan hy hx]
  exact if_neg hn

theorem draw_images {scale : Scaler} {o : Opts} {m : Matrix} (hsq : m.width = m.height) {ops : List DrawOp} {o' : Opts} (h : draw scale o m = some (ops, o')) :
    images ops = images (tailOps o m) := by
  obtain ⟨bm, hbm⟩ := maskBitmap_some (o := o) (m := m) (Or.inl hsq)
  obtain ⟨o2, _, he⟩ := draw_eq scale o m hbm
  rw [h, Option.some.injEq, Prod.mk.injEq] at he
  rw [he.1]
  have happ : ∀ a b : List DrawOp, images (a ++ b) = images a ++ images b := fun a b => List.filterMap_append
  have h0 : ∀ l : List (Nat × Nat × QRValue), images (l.flatMap (fun a => moduleOps scale (canvasW o m) (canvasH o m) m.width bm (safeOn o m) (logoW o m)
          (logoH o m) o a.1 a.2.1 a.2.2)) = [] := by
    intro l
    induction l with
    | nil => rfl
    | cons a l ih =>
      rw [List.flatMap_cons, happ, ih, List.append_nil]
      exact moduleOps_shapes.2
  rw [happ, happ, h0]
  rfl

/-- A centre in the logo: the block overlaps the logo. -/
theorem inLogo_covered {scale : Scaler} {o : Opts} {m : Matrix} (hsq : m.width = m.height) {ops : List DrawOp} {o' : Opts} (h : draw scale o m = some (ops, o'))
    {x y : Nat} (hp : InLogo ops (centre o x y)) : covered o m x y = true := by
  obtain ⟨a, ha, h1, h2, h3, h4⟩ := hp
  rw [draw_images hsq h] at ha
  have ha : ∃ img, o.logo = some img ∧ logoValid o m = true ∧ a = (img, Int.tdiv (canvasW o m - logoW o m) 2, Int.tdiv (canvasH o m - logoH o m) 2) := by
    unfold tailOps at ha
    cases hl : o.logo with
    | none => cases hg : o.qrGradient <;> rw [hl, hg] at ha <;> simp [images] at ha
    | some img =>
      cases hv : logoValid o m with
      | false => cases hg : o.qrGradient <;> rw [hl, hg, hv] at ha <;> simp [images] at ha
      | true => cases hg : o.qrGradient <;> rw [hl, hg, hv] at ha <;> simp [images] at ha <;> exact ⟨img, rfl, rfl, ha⟩
  obtain ⟨img, hl, hv, rfl⟩ := ha
  unfold covered overlaps blockOverlapsLogo
  rw [hl, hv]
  have hlw : logoW o m = img.maxX - img.minX := by unfold logoW logoSize; rw [hl]
  have hlh : logoH o m = img.maxY - img.minY := by unfold logoH logoSize; rw [hl]
  simp only [Option.isSome_some, Bool.true_and, Bool.and_eq_true, decide_eq_true_eq]
  rw [← hlw] at h2
  rw [← hlh] at h4
  simp only [centre] at h1 h2 h3 h4
  generalize Int.tdiv (canvasW o m - logoW o m) 2 = lx at *
  generalize Int.tdiv (canvasH o m - logoH o m) 2 = ly at *
  have hb := bw_pos o
  refine ⟨⟨⟨?_, ?_⟩, ?_⟩, ?_⟩
  · have : (lx : Rat) < ((x * o.qrBlockWidth + o.borders.left + o.qrBlockWidth : Int) : Rat) := by push_cast; linarith
    exact_mod_cast this
  · have : ((x * o.qrBlockWidth + o.borders.left : Int) : Rat) < ((lx + logoW o m : Int) : Rat) := by push_cast at h2 ⊢; linarith
    exact_mod_cast this
  · have : (ly : Rat) < ((y * o.qrBlockWidth + o.borders.top + o.qrBlockWidth : Int) : Rat) := by push_cast; linarith
    exact_mod_cast this
  · have : ((y * o.qrBlockWidth + o.borders.top : Int) : Rat) < ((ly + logoH o m : Int) : Rat) := by push_cast at h4 ⊢; linarith
    exact_mod_cast this

/-- If the centres are right outside the logo (in the sense of `C80_centres`), error correction gives the text. -/
theorem centres_logo {E : Ext} {unsjis : Nat → Option Nat} (hE : E.Ok unsjis) (hRS : E.rs = rsEncode) {c : AlignCache} (hc : CacheReachable c)
    {arrival : List Nat} (ha : Arrival arrival) {t : TextType} {text : Bytes} {opts : List EncodeOption} {q : QRCode}
    (h : newWith E c arrival t text opts = .ok q)
    (hx : ¬ (modeIn opts = encAuto ∧ AlnumThenKanji E.sjis (nats text)))
    {v : Nat} (hv : q.dimension = 17 + 4 * v)
    (hlv : ¬ (levelIn opts = .L ∧ v ∈ [1, 2, 3, 4, 5, 6, 36] ∨ levelIn opts = .M ∧ v ∈ [2, 4]))
    {scale : Scaler} {o : Opts} (hcol : Contrast o) (assembled : Nat → DrawFn × DrawFn)
    (hbx : 0 ≤ o.borders.left ∧ o.borders.left ≤ 2 * o.qrBlockWidth ∧ o.borders.right = o.borders.left)
    (hby : 0 ≤ o.borders.top ∧ o.borders.top ≤ 2 * o.qrBlockWidth ∧ o.borders.bottom = o.borders.top)
    {img : Image} (hl : o.logo = some img) (hmin : img.minX = 0 ∧ img.minY = 0) (hmax : 0 ≤ img.maxX ∧ 0 ≤ img.maxY)
    (hk : 5 ≤ o.logoSizeMultiplier) {ops : List DrawOp} {o' : Opts} (hd : draw scale o q.mat = some (ops, o'))
    (hp : ∀ i j, i < q.mat.width → j < q.mat.height →
      ((q.mat.raw i j).bit = true → (safeOn o q.mat = true → overlaps o q.mat i j = false) →
        (safeOn o q.mat = true → needsSelf (meaning assembled o.getShape) (decide ((q.mat.raw i j).ty = .finder)) = true → overlaps o q.mat j i = false) →
        colourAt (drawing (meaning assembled) (shapeCalls ops)) (centre o i j) = some o.qrColor) ∧
      ((q.mat.raw i j).bit = false → colourAt (drawing (meaning assembled) (shapeCalls ops)) (centre o i j) = none ∨
        colourAt (drawing (meaning assembled) (shapeCalls ops)) (centre o i j) =
          some (if o.bgTransparent then ⟨0, 0, 0, 0⟩ else o.bgColor))) (logo : Pt → Bool) :
    decodeDamaged unsjis (seenCentresLogo o q.dimension ops (drawing (meaning assembled) (shapeCalls ops)) logo) = some (nats text) := by
  obtain ⟨hw, hh⟩ := mat_size hE hc ha h
  have hs : side v = q.dimension := by rw [hv]; rfl
  have hrange : ∀ x y, covered o q.mat x y = true → logoLo v ≤ x ∧ x ≤ logoHi v ∧ logoLo v ≤ y ∧ y ≤ logoHi v := fun x y hcov =>
    covered_range (hw.trans hs.symm) (hh.trans hs.symm) hl (by omega) (by omega) hk ⟨hbx.1, hby.1⟩ ⟨hbx.2.2, hby.2.2⟩ ⟨hbx.2.1, hby.2.1⟩ hcov
  have hcover : ∀ x y, safeOn o q.mat = true → overlaps o q.mat x y = true → covered o q.mat x y = true := by
    intro x y h1 h2
    unfold safeOn at h1
    unfold covered
    rw [hl, h2]
    simpa using (Bool.and_eq_true_iff.1 h1).1
  refine middle_damage hE hRS hc ha h hx hv hlv (by unfold seenCentresLogo; rw [List.length_map, List.length_range]) ?_
  intro i j hi hj hne
  rw [hs] at hi hj
  by_contra hn
  have hncov : covered o q.mat j i ≠ true := by
    intro hcov
    obtain ⟨g1, g2, g3, g4⟩ := hrange _ _ hcov
    exact hn ⟨g3, g4, g1, g2⟩
  apply hne
  have hnl : ¬ InLogo ops (centre o j i) := fun hin => hncov (inLogo_covered (hw.trans hh.symm) hd hin)
  rw [seenCentresLogo_pixel hj hi hnl, (bitmap_spec q.mat).2 i j (by omega) (by omega)]
  obtain ⟨p1, p2⟩ := hp j i (by omega) (by omega)
  cases hb : (q.mat.raw j i).bit with
  | true =>
    refine (decide_eq_true (p1 hb (fun hs => ?_) (fun hs _ => ?_))).symm
    · by_contra ho
      exact hncov (hcover _ _ hs (by simpa using ho))
    · by_contra ho
      obtain ⟨g1, g2, g3, g4⟩ := hrange _ _ (hcover _ _ hs (by simpa using ho))
      exact hn ⟨g1, g2, g3, g4⟩
  | false =>
    refine (decide_eq_false fun hcc => ?_).symm
    rcases p2 hb with hn | hn
    · rw [hn] at hcc; cases hcc
    · rw [hn, Option.some.injEq] at hcc
      exact light_ne hcol hcc

/-- **C80.**  Text, picture with shapes and a logo, text: with any shape of this library (circles in blocks of at least two pixels), no halftone and no gradient, colours that can be told
apart, and a logo and borders as in C69: a scanner that looks at the centres of the blocks and corrects errors reads exactly the text, whatever the logo shows and with or without a safe
zone, except in the versions and levels excepted in C69. -/
theorem C80_shapes_logo {E : Ext} {unsjis : Nat → Option Nat} (hE : E.Ok unsjis) (hRS : E.rs = rsEncode) {c : AlignCache} (hc : CacheReachable c)
    {arrival : List Nat} (ha : Arrival arrival) {t : TextType} {text : Bytes} {opts : List EncodeOption} {q : QRCode}
    (h : newWith E c arrival t text opts = .ok q)
    (hx : ¬ (modeIn opts = encAuto ∧ AlnumThenKanji E.sjis (nats text)))
    {v : Nat} (hv : q.dimension = 17 + 4 * v)
    (hlv : ¬ (levelIn opts = .L ∧ v ∈ [1, 2, 3, 4, 5, 6, 36] ∨ levelIn opts = .M ∧ v ∈ [2, 4]))
    (scale : Scaler) {o : Opts} (hcol : Contrast o) (hht : o.halftone = none)
    (assembled : Nat → DrawFn × DrawFn) (hcirc : o.getShape = .circle → 2 ≤ o.qrBlockWidth)
    (hbx : 0 ≤ o.borders.left ∧ o.borders.left ≤ 2 * o.qrBlockWidth ∧ o.borders.right = o.borders.left)
    (hby : 0 ≤ o.borders.top ∧ o.borders.top ≤ 2 * o.qrBlockWidth ∧ o.borders.bottom = o.borders.top)
    {img : Image} (hl : o.logo = some img) (hmin : img.minX = 0 ∧ img.minY = 0) (hmax : 0 ≤ img.maxX ∧ 0 ≤ img.maxY)
    (hk : 5 ≤ o.logoSizeMultiplier) :
    ∃ ops o', draw scale o q.mat = some (ops, o') ∧ ∀ logo : Pt → Bool,
      decodeDamaged unsjis (seenCentresLogo o q.dimension ops (drawing (meaning assembled) (shapeCalls ops)) logo) = some (nats text) := by
  obtain ⟨hw, hh⟩ := mat_size hE hc ha h
  obtain ⟨ops, o', hd, hp⟩ := C80_centres scale (o := o) (m := q.mat) (hw.trans hh.symm) hht assembled hcirc
  exact ⟨ops, o', hd, centres_logo hE hRS hc ha h hx hv hlv hcol assembled hbx hby hl hmin hmax hk hd hp⟩

/-- The hypotheses of C80 are met: the symbol `HELLO` of version 7 (level Q) with liquid blocks and rounded finders, a logo of 196 by 150 pixels and a safe zone. -/
example {c : AlignCache} (hc : CacheReachable c) {arrival : List Nat} (ha : Arrival arrival) (scale : Scaler)
    (chan : Int → Int → UInt32 × UInt32 × UInt32 × UInt32) :
    let o : Opts := { defaultOpts with logo := some ⟨0, 0, 196, 150, chan⟩, logoSafeZone := true, shape := some (.custom 0) }
    ∃ q ops o', newWith demoExt c arrival .string [72, 69, 76, 76, 79] [.withEncodingMode encAlphanumeric, .withMinimumVersion 7] = .ok q ∧
      draw scale o q.mat = some (ops, o') ∧ safeOn o q.mat = true ∧ overlaps o q.mat 22 22 = true ∧ ∀ logo : Pt → Bool,
        decodeDamaged demoUnsjis (seenCentresLogo o q.dimension ops (drawing (meaning fun _ => (.roundedFinder, .liquidBlock)) (shapeCalls ops)) logo) =
          some [72, 69, 76, 76, 79] := by
  intro o
  obtain ⟨q, hq, hd⟩ := demo_symbol hc ha
  have d1 : defaultOpts.bgColor ≠ defaultOpts.qrColor := by decide
  have d2 : 0 ≤ defaultOpts.borders.left ∧ defaultOpts.borders.left ≤ 2 * defaultOpts.qrBlockWidth ∧ defaultOpts.borders.right = defaultOpts.borders.left := by decide
  have d3 : 0 ≤ defaultOpts.borders.top ∧ defaultOpts.borders.top ≤ 2 * defaultOpts.qrBlockWidth ∧ defaultOpts.borders.bottom = defaultOpts.borders.top := by decide
  have d4 : (5 : Int) ≤ defaultOpts.logoSizeMultiplier := by decide
  obtain ⟨ops, o', h1, h3⟩ := C80_shapes_logo demo_ok rfl hc ha hq (fun h => absurd h.1 (by decide)) hd (by decide) scale (o := o)
    ⟨rfl, Or.inr ⟨rfl, d1⟩⟩ rfl (fun _ => (.roundedFinder, .liquidBlock)) (fun h => by cases h) d2 d3 rfl ⟨rfl, rfl⟩ ⟨by simp, by simp⟩ d4
  refine ⟨q, ops, o', hq, h1, ?_, ?_, h3⟩
  · obtain ⟨hw, hh⟩ := mat_size demo_ok hc ha hq
    unfold safeOn logoValid logoSize canvasW canvasH
    rw [hw, hh, hd]
    rfl
  · obtain ⟨hw, hh⟩ := mat_size demo_ok hc ha hq
    unfold overlaps logoW logoH logoSize canvasW canvasH
    rw [hw, hh, hd]
    rfl

/-- The exception occurs: in the example of `C43_counterexample`, drawn with `RoundedFinder`, module (1, 0) is dark and does not overlap the logo, but nothing is drawn for it. -/
example (scale : Scaler) :
    let o := { demoO with shape := some (.custom 0) }
    (demoM.raw 1 0).bit = true ∧ overlaps o demoM 1 0 = false ∧ ∃ ops o', draw scale o demoM = some (ops, o') ∧
      colourAt (drawing (meaning fun _ => (.roundedFinder, .roundedFinder)) (shapeCalls ops)) (centre o 1 0) = none := by
  refine ⟨by decide +kernel, by decide +kernel, ?_⟩
  obtain ⟨ops, o', hd, hp⟩ := C80_lost scale (o := { demoO with shape := some (.custom 0) }) (m := demoM) rfl rfl (by decide +kernel)
    (fun _ => (.roundedFinder, .roundedFinder)) (fun h => by cases h)
  exact ⟨ops, o', hd, hp 1 0 (by decide) (by decide) (by decide +kernel) (by decide +kernel)⟩

end QR.Standard
