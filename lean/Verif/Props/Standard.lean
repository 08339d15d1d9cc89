import Verif.Model.Canvas
import Verif.Proof.Standard
/-!
# C39 - C43, C53: what the standard writer draws
-/
namespace QR.Standard
open QR Matrix Spec

/-- The calls of the shape, in order: is it `DrawFinder`, which shape, which context. -/
def shapeCalls (ops : List DrawOp) : List (Bool × Shape × Ctx) :=
  ops.filterMap fun op => match op with
    | .shape f s c => some (f, s, c)
    | _ => none

/-- The sizes of the contexts made. -/
def contexts (ops : List DrawOp) : List (Int × Int) :=
  ops.filterMap fun op => match op with
    | .newContext w h => some (w, h)
    | _ => none

/-- The images drawn, with their positions. -/
def images (ops : List DrawOp) : List (Image × Int × Int) :=
  ops.filterMap fun op => match op with
    | .image i x y => some (i, x, y)
    | _ => none

theorem shapeCalls_append (a b : List DrawOp) : shapeCalls (a ++ b) = shapeCalls a ++ shapeCalls b := List.filterMap_append
theorem contexts_append (a b : List DrawOp) : contexts (a ++ b) = contexts a ++ contexts b := List.filterMap_append
theorem images_append (a b : List DrawOp) : images (a ++ b) = images a ++ images b := List.filterMap_append

theorem tail_shapes (o : Opts) (m : Matrix) : shapeCalls (tailOps o m) = [] ∧ contexts (tailOps o m) = [] := by
  unfold tailOps
  cases o.qrGradient <;> cases o.logo <;> cases logoValid o m <;> exact ⟨rfl, rfl⟩

theorem moduleOps_shapes {scale w h dim bm safe lw lh o x y v} :
    contexts (moduleOps scale w h dim bm safe lw lh o x y v) = [] ∧ images (moduleOps scale w h dim bm safe lw lh o x y v) = [] := by
  unfold moduleOps
  split
  · exact ⟨rfl, rfl⟩
  · cases o.halftone with
    | none => exact ⟨rfl, rfl⟩
    | some img =>
      simp only
      split
      · exact ⟨rfl, rfl⟩
      · exact ⟨rfl, rfl⟩

theorem flatMap_nil {α β : Type} {f : α → List β} {l : List α} (h : ∀ a ∈ l, f a = []) : l.flatMap f = [] := by
  induction l with
  | nil => rfl
  | cons a l ih => rw [List.flatMap_cons, h a (by simp), ih (fun b hb => h b (by simp [hb]))]; rfl

theorem filterMap_flatMap {α β γ : Type} (g : β → Option γ) (f : α → List β) (l : List α) :
    (l.flatMap f).filterMap g = l.flatMap fun a => (f a).filterMap g := by
  induction l with
  | nil => rfl
  | cons a l ih => rw [List.flatMap_cons, List.filterMap_append, ih, List.flatMap_cons]

/-- When `draw` has no reason to panic: the symbol is square, or the safe zone is off. -/
theorem maskBitmap_some {o : Opts} {m : Matrix} (h : m.width = m.height ∨ safeOn o m = false) : ∃ bm, maskBitmap o m = some bm := by
  cases hs : safeOn o m with
  | false => exact ⟨_, maskBitmap_off hs⟩
  | true =>
    rcases h with h | h
    · obtain ⟨bm, e, _⟩ := maskBitmap_on h hs; exact ⟨bm, e⟩
    · rw [hs] at h; cases h

/-- **C39.**  For every square symbol and all options, `draw` does not panic before encoding, makes exactly one image, and its
width and height are the ones `Attribute` reports for the symbol's dimension; the blocks have the reported width and (without
halftone) every block is placed at the reported borders; and using the options to draw does not change what `Attribute`
reports. -/
theorem C39_attribute (scale : Scaler) (o : Opts) (m : Matrix) {dim : Nat} (hw : m.width = dim) (hh : m.height = dim) :
    ∃ ops o', draw scale o m = some (ops, o') ∧
      contexts ops = [((o.attribute dim).w, (o.attribute dim).h)] ∧
      ops.head? = some (.newContext (o.attribute dim).w (o.attribute dim).h) ∧
      (o.halftone = none → ∀ c ∈ shapeCalls ops, c.2.2.w = (o.attribute dim).blockWidth ∧ c.2.2.h = (o.attribute dim).blockWidth ∧
        ∃ x y : Nat, x < dim ∧ y < dim ∧
          c.2.2.x = (((o.attribute dim).borders.left + x * (o.attribute dim).blockWidth : Int) : Rat) ∧
          c.2.2.y = (((o.attribute dim).borders.top + y * (o.attribute dim).blockWidth : Int) : Rat)) ∧
      ∀ d, o'.attribute d = o.attribute d := by
  obtain ⟨bm, hbm⟩ := maskBitmap_some (o := o) (m := m) (Or.inl (hw.trans hh.symm))
  obtain ⟨o', hs, he⟩ := draw_eq scale o m hbm
  have e1 : canvasW o m = (o.attribute dim).w := by
    unfold canvasW Opts.attribute; rw [hw]; simp only; omega
  have e2 : canvasH o m = (o.attribute dim).h := by
    unfold canvasH Opts.attribute; rw [hh]
  rw [e1, e2] at he
  refine ⟨_, o', he, ?_, ?_, ?_, ?_⟩
  · rw [contexts_append, contexts_append, (tail_shapes o m).2]
    have : contexts ((m.iterate .row).flatMap fun a => moduleOps scale (o.attribute dim).w (o.attribute dim).h m.width bm (safeOn o m)
        (logoW o m) (logoH o m) o a.1 a.2.1 a.2.2) = [] := by
      unfold contexts
      rw [filterMap_flatMap]
      exact flatMap_nil fun a _ => moduleOps_shapes.1
    rw [this]; rfl
  · rfl
  · intro hn c hc
    rw [shapeCalls_append, shapeCalls_append, (tail_shapes o m).1, List.append_nil] at hc
    have h0 : shapeCalls [DrawOp.newContext (o.attribute dim).w (o.attribute dim).h, .fillRect o.backgroundColor.1 0 0 (o.attribute dim).w (o.attribute dim).h] = [] := rfl
    rw [h0, List.nil_append] at hc
    unfold shapeCalls at hc
    rw [filterMap_flatMap] at hc
    obtain ⟨a, ha, hc⟩ := List.mem_flatMap.1 hc
    obtain ⟨x, y, v⟩ := a
    have hxy := mem_iterate.1 ⟨v, ha⟩
    unfold moduleOps at hc
    simp only [hn] at hc
    split at hc
    · simp at hc
    · simp only [List.filterMap_cons, List.filterMap_nil, List.mem_singleton] at hc
      subst hc
      refine ⟨rfl, rfl, x, y, by omega, by omega, ?_, ?_⟩
      · simp only [moduleCtx, Opts.attribute]; rw [Int.add_comm]
      · simp only [moduleCtx, Opts.attribute]; rw [Int.add_comm]
  · intro d
    rw [hs.eq]; rfl

/-- **C40, the calls.**  Without halftone image and without a safe zone in effect: the shape is called exactly once for every
module, in row order, with `DrawFinder` exactly for finder modules; the context has the module's own block position and size,
and the foreground colour exactly if the module is dark (otherwise the background colour, or nothing if it is transparent). -/
theorem C40_calls (scale : Scaler) (o : Opts) (m : Matrix) (hh : o.halftone = none) (hs : safeOn o m = false) :
    ∃ ops o', draw scale o m = some (ops, o') ∧
      shapeCalls ops = (m.iterate .row).map fun a => (decide (a.2.2.ty = .finder), o.getShape,
        { x := (((a.1 : Int) * o.qrBlockWidth + o.borders.left : Int) : Rat),
          y := (((a.2.1 : Int) * o.qrBlockWidth + o.borders.top : Int) : Rat),
          w := o.qrBlockWidth, h := o.qrBlockWidth,
          color := if a.2.2.bit then o.qrColor else if o.bgTransparent then ⟨0, 0, 0, 0⟩ else o.bgColor,
          neighbours := getNeighbours m.bitmap a.1 a.2.1 }) := by
  obtain ⟨o', _, he⟩ := draw_eq scale o m (maskBitmap_off hs)
  refine ⟨_, o', he, ?_⟩
  rw [shapeCalls_append, shapeCalls_append, (tail_shapes o m).1, List.append_nil]
  have h0 : shapeCalls [DrawOp.newContext (canvasW o m) (canvasH o m), .fillRect o.backgroundColor.1 0 0 (canvasW o m) (canvasH o m)] = [] := rfl
  rw [h0, List.nil_append]
  unfold shapeCalls
  rw [filterMap_flatMap]
  generalize m.iterate .row = l
  induction l with
  | nil => rfl
  | cons a l ih =>
    rw [List.flatMap_cons, ih, List.map_cons]
    unfold moduleOps
    rw [hs, hh]
    rfl

/-! ## Pixels -/

theorem overChan_opaque (d c : UInt8) : overChan d c 255 = c := by
  have h : ∀ c : Fin 256, (((((UInt8.ofFin c).toUInt32 * 0x101) * (0xffff : UInt32)) / 0xffff) >>> 8).toUInt8 = UInt8.ofFin c := by
    decide +kernel
  have ha : ((0xffff : UInt32) - (255 : UInt8).toUInt32 * 0x101 * 0xffff / 0xffff) * 0x101 = 0 := by decide +kernel
  have hc : UInt8.ofFin ⟨c.toNat, c.toNat_lt⟩ = c := rfl
  have := h ⟨c.toNat, c.toNat_lt⟩
  rw [hc] at this
  unfold overChan
  simp only
  rw [ha, UInt32.mul_zero, UInt32.zero_add]
  exact this

theorem overChan_clear (d : UInt8) : overChan d 0 0 = d := by
  have h : ∀ d : Fin 256, overChan (UInt8.ofFin d) 0 0 = UInt8.ofFin d := by decide +kernel
  exact h ⟨d.toNat, d.toNat_lt⟩

theorem over_opaque {c : RGBA} (h : c.a = 255) (p : RGBA) : over c p = c := by
  obtain ⟨r, g, b, a⟩ := c
  simp only at h
  subst h
  simp only [over, overChan_opaque]

theorem over_clear (p : RGBA) : over ⟨0, 0, 0, 0⟩ p = p := by
  simp only [over, overChan_clear]

/-- The block of module `(x, y)`. -/
def InBlock (o : Opts) (x y : Nat) (px py : Int) : Prop :=
  o.borders.left + x * o.qrBlockWidth ≤ px ∧ px < o.borders.left + (x + 1) * o.qrBlockWidth ∧
  o.borders.top + y * o.qrBlockWidth ≤ py ∧ py < o.borders.top + (y + 1) * o.qrBlockWidth

theorem blockWidth_pos (o : Opts) : 0 < o.qrBlockWidth ∧ o.qrBlockWidth ≤ 255 := by
  unfold Opts.qrBlockWidth
  split <;> omega

theorem mul_unique {b u v p : Int} (hb : 0 < b) (h1 : u * b ≤ p) (h2 : p < (u + 1) * b) (h3 : v * b ≤ p) (h4 : p < (v + 1) * b) :
    u = v := by
  have a : u * b < (v + 1) * b := by omega
  have c : v * b < (u + 1) * b := by omega
  have := Int.lt_of_mul_lt_mul_right a (Int.le_of_lt hb)
  have := Int.lt_of_mul_lt_mul_right c (Int.le_of_lt hb)
  omega

theorem inBlock_unique {o : Opts} {x y x' y' : Nat} {px py : Int} (h : InBlock o x y px py) (h' : InBlock o x' y' px py) :
    x = x' ∧ y = y' := by
  obtain ⟨a1, a2, a3, a4⟩ := h
  obtain ⟨b1, b2, b3, b4⟩ := h'
  have hb := (blockWidth_pos o).1
  have := mul_unique (p := px - o.borders.left) hb (u := x) (v := x') (by omega) (by omega) (by omega) (by omega)
  have := mul_unique (p := py - o.borders.top) hb (u := y) (v := y') (by omega) (by omega) (by omega) (by omega)
  omega

/-- Painting blocks, looked at through one pixel. -/
theorem paint_blocks {o : Opts} (bm : List (List Bool)) (hshape : o.getShape = .rectangle) {px py : Int} :
    ∀ (l : List (Nat × Nat × QRValue)) (cv : Canvas), 0 ≤ px → px < cv.w → 0 ≤ py → py < cv.h →
      l.Pairwise (fun a b => (a.1, a.2.1) ≠ (b.1, b.2.1)) →
      ∃ cv', (l.flatMap fun a => [DrawOp.shape (decide (a.2.2.ty = .finder)) o.getShape (moduleCtx o bm a.1 a.2.1 a.2.2)]).foldlM
          Canvas.paint cv = some cv' ∧ cv'.w = cv.w ∧ cv'.h = cv.h ∧
        (∀ a ∈ l, InBlock o a.1 a.2.1 px py → cv'.pix px py = over (moduleColor o a.2.2) (cv.pix px py)) ∧
        ((∀ a ∈ l, ¬ InBlock o a.1 a.2.1 px py) → cv'.pix px py = cv.pix px py) := by
  intro l
  induction l with
  | nil => intro cv _ _ _ _ _; exact ⟨cv, rfl, rfl, rfl, fun a ha => absurd ha (by simp), fun _ => rfl⟩
  | cons a l ih =>
    intro cv h1 h2 h3 h4 hp
    rw [List.pairwise_cons] at hp
    rw [List.flatMap_cons, List.foldlM_append]
    have hone : Canvas.paint cv (DrawOp.shape (decide (a.2.2.ty = .finder)) o.getShape (moduleCtx o bm a.1 a.2.1 a.2.2)) =
        some (cv.paintRect (moduleColor o a.2.2) ((a.1 : Int) * o.qrBlockWidth + o.borders.left)
          ((a.2.1 : Int) * o.qrBlockWidth + o.borders.top) o.qrBlockWidth o.qrBlockWidth) := by
      rw [hshape]
      simp only [Canvas.paint, moduleCtx]
      refine Eq.trans (if_pos ⟨Rat.den_intCast _, Rat.den_intCast _⟩) ?_
      rw [Rat.num_intCast, Rat.num_intCast]
    simp only [List.foldlM_cons, List.foldlM_nil]
    rw [hone]
    obtain ⟨cv', e, s1, s2, g1, g2⟩ := ih (cv.paintRect (moduleColor o a.2.2) ((a.1 : Int) * o.qrBlockWidth + o.borders.left)
          ((a.2.1 : Int) * o.qrBlockWidth + o.borders.top) o.qrBlockWidth o.qrBlockWidth) h1 h2 h3 h4 hp.2
    have hin : InBlock o a.1 a.2.1 px py → (cv.paintRect (moduleColor o a.2.2) ((a.1 : Int) * o.qrBlockWidth + o.borders.left)
          ((a.2.1 : Int) * o.qrBlockWidth + o.borders.top) o.qrBlockWidth o.qrBlockWidth).pix px py =
          over (moduleColor o a.2.2) (cv.pix px py) := by
      rintro ⟨b1, b2, b3, b4⟩
      rw [Int.add_mul, Int.one_mul] at b2 b4
      unfold Canvas.paintRect
      simp only
      rw [if_pos ⟨by omega, by omega⟩]
    have hout : ¬ InBlock o a.1 a.2.1 px py → (cv.paintRect (moduleColor o a.2.2) ((a.1 : Int) * o.qrBlockWidth + o.borders.left)
          ((a.2.1 : Int) * o.qrBlockWidth + o.borders.top) o.qrBlockWidth o.qrBlockWidth).pix px py = cv.pix px py := by
      intro hb
      unfold Canvas.paintRect
      simp only
      rw [if_neg]
      rintro ⟨h, _⟩
      apply hb
      unfold InBlock
      rw [Int.add_mul, Int.one_mul, Int.add_mul, Int.one_mul]
      omega
    refine ⟨cv', by simpa using e, s1, s2, ?_, ?_⟩
    · intro c hc hb
      rcases List.mem_cons.1 hc with rfl | hc
      · rw [g2 (fun d hd hbd => ?_), hin hb]
        have := inBlock_unique hb hbd
        exact hp.1 d hd (by rw [this.1, this.2])
      · rw [g1 c hc hb, hout]
        intro hba
        have := inBlock_unique hb hba
        exact hp.1 c hc (by rw [this.1, this.2])
    · intro hn
      rw [g2 (fun d hd => hn d (by simp [hd])), hout (hn a (by simp))]

theorem iterate_distinct (m : Matrix) : (m.iterate .row).Pairwise (fun a b => (a.1, a.2.1) ≠ (b.1, b.2.1)) := by
  unfold iterate coords
  rw [List.pairwise_map, List.pairwise_flatMap]
  refine ⟨?_, ?_⟩
  · intro y _
    rw [List.pairwise_map]
    refine List.pairwise_lt_range.imp ?_
    intro a b hab h
    simp only [Prod.mk.injEq] at h
    omega
  · refine List.pairwise_lt_range.imp ?_
    intro a b hab p hp q hq h
    obtain ⟨_, _, rfl⟩ := List.mem_map.1 hp
    obtain ⟨_, _, rfl⟩ := List.mem_map.1 hq
    simp only [Prod.mk.injEq] at h
    omega

/-- The options of a plain image: the rectangle shape, no halftone, no gradient, no logo. -/
structure Plain (o : Opts) : Prop where
  shape : o.shape = none ∨ o.shape = some .rectangle
  halftone : o.halftone = none
  gradient : o.qrGradient = none
  logo : o.logo = none

theorem Plain.safe {o : Opts} (h : Plain o) (m : Matrix) : safeOn o m = false := by
  unfold safeOn logoValid logoSize
  rw [h.logo]; rfl

/-- The picture of a plain image, with Porter-Duff "over" for colours that are not opaque. -/
theorem plain_picture (scale : Scaler) {o : Opts} (hp : Plain o) (m : Matrix) {px py : Int}
    (hpx : 0 ≤ px ∧ px < canvasW o m) (hpy : 0 ≤ py ∧ py < canvasH o m) :
    ∃ ops o' cv, draw scale o m = some (ops, o') ∧ paintAll ops = some cv ∧ cv.w = canvasW o m ∧ cv.h = canvasH o m ∧
      (∀ x y, x < m.width → y < m.height → InBlock o x y px py →
        cv.pix px py = over (moduleColor o (m.raw x y)) (over o.backgroundColor.1 ⟨0, 0, 0, 0⟩)) ∧
      ((∀ x y, x < m.width → y < m.height → ¬ InBlock o x y px py) → cv.pix px py = over o.backgroundColor.1 ⟨0, 0, 0, 0⟩) := by
  have hs := hp.safe m
  have hshape : o.getShape = .rectangle := by
    unfold Opts.getShape
    rcases hp.shape with h | h <;> rw [h] <;> rfl
  obtain ⟨o', _, he⟩ := draw_eq scale o m (maskBitmap_off hs)
  have htail : tailOps o m = [] := by unfold tailOps; rw [hp.gradient, hp.logo]; rfl
  have hops : (m.iterate .row).flatMap (fun a => moduleOps scale (canvasW o m) (canvasH o m) m.width m.bitmap (safeOn o m) (logoW o m)
          (logoH o m) o a.1 a.2.1 a.2.2) =
      (m.iterate .row).flatMap fun a => [DrawOp.shape (decide (a.2.2.ty = .finder)) o.getShape (moduleCtx o m.bitmap a.1 a.2.1 a.2.2)] := by
    congr 1
    funext a
    unfold moduleOps
    rw [hs, hp.halftone]
    rfl
  rw [htail, hops, List.append_nil] at he
  have hcw : 0 ≤ canvasW o m ∧ 0 ≤ canvasH o m := by omega
  obtain ⟨cv, e, s1, s2, g1, g2⟩ := paint_blocks (o := o) m.bitmap hshape (px := px) (py := py) (m.iterate .row)
    (Canvas.paintRect ⟨canvasW o m, canvasH o m, fun _ _ => ⟨0, 0, 0, 0⟩⟩ o.backgroundColor.1 0 0 (canvasW o m) (canvasH o m))
    hpx.1 hpx.2 hpy.1 hpy.2 (iterate_distinct m)
  have hbgpix : (Canvas.paintRect ⟨canvasW o m, canvasH o m, fun _ _ => ⟨0, 0, 0, 0⟩⟩ o.backgroundColor.1 0 0 (canvasW o m)
      (canvasH o m)).pix px py = over o.backgroundColor.1 ⟨0, 0, 0, 0⟩ := by
    unfold Canvas.paintRect
    simp only
    rw [if_pos ⟨by omega, by omega⟩]
  refine ⟨_, o', cv, he, ?_, s1, s2, ?_, ?_⟩
  · unfold paintAll
    rw [List.foldlM_append]
    have : List.foldlM Canvas.paint ⟨0, 0, fun _ _ => ⟨0, 0, 0, 0⟩⟩ [DrawOp.newContext (canvasW o m) (canvasH o m),
        DrawOp.fillRect o.backgroundColor.1 0 0 (canvasW o m) (canvasH o m)] = some (Canvas.paintRect ⟨canvasW o m, canvasH o m,
        fun _ _ => ⟨0, 0, 0, 0⟩⟩ o.backgroundColor.1 0 0 (canvasW o m) (canvasH o m)) := by
      rw [List.foldlM_cons, Canvas.paint, if_neg (by omega)]
      rfl
    rw [this]
    exact e
  · intro x y hx hy hin
    obtain ⟨v, hv⟩ := mem_iterate.2 ⟨hx, hy⟩
    have hval : v = m.raw x y := by
      unfold iterate at hv
      obtain ⟨p, _, hp⟩ := List.mem_map.1 hv
      simp only [Prod.mk.injEq] at hp
      rw [← hp.2.2, hp.1, hp.2.1]
    rw [g1 (x, y, v) hv hin, hbgpix, hval]
  · intro hn
    rw [g2, hbgpix]
    rintro ⟨x, y, v⟩ ha
    have := mem_iterate.1 ⟨v, ha⟩
    exact hn x y this.1 this.2

/-- **C40, the pixels.**  With the rectangle shape, opaque colours and no halftone, gradient or logo: the image has the size
`Attribute` reports (whatever the borders, also negative ones that cut modules off), every pixel in the block of a module shows the foreground colour if the module is dark and the background
colour if it is light, and every pixel outside all blocks (the borders) shows the background colour. -/
theorem C40_pixels (scale : Scaler) {o : Opts} (hp : Plain o) (m : Matrix) {dim : Nat} (hw : m.width = dim) (hh : m.height = dim)
    (hfg : o.qrColor.a = 255) (hbg : o.bgColor.a = 255) (ht : o.bgTransparent = false) {px py : Int}
    (hpx : 0 ≤ px ∧ px < (o.attribute dim).w) (hpy : 0 ≤ py ∧ py < (o.attribute dim).h) :
    ∃ ops o' cv, draw scale o m = some (ops, o') ∧ paintAll ops = some cv ∧ cv.w = (o.attribute dim).w ∧ cv.h = (o.attribute dim).h ∧
      (∀ x y, x < dim → y < dim → InBlock o x y px py →
        cv.pix px py = if (m.raw x y).bit then o.qrColor else o.bgColor) ∧
      ((∀ x y, x < dim → y < dim → ¬ InBlock o x y px py) → cv.pix px py = o.bgColor) := by
  have e1 : canvasW o m = (o.attribute dim).w := by
    unfold canvasW Opts.attribute; rw [hw]; simp only; omega
  have e2 : canvasH o m = (o.attribute dim).h := by
    unfold canvasH Opts.attribute; rw [hh]
  obtain ⟨ops, o', cv, h1, h2, h3, h4, h5, h6⟩ := plain_picture scale hp m (px := px) (py := py) (by rw [e1]; exact hpx) (by rw [e2]; exact hpy)
  have hbgc : o.backgroundColor.1 = o.bgColor := by unfold Opts.backgroundColor; rw [ht]; rfl
  refine ⟨ops, o', cv, h1, h2, by rw [h3, e1], by rw [h4, e2], ?_, ?_⟩
  · intro x y hx hy hin
    rw [h5 x y (by omega) (by omega) hin]
    have : moduleColor o (m.raw x y) = if (m.raw x y).bit then o.qrColor else o.bgColor := by
      unfold moduleColor; rw [ht]; rfl
    rw [this, over_opaque]
    split
    · exact hfg
    · exact hbg
  · intro hn
    rw [h6 (fun x y hx hy => hn x y (by omega) (by omega)), hbgc, over_opaque hbg]

/-- **C40, transparent background.**  With `WithBgTransparent` every pixel of a dark module's block has the (opaque) foreground
colour, and every other pixel has alpha 0. -/
theorem C40_transparent (scale : Scaler) {o : Opts} (hp : Plain o) (m : Matrix) {dim : Nat} (hw : m.width = dim) (hh : m.height = dim)
    (hfg : o.qrColor.a = 255) (ht : o.bgTransparent = true) {px py : Int}
    (hpx : 0 ≤ px ∧ px < (o.attribute dim).w) (hpy : 0 ≤ py ∧ py < (o.attribute dim).h) :
    ∃ ops o' cv, draw scale o m = some (ops, o') ∧ paintAll ops = some cv ∧
      (∀ x y, x < dim → y < dim → InBlock o x y px py →
        if (m.raw x y).bit then cv.pix px py = o.qrColor else (cv.pix px py).a = 0) ∧
      ((∀ x y, x < dim → y < dim → ¬ InBlock o x y px py) → (cv.pix px py).a = 0) := by
  have e1 : canvasW o m = (o.attribute dim).w := by
    unfold canvasW Opts.attribute; rw [hw]; simp only; omega
  have e2 : canvasH o m = (o.attribute dim).h := by
    unfold canvasH Opts.attribute; rw [hh]
  obtain ⟨ops, o', cv, h1, h2, h3, h4, h5, h6⟩ := plain_picture scale hp m (px := px) (py := py) (by rw [e1]; exact hpx) (by rw [e2]; exact hpy)
  have hbga : (over o.backgroundColor.1 ⟨0, 0, 0, 0⟩).a = 0 := by
    have : o.backgroundColor.1.a = 0 := by unfold Opts.backgroundColor; rw [ht]; rfl
    unfold over
    simp only [this]
    exact overChan_clear 0
  refine ⟨ops, o', cv, h1, h2, ?_, ?_⟩
  · intro x y hx hy hin
    rw [h5 x y (by omega) (by omega) hin]
    unfold moduleColor
    rw [ht]
    simp only [QRValue.qrbool]
    cases (m.raw x y).bit
    · simp only [Bool.false_eq_true, if_false, if_true]
      rw [over_clear]; exact hbga
    · simp only [if_true]
      exact over_opaque hfg _
  · intro hn
    rw [h6 (fun x y hx hy => hn x y (by omega) (by omega))]; exact hbga

/-! ## Neighbour masks -/

/-- The position of the bit of direction `(dx, dy)` in the mask: the nine cells of a 3 by 3 square in reading order. -/
def dirBit (dx dy : Int) : Nat := ((dy + 1) * 3 + (dx + 1)).toNat

theorem mask_bits (b : Int → Int → Bool) (bm : List (List Bool)) (x y : Int) (r0 : List Bool) (rest : List (List Bool)) (hbm : bm = r0 :: rest)
    (hb : ∀ dx dy, b dx dy = darkCell bm bm.length r0.length (x + dx) (y + dy)) :
    (∀ dx dy : Int, -1 ≤ dx → dx ≤ 1 → -1 ≤ dy → dy ≤ 1 → (getNeighbours bm x y).toNat.testBit (dirBit dx dy) = b dx dy) ∧
    (getNeighbours bm x y).toNat < 512 := by
  have e : getNeighbours bm x y = dirs.foldl (fun res d => if b d.1 d.2.1 then res ||| d.2.2 else res) (if b 0 0 then NSelf else 0) := by
    unfold getNeighbours
    subst hbm
    simp only
    rw [hb 0 0, Int.add_zero, Int.add_zero]
    congr 1
    funext res d
    rw [hb]
  rw [e]
  unfold dirs
  simp only [List.foldl_cons, List.foldl_nil]
  have key : ∀ b1 b2 b3 b4 b5 b6 b7 b8 b9 : Bool,
      let r : UInt16 := if b5 then NSelf else 0
      let r := if b1 then r ||| NTopLeft else r
      let r := if b2 then r ||| NTop else r
      let r := if b3 then r ||| NTopRight else r
      let r := if b4 then r ||| NLeft else r
      let r := if b6 then r ||| NRight else r
      let r := if b7 then r ||| NBotLeft else r
      let r := if b8 then r ||| NBot else r
      let r := if b9 then r ||| NBotRight else r
      r.toNat.testBit 0 = b1 ∧ r.toNat.testBit 1 = b2 ∧ r.toNat.testBit 2 = b3 ∧ r.toNat.testBit 3 = b4 ∧ r.toNat.testBit 4 = b5 ∧
        r.toNat.testBit 5 = b6 ∧ r.toNat.testBit 6 = b7 ∧ r.toNat.testBit 7 = b8 ∧ r.toNat.testBit 8 = b9 ∧ r.toNat < 512 := by
    decide +kernel
  obtain ⟨k1, k2, k3, k4, k5, k6, k7, k8, k9, k10⟩ := key (b (-1) (-1)) (b 0 (-1)) (b 1 (-1)) (b (-1) 0) (b 0 0) (b 1 0) (b (-1) 1) (b 0 1) (b 1 1)
  refine ⟨?_, k10⟩
  intro dx dy h1 h2 h3 h4
  have hx : dx = -1 ∨ dx = 0 ∨ dx = 1 := by omega
  have hy : dy = -1 ∨ dy = 0 ∨ dy = 1 := by omega
  rcases hx with rfl | rfl | rfl <;> rcases hy with rfl | rfl | rfl
  · exact k1
  · exact k4
  · exact k7
  · exact k2
  · exact k5
  · exact k8
  · exact k3
  · exact k6
  · exact k9

theorem darkCell_eq {W H : Nat} {t : List (List Bool)} (h : Table W H t) {nx ny : Int} :
    darkCell t H W nx ny = true ↔ 0 ≤ nx ∧ nx < W ∧ 0 ≤ ny ∧ ny < H ∧ pixel t ny.toNat nx.toNat = true := by
  unfold darkCell pixel
  simp only [Bool.and_eq_true, decide_eq_true_eq]
  rw [List.getD_eq_getElem?_getD (l := t)]
  constructor
  · rintro ⟨⟨⟨⟨a, b⟩, c⟩, d⟩, e⟩; exact ⟨c, d, a, b, e⟩
  · rintro ⟨c, d, a, b, e⟩; exact ⟨⟨⟨⟨a, b⟩, c⟩, d⟩, e⟩

/-- The masks of any rectangular table. -/
theorem neighbours_table {W H : Nat} {t : List (List Bool)} (h : Table W H t) (x y : Int) :
    (∀ dx dy : Int, -1 ≤ dx → dx ≤ 1 → -1 ≤ dy → dy ≤ 1 → ((getNeighbours t x y).toNat.testBit (dirBit dx dy) = true ↔
      0 ≤ x + dx ∧ x + dx < W ∧ 0 ≤ y + dy ∧ y + dy < H ∧ pixel t (y + dy).toNat (x + dx).toNat = true)) ∧
    (getNeighbours t x y).toNat < 512 := by
  cases t with
  | nil =>
    have hH : H = 0 := h.1.symm
    refine ⟨?_, by simp [getNeighbours]⟩
    intro dx dy _ _ _ _
    simp only [getNeighbours]
    constructor
    · intro hc; simp at hc
    · rintro ⟨_, _, h3, h4, _⟩; omega
  | cons r0 rest =>
    have hr : r0.length = W := h.2 r0 (by simp)
    obtain ⟨h1, h2⟩ := mask_bits (fun dx dy => darkCell (r0 :: rest) H W (x + dx) (y + dy)) (r0 :: rest) x y r0 rest rfl
      (fun dx dy => by rw [h.1, hr])
    refine ⟨?_, h2⟩
    intro dx dy a b c d
    rw [h1 dx dy a b c d, darkCell_eq h]

/-- **C41.**  Without a safe zone in effect, the neighbour mask of module `(x, y)` has the bit of each of the nine directions
(bit `3 * (dy + 1) + (dx + 1)`) set exactly if the cell `(x + dx, y + dy)` lies inside the matrix and is dark; no other bit
is set. -/
theorem C41_neighbours (m : Matrix) (x y : Nat) :
    (∀ dx dy : Int, -1 ≤ dx → dx ≤ 1 → -1 ≤ dy → dy ≤ 1 →
      ((getNeighbours m.bitmap x y).toNat.testBit (3 * (dy + 1) + (dx + 1)).toNat = true ↔
        ∃ nx ny : Nat, (nx : Int) = x + dx ∧ (ny : Int) = y + dy ∧ nx < m.width ∧ ny < m.height ∧ (m.raw nx ny).bit = true)) ∧
    (getNeighbours m.bitmap x y).toNat < 2 ^ 9 := by
  obtain ⟨ht, hp⟩ := bitmap_spec m
  obtain ⟨h1, h2⟩ := neighbours_table ht x y
  refine ⟨?_, h2⟩
  intro dx dy a b c d
  have hd : dirBit dx dy = (3 * (dy + 1) + (dx + 1)).toNat := by unfold dirBit; congr 1; omega
  rw [← hd, h1 dx dy a b c d]
  constructor
  · rintro ⟨g1, g2, g3, g4, g5⟩
    refine ⟨((x : Int) + dx).toNat, ((y : Int) + dy).toNat, by omega, by omega, by omega, by omega, ?_⟩
    rw [hp _ _ (by omega) (by omega)] at g5
    exact g5
  · rintro ⟨nx, ny, e1, e2, h3, h4, h5⟩
    refine ⟨by omega, by omega, by omega, by omega, ?_⟩
    rw [← e1, ← e2, Int.toNat_natCast, Int.toNat_natCast, hp _ _ h4 h3]
    exact h5

/-- The masks shapes get are those of `C41_neighbours` (see `C40_calls`); the flag constants are the nine bits. -/
theorem C41_flags : [NTopLeft, NTop, NTopRight, NLeft, NSelf, NRight, NBotLeft, NBot, NBotRight].map (·.toNat) =
    (List.range 9).map (2 ^ ·) := by decide +kernel

/-! ## The safe zone around the logo -/

/-- The calls with a safe zone. -/
theorem safe_calls (scale : Scaler) {o : Opts} {m : Matrix} (hh : o.halftone = none) (hs : safeOn o m = true) {bm : List (List Bool)}
    (hbm : maskBitmap o m = some bm) : ∃ ops o', draw scale o m = some (ops, o') ∧
      shapeCalls ops = ((m.iterate .row).filter fun a => !(overlaps o m a.1 a.2.1 && a.2.2.bit)).map fun a =>
        (decide (a.2.2.ty = .finder), o.getShape, moduleCtx o bm a.1 a.2.1 a.2.2) := by
  obtain ⟨o', _, he⟩ := draw_eq scale o m hbm
  refine ⟨_, o', he, ?_⟩
  rw [shapeCalls_append, shapeCalls_append, (tail_shapes o m).1, List.append_nil]
  have h0 : shapeCalls [DrawOp.newContext (canvasW o m) (canvasH o m), .fillRect o.backgroundColor.1 0 0 (canvasW o m) (canvasH o m)] = [] := rfl
  rw [h0, List.nil_append]
  unfold shapeCalls
  rw [filterMap_flatMap]
  generalize m.iterate .row = l
  induction l with
  | nil => rfl
  | cons a l ih =>
    rw [List.flatMap_cons, ih, List.filter_cons]
    unfold moduleOps
    rw [hs, hh]
    rw [show blockOverlapsLogo a.1 a.2.1 o.qrBlockWidth o.borders.left o.borders.top (canvasW o m) (canvasH o m) (logoW o m) (logoH o m) =
      overlaps o m a.1 a.2.1 from rfl]
    simp only [Bool.true_and, QRValue.qrbool]
    cases (overlaps o m a.1 a.2.1 && a.2.2.bit) <;> rfl

/-- Two intervals of positive length overlap exactly if they share a point. -/
theorem interval_overlap {a b c d : Int} (h1 : 0 < b) (h2 : 0 < d) :
    (a + b > c ∧ a < c + d) ↔ ∃ p, a ≤ p ∧ p < a + b ∧ c ≤ p ∧ p < c + d := by
  constructor
  · rintro ⟨h3, h4⟩
    refine ⟨max a c, by omega, by omega, by omega, by omega⟩
  · rintro ⟨p, _, _, _, _⟩
    constructor <;> omega

/-- **C42.**  With a logo that is not empty and small enough (its size times the multiplier fits the image), the safe zone on, and no halftone, on a square symbol: the logo is drawn once,
at some position `(lx, ly)`, and the shape is called, in row order, for exactly those modules that are light or whose block
shares no pixel with the logo's rectangle; each call has the module's own position and colour. -/
theorem C42_safe_zone (scale : Scaler) {o : Opts} {m : Matrix} (hsq : m.width = m.height) (hh : o.halftone = none) (hz : o.logoSafeZone = true)
    {img : Image} (hl : o.logo = some img) (hv1 : o.logoSizeMultiplier * (img.maxX - img.minX) ≤ (o.attribute m.width).w)
    (hv2 : o.logoSizeMultiplier * (img.maxY - img.minY) ≤ (o.attribute m.width).h) (hw : img.minX < img.maxX) (hht : img.minY < img.maxY) :
    ∃ ops o' lx ly, draw scale o m = some (ops, o') ∧ images ops = [(img, lx, ly)] ∧ ∃ keep : Nat → Nat → QRValue → Bool,
      (∀ x y, x < m.width → y < m.height → (keep x y (m.raw x y) = false ↔ (m.raw x y).bit = true ∧
        ∃ px py, InBlock o x y px py ∧ lx ≤ px ∧ px < lx + (img.maxX - img.minX) ∧ ly ≤ py ∧ py < ly + (img.maxY - img.minY))) ∧
      (shapeCalls ops).map (fun c => (c.1, c.2.1, c.2.2.x, c.2.2.y, c.2.2.w, c.2.2.h, c.2.2.color)) =
        ((m.iterate .row).filter fun a => keep a.1 a.2.1 a.2.2).map fun a =>
        (decide (a.2.2.ty = .finder), o.getShape, (((a.1 : Int) * o.qrBlockWidth + o.borders.left : Int) : Rat),
          (((a.2.1 : Int) * o.qrBlockWidth + o.borders.top : Int) : Rat), o.qrBlockWidth, o.qrBlockWidth,
          if a.2.2.bit then o.qrColor else if o.bgTransparent then ⟨0, 0, 0, 0⟩ else o.bgColor) := by
  have hv : logoValid o m = true := by
    unfold logoValid logoSize
    rw [hl]
    simp only [validLogoImage, Bool.and_eq_true, decide_eq_true_eq, ge_iff_le]
    unfold Opts.attribute at hv1 hv2
    simp only at hv1 hv2
    unfold canvasW canvasH
    rw [← hsq]
    omega
  have hs : safeOn o m = true := by unfold safeOn; rw [hv, hz]; rfl
  obtain ⟨bm, hbm⟩ := maskBitmap_some (o := o) (m := m) (Or.inl hsq)
  obtain ⟨ops, o', he, hc⟩ := safe_calls scale hh hs hbm
  have hlw : logoW o m = img.maxX - img.minX := by unfold logoW logoSize; rw [hl]
  have hlh : logoH o m = img.maxY - img.minY := by unfold logoH logoSize; rw [hl]
  refine ⟨ops, o', Int.tdiv (canvasW o m - logoW o m) 2, Int.tdiv (canvasH o m - logoH o m) 2, he, ?_,
    fun x y v => !(overlaps o m x y && v.bit), ?_, ?_⟩
  · obtain ⟨o'', _, he'⟩ := draw_eq scale o m hbm
    rw [he, Option.some.injEq, Prod.mk.injEq] at he'
    rw [he'.1, images_append, images_append]
    have : images ((m.iterate .row).flatMap fun a => moduleOps scale (canvasW o m) (canvasH o m) m.width bm (safeOn o m)
        (logoW o m) (logoH o m) o a.1 a.2.1 a.2.2) = [] := by
      unfold images
      rw [filterMap_flatMap]
      exact flatMap_nil fun a _ => moduleOps_shapes.2
    rw [this]
    unfold tailOps
    rw [hl, hv]
    cases o.qrGradient <;> rfl
  · intro x y hx hy
    have hov : overlaps o m x y = true ↔ ∃ px py, InBlock o x y px py ∧ Int.tdiv (canvasW o m - logoW o m) 2 ≤ px ∧
        px < Int.tdiv (canvasW o m - logoW o m) 2 + (img.maxX - img.minX) ∧ Int.tdiv (canvasH o m - logoH o m) 2 ≤ py ∧
        py < Int.tdiv (canvasH o m - logoH o m) 2 + (img.maxY - img.minY) := by
      unfold overlaps blockOverlapsLogo
      simp only [Bool.and_eq_true, decide_eq_true_eq]
      rw [hlw, hlh]
      generalize Int.tdiv (canvasW o m - (img.maxX - img.minX)) 2 = lx
      generalize Int.tdiv (canvasH o m - (img.maxY - img.minY)) 2 = ly
      have hbw := (blockWidth_pos o).1
      have ix := interval_overlap (a := (x : Int) * o.qrBlockWidth + o.borders.left) (b := o.qrBlockWidth) (c := lx) (d := img.maxX - img.minX)
        hbw (by omega)
      have iy := interval_overlap (a := (y : Int) * o.qrBlockWidth + o.borders.top) (b := o.qrBlockWidth) (c := ly) (d := img.maxY - img.minY)
        hbw (by omega)
      constructor
      · rintro ⟨⟨⟨h1, h2⟩, h3⟩, h4⟩
        obtain ⟨px, a1, a2, a3, a4⟩ := ix.1 ⟨h1, h2⟩
        obtain ⟨py, b1, b2, b3, b4⟩ := iy.1 ⟨h3, h4⟩
        refine ⟨px, py, ⟨by omega, ?_, by omega, ?_⟩, a3, a4, b3, b4⟩
        · rw [Int.add_mul, Int.one_mul]; omega
        · rw [Int.add_mul, Int.one_mul]; omega
      · rintro ⟨px, py, ⟨c1, c2, c3, c4⟩, a3, a4, b3, b4⟩
        rw [Int.add_mul, Int.one_mul] at c2 c4
        have hx := ix.2 ⟨px, by omega, by omega, a3, a4⟩
        have hy := iy.2 ⟨py, by omega, by omega, b3, b4⟩
        exact ⟨⟨⟨hx.1, hx.2⟩, hy.1⟩, hy.2⟩
    rw [← hov]
    simp only [Bool.not_eq_false', Bool.and_eq_true]
    exact and_comm
  · rw [hc, List.map_map]
    rfl

/-- **C43, what holds.**  With the safe zone on, on a square symbol, the mask of module `(x, y)` shows the neighbour `(nx, ny)` as
dark exactly if it lies inside the matrix, is dark, and the *transposed* module `(ny, nx)` does not overlap the logo.  (The
property as stated in English is false, see `C43_counterexample`.) -/
theorem C43_mask_partial (scale : Scaler) {o : Opts} {m : Matrix} (hsq : m.width = m.height) (hh : o.halftone = none)
    (hs : safeOn o m = true) : ∃ ops o' bm, draw scale o m = some (ops, o') ∧
      ((shapeCalls ops).map fun c => c.2.2.neighbours) =
        (((m.iterate .row).filter fun a => !(overlaps o m a.1 a.2.1 && a.2.2.bit)).map fun a => getNeighbours bm a.1 a.2.1) ∧
      ∀ (x y : Nat) (dx dy : Int), -1 ≤ dx → dx ≤ 1 → -1 ≤ dy → dy ≤ 1 →
        ((getNeighbours bm x y).toNat.testBit (3 * (dy + 1) + (dx + 1)).toNat = true ↔
          ∃ nx ny : Nat, (nx : Int) = x + dx ∧ (ny : Int) = y + dy ∧ nx < m.width ∧ ny < m.height ∧ (m.raw nx ny).bit = true ∧
            overlaps o m ny nx = false) := by
  obtain ⟨bm, hbm, hT, hpx⟩ := maskBitmap_on hsq hs
  obtain ⟨ops, o', he, hc⟩ := safe_calls scale hh hs hbm
  refine ⟨ops, o', bm, he, ?_, ?_⟩
  · rw [hc, List.map_map]; rfl
  · intro x y dx dy a b c d
    obtain ⟨h1, _⟩ := neighbours_table hT x y
    have hd : dirBit dx dy = (3 * (dy + 1) + (dx + 1)).toNat := by unfold dirBit; congr 1; omega
    rw [← hd, h1 dx dy a b c d]
    constructor
    · rintro ⟨g1, g2, g3, g4, g5⟩
      refine ⟨((x : Int) + dx).toNat, ((y : Int) + dy).toNat, by omega, by omega, by omega, by omega, ?_⟩
      rw [hpx _ _ (by omega) (by omega)] at g5
      cases ho : overlaps o m ((y : Int) + dy).toNat ((x : Int) + dx).toNat
      · rw [ho, if_neg (by simp)] at g5; exact ⟨g5, rfl⟩
      · rw [ho, if_pos rfl] at g5; cases g5
    · rintro ⟨nx, ny, e1, e2, h3, h4, h5, h6⟩
      refine ⟨by omega, by omega, by omega, by omega, ?_⟩
      rw [← e1, ← e2, Int.toNat_natCast, Int.toNat_natCast, hpx _ _ h3 h4, h6]
      simpa using h5

/-- If the picture is symmetric (equal left and top border, equal right and bottom border, a square logo), the masks are
right. -/
theorem C43_symmetric {o : Opts} {m : Matrix} (hsq : m.width = m.height) (h1 : o.borders.left = o.borders.top)
    (h2 : o.borders.right = o.borders.bottom) (h3 : logoW o m = logoH o m) (x y : Nat) : overlaps o m y x = overlaps o m x y := by
  unfold overlaps blockOverlapsLogo
  have hc : canvasW o m = canvasH o m := by unfold canvasW canvasH; rw [hsq, h1, h2]
  rw [h1, h3, hc]
  simp only
  rw [Bool.and_assoc, Bool.and_comm, ← Bool.and_assoc]

/-- A 3 by 3 symbol of dark data modules, and a logo of 3 by 1 pixels on blocks of one pixel without borders. -/
def demoM : Matrix := ⟨3, 3, List.replicate 3 (List.replicate 3 DATA_V1)⟩
def demoLogo : Image := ⟨0, 0, 3, 1, fun _ _ => (0, 0, 0, 0)⟩
def demoO : Opts := { defaultOpts with logo := some demoLogo, logoSafeZone := true, logoSizeMultiplier := 1, qrWidth := 1, borders := ⟨0, 0, 0, 0⟩ }

/-- **C43 is false**: the code clears the transposed entry.  In the example the logo covers the middle row, the module to the
right of (0, 0) is dark and is drawn, but the mask of (0, 0) shows it as light. -/
theorem C43_counterexample : ¬ ∀ (scale : Scaler) (o : Opts) (m : Matrix), m.width = m.height → o.halftone = none → safeOn o m = true →
    ∃ ops o' bm, draw scale o m = some (ops, o') ∧
      ((shapeCalls ops).map fun c => c.2.2.neighbours) =
        (((m.iterate .row).filter fun a => !(overlaps o m a.1 a.2.1 && a.2.2.bit)).map fun a => getNeighbours bm a.1 a.2.1) ∧
      ∀ (x y : Nat) (dx dy : Int), -1 ≤ dx → dx ≤ 1 → -1 ≤ dy → dy ≤ 1 → x < m.width → y < m.height →
        ¬ (overlaps o m x y = true ∧ (m.raw x y).bit = true) →
        ((getNeighbours bm x y).toNat.testBit (3 * (dy + 1) + (dx + 1)).toNat = true ↔
          ∃ nx ny : Nat, (nx : Int) = x + dx ∧ (ny : Int) = y + dy ∧ nx < m.width ∧ ny < m.height ∧ (m.raw nx ny).bit = true ∧
            overlaps o m nx ny = false) := by
  intro h
  have hs : safeOn demoO demoM = true := by decide +kernel
  obtain ⟨ops, o', bm, he, hn, hb⟩ := h (fun _ _ _ _ => (0, 0, 0, 0)) demoO demoM rfl rfl hs
  obtain ⟨ops2, o2, bm2, he2, hn2, hb2⟩ := C43_mask_partial (fun _ _ _ _ => (0, 0, 0, 0)) (o := demoO) (m := demoM) rfl rfl hs
  rw [he, Option.some.injEq, Prod.mk.injEq] at he2
  rw [he2.1, hn2] at hn
  have hkeep : ((demoM.iterate .row).filter fun a => !(overlaps demoO demoM a.1 a.2.1 && a.2.2.bit)) =
      (0, 0, DATA_V1) :: ((demoM.iterate .row).filter fun a => !(overlaps demoO demoM a.1 a.2.1 && a.2.2.bit)).tail := by decide +kernel
  rw [hkeep, List.map_cons, List.map_cons, List.cons.injEq] at hn
  have hg : getNeighbours bm2 0 0 = getNeighbours bm 0 0 := hn.1
  have h1 := (hb 0 0 1 0 (by omega) (by omega) (by omega) (by omega) (by decide) (by decide) (by decide +kernel)).2
    ⟨1, 0, rfl, rfl, by decide, by decide, by decide +kernel, by decide +kernel⟩
  rw [show ((0 : Nat) : Int) = 0 from rfl, ← hg] at h1
  obtain ⟨nx, ny, e1, e2, _, _, _, h2⟩ := (hb2 0 0 1 0 (by omega) (by omega) (by omega) (by omega)).1 h1
  have e1 : nx = 1 := by omega
  have e2 : ny = 0 := by omega
  subst e1 e2
  revert h2
  decide +kernel

/-- The hypotheses of `C42_safe_zone` are met by the example: three modules are removed. -/
example : demoO.logoSizeMultiplier * (demoLogo.maxX - demoLogo.minX) ≤ (demoO.attribute 3).w ∧
    demoO.logoSizeMultiplier * (demoLogo.maxY - demoLogo.minY) ≤ (demoO.attribute 3).h ∧ demoM.width = demoM.height ∧ demoO.halftone = none ∧ demoLogo.minX < demoLogo.maxX ∧
    (((draw (fun _ _ _ _ => (0, 0, 0, 0)) demoO demoM).map fun r => (shapeCalls r.1).length)) = some 6 := by
  decide +kernel

/-- **C42, the empty logo.**  Without the condition that the logo is not empty the claim is false: an empty image still removes the
dark modules around the centre. -/
theorem C42_empty_logo : let o := { demoO with logo := some ⟨0, 0, 0, 0, fun _ _ => (0, 0, 0, 0)⟩, qrWidth := 3 }
    logoValid o demoM = true ∧ overlaps o demoM 1 1 = true ∧
    ((draw (fun _ _ _ _ => (0, 0, 0, 0)) o demoM).map fun r => (shapeCalls r.1).length) = some 8 := by decide +kernel

/-! ## Halftone -/

/-- **C53.**  With a halftone image and no safe zone in effect, the shape is called nine times for every data module and once for
every other one.  The nine sub-blocks `(i, j)` of data module `(x, y)` sit at `i`, `j` thirds of the block, are squares of
`⌊blockWidth / 3⌋` pixels and lie inside the block; the centre has the module's colour, the others the colour of point
`(3x + i, 3y + j)` of the halftone image. -/
theorem C53_halftone (scale : Scaler) {o : Opts} {m : Matrix} {img : Image} (hh : o.halftone = some img) (hs : safeOn o m = false) :
    ∃ ops o', draw scale o m = some (ops, o') ∧
      shapeCalls ops = (m.iterate .row).flatMap fun a =>
        if a.2.2.ty = .data then
          [(0, 0), (0, 1), (0, 2), (1, 0), (1, 1), (1, 2), (2, 0), (2, 1), (2, 2)].map fun (ij : Nat × Nat) => (false, o.getShape,
            { x := (((a.1 : Int) * o.qrBlockWidth + o.borders.left : Int) : Rat) + (ij.1 : Rat) * ((o.qrBlockWidth : Rat) / 3),
              y := (((a.2.1 : Int) * o.qrBlockWidth + o.borders.top : Int) : Rat) + (ij.2 : Rat) * ((o.qrBlockWidth : Rat) / 3),
              w := o.qrBlockWidth / 3, h := o.qrBlockWidth / 3,
              color := if ij = (1, 1) then (if a.2.2.bit then o.qrColor else if o.bgTransparent then ⟨0, 0, 0, 0⟩ else o.bgColor)
                else halftoneColor scale img (m.width * 3) o.bgTransparent (a.1 * 3 + ij.1) (a.2.1 * 3 + ij.2),
              neighbours := 0 })
        else [(decide (a.2.2.ty = .finder), o.getShape, moduleCtx o m.bitmap a.1 a.2.1 a.2.2)] := by
  obtain ⟨o', _, he⟩ := draw_eq scale o m (maskBitmap_off hs)
  have hfl : ((o.qrBlockWidth : Rat) / 3).floor = o.qrBlockWidth / 3 := by
    apply Int.le_antisymm
    · apply Int.le_of_lt_add_one
      rw [Rat.floor_lt_iff]
      have h1 : o.qrBlockWidth < (o.qrBlockWidth / 3 + 1) * 3 := by omega
      have h2 : (o.qrBlockWidth : Rat) < (((o.qrBlockWidth / 3 + 1) * 3 : Int) : Rat) := Rat.intCast_lt_intCast.2 h1
      rw [Rat.intCast_mul] at h2
      generalize ((o.qrBlockWidth / 3 + 1 : Int) : Rat) = q at *
      have : ((3 : Int) : Rat) = 3 := rfl
      rw [this] at h2
      grind
    · rw [Rat.le_floor_iff]
      have h1 : (o.qrBlockWidth / 3) * 3 ≤ o.qrBlockWidth := by omega
      have h2 : (((o.qrBlockWidth / 3) * 3 : Int) : Rat) ≤ (o.qrBlockWidth : Rat) := Rat.intCast_le_intCast.2 h1
      rw [Rat.intCast_mul] at h2
      generalize ((o.qrBlockWidth / 3 : Int) : Rat) = q at *
      have : ((3 : Int) : Rat) = 3 := rfl
      rw [this] at h2
      grind
  refine ⟨_, o', he, ?_⟩
  rw [shapeCalls_append, shapeCalls_append, (tail_shapes o m).1, List.append_nil]
  have h0 : shapeCalls [DrawOp.newContext (canvasW o m) (canvasH o m), .fillRect o.backgroundColor.1 0 0 (canvasW o m) (canvasH o m)] = [] := rfl
  rw [h0, List.nil_append]
  unfold shapeCalls
  rw [filterMap_flatMap]
  congr 1
  funext a
  unfold moduleOps
  rw [hs, hh]
  simp only [Bool.false_and, Bool.false_eq_true, if_false]
  by_cases hd : a.2.2.ty = .data
  · rw [if_pos hd, if_pos hd]
    unfold subOps
    rw [hfl]
    rfl
  · rw [if_neg hd, if_neg hd]; rfl

/-- **C53, inside the block**: the sub-blocks of `C53_halftone` do not leave the block, and they do not overlap; they fill it exactly
if the block width is a multiple of 3 (otherwise gaps remain). -/
theorem C53_inside (bw : Int) (h : 0 < bw) (i : Nat) (hi : i < 3) :
    0 ≤ (i : Rat) * ((bw : Rat) / 3) ∧ (i : Rat) * ((bw : Rat) / 3) + ((bw / 3 : Int) : Rat) ≤ ((i + 1 : Nat) : Rat) * ((bw : Rat) / 3) ∧
    ((i + 1 : Nat) : Rat) * ((bw : Rat) / 3) ≤ bw ∧
    ((i : Rat) * ((bw : Rat) / 3) + ((bw / 3 : Int) : Rat) = ((i + 1 : Nat) : Rat) * ((bw : Rat) / 3) ↔ bw % 3 = 0) := by
  have h1 : (((bw / 3) * 3 : Int) : Rat) ≤ (bw : Rat) := Rat.intCast_le_intCast.2 (by omega)
  have h0 : (0 : Rat) < (bw : Rat) := Rat.intCast_pos.2 h
  have h2 : (((bw / 3) * 3 : Int) : Rat) = (bw : Rat) ↔ bw % 3 = 0 := by
    rw [Rat.intCast_inj]; omega
  rw [Rat.intCast_mul, show ((3 : Int) : Rat) = 3 from rfl] at h1 h2
  have hc : i = 0 ∨ i = 1 ∨ i = 2 := by omega
  rw [← h2]
  generalize ((bw / 3 : Int) : Rat) = q at *
  generalize (bw : Rat) = b at *
  rcases hc with rfl | rfl | rfl
  · refine ⟨by grind, by grind, by grind, by grind⟩
  · refine ⟨by grind, by grind, by grind, by grind⟩
  · refine ⟨by grind, by grind, by grind, by grind⟩

end QR.Standard
