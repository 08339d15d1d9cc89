import Verif.Model.CanvasCustom
import Verif.Props.ScanPixels
/-!
# C85: shapes written by the user
-/
namespace QR.Standard
open QR QR.Matrix Spec Plane

/-- **What a shape has to do** so that its pictures can be read, for blocks of `bw` pixels and one spot (`sx`, `sy`) in the block: whenever it is called for a block, with any colour and
neighbours and in any state it can be in (`Ok`), it paints the spot of this block with the colour it is given (it may leave out light modules, that is, those without the flag `NSelf`), does not
touch the spots of other blocks, and leaves the size of the picture alone.  Everything else is up to it. -/
structure Readable {σ : Type} (shape : UserShape σ) (Ok : σ → Prop) (bw sx sy : Int) : Prop where
  stays : ∀ fin ctx s cv, Ok s → Ok (shape fin ctx s cv).1
  size : ∀ fin ctx s cv, (shape fin ctx s cv).2.w = cv.w ∧ (shape fin ctx s cv).2.h = cv.h
  own : ∀ fin (ctx : Ctx) s (cv : Canvas) (bx by' : Int), Ok s → ctx.x = bx → ctx.y = by' → ctx.w = bw → ctx.h = bw →
    0 ≤ bx → bx + bw ≤ cv.w → 0 ≤ by' → by' + bw ≤ cv.h →
    (shape fin ctx s cv).2.pix (bx + sx) (by' + sy) = over ctx.color (cv.pix (bx + sx) (by' + sy)) ∨
      ctx.neighbours &&& NSelf ≠ NSelf ∧ (shape fin ctx s cv).2.pix (bx + sx) (by' + sy) = cv.pix (bx + sx) (by' + sy)
  others : ∀ fin (ctx : Ctx) s (cv : Canvas) (bx by' i j : Int), Ok s → ctx.x = bx → ctx.y = by' → ctx.w = bw → ctx.h = bw → i ≠ 0 ∨ j ≠ 0 →
    0 ≤ bx → bx + bw ≤ cv.w → 0 ≤ by' → by' + bw ≤ cv.h →
    (shape fin ctx s cv).2.pix (bx + i * bw + sx) (by' + j * bw + sy) = cv.pix (bx + i * bw + sx) (by' + j * bw + sy)

/-- The spot of the block of module `(x, y)`. -/
def spot (o : Opts) (sx sy : Int) (x y : Nat) : Int × Int := (x * o.qrBlockWidth + o.borders.left + sx, y * o.qrBlockWidth + o.borders.top + sy)

theorem light_over {o : Opts} (hcol : Contrast o) {v : QRValue} (hv : v.bit = false) :
    over (moduleColor o v) (over o.backgroundColor.1 ⟨0, 0, 0, 0⟩) = over o.backgroundColor.1 ⟨0, 0, 0, 0⟩ := by
  unfold moduleColor
  rw [show v.qrbool = v.bit from rfl, hv, if_neg (by decide)]
  cases ht : o.bgTransparent with
  | true => rw [if_pos rfl, over_clear]
  | false =>
    rw [if_neg (by decide)]
    rcases hcol.bg with h | ⟨ha, _⟩
    · rw [ht] at h; cases h
    · have : o.backgroundColor.1 = o.bgColor := by unfold Opts.backgroundColor; rw [ht]; rfl
      rw [this, over_opaque ha, over_opaque ha]

/-- The calls for a list of modules. -/
theorem user_fold {σ : Type} {shape : UserShape σ} {Ok : σ → Prop} {o : Opts} {sx sy : Int} (hS : Readable shape Ok o.qrBlockWidth sx sy) (scale : Scaler) (blend : Blend) (put : Put)
    (direction : Rat → Rat × Rat) (hht : o.halftone = none) {m : Matrix} (bm : List (List Bool)) 
    (hb : 0 ≤ o.borders.top ∧ 0 ≤ o.borders.right ∧ 0 ≤ o.borders.bottom ∧ 0 ≤ o.borders.left) :
    ∀ (l : List (Nat × Nat × QRValue)) (d : Desk σ), (∀ a ∈ l, a.2.2 = m.raw a.1 a.2.1 ∧ a.1 < m.width ∧ a.2.1 < m.height) →
      l.Pairwise (fun a b => (a.1, a.2.1) ≠ (b.1, b.2.1)) → Ok d.st → d.cv.w = canvasW o m → d.cv.h = canvasH o m →
      ∃ d', (l.flatMap (fun a => moduleOps scale (canvasW o m) (canvasH o m) m.width bm (safeOn o m) (logoW o m) (logoH o m) o a.1 a.2.1 a.2.2)).foldlM
          (Desk.op shape blend put direction) d = some d' ∧ Ok d'.st ∧ d'.cv.w = canvasW o m ∧ d'.cv.h = canvasH o m ∧
        ∀ x y : Nat, ((∀ a ∈ l, (a.1, a.2.1) ≠ (x, y)) → d'.cv.pix (spot o sx sy x y).1 (spot o sx sy x y).2 = d.cv.pix (spot o sx sy x y).1 (spot o sx sy x y).2) ∧
          ((x, y, m.raw x y) ∈ l → drawnModule o m x y = true →
            d'.cv.pix (spot o sx sy x y).1 (spot o sx sy x y).2 = over (moduleColor o (m.raw x y)) (d.cv.pix (spot o sx sy x y).1 (spot o sx sy x y).2) ∨
            getNeighbours bm x y &&& NSelf ≠ NSelf ∧ d'.cv.pix (spot o sx sy x y).1 (spot o sx sy x y).2 = d.cv.pix (spot o sx sy x y).1 (spot o sx sy x y).2) := by
  have hbw := (blockWidth_pos o).1
  intro l
  induction l with
  | nil =>
    intro d _ _ h1 h2 h3
    exact ⟨d, rfl, h1, h2, h3, fun x y => ⟨fun _ => rfl, fun h => by cases h⟩⟩
  | cons a l ih =>
    intro d hl hp h1 h2 h3
    obtain ⟨ha, hax, hay⟩ := hl a List.mem_cons_self
    obtain ⟨hpa, hpl⟩ := List.pairwise_cons.1 hp
    have hd : drawnModule o m a.1 a.2.1 = !(safeOn o m && blockOverlapsLogo a.1 a.2.1 o.qrBlockWidth o.borders.left o.borders.top (canvasW o m) (canvasH o m)
        (logoW o m) (logoH o m) && a.2.2.qrbool) := by
      unfold drawnModule overlaps
      rw [ha]
      rfl
    -- the calls for this module
    have hone : ∃ d1, (moduleOps scale (canvasW o m) (canvasH o m) m.width bm (safeOn o m) (logoW o m) (logoH o m) o a.1 a.2.1 a.2.2).foldlM
          (Desk.op shape blend put direction) d = some d1 ∧ Ok d1.st ∧ d1.cv.w = canvasW o m ∧ d1.cv.h = canvasH o m ∧
        ∀ x y : Nat, ((a.1, a.2.1) ≠ (x, y) → d1.cv.pix (spot o sx sy x y).1 (spot o sx sy x y).2 = d.cv.pix (spot o sx sy x y).1 (spot o sx sy x y).2) ∧
          ((a.1, a.2.1) = (x, y) → drawnModule o m x y = true →
            d1.cv.pix (spot o sx sy x y).1 (spot o sx sy x y).2 = over (moduleColor o (m.raw x y)) (d.cv.pix (spot o sx sy x y).1 (spot o sx sy x y).2) ∨
            getNeighbours bm x y &&& NSelf ≠ NSelf ∧ d1.cv.pix (spot o sx sy x y).1 (spot o sx sy x y).2 = d.cv.pix (spot o sx sy x y).1 (spot o sx sy x y).2) := by
      unfold moduleOps
      rw [hht]
      cases hdr : safeOn o m && blockOverlapsLogo a.1 a.2.1 o.qrBlockWidth o.borders.left o.borders.top (canvasW o m) (canvasH o m) (logoW o m) (logoH o m) && a.2.2.qrbool with
      | true =>
        rw [hdr] at hd
        refine ⟨d, rfl, h1, h2, h3, fun x y => ⟨fun _ => rfl, fun e hdx => ?_⟩⟩
        obtain ⟨rfl, rfl⟩ := Prod.mk.inj e
        rw [hd] at hdx
        cases hdx
      | false =>
        have m1 : ((a.1 : Int) + 1) * o.qrBlockWidth ≤ m.width * o.qrBlockWidth := Int.mul_le_mul_of_nonneg_right (by omega) (by omega)
        have m2 : ((a.2.1 : Int) + 1) * o.qrBlockWidth ≤ m.height * o.qrBlockWidth := Int.mul_le_mul_of_nonneg_right (by omega) (by omega)
        have m3 : 0 ≤ (a.1 : Int) * o.qrBlockWidth := Int.mul_nonneg (by omega) (by omega)
        have m4 : 0 ≤ (a.2.1 : Int) * o.qrBlockWidth := Int.mul_nonneg (by omega) (by omega)
        rw [Int.add_mul, Int.one_mul] at m1 m2
        have b1 : 0 ≤ (a.1 : Int) * o.qrBlockWidth + o.borders.left := by omega
        have b2 : (a.1 : Int) * o.qrBlockWidth + o.borders.left + o.qrBlockWidth ≤ d.cv.w := by rw [h2]; unfold canvasW; omega
        have b3 : 0 ≤ (a.2.1 : Int) * o.qrBlockWidth + o.borders.top := by omega
        have b4 : (a.2.1 : Int) * o.qrBlockWidth + o.borders.top + o.qrBlockWidth ≤ d.cv.h := by rw [h3]; unfold canvasH; omega
        refine ⟨_, rfl, hS.stays _ _ _ _ h1, by rw [(hS.size _ _ _ _).1]; exact h2, by rw [(hS.size _ _ _ _).2]; exact h3, fun x y => ⟨fun hne => ?_, fun e _ => ?_⟩⟩
        · have := hS.others (decide (a.2.2.ty = .finder)) (moduleCtx o bm a.1 a.2.1 a.2.2) d.st d.cv _ _ ((x : Int) - a.1) ((y : Int) - a.2.1) h1 rfl rfl rfl rfl
            (by
              by_contra hh
              push Not at hh
              exact hne (Prod.ext (by simp only; omega) (by simp only; omega))) b1 b2 b3 b4
          have e1 : (a.1 : Int) * o.qrBlockWidth + o.borders.left + ((x : Int) - a.1) * o.qrBlockWidth + sx = (spot o sx sy x y).1 := by
            simp only [spot]; rw [Int.sub_mul]; omega
          have e2 : (a.2.1 : Int) * o.qrBlockWidth + o.borders.top + ((y : Int) - a.2.1) * o.qrBlockWidth + sy = (spot o sx sy x y).2 := by
            simp only [spot]; rw [Int.sub_mul]; omega
          rw [e1, e2] at this
          exact this
        · obtain ⟨rfl, rfl⟩ := Prod.mk.inj e
          have := hS.own (decide (a.2.2.ty = .finder)) (moduleCtx o bm a.1 a.2.1 a.2.2) d.st d.cv _ _ h1 rfl rfl rfl rfl b1 b2 b3 b4
          rw [← ha]
          exact this
    obtain ⟨d1, f1, g1, g2, g3, g4⟩ := hone
    obtain ⟨d', f2, k1, k2, k3, k4⟩ := ih d1 (fun b hb => hl b (List.mem_cons_of_mem _ hb)) hpl g1 g2 g3
    refine ⟨d', ?_, k1, k2, k3, fun x y => ⟨fun hne => ?_, fun hmem hdr => ?_⟩⟩
    · rw [List.flatMap_cons, List.foldlM_append, f1]
      exact f2
    · rw [(k4 x y).1 (fun b hb => hne b (List.mem_cons_of_mem _ hb))]
      exact (g4 x y).1 (hne a List.mem_cons_self)
    · rcases List.mem_cons.1 hmem with e | hmem
      · have hnot : ∀ b ∈ l, (b.1, b.2.1) ≠ (x, y) := by
          intro b hb' e'
          apply hpa b hb'
          rw [e', ← e]
        rw [(k4 x y).1 hnot]
        exact (g4 x y).2 (by rw [← e]) hdr
      · have hne : (a.1, a.2.1) ≠ (x, y) := hpa _ hmem
        rw [← (g4 x y).1 hne]
        exact (k4 x y).2 hmem hdr

/-- Everything before the gradient and the logo. -/
theorem user_body {σ : Type} {shape : UserShape σ} {Ok : σ → Prop} {s : σ} (hs : Ok s) {o : Opts} {sx sy : Int} (hS : Readable shape Ok o.qrBlockWidth sx sy)
    (hsx : 0 ≤ sx ∧ sx < o.qrBlockWidth) (hsy : 0 ≤ sy ∧ sy < o.qrBlockWidth) (scale : Scaler) (blend : Blend) (put : Put)
    (direction : Rat → Rat × Rat) (hht : o.halftone = none) (hcol : Contrast o) {m : Matrix} (hsq : m.width = m.height)
    (hb : 0 ≤ o.borders.top ∧ 0 ≤ o.borders.right ∧ 0 ≤ o.borders.bottom ∧ 0 ≤ o.borders.left) :
    ∃ bm o' d, draw scale o m = some (bodyOps scale o m bm ++ tailOps o m, o') ∧
      List.foldlM (Desk.op shape blend put direction) ⟨s, ⟨0, 0, fun _ _ => ⟨0, 0, 0, 0⟩⟩⟩ (bodyOps scale o m bm) = some d ∧
      d.cv.w = canvasW o m ∧ d.cv.h = canvasH o m ∧
      ∀ x y, x < m.width → y < m.height →
        ((m.raw x y).bit = true → safeOn o m = true → overlaps o m x y = false ∧ overlaps o m y x = false) →
        (0 ≤ (spot o sx sy x y).1 ∧ (spot o sx sy x y).1 < canvasW o m ∧ 0 ≤ (spot o sx sy x y).2 ∧ (spot o sx sy x y).2 < canvasH o m) ∧
        d.cv.pix (spot o sx sy x y).1 (spot o sx sy x y).2 = over (moduleColor o (m.raw x y)) (over o.backgroundColor.1 ⟨0, 0, 0, 0⟩) := by
  obtain ⟨bm, hbm, hM⟩ := mask_any (o := o) hsq
  obtain ⟨o', _, he⟩ := draw_eq scale o m hbm
  have hbw := (blockWidth_pos o).1
  have hm0 : 0 ≤ (m.width : Int) * o.qrBlockWidth := Int.mul_nonneg (by omega) (by omega)
  have hm1 : 0 ≤ (m.height : Int) * o.qrBlockWidth := Int.mul_nonneg (by omega) (by omega)
  have hcw : 0 ≤ canvasW o m ∧ 0 ≤ canvasH o m := by
    unfold canvasW canvasH
    omega
  obtain ⟨d', f, k1, k2, k3, k4⟩ := user_fold hS scale blend put direction hht bm hb (m.iterate .row)
    ⟨s, Canvas.paintRect ⟨canvasW o m, canvasH o m, fun _ _ => ⟨0, 0, 0, 0⟩⟩ o.backgroundColor.1 0 0 (canvasW o m) (canvasH o m)⟩
    (fun a ha => iterate_val ha) (iterate_distinct m) hs rfl rfl
  refine ⟨bm, o', d', he, ?_, k2, k3, fun x y hx hy hok => ?_⟩
  · unfold bodyOps
    rw [List.foldlM_append]
    have : List.foldlM (Desk.op shape blend put direction) ⟨s, ⟨0, 0, fun _ _ => ⟨0, 0, 0, 0⟩⟩⟩ [DrawOp.newContext (canvasW o m) (canvasH o m),
        DrawOp.fillRect o.backgroundColor.1 0 0 (canvasW o m) (canvasH o m)] =
        some ⟨s, Canvas.paintRect ⟨canvasW o m, canvasH o m, fun _ _ => ⟨0, 0, 0, 0⟩⟩ o.backgroundColor.1 0 0 (canvasW o m) (canvasH o m)⟩ := by
      rw [List.foldlM_cons]
      simp only [Desk.op, Canvas.paintGradient, Canvas.paintImg, Canvas.paint]
      rw [if_neg (by omega)]
      rfl
    rw [this]
    exact f
  · have m1 : ((x : Int) + 1) * o.qrBlockWidth ≤ m.width * o.qrBlockWidth := Int.mul_le_mul_of_nonneg_right (by omega) (by omega)
    have m2 : ((y : Int) + 1) * o.qrBlockWidth ≤ m.height * o.qrBlockWidth := Int.mul_le_mul_of_nonneg_right (by omega) (by omega)
    have m3 : 0 ≤ (x : Int) * o.qrBlockWidth := Int.mul_nonneg (by omega) (by omega)
    have m4 : 0 ≤ (y : Int) * o.qrBlockWidth := Int.mul_nonneg (by omega) (by omega)
    rw [Int.add_mul, Int.one_mul] at m1 m2
    have hr : 0 ≤ (spot o sx sy x y).1 ∧ (spot o sx sy x y).1 < canvasW o m ∧ 0 ≤ (spot o sx sy x y).2 ∧ (spot o sx sy x y).2 < canvasH o m := by
      simp only [spot]
      unfold canvasW canvasH
      omega
    refine ⟨hr, ?_⟩
    have hbg : (Canvas.paintRect ⟨canvasW o m, canvasH o m, fun _ _ => ⟨0, 0, 0, 0⟩⟩ o.backgroundColor.1 0 0 (canvasW o m) (canvasH o m)).pix (spot o sx sy x y).1 (spot o sx sy x y).2 =
        over o.backgroundColor.1 ⟨0, 0, 0, 0⟩ := by
      unfold Canvas.paintRect
      simp only
      rw [if_pos (by omega)]
    have hdrawn : drawnModule o m x y = true := by
      unfold drawnModule
      cases hbit : (m.raw x y).bit with
      | false => simp
      | true =>
        cases hsf : safeOn o m with
        | false => simp
        | true => rw [(hok hbit hsf).1]; rfl
    rcases (k4 x y).2 (iterate_raw hx hy) hdrawn with h | ⟨hn, h⟩
    · rw [h]
      simp only
      rw [hbg]
    · rw [h]
      simp only
      rw [hbg]
      cases hbit : (m.raw x y).bit with
      | false => rw [light_over hcol hbit]
      | true =>
        exfalso
        apply hn
        have h4 : flag (getNeighbours bm x y) 4 := (hM.bits x y 0 0 (by omega) (by omega) (by omega) (by omega)).2 ⟨x, y, by omega, by omega, hx, hy, hbit, by
          cases hsf : safeOn o m with
          | false => rfl
          | true => rw [(hok hbit hsf).2]; rfl⟩
        have := flags_has (mask := getNeighbours bm x y) (bits := NSelf) (fun k hk => by
          have : k = 4 := by
            have e : NSelf.toNat = 2 ^ 4 := by decide
            rw [e, Nat.testBit_two_pow] at hk
            have := of_decide_eq_true hk; omega
          subst this; exact h4)
        unfold has at this
        simpa using this

/-- The picture: every spot shows the colour of its module to the scanner, unless the logo (or the mirror image of a safe zone) may cover it. -/
theorem user_picture {σ : Type} {shape : UserShape σ} {Ok : σ → Prop} {s : σ} (hs : Ok s) {o : Opts} {sx sy : Int} (hS : Readable shape Ok o.qrBlockWidth sx sy)
    (hsx : 0 ≤ sx ∧ sx < o.qrBlockWidth) (hsy : 0 ≤ sy ∧ sy < o.qrBlockWidth) (scale : Scaler) (blend : Blend) {put : Put} (hput : PutsOver put)
    (direction : Rat → Rat × Rat) (hht : o.halftone = none) (hcol : Contrast o) (hg : ∀ g, o.qrGradient = some g → GradientContrast o g) {m : Matrix} (hsq : m.width = m.height)
    (hb : 0 ≤ o.borders.top ∧ 0 ≤ o.borders.right ∧ 0 ≤ o.borders.bottom ∧ 0 ≤ o.borders.left)
    (hl : ∀ img, o.logo = some img → logoValid o m = true → img.minX = 0 ∧ img.minY = 0) :
    ∃ ops o' cv, draw scale o m = some (ops, o') ∧ paintAllUser shape s blend put direction ops = some cv ∧
      ∀ x y, x < m.width → y < m.height → covered o m x y = false → (safeOn o m = true → overlaps o m y x = false) →
        ink o (cv.pix (spot o sx sy x y).1 (spot o sx sy x y).2) = (m.raw x y).bit := by
  obtain ⟨bm, o', d, he, hfold, s1, s2, hpix⟩ := user_body hs hS hsx hsy scale blend put direction hht hcol hsq hb
  have hsafe : ∀ x y, covered o m x y = false → safeOn o m = true → overlaps o m x y = false := by
    intro x y hc hs
    unfold safeOn at hs
    unfold covered at hc
    have hv := (Bool.and_eq_true_iff.1 hs).1
    cases hlo : o.logo with
    | none => unfold logoValid logoSize at hv; rw [hlo] at hv; cases hv
    | some img => rw [hlo, hv] at hc; simpa using hc
  have hgrad : ∃ d', List.foldlM (Desk.op shape blend put direction) ⟨s, ⟨0, 0, fun _ _ => ⟨0, 0, 0, 0⟩⟩⟩ (bodyOps scale o m bm ++ gradOps o) = some d' ∧
      ∀ x y, x < m.width → y < m.height → covered o m x y = false → (safeOn o m = true → overlaps o m y x = false) →
        ink o (d'.cv.pix (spot o sx sy x y).1 (spot o sx sy x y).2) = (m.raw x y).bit := by
    unfold gradOps
    cases hgr : o.qrGradient with
    | none =>
      refine ⟨d, by rw [List.append_nil]; exact hfold, fun x y hx hy hc hself => ?_⟩
      rw [(hpix x y hx hy (fun _ h => ⟨hsafe x y hc h, hself h⟩)).2]
      exact plain_ink hcol _
    | some g =>
      have hgc := hg g hgr
      obtain ⟨cv', hcv'⟩ : ∃ cv', d.cv.applyGradient put direction g o.qrColor = some cv' := by
        unfold Canvas.applyGradient
        rw [if_neg hgc.some_stop]
        exact ⟨_, rfl⟩
      refine ⟨⟨d.st, cv'⟩, ?_, ?_⟩
      · rw [List.foldlM_append, hfold]
        change (List.foldlM (Desk.op shape blend put direction) d [.gradient g o.qrColor]) = some ⟨d.st, cv'⟩
        rw [List.foldlM_cons]
        simp only [Desk.op, Canvas.paintGradient]
        rw [hcv']
        rfl
      · unfold Canvas.applyGradient at hcv'
        rw [if_neg hgc.some_stop] at hcv'
        cases hcv'
        intro x y hx hy hc hself
        obtain ⟨hr, hcc⟩ := hpix x y hx hy (fun _ h => ⟨hsafe x y hc h, hself h⟩)
        simp only
        rw [if_pos (by rw [s1, s2]; exact hr), hcc]
        unfold gradientPixel
        split
        · rename_i c hcc
          exact gradient_ink hcol hgc hput _ _ hcc
        · rename_i hcc
          exfalso
          split at hcc
          · obtain ⟨c, e, _⟩ := gradient_colour hgc.some_stop hgc.positions hgc.solid
              (gradientPos float64Round (direction g.angle).1 (direction g.angle).2 0 d.cv.w 0 d.cv.h (spot o sx sy x y).1 (spot o sx sy x y).2)
            rw [e] at hcc
            cases hcc
          · cases hcc
  obtain ⟨d', hf', hink⟩ := hgrad
  by_cases hlo : ∃ img, o.logo = some img ∧ logoValid o m = true
  · obtain ⟨img, hlogo, hval⟩ := hlo
    obtain ⟨hmx, hmy⟩ := hl img hlogo hval
    have htail : tailOps o m = gradOps o ++
        [.image img (Int.tdiv (canvasW o m - logoW o m) 2) (Int.tdiv (canvasH o m - logoH o m) 2)] := by
      unfold tailOps gradOps
      rw [hlogo]
      cases o.qrGradient <;> simp only [hval, if_true]
    refine ⟨_, o', d'.cv.drawImage blend img (Int.tdiv (canvasW o m - logoW o m) 2) (Int.tdiv (canvasH o m - logoH o m) 2), he, ?_, ?_⟩
    · unfold paintAllUser
      rw [htail, ← List.append_assoc, List.foldlM_append, hf']
      rfl
    · intro x y hx hy hcov' hself
      rw [← hink x y hx hy hcov' hself]
      unfold Canvas.drawImage
      simp only
      rw [if_neg]
      rintro ⟨⟨a1, a2, a3, a4⟩, _⟩
      unfold covered at hcov'
      rw [hlogo, hval] at hcov'
      simp only [Option.isSome_some, Bool.true_and] at hcov'
      have hlw : logoW o m = img.maxX - img.minX := by unfold logoW logoSize; rw [hlogo]
      have hlh : logoH o m = img.maxY - img.minY := by unfold logoH logoSize; rw [hlogo]
      unfold overlaps blockOverlapsLogo at hcov'
      simp only [spot] at a1 a2 a3 a4
      have : (decide ((x : Int) * o.qrBlockWidth + o.borders.left + o.qrBlockWidth > Int.tdiv (canvasW o m - logoW o m) 2) &&
          decide ((x : Int) * o.qrBlockWidth + o.borders.left < Int.tdiv (canvasW o m - logoW o m) 2 + logoW o m) &&
          decide ((y : Int) * o.qrBlockWidth + o.borders.top + o.qrBlockWidth > Int.tdiv (canvasH o m - logoH o m) 2) &&
          decide ((y : Int) * o.qrBlockWidth + o.borders.top < Int.tdiv (canvasH o m - logoH o m) 2 + logoH o m)) = true := by
        simp only [Bool.and_eq_true, decide_eq_true_eq]
        generalize Int.tdiv (canvasW o m - logoW o m) 2 = lx at *
        generalize Int.tdiv (canvasH o m - logoH o m) 2 = ly at *
        refine ⟨⟨⟨?_, ?_⟩, ?_⟩, ?_⟩ <;> omega
      exact absurd this (by simpa using hcov')
  · have htail : tailOps o m = gradOps o := by
      unfold tailOps gradOps
      cases hlogo : o.logo with
      | none => cases o.qrGradient <;> rfl
      | some img =>
        cases o.qrGradient <;> simp only [if_neg (fun h => hlo ⟨img, hlogo, h⟩), List.append_nil]
    refine ⟨_, o', d'.cv, he, ?_, hink⟩
    unfold paintAllUser
    rw [htail, hf']
    rfl

/-- **C85.**  Text, picture with a shape written by the user, text: whatever the shape is, if it always paints one spot of its block and never the same spot of another block (`Readable`), then with
blocks of any width, borders that are not negative, colours that can be told apart, with or without a gradient, no halftone and no logo (or one that is too large to be drawn), drawing succeeds and a
scanner that looks at that spot of every block reads exactly the text. -/
theorem C85_custom {E : Ext} {unsjis : Nat → Option Nat} (hE : E.Ok unsjis) {c : AlignCache} (hc : CacheReachable c)
    {arrival : List Nat} (ha : Arrival arrival) {t : TextType} {text : Bytes} {opts : List EncodeOption} {q : QRCode}
    (h : newWith E c arrival t text opts = .ok q)
    (hx : ¬ (modeIn opts = encAuto ∧ AlnumThenKanji E.sjis (nats text)))
    {σ : Type} {shape : UserShape σ} {Ok : σ → Prop} {s : σ} (hs : Ok s) {o : Opts} {sx sy : Int} (hS : Readable shape Ok o.qrBlockWidth sx sy)
    (hsx : 0 ≤ sx ∧ sx < o.qrBlockWidth) (hsy : 0 ≤ sy ∧ sy < o.qrBlockWidth)
    (scale : Scaler) (blend : Blend) {put : Put} (hput : PutsOver put) (direction : Rat → Rat × Rat) (hht : o.halftone = none)
    (hcol : Contrast o) (hg : ∀ g, o.qrGradient = some g → GradientContrast o g)
    (hb : 0 ≤ o.borders.top ∧ 0 ≤ o.borders.right ∧ 0 ≤ o.borders.bottom ∧ 0 ≤ o.borders.left)
    (hl : ∀ img, o.logo = some img → ¬ (o.logoSizeMultiplier * (img.maxX - img.minX) ≤ (o.attribute q.dimension).w ∧
      o.logoSizeMultiplier * (img.maxY - img.minY) ≤ (o.attribute q.dimension).h)) :
    ∃ ops o' cv, draw scale o q.mat = some (ops, o') ∧ paintAllUser shape s blend put direction ops = some cv ∧
      decode unsjis (seenInk o q.dimension cv fun x y => (o.borders.left + x * o.qrBlockWidth + sx, o.borders.top + y * o.qrBlockWidth + sy)) = some (nats text) := by
  obtain ⟨hmw, hmh⟩ := mat_size hE hc ha h
  have hval : ∀ img, o.logo = some img → logoValid o q.mat = false := by
    intro img hi
    rw [← Bool.not_eq_true]
    intro hv
    exact hl img hi (logoValid_iff hmw hmh hi |>.1 hv)
  have hcovd : ∀ x y, covered o q.mat x y = false := by
    intro x y
    unfold covered
    cases hlo : o.logo with
    | none => rfl
    | some img => rw [hval img hlo]; rfl
  have hsafe : safeOn o q.mat = false := by
    unfold safeOn
    cases hlo : o.logo with
    | none => unfold logoValid logoSize; rw [hlo]; rfl
    | some img => rw [hval img hlo]; rfl
  obtain ⟨ops, o', cv, h1, h2, h3⟩ := user_picture hs hS hsx hsy scale blend hput direction hht hcol hg (m := q.mat) (hmw.trans hmh.symm) hb
    (fun img hi hv => by rw [hval img hi] at hv; cases hv)
  refine ⟨ops, o', cv, h1, h2, ?_⟩
  have : seenInk o q.dimension cv (fun x y => (o.borders.left + x * o.qrBlockWidth + sx, o.borders.top + y * o.qrBlockWidth + sy)) = q.mat.bitmap :=
    scan_eq hmw hmh fun x y hx hy => by
      have := h3 x y (by omega) (by omega) (hcovd x y) (fun hs => by rw [hsafe] at hs; cases hs)
      simp only [spot] at this
      rw [Int.add_comm (o.borders.left), Int.add_comm (o.borders.top)]
      exact this
  rw [this]
  exact C01_roundtrip_partial hE hc ha h hx

/-- **C85, with a logo** as in C69, for a scanner that corrects errors, with or without a safe zone. -/
theorem C85_custom_logo {E : Ext} {unsjis : Nat → Option Nat} (hE : E.Ok unsjis) (hRS : E.rs = rsEncode) {c : AlignCache} (hc : CacheReachable c)
    {arrival : List Nat} (ha : Arrival arrival) {t : TextType} {text : Bytes} {opts : List EncodeOption} {q : QRCode}
    (h : newWith E c arrival t text opts = .ok q)
    (hx : ¬ (modeIn opts = encAuto ∧ AlnumThenKanji E.sjis (nats text)))
    {v : Nat} (hv : q.dimension = 17 + 4 * v)
    (hlv : ¬ (levelIn opts = .L ∧ v ∈ [1, 2, 3, 4, 5, 6, 36] ∨ levelIn opts = .M ∧ v ∈ [2, 4]))
    {σ : Type} {shape : UserShape σ} {Ok : σ → Prop} {s : σ} (hs : Ok s) {o : Opts} {sx sy : Int} (hS : Readable shape Ok o.qrBlockWidth sx sy)
    (hsx : 0 ≤ sx ∧ sx < o.qrBlockWidth) (hsy : 0 ≤ sy ∧ sy < o.qrBlockWidth)
    (scale : Scaler) (blend : Blend) {put : Put} (hput : PutsOver put) (direction : Rat → Rat × Rat) (hht : o.halftone = none)
    (hcol : Contrast o) (hg : ∀ g, o.qrGradient = some g → GradientContrast o g)
    (hbx : 0 ≤ o.borders.left ∧ o.borders.left ≤ 2 * o.qrBlockWidth ∧ o.borders.right = o.borders.left)
    (hby : 0 ≤ o.borders.top ∧ o.borders.top ≤ 2 * o.qrBlockWidth ∧ o.borders.bottom = o.borders.top)
    {img : Image} (hl : o.logo = some img) (hmin : img.minX = 0 ∧ img.minY = 0) (hmax : 0 ≤ img.maxX ∧ 0 ≤ img.maxY)
    (hk : 5 ≤ o.logoSizeMultiplier) :
    ∃ ops o' cv, draw scale o q.mat = some (ops, o') ∧ paintAllUser shape s blend put direction ops = some cv ∧
      decodeDamaged unsjis (seenInk o q.dimension cv fun x y => (o.borders.left + x * o.qrBlockWidth + sx, o.borders.top + y * o.qrBlockWidth + sy)) = some (nats text) := by
  obtain ⟨hmw, hmh⟩ := mat_size hE hc ha h
  have hs' : side v = q.dimension := by rw [hv]; rfl
  obtain ⟨ops, o', cv, h1, h2, h3⟩ := user_picture hs hS hsx hsy scale blend hput direction hht hcol hg (m := q.mat) (hmw.trans hmh.symm) (by omega)
    (fun i hi _ => by rw [hl] at hi; cases hi; exact hmin)
  have hrange : ∀ x y, covered o q.mat x y = true → logoLo v ≤ x ∧ x ≤ logoHi v ∧ logoLo v ≤ y ∧ y ≤ logoHi v := fun x y hcov =>
    covered_range (hmw.trans hs'.symm) (hmh.trans hs'.symm) hl (by omega) (by omega) hk ⟨hbx.1, hby.1⟩ ⟨hbx.2.2, hby.2.2⟩ ⟨hbx.2.1, hby.2.1⟩ hcov
  refine ⟨ops, o', cv, h1, h2, ?_⟩
  refine middle_damage hE hRS hc ha h hx hv hlv (scan_length _ _ _) ?_
  intro i j hi hj hne
  rw [hs'] at hi hj
  by_contra hn
  apply hne
  unfold seenInk
  have e1 : (o.borders.left + (j : Int) * o.qrBlockWidth + sx, o.borders.top + (i : Int) * o.qrBlockWidth + sy) = spot o sx sy j i := by
    simp only [spot]
    rw [Int.add_comm (o.borders.left), Int.add_comm (o.borders.top)]
  rw [pixel_scan hi hj, e1, (bitmap_spec q.mat).2 i j (by omega) (by omega), h3 j i (by omega) (by omega) ?_ ?_]
  · rw [← Bool.not_eq_true]
    intro hcv
    obtain ⟨g1, g2, g3, g4⟩ := hrange _ _ hcv
    exact hn ⟨g3, g4, g1, g2⟩
  · intro hsz
    rw [← Bool.not_eq_true]
    intro ho
    have hcv : covered o q.mat i j = true := by
      unfold safeOn at hsz
      unfold covered
      rw [hl, ho]
      simpa using (Bool.and_eq_true_iff.1 hsz).1
    obtain ⟨g1, g2, g3, g4⟩ := hrange _ _ hcv
    exact hn ⟨g1, g2, g3, g4⟩

/-! ## Shapes that meet the contract -/

/-- The rectangle, as if it were written by the user, can be read at every spot. -/
theorem rectangle_readable {bw sx sy : Int} (hsx : 0 ≤ sx ∧ sx < bw) (hsy : 0 ≤ sy ∧ sy < bw) :
    Readable (fun _ ctx s cv => (s, cv.paintRect ctx.color ctx.x.floor ctx.y.floor ctx.w ctx.h)) (fun _ : Unit => True) bw sx sy := by
  refine ⟨fun _ _ _ _ _ => trivial, fun _ _ _ _ => ⟨rfl, rfl⟩, ?_, ?_⟩
  · intro fin ctx s cv bx by' _ e1 e2 e3 e4 b1 b2 b3 b4
    left
    unfold Canvas.paintRect
    simp only [e1, e2, e3, e4, Rat.floor_intCast]
    rw [if_pos (by omega)]
  · intro fin ctx s cv bx by' i j _ e1 e2 e3 e4 hij b1 b2 b3 b4
    unfold Canvas.paintRect
    simp only [e1, e2, e3, e4, Rat.floor_intCast]
    rw [if_neg]
    have far : ∀ {k c : Int}, k ≠ 0 → 0 ≤ c → c < bw → k * bw + c < 0 ∨ bw ≤ k * bw + c := by
      intro k c hk h1 h2
      rcases Int.lt_or_gt_of_ne hk with hk | hk
      · left; have : k * bw ≤ (-1) * bw := Int.mul_le_mul_of_nonneg_right (by omega) (by omega)
        omega
      · right; have : 1 * bw ≤ k * bw := Int.mul_le_mul_of_nonneg_right (by omega) (by omega)
        omega
    rcases hij with hi | hj
    · have := far hi hsx.1 hsx.2
      omega
    · have := far hj hsy.1 hsy.2
      omega

theorem smaller_full {bw : Int} (h0 : 0 ≤ bw) (h1 : bw ≤ 2 ^ 53) : smallerRadius 1 bw bw = bw / 2 := by
  unfold smallerRadius
  have e : Int.tdiv bw 2 = bw / 2 := Int.tdiv_eq_ediv_of_nonneg h0
  simp only [le_refl, if_true, mul_one, e]
  have hr : float64Round ((bw / 2 : Int) : Rat) = ((bw / 2 : Int) : Rat) := by
    have := round_rep (k := bw / 2) (j := 0) (by omega) (by omega) (by omega)
    simpa using this
  rw [hr, if_pos (by exact_mod_cast (by omega : 0 ≤ bw / 2)), Rat.floor_intCast]

theorem smaller_le {p : Rat} (hp : p ≤ 1) {bw : Int} (h0 : 0 ≤ bw) (h1 : bw ≤ 2 ^ 53) : smallerRadius p bw bw ≤ bw / 2 := by
  rw [← smaller_full h0 h1]
  have e : Int.tdiv bw 2 = bw / 2 := Int.tdiv_eq_ediv_of_nonneg h0
  have hb : (0 : Rat) ≤ ((bw / 2 : Int) : Rat) := by exact_mod_cast (by omega : 0 ≤ bw / 2)
  have hm : float64Round (((bw / 2 : Int) : Rat) * p) ≤ float64Round (((bw / 2 : Int) : Rat) * 1) := round_mono (by nlinarith)
  unfold smallerRadius
  simp only [le_refl, if_true, e]
  generalize float64Round (((bw / 2 : Int) : Rat) * p) = a at *
  generalize float64Round (((bw / 2 : Int) : Rat) * 1) = b at *
  by_cases ha : 0 ≤ a
  · rw [if_pos ha, if_pos (ha.trans hm)]
    exact Rat.floor_monotone hm
  · by_cases hb : 0 ≤ b
    · rw [if_neg ha, if_pos hb]
      have g1 : (0 : Int) ≤ (-a).floor := Rat.le_floor_iff.2 (by push_cast; linarith)
      have g2 : (0 : Int) ≤ b.floor := Rat.le_floor_iff.2 (by push_cast; linarith)
      omega
    · rw [if_neg ha, if_neg hb]
      have := Rat.floor_monotone (show -b ≤ -a by linarith)
      omega

/-- The example shape can be read in the middle of the blocks if its circles have a radius of at least two pixels. -/
theorem smallerCircle_readable {cov : Coverage} (hcov : Rasters cov) {p : Rat} (hp : p ≤ 1) {bw : Int} (hbw : 0 ≤ bw) (hbw2 : bw ≤ 2 ^ 53) (hr : 2 ≤ smallerRadius p bw bw) :
    Readable (smallerCircle cov) (fun s => s = (p, [])) bw (bw / 2) (bw / 2) := by
  have hle := smaller_le hp hbw hbw2
  have hrad : ∀ fin : Bool, 2 ≤ smallerRadius (if fin then 1 else p) bw bw ∧ smallerRadius (if fin then 1 else p) bw bw ≤ bw / 2 := by
    intro fin
    cases fin with
    | true => rw [if_pos rfl, smaller_full hbw hbw2]; omega
    | false => exact ⟨hr, hle⟩
  refine ⟨?_, fun _ _ _ _ => ⟨rfl, rfl⟩, ?_, ?_⟩
  · rintro fin ctx s cv rfl; rfl
  · rintro fin ctx s cv bx by' rfl e1 e2 e3 e4 b1 b2 b3 b4
    left
    obtain ⟨r1, r2⟩ := hrad fin
    unfold smallerCircle Canvas.fillPath
    simp only [e1, e2, e3, e4]
    rw [if_pos (by omega), hcov.inside, cover_full]
    refine ⟨_, List.mem_append_right _ List.mem_cons_self, ?_⟩
    rintro q ⟨q1, q2, q3, q4⟩
    generalize smallerRadius (if fin then 1 else p) bw bw = r at *
    have hr' : (2 : Rat) ≤ r := by exact_mod_cast r1
    have m1 : 2 * ((bw / 2 : Int) : Rat) ≤ bw := by exact_mod_cast (by omega : 2 * (bw / 2) ≤ bw)
    have m2 : (bw : Rat) ≤ 2 * ((bw / 2 : Int) : Rat) + 1 := by exact_mod_cast (by omega : bw ≤ 2 * (bw / 2) + 1)
    push_cast at q1 q2 q3 q4
    refine ⟨by linarith, ?_⟩
    have x1 : -(3 / 4) ≤ q.x - (bx + (bw : Rat) / 2) := by linarith
    have x2 : q.x - (bx + (bw : Rat) / 2) ≤ 5 / 4 := by linarith
    have y1 : -(3 / 4) ≤ q.y - (by' + (bw : Rat) / 2) := by linarith
    have y2 : q.y - (by' + (bw : Rat) / 2) ≤ 5 / 4 := by linarith
    nlinarith
  · rintro fin ctx s cv bx by' i j rfl e1 e2 e3 e4 hij b1 b2 b3 b4
    obtain ⟨r1, r2⟩ := hrad fin
    unfold smallerCircle Canvas.fillPath
    simp only [e1, e2, e3, e4]
    split
    · rw [hcov.outside, cover_none]
      intro f hf q hq hc
      have : f = .disc (bx + (bw : Rat) / 2) (by' + (bw : Rat) / 2) (smallerRadius (if fin then 1 else p) bw bw) := by simpa using hf
      subst this
      obtain ⟨q1, q2, q3, q4⟩ := hq
      obtain ⟨_, hd⟩ := hc
      generalize smallerRadius (if fin then 1 else p) bw bw = r at *
      have h2 : 2 * (r : Rat) ≤ bw := by exact_mod_cast (by omega : 2 * r ≤ bw)
      have h4 : (4 : Rat) ≤ bw := by exact_mod_cast (by omega : 4 ≤ bw)
      have hr' : (2 : Rat) ≤ r := by exact_mod_cast r1
      have m1 : 2 * ((bw / 2 : Int) : Rat) ≤ bw := by exact_mod_cast (by omega : 2 * (bw / 2) ≤ bw)
      have m2 : (bw : Rat) ≤ 2 * ((bw / 2 : Int) : Rat) + 1 := by exact_mod_cast (by omega : bw ≤ 2 * (bw / 2) + 1)
      push_cast at q1 q2 q3 q4
      have far : ∀ {k : Int} {u : Rat}, k ≠ 0 → (k : Rat) * bw - 3 / 4 ≤ u → u ≤ k * bw + 5 / 4 → (r : Rat) * r ≤ u * u := by
        intro k u hk u1 u2
        rcases Int.lt_or_gt_of_ne hk with hk | hk
        · have : (k : Rat) ≤ -1 := by exact_mod_cast (by omega : k ≤ -1)
          have : (k : Rat) * bw ≤ (-1) * bw := by nlinarith
          nlinarith
        · have : (1 : Rat) ≤ k := by exact_mod_cast (by omega : 1 ≤ k)
          have : 1 * (bw : Rat) ≤ k * bw := by nlinarith
          nlinarith
      rcases hij with hi | hj
      · have := far hi (u := q.x - (bx + (bw : Rat) / 2)) (by linarith) (by linarith)
        nlinarith [mul_self_nonneg (q.y - (by' + (bw : Rat) / 2))]
      · have := far hj (u := q.y - (by' + (bw : Rat) / 2)) (by linarith) (by linarith)
        nlinarith [mul_self_nonneg (q.x - (bx + (bw : Rat) / 2))]
    · rfl

theorem smaller_seven : smallerRadius (float64Round (7 / 10)) 20 20 = 7 := by decide +kernel

/-- **C85 for example/with-custom-shape/main.go** (there with the text "with-custom-shape"): circles of 70 percent and otherwise the default options.  Whatever the text and the options of `New`, if `New` succeeds then
the picture is drawn and the middle pixels of its blocks give the text. -/
theorem C85_example {E : Ext} {unsjis : Nat → Option Nat} (hE : E.Ok unsjis) {c : AlignCache} (hc : CacheReachable c)
    {arrival : List Nat} (ha : Arrival arrival) {t : TextType} {text : Bytes} {opts : List EncodeOption} {q : QRCode}
    (h : newWith E c arrival t text opts = .ok q)
    (hx : ¬ (modeIn opts = encAuto ∧ AlnumThenKanji E.sjis (nats text)))
    (scale : Scaler) {cov : Coverage} (hcov : Rasters cov) (blend : Blend) {put : Put} (hput : PutsOver put) (direction : Rat → Rat × Rat) (k : Nat) :
    ∃ ops o' cv, draw scale { defaultOpts with shape := some (.custom k) } q.mat = some (ops, o') ∧
      paintAllUser (smallerCircle cov) (float64Round (7 / 10), []) blend put direction ops = some cv ∧
      decode unsjis (seenInk { defaultOpts with shape := some (.custom k) } q.dimension cv fun x y => (40 + x * 20 + 10, 40 + y * 20 + 10)) = some (nats text) := by
  have d1 : defaultOpts.qrBlockWidth = 20 := by decide
  have d2 : (0 : Int) ≤ defaultOpts.borders.top ∧ 0 ≤ defaultOpts.borders.right ∧ 0 ≤ defaultOpts.borders.bottom ∧ 0 ≤ defaultOpts.borders.left := by decide
  have d3 : defaultOpts.borders.left = 40 ∧ defaultOpts.borders.top = 40 := by decide
  have d4 : Contrast defaultOpts := ⟨by decide, by decide⟩
  have d5 : float64Round (7 / 10) ≤ 1 := by decide +kernel
  have hS := smallerCircle_readable hcov d5 (bw := 20) (by omega) (by omega) (by rw [smaller_seven]; omega)
  have := C85_custom hE hc ha h hx (shape := smallerCircle cov) (Ok := fun s => s = (float64Round (7 / 10), [])) (s := (float64Round (7 / 10), [])) rfl
    (o := { defaultOpts with shape := some (.custom k) }) (sx := 10) (sy := 10) (by
      have e : ({ defaultOpts with shape := some (.custom k) } : Opts).qrBlockWidth = 20 := d1
      rw [e]; exact hS) (by
      have e : ({ defaultOpts with shape := some (.custom k) } : Opts).qrBlockWidth = 20 := d1
      rw [e]; omega) (by
      have e : ({ defaultOpts with shape := some (.custom k) } : Opts).qrBlockWidth = 20 := d1
      rw [e]; omega) scale blend hput direction rfl ⟨d4.fg, d4.bg⟩ (fun g hg => by cases hg) d2 (fun img hi => by cases hi)
  obtain ⟨ops, o', cv, h1, h2, h3⟩ := this
  refine ⟨ops, o', cv, h1, h2, ?_⟩
  have e : ({ defaultOpts with shape := some (.custom k) } : Opts).qrBlockWidth = 20 := d1
  have e1 : ({ defaultOpts with shape := some (.custom k) } : Opts).borders.left = 40 := d3.1
  have e2 : ({ defaultOpts with shape := some (.custom k) } : Opts).borders.top = 40 := d3.2
  rw [e, e1, e2] at h3
  exact h3

/-- The hypotheses of C85 are met: the symbol `HELLO` of version 7 with the shape of the example, a gradient from red to blue, and a logo of 196 by 150 pixels with a safe zone. -/
example {c : AlignCache} (hc : CacheReachable c) {arrival : List Nat} (ha : Arrival arrival) (scale : Scaler) (blend : Blend) (direction : Rat → Rat × Rat)
    (chan : Int → Int → UInt32 × UInt32 × UInt32 × UInt32) :
    let put : Put := fun c old => if c.a = 0 then old else c
    let o : Opts := { defaultOpts with logo := some ⟨0, 0, 196, 150, chan⟩, logoSafeZone := true, shape := some (.custom 0), qrGradient := some demoGradient }
    ∃ q ops o' cv, newWith demoExt c arrival .string [72, 69, 76, 76, 79] [.withEncodingMode encAlphanumeric, .withMinimumVersion 7] = .ok q ∧
      draw scale o q.mat = some (ops, o') ∧ paintAllUser (smallerCircle demoCoverage) (float64Round (7 / 10), []) blend put direction ops = some cv ∧
      decodeDamaged demoUnsjis (seenInk o q.dimension cv fun x y => (o.borders.left + x * 20 + 10, o.borders.top + y * 20 + 10)) = some [72, 69, 76, 76, 79] := by
  intro put o
  obtain ⟨q, hq, hd⟩ := demo_symbol hc ha
  have d2 : 0 ≤ defaultOpts.borders.left ∧ defaultOpts.borders.left ≤ 2 * defaultOpts.qrBlockWidth ∧ defaultOpts.borders.right = defaultOpts.borders.left := by decide
  have d3 : 0 ≤ defaultOpts.borders.top ∧ defaultOpts.borders.top ≤ 2 * defaultOpts.qrBlockWidth ∧ defaultOpts.borders.bottom = defaultOpts.borders.top := by decide
  have d4 : (5 : Int) ≤ defaultOpts.logoSizeMultiplier := by decide
  have d5 : float64Round (7 / 10) ≤ 1 := by decide +kernel
  have d6 : o.qrBlockWidth = 20 := (by decide : defaultOpts.qrBlockWidth = 20)
  have hS : Readable (smallerCircle demoCoverage) (fun s => s = (float64Round (7 / 10), [])) o.qrBlockWidth 10 10 := by
    rw [d6]
    exact smallerCircle_readable demo_rasters d5 (bw := 20) (by omega) (by omega) (by rw [smaller_seven]; omega)
  obtain ⟨k1, k2, _⟩ := demo_contrast
  have hput : PutsOver put := ⟨fun c old h => by simp only [put]; rw [if_neg (by rw [h]; decide)], fun c old h h0 => by simp only [put]; rw [if_pos h]; exact h0⟩
  obtain ⟨ops, o', cv, h1, h2, h3⟩ := C85_custom_logo demo_ok rfl hc ha hq (fun h => absurd h.1 (by decide)) hd (by decide) (Ok := fun s => s = (float64Round (7 / 10), [])) (s := (float64Round (7 / 10), [])) rfl (o := o) (sx := 10) (sy := 10) hS
    (by rw [d6]; omega) (by rw [d6]; omega) scale blend hput direction rfl ⟨k1.fg, k1.bg⟩
    (fun g hg => by cases hg; exact ⟨k2.some_stop, k2.positions, k2.solid, k2.bg⟩) d2 d3 rfl ⟨rfl, rfl⟩ ⟨by simp, by simp⟩ d4
  rw [d6] at h3
  exact ⟨q, ops, o', cv, hq, h1, h2, h3⟩

end QR.Standard
