import Verif.Model.CanvasImage
import Verif.Props.Standard
import Verif.Spec.Scan
/-!
# Pictures with a logo, looked at through the pixels outside it
-/
namespace QR.Standard
open QR Matrix Spec

/-- The modules whose blocks the logo may cover: none if it is too large (then it is not drawn). -/
def covered (o : Opts) (m : Matrix) (x y : Nat) : Bool := o.logo.isSome && logoValid o m && overlaps o m x y

theorem foldlM_paintImg (blend : Blend) : ∀ (ops : List DrawOp) (cv : Canvas), (∀ op ∈ ops, ∀ img x y, op ≠ .image img x y) →
    ops.foldlM (Canvas.paintImg blend) cv = ops.foldlM Canvas.paint cv := by
  intro ops
  induction ops with
  | nil => intro cv _; rfl
  | cons op ops ih =>
    intro cv h
    have h1 : Canvas.paintImg blend cv op = cv.paint op := by
      cases op with
      | image img x y => exact absurd rfl (h (.image img x y) (by simp) img x y)
      | _ => rfl
    rw [List.foldlM_cons, List.foldlM_cons, h1]
    cases cv.paint op with
    | none => rfl
    | some cv' => exact ih cv' (fun op ho => h op (by simp [ho]))

/-- The options of a picture of rectangles: no halftone, no gradient; a logo is allowed. -/
structure Rects (o : Opts) : Prop where
  shape : o.shape = none ∨ o.shape = some .rectangle
  halftone : o.halftone = none
  gradient : o.qrGradient = none

theorem flatMap_filter {α β : Type} (f : α → List β) (keep : α → Bool) (l : List α) :
    (l.flatMap fun a => if keep a then f a else []) = (l.filter keep).flatMap f := by
  induction l with
  | nil => rfl
  | cons a l ih =>
    rw [List.flatMap_cons, ih, List.filter_cons]
    cases keep a <;> simp

/-- The calls `draw` makes before the gradient and the logo. -/
def bodyOps (scale : Scaler) (o : Opts) (m : Matrix) (bm : List (List Bool)) : List DrawOp :=
  [DrawOp.newContext (canvasW o m) (canvasH o m), DrawOp.fillRect o.backgroundColor.1 0 0 (canvasW o m) (canvasH o m)] ++
    (m.iterate .row).flatMap (fun a =>
      moduleOps scale (canvasW o m) (canvasH o m) m.width bm (safeOn o m) (logoW o m) (logoH o m) o a.1 a.2.1 a.2.2)

/-- Everything before the gradient and the logo, for rectangles without halftone. -/
theorem rects_body (scale : Scaler) {o : Opts} (hsh : o.shape = none ∨ o.shape = some .rectangle) (hht : o.halftone = none) {m : Matrix}
    (hsq : m.width = m.height) (hb : 0 ≤ o.borders.top ∧ 0 ≤ o.borders.right ∧ 0 ≤ o.borders.bottom ∧ 0 ≤ o.borders.left) (hpos : 0 < m.width) :
    ∃ bm o' cv, draw scale o m = some (bodyOps scale o m bm ++ tailOps o m, o') ∧
      List.foldlM Canvas.paint ⟨0, 0, fun _ _ => ⟨0, 0, 0, 0⟩⟩ (bodyOps scale o m bm) = some cv ∧
      (∀ op ∈ bodyOps scale o m bm, (∀ img x y, op ≠ .image img x y) ∧ ∀ g c, op ≠ .gradient g c) ∧
      cv.w = canvasW o m ∧ cv.h = canvasH o m ∧
      ∀ x y px py, x < m.width → y < m.height → InBlock o x y px py → covered o m x y = false →
        (0 ≤ px ∧ px < canvasW o m ∧ 0 ≤ py ∧ py < canvasH o m) ∧
        cv.pix px py = over (moduleColor o (m.raw x y)) (over o.backgroundColor.1 ⟨0, 0, 0, 0⟩) := by
  have hshape : o.getShape = .rectangle := by
    unfold Opts.getShape
    rcases hsh with h | h <;> rw [h] <;> rfl
  obtain ⟨bm, hbm⟩ := maskBitmap_some (o := o) (m := m) (Or.inl hsq)
  obtain ⟨o', _, he⟩ := draw_eq scale o m hbm
  have hbw := (blockWidth_pos o).1
  have hops : (m.iterate .row).flatMap (fun a => moduleOps scale (canvasW o m) (canvasH o m) m.width bm (safeOn o m) (logoW o m)
          (logoH o m) o a.1 a.2.1 a.2.2) =
      ((m.iterate .row).filter fun a => !(safeOn o m && overlaps o m a.1 a.2.1 && a.2.2.qrbool)).flatMap fun a =>
        [DrawOp.shape (decide (a.2.2.ty = .finder)) o.getShape (moduleCtx o bm a.1 a.2.1 a.2.2)] := by
    rw [← flatMap_filter]
    congr 1
    funext a
    unfold moduleOps overlaps
    rw [hht]
    cases safeOn o m && blockOverlapsLogo a.1 a.2.1 o.qrBlockWidth o.borders.left o.borders.top (canvasW o m) (canvasH o m) (logoW o m) (logoH o m) && a.2.2.qrbool <;> rfl
  generalize hkeep : (fun a : Nat × Nat × QRValue => !(safeOn o m && overlaps o m a.1 a.2.1 && a.2.2.qrbool)) = keep at hops
  have hdist : ((m.iterate .row).filter keep).Pairwise (fun a b => (a.1, a.2.1) ≠ (b.1, b.2.1)) := (iterate_distinct m).filter _
  have hmul : 0 < (m.width : Int) * o.qrBlockWidth := Int.mul_pos (by omega) hbw
  have hcw : 0 < canvasW o m ∧ 0 < canvasH o m := by
    unfold canvasW canvasH
    rw [← hsq]
    omega
  have hbgpix : ∀ px py, 0 ≤ px → px < canvasW o m → 0 ≤ py → py < canvasH o m → (Canvas.paintRect ⟨canvasW o m, canvasH o m, fun _ _ => ⟨0, 0, 0, 0⟩⟩ o.backgroundColor.1 0 0 (canvasW o m)
      (canvasH o m)).pix px py = over o.backgroundColor.1 ⟨0, 0, 0, 0⟩ := by
    intro px py _ _ _ _
    unfold Canvas.paintRect
    simp only
    rw [if_pos ⟨by omega, by omega⟩]
  obtain ⟨cv, e, s1, s2, _⟩ := paint_blocks (o := o) bm hshape (px := 0) (py := 0) ((m.iterate .row).filter keep)
    (Canvas.paintRect ⟨canvasW o m, canvasH o m, fun _ _ => ⟨0, 0, 0, 0⟩⟩ o.backgroundColor.1 0 0 (canvasW o m) (canvasH o m))
    (Int.le_refl 0) hcw.1 (Int.le_refl 0) hcw.2 hdist
  have hpix : ∀ x y px py, x < m.width → y < m.height → InBlock o x y px py → covered o m x y = false →
      (0 ≤ px ∧ px < canvasW o m ∧ 0 ≤ py ∧ py < canvasH o m) ∧
      cv.pix px py = over (moduleColor o (m.raw x y)) (over o.backgroundColor.1 ⟨0, 0, 0, 0⟩) := by
    intro x y px py hx hy hin hcov
    have hin' := hin
    obtain ⟨b1, b2, b3, b4⟩ := hin'
    have m1 : ((x : Int) + 1) * o.qrBlockWidth ≤ m.width * o.qrBlockWidth := Int.mul_le_mul_of_nonneg_right (by omega) (by omega)
    have m2 : ((y : Int) + 1) * o.qrBlockWidth ≤ m.height * o.qrBlockWidth := Int.mul_le_mul_of_nonneg_right (by omega) (by omega)
    have m3 : 0 ≤ (x : Int) * o.qrBlockWidth := Int.mul_nonneg (by omega) (by omega)
    have m4 : 0 ≤ (y : Int) * o.qrBlockWidth := Int.mul_nonneg (by omega) (by omega)
    have hr : 0 ≤ px ∧ px < canvasW o m ∧ 0 ≤ py ∧ py < canvasH o m := by
      unfold canvasW canvasH
      omega
    refine ⟨hr, ?_⟩
    obtain ⟨cv', e', _, _, g1, _⟩ := paint_blocks (o := o) bm hshape (px := px) (py := py) ((m.iterate .row).filter keep)
      (Canvas.paintRect ⟨canvasW o m, canvasH o m, fun _ _ => ⟨0, 0, 0, 0⟩⟩ o.backgroundColor.1 0 0 (canvasW o m) (canvasH o m))
      hr.1 hr.2.1 hr.2.2.1 hr.2.2.2 hdist
    rw [e] at e'
    cases e'
    obtain ⟨v, hv⟩ := mem_iterate.2 ⟨hx, hy⟩
    have hval : v = m.raw x y := by
      unfold iterate at hv
      obtain ⟨p, _, hp⟩ := List.mem_map.1 hv
      simp only [Prod.mk.injEq] at hp
      rw [← hp.2.2, hp.1, hp.2.1]
    have hk : keep (x, y, v) = true := by
      subst hkeep
      simp only [Bool.not_eq_true', Bool.and_eq_false_iff]
      unfold covered at hcov
      simp only [Bool.and_eq_false_iff] at hcov
      unfold safeOn
      rcases hcov with (h | h) | h
      · left; left
        unfold logoValid logoSize
        cases hlo : o.logo with
        | none => rfl
        | some img => rw [hlo] at h; cases h
      · left; left; rw [h]; rfl
      · left; right; exact h
    rw [g1 (x, y, v) (List.mem_filter.2 ⟨hv, hk⟩) hin, hbgpix px py hr.1 hr.2.1 hr.2.2.1 hr.2.2.2, hval]
  refine ⟨bm, o', cv, he, ?_, ?_, s1, s2, hpix⟩
  · unfold bodyOps
    rw [hops, List.foldlM_append]
    have : List.foldlM Canvas.paint ⟨0, 0, fun _ _ => ⟨0, 0, 0, 0⟩⟩ [DrawOp.newContext (canvasW o m) (canvasH o m),
        DrawOp.fillRect o.backgroundColor.1 0 0 (canvasW o m) (canvasH o m)] = some (Canvas.paintRect ⟨canvasW o m, canvasH o m,
        fun _ _ => ⟨0, 0, 0, 0⟩⟩ o.backgroundColor.1 0 0 (canvasW o m) (canvasH o m)) := by
      rw [List.foldlM_cons, Canvas.paint, if_neg (by omega)]
      rfl
    rw [this]
    exact e
  · intro op hop
    unfold bodyOps at hop
    rw [hops] at hop
    rcases List.mem_append.1 hop with h | h
    · rcases List.mem_cons.1 h with rfl | h
      · exact ⟨(fun _ _ _ h => by cases h), (fun _ _ h => by cases h)⟩
      · rw [List.mem_singleton] at h
        subst h
        exact ⟨(fun _ _ _ h => by cases h), (fun _ _ h => by cases h)⟩
    · obtain ⟨a, _, ha⟩ := List.mem_flatMap.1 h
      rw [List.mem_singleton] at ha
      subst ha
      exact ⟨(fun _ _ _ h => by cases h), (fun _ _ h => by cases h)⟩

theorem rects_picture_logo (scale : Scaler) (blend : Blend) {o : Opts} (hp : Rects o) {m : Matrix} (hsq : m.width = m.height)
    (hb : 0 ≤ o.borders.top ∧ 0 ≤ o.borders.right ∧ 0 ≤ o.borders.bottom ∧ 0 ≤ o.borders.left) (hpos : 0 < m.width)
    (hl : ∀ img, o.logo = some img → logoValid o m = true → img.minX = 0 ∧ img.minY = 0) :
    ∃ ops o' cv, draw scale o m = some (ops, o') ∧ paintAllImg blend ops = some cv ∧
      (∀ x y px py, x < m.width → y < m.height → InBlock o x y px py → covered o m x y = false →
        cv.pix px py = over (moduleColor o (m.raw x y)) (over o.backgroundColor.1 ⟨0, 0, 0, 0⟩)) ∧
      ∀ img, o.logo = some img → logoValid o m = true → ∀ px py, 0 ≤ px → px < img.maxX → 0 ≤ py → py < img.maxY →
        0 ≤ px + Int.tdiv (canvasW o m - logoW o m) 2 → px + Int.tdiv (canvasW o m - logoW o m) 2 < canvasW o m →
        0 ≤ py + Int.tdiv (canvasH o m - logoH o m) 2 → py + Int.tdiv (canvasH o m - logoH o m) 2 < canvasH o m →
        ∃ old, cv.pix (px + Int.tdiv (canvasW o m - logoW o m) 2) (py + Int.tdiv (canvasH o m - logoH o m) 2) = blend img px py old := by
  obtain ⟨bm, o', cv, he, hfold, hno, s1, s2, hpix⟩ := rects_body scale hp.shape hp.halftone hsq hb hpos
  have hbase : List.foldlM (Canvas.paintImg blend) ⟨0, 0, fun _ _ => ⟨0, 0, 0, 0⟩⟩ (bodyOps scale o m bm) = some cv := by
    rw [foldlM_paintImg _ _ _ fun op h => (hno op h).1]
    exact hfold
  by_cases hlo : ∃ img, o.logo = some img ∧ logoValid o m = true
  · obtain ⟨img, hlogo, hval⟩ := hlo
    obtain ⟨hmx, hmy⟩ := hl img hlogo hval
    have htail : tailOps o m = [.image img (Int.tdiv (canvasW o m - logoW o m) 2) (Int.tdiv (canvasH o m - logoH o m) 2)] := by
      unfold tailOps
      rw [hp.gradient, hlogo]
      simp only [hval, if_true, List.nil_append]
    refine ⟨_, o', cv.drawImage blend img (Int.tdiv (canvasW o m - logoW o m) 2) (Int.tdiv (canvasH o m - logoH o m) 2), he, ?_, ?_, ?_⟩
    · unfold paintAllImg
      rw [List.foldlM_append, hbase, htail]
      rfl
    · intro x y px py hx hy hin hcov
      obtain ⟨hr, hc⟩ := hpix x y px py hx hy hin hcov
      rw [← hc]
      unfold Canvas.drawImage
      simp only
      rw [if_neg]
      rintro ⟨⟨a1, a2, a3, a4⟩, _⟩
      unfold covered at hcov
      rw [hlogo, hval] at hcov
      simp only [Option.isSome_some, Bool.true_and] at hcov
      have hlw : logoW o m = img.maxX - img.minX := by unfold logoW logoSize; rw [hlogo]
      have hlh : logoH o m = img.maxY - img.minY := by unfold logoH logoSize; rw [hlogo]
      unfold overlaps blockOverlapsLogo at hcov
      obtain ⟨b1, b2, b3, b4⟩ := hin
      rw [Int.add_mul, Int.one_mul] at b2 b4
      have : (decide ((x : Int) * o.qrBlockWidth + o.borders.left + o.qrBlockWidth > Int.tdiv (canvasW o m - logoW o m) 2) &&
          decide ((x : Int) * o.qrBlockWidth + o.borders.left < Int.tdiv (canvasW o m - logoW o m) 2 + logoW o m) &&
          decide ((y : Int) * o.qrBlockWidth + o.borders.top + o.qrBlockWidth > Int.tdiv (canvasH o m - logoH o m) 2) &&
          decide ((y : Int) * o.qrBlockWidth + o.borders.top < Int.tdiv (canvasH o m - logoH o m) 2 + logoH o m)) = true := by
        simp only [Bool.and_eq_true, decide_eq_true_eq]
        generalize Int.tdiv (canvasW o m - logoW o m) 2 = lx at *
        generalize Int.tdiv (canvasH o m - logoH o m) 2 = ly at *
        refine ⟨⟨⟨?_, ?_⟩, ?_⟩, ?_⟩ <;> omega
      exact absurd this (by simpa using hcov)
    · intro img' hi _ px py h1 h2 h3 h4 h5 h6 h7 h8
      rw [hlogo] at hi
      cases hi
      generalize Int.tdiv (canvasW o m - logoW o m) 2 = lx at *
      generalize Int.tdiv (canvasH o m - logoH o m) 2 = ly at *
      refine ⟨cv.pix (px + lx) (py + ly), ?_⟩
      unfold Canvas.drawImage
      simp only
      have w1 : cv.w = canvasW o m := s1
      have w2 : cv.h = canvasH o m := s2
      rw [if_pos ⟨⟨by omega, by omega, by omega, by omega⟩, by omega, by omega, by omega, by omega⟩, show px + lx - lx = px by omega,
        show py + ly - ly = py by omega]
  · have htail : tailOps o m = [] := by
      unfold tailOps
      rw [hp.gradient]
      cases hlogo : o.logo with
      | none => rfl
      | some img =>
        simp only [List.nil_append]
        rw [if_neg (fun h => hlo ⟨img, hlogo, h⟩)]
    refine ⟨_, o', cv, he, ?_, fun x y px py hx hy hin hcov => (hpix x y px py hx hy hin hcov).2, fun img hi hv => absurd ⟨img, hi, hv⟩ hlo⟩
    unfold paintAllImg
    rw [htail, List.append_nil]
    exact hbase

theorem rects_picture (scale : Scaler) (blend : Blend) {o : Opts} (hp : Rects o) {m : Matrix} (hsq : m.width = m.height)
    (hb : 0 ≤ o.borders.top ∧ 0 ≤ o.borders.right ∧ 0 ≤ o.borders.bottom ∧ 0 ≤ o.borders.left) (hpos : 0 < m.width)
    (hl : ∀ img, o.logo = some img → logoValid o m = true → img.minX = 0 ∧ img.minY = 0) :
    ∃ ops o' cv, draw scale o m = some (ops, o') ∧ paintAllImg blend ops = some cv ∧
      ∀ x y px py, x < m.width → y < m.height → InBlock o x y px py → covered o m x y = false →
        cv.pix px py = over (moduleColor o (m.raw x y)) (over o.backgroundColor.1 ⟨0, 0, 0, 0⟩) := by
  obtain ⟨ops, o', cv, h1, h2, h3, _⟩ := rects_picture_logo scale blend hp hsq hb hpos hl
  exact ⟨ops, o', cv, h1, h2, h3⟩

end QR.Standard
