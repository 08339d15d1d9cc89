import Verif.Proof.PhotoDamage
import Verif.Props.TurnDamage
import Verif.Props.Photo
import Verif.Props.Examples
/-!
# C110: a reader that is told nothing reads pictures with a logo

`Spec/PhotoDamage.lean` has the reader `decodePhotoDamaged`: it gets the pixels of a picture, dark or not, finds the symbol, its direction, the size of a module and the version on
its own, and corrects errors.
-/
namespace QR.Standard
open QR _root_.Spec

/-- The border of the picture, unless the logo reaches into it. -/
theorem rects_border (scale : Scaler) (blend : Blend) {o : Opts} (hp : Rects o) {m : Matrix} (hsq : m.width = m.height) {px py : Int}
    (hin : 0 ≤ px ∧ px < canvasW o m ∧ 0 ≤ py ∧ py < canvasH o m) :
    ∃ ops o' cv, draw scale o m = some (ops, o') ∧ paintAllImg blend ops = some cv ∧ cv.w = canvasW o m ∧ cv.h = canvasH o m ∧
      ((∀ x y, x < m.width → y < m.height → ¬ InBlock o x y px py) →
        (∀ img, o.logo = some img → logoValid o m = true → img.minX = 0 ∧ img.minY = 0 ∧
          ¬ (Int.tdiv (canvasW o m - logoW o m) 2 ≤ px ∧ px < Int.tdiv (canvasW o m - logoW o m) 2 + logoW o m ∧
            Int.tdiv (canvasH o m - logoH o m) 2 ≤ py ∧ py < Int.tdiv (canvasH o m - logoH o m) 2 + logoH o m)) →
        cv.pix px py = over o.backgroundColor.1 ⟨0, 0, 0, 0⟩) := by
  have hshape : o.getShape = .rectangle := by
    unfold Opts.getShape
    rcases hp.shape with h | h <;> rw [h] <;> rfl
  obtain ⟨bm, hbm⟩ := maskBitmap_some (o := o) (m := m) (Or.inl hsq)
  obtain ⟨o', _, he0⟩ := draw_eq scale o m hbm
  have he : draw scale o m = some (bodyOps scale o m bm ++ tailOps o m, o') := he0
  have hops : (m.iterate .row).flatMap (fun a => moduleOps scale (canvasW o m) (canvasH o m) m.width bm (safeOn o m) (logoW o m)
          (logoH o m) o a.1 a.2.1 a.2.2) =
      ((m.iterate .row).filter fun a => !(safeOn o m && overlaps o m a.1 a.2.1 && a.2.2.qrbool)).flatMap fun a =>
        [DrawOp.shape (decide (a.2.2.ty = .finder)) o.getShape (moduleCtx o bm a.1 a.2.1 a.2.2)] := by
    rw [← flatMap_filter]
    congr 1
    funext a
    unfold moduleOps overlaps
    rw [hp.halftone]
    cases safeOn o m && blockOverlapsLogo a.1 a.2.1 o.qrBlockWidth o.borders.left o.borders.top (canvasW o m) (canvasH o m) (logoW o m) (logoH o m) && a.2.2.qrbool <;> rfl
  generalize hkeep : (fun a : Nat × Nat × QRValue => !(safeOn o m && overlaps o m a.1 a.2.1 && a.2.2.qrbool)) = keep at hops
  have hdist : ((m.iterate .row).filter keep).Pairwise (fun a b => (a.1, a.2.1) ≠ (b.1, b.2.1)) := (iterate_distinct m).filter _
  obtain ⟨cv, e, s1, s2, _, g2⟩ := paint_blocks (o := o) bm hshape (px := px) (py := py) ((m.iterate .row).filter keep)
    (Canvas.paintRect ⟨canvasW o m, canvasH o m, fun _ _ => ⟨0, 0, 0, 0⟩⟩ o.backgroundColor.1 0 0 (canvasW o m) (canvasH o m))
    hin.1 hin.2.1 hin.2.2.1 hin.2.2.2 hdist
  have hfold : List.foldlM Canvas.paint ⟨0, 0, fun _ _ => ⟨0, 0, 0, 0⟩⟩ (bodyOps scale o m bm) = some cv := by
    unfold bodyOps
    rw [hops, List.foldlM_append]
    have : List.foldlM Canvas.paint ⟨0, 0, fun _ _ => ⟨0, 0, 0, 0⟩⟩ [DrawOp.newContext (canvasW o m) (canvasH o m),
        DrawOp.fillRect o.backgroundColor.1 0 0 (canvasW o m) (canvasH o m)] = some (Canvas.paintRect ⟨canvasW o m, canvasH o m,
        fun _ _ => ⟨0, 0, 0, 0⟩⟩ o.backgroundColor.1 0 0 (canvasW o m) (canvasH o m)) := by
      rw [List.foldlM_cons, Canvas.paint, if_neg (by omega)]
      rfl
    rw [this]
    exact e
  have hnoimg : ∀ op ∈ bodyOps scale o m bm, ∀ img x y, op ≠ .image img x y := by
    intro op hop
    unfold bodyOps at hop
    rw [hops] at hop
    rcases List.mem_append.1 hop with h | h
    · rcases List.mem_cons.1 h with rfl | h
      · exact fun _ _ _ h => by cases h
      · rw [List.mem_singleton] at h
        subst h
        exact fun _ _ _ h => by cases h
    · obtain ⟨a, _, ha⟩ := List.mem_flatMap.1 h
      rw [List.mem_singleton] at ha
      subst ha
      exact fun _ _ _ h => by cases h
  have hbase : List.foldlM (Canvas.paintImg blend) ⟨0, 0, fun _ _ => ⟨0, 0, 0, 0⟩⟩ (bodyOps scale o m bm) = some cv := by
    rw [foldlM_paintImg _ _ _ hnoimg]
    exact hfold
  have hcv : (∀ x y, x < m.width → y < m.height → ¬ InBlock o x y px py) → cv.pix px py = over o.backgroundColor.1 ⟨0, 0, 0, 0⟩ := by
    intro hno
    rw [g2 fun a ha => hno _ _ (mem_iterate.1 ⟨a.2.2, (List.mem_filter.1 ha).1⟩).1 (mem_iterate.1 ⟨a.2.2, (List.mem_filter.1 ha).1⟩).2]
    unfold Canvas.paintRect
    simp only
    rw [if_pos ⟨by omega, by omega⟩]
  by_cases hlo : ∃ img, o.logo = some img ∧ logoValid o m = true
  · obtain ⟨img, hlogo, hval⟩ := hlo
    have htail : tailOps o m = [.image img (Int.tdiv (canvasW o m - logoW o m) 2) (Int.tdiv (canvasH o m - logoH o m) 2)] := by
      unfold tailOps
      rw [hp.gradient, hlogo]
      simp only [hval, if_true, List.nil_append]
    refine ⟨_, o', cv.drawImage blend img (Int.tdiv (canvasW o m - logoW o m) 2) (Int.tdiv (canvasH o m - logoH o m) 2), he, ?_, s1, s2, fun hno hl => ?_⟩
    · unfold paintAllImg
      rw [List.foldlM_append, hbase, htail]
      rfl
    · obtain ⟨hmx, hmy, hout⟩ := hl img hlogo hval
      have hlw : logoW o m = img.maxX - img.minX := by unfold logoW logoSize; rw [hlogo]
      have hlh : logoH o m = img.maxY - img.minY := by unfold logoH logoSize; rw [hlogo]
      rw [← hcv hno]
      unfold Canvas.drawImage
      simp only
      rw [if_neg]
      rintro ⟨⟨a1, a2, a3, a4⟩, _⟩
      generalize Int.tdiv (canvasW o m - logoW o m) 2 = lx at *
      generalize Int.tdiv (canvasH o m - logoH o m) 2 = ly at *
      omega
  · have htail : tailOps o m = [] := by
      unfold tailOps
      rw [hp.gradient]
      cases hlogo : o.logo with
      | none => rfl
      | some img =>
        simp only [List.nil_append]
        rw [if_neg (fun h => hlo ⟨img, hlogo, h⟩)]
    refine ⟨_, o', cv, he, ?_, s1, s2, fun hno _ => hcv hno⟩
    unfold paintAllImg
    rw [htail, List.append_nil]
    exact hbase

/-- The logo does not reach into the border. -/
theorem logo_inside {D bw border lw k cw px : Int} (hbw : 0 < bw) (hD : bw ≤ D) (hk : 5 ≤ k) (hlw : 0 ≤ lw) (hb0 : 0 ≤ border) (hb2 : border ≤ 2 * bw) (hcw : cw = D + border + border)
    (hfit : k * lw ≤ cw) (h1 : Int.tdiv (cw - lw) 2 ≤ px) (h2 : px < Int.tdiv (cw - lw) 2 + lw) : border ≤ px ∧ px < border + D := by
  have h5 : 5 * lw ≤ cw := Int.le_trans (Int.mul_le_mul_of_nonneg_right hk hlw) hfit
  rw [Int.tdiv_eq_ediv_of_nonneg (by omega)] at h1 h2
  omega

end QR.Standard

namespace QR
open QR.Standard _root_.Spec

section
variable {E : Ext} {unsjis : Nat → Option Nat} (hE : E.Ok unsjis) (hRS : E.rs = rsEncode) {c : AlignCache} (hc : CacheReachable c)
  {arrival : List Nat} (ha : Arrival arrival) {t : TextType} {text : Bytes} {opts : List EncodeOption} {q : QRCode}
include hE hRS hc ha

/-- **C110.**  If the dark pixels of a picture are those of a picture `x` of the symbol, every module a square of `b` by `b` pixels, in which pixels of modules in the middle (of about
a fifth of the rows and columns) may be wrong, anywhere in the
picture, and the picture is turned and mirrored in any way, then the reader that is told nothing but corrects errors reads exactly the text. -/
theorem C110_photo (h : newWith E c arrival t text opts = .ok q) (hx : ¬ (modeIn opts = encAuto ∧ AlnumThenKanji E.sjis (nats text)))
    {v : Nat} (hv : q.dimension = 17 + 4 * v)
    (hlv : ¬ (levelIn opts = .L ∧ v ∈ [1, 2, 3, 4, 5, 6, 36] ∨ levelIn opts = .M ∧ v ∈ [2, 4]))
    {b : Nat} (hb : 0 < b) {x : List (List Bool)} (hl : x.length = b * q.dimension) (hr : ∀ r ∈ x, r.length = b * q.dimension)
    (hmid : ∀ i j, i < b * q.dimension → j < b * q.dimension → pixel x i j ≠ pixel q.mat.bitmap (i / b) (j / b) →
      (4 * q.dimension - 4) / 10 ≤ i / b ∧ i / b ≤ (6 * q.dimension + 3) / 10 ∧ (4 * q.dimension - 4) / 10 ≤ j / b ∧ j / b ≤ (6 * q.dimension + 3) / 10)
    {left top : Nat} {p : List (List Bool)} (hp : Shows p left top x) {s : List (List Bool)} (hs : Seen p s) : decodePhotoDamaged unsjis s = some (nats text) := by
  obtain ⟨v', k, st, hd, hq, _⟩ := corner_of hE hc ha h
  have hvv : v' = v := by unfold side at hd; omega
  subst hvv
  have hv1 := hq.version.1
  have lo : 8 ≤ logoLo v' := by unfold logoLo side; omega
  have hi' : logoHi v' < side v' - 7 := by unfold logoHi side; omega
  rw [hd] at hl hr hmid
  rw [show (4 * side v' - 4) / 10 = logoLo v' from rfl, show (6 * side v' + 3) / 10 = logoHi v' from rfl] at hmid
  obtain ⟨y, z, e, hyz, hyl, hyr, hpix⟩ := found_damaged unsjis hq hb (fun i j hi hj hne => by
    obtain ⟨m1, m2, m3, m4⟩ := hmid i j hi hj hne
    exact ⟨by omega, by omega, by omega, by omega⟩) hl hr hp hs
  rw [e]
  refine middle_any_way hE hRS hc ha h hx hv hlv (hyl.trans hd.symm) (fun r hr => (hyr r hr).trans hd.symm) (fun i j hi hj hne => ?_) hyz
  obtain ⟨i', j', h1, h2, h3, h4, h5⟩ := hpix i j hi hj
  have := hmid i' j' h1 h2 (by rw [← h5, h3, h4]; exact fun hh => hne hh.symm)
  rw [h3, h4] at this
  exact this

/-- **C110, pictures with a logo.**  Under the conditions of C69 the picture, turned and mirrored in any way, contains the text for a reader that is told nothing but the colour of dark modules,
whatever the logo shows. -/
theorem C110_logo (h : newWith E c arrival t text opts = .ok q) (hx : ¬ (modeIn opts = encAuto ∧ AlnumThenKanji E.sjis (nats text)))
    {v : Nat} (hv : q.dimension = 17 + 4 * v)
    (hlv : ¬ (levelIn opts = .L ∧ v ∈ [1, 2, 3, 4, 5, 6, 36] ∨ levelIn opts = .M ∧ v ∈ [2, 4]))
    (scale : Scaler) (blend : Blend) {o : Opts} (hp : Rects o) (hcol : Contrast o)
    (hbx : 0 ≤ o.borders.left ∧ o.borders.left ≤ 2 * o.qrBlockWidth ∧ o.borders.right = o.borders.left)
    (hby : 0 ≤ o.borders.top ∧ o.borders.top ≤ 2 * o.qrBlockWidth ∧ o.borders.bottom = o.borders.top)
    {img : Image} (hl : o.logo = some img) (hmin : img.minX = 0 ∧ img.minY = 0) (hmax : 0 ≤ img.maxX ∧ 0 ≤ img.maxY)
    (hk : 5 ≤ o.logoSizeMultiplier) :
    ∃ ops o' cv, draw scale o q.mat = some (ops, o') ∧ paintAllImg blend ops = some cv ∧
      ∀ s, Seen (photo cv.w.toNat cv.h.toNat fun x y => decide (cv.pix x y = o.qrColor)) s → decodePhotoDamaged unsjis s = some (nats text) := by
  obtain ⟨hw, hh⟩ := mat_size hE hc ha h
  have hs : side v = q.dimension := by rw [hv]; rfl
  have hd : 0 < q.dimension := by omega
  have hbw := (blockWidth_pos o).1
  obtain ⟨b, hbN⟩ : ∃ b : Nat, o.qrBlockWidth = b := ⟨o.qrBlockWidth.toNat, by omega⟩
  obtain ⟨left, hL⟩ : ∃ n : Nat, o.borders.left = n := ⟨o.borders.left.toNat, by omega⟩
  obtain ⟨top, hT⟩ : ∃ n : Nat, o.borders.top = n := ⟨o.borders.top.toNat, by omega⟩
  have hb0 : 0 < b := by omega
  have e1 : canvasW o q.mat = ((left + q.dimension * b + left : Nat) : Int) := by
    unfold canvasW; rw [hw, hbN, hbx.2.2, hL]; push_cast; omega
  have e2 : canvasH o q.mat = ((top + q.dimension * b + top : Nat) : Int) := by
    unfold canvasH; rw [hh, hbN, hby.2.2, hT]; push_cast; omega
  have hbd : 0 < q.dimension * b := Nat.mul_pos hd hb0
  have hDb : b ≤ q.dimension * b := Nat.le_mul_of_pos_left b hd
  obtain ⟨ops, o', cv, h1, h2, h3⟩ := rects_picture scale blend hp (m := q.mat) (hw.trans hh.symm) (by omega) (by omega)
    (fun i hi _ => by rw [hl] at hi; cases hi; exact hmin)
  have border : ∀ px py : Nat, px < left + q.dimension * b + left → py < top + q.dimension * b + top → cv.w = canvasW o q.mat ∧ cv.h = canvasH o q.mat ∧
      (¬ (left ≤ px ∧ px < left + q.dimension * b ∧ top ≤ py ∧ py < top + q.dimension * b) → cv.pix px py = over o.backgroundColor.1 ⟨0, 0, 0, 0⟩) := by
    intro px py hpx hpy
    obtain ⟨ops1, o1, cv1, k1, k2, k3, k4, k5⟩ := rects_border scale blend hp (m := q.mat) (hw.trans hh.symm) (px := px) (py := py) (by rw [e1, e2]; omega)
    rw [h1] at k1
    obtain ⟨rfl, rfl⟩ := Prod.mk.inj (Option.some.inj k1)
    rw [h2] at k2
    obtain rfl := Option.some.inj k2
    refine ⟨k3, k4, fun hout => k5 (fun x y hx' hy' hi => hout ?_) fun i hi hval => ?_⟩
    · rw [hw] at hx'
      rw [hh] at hy'
      unfold InBlock at hi
      rw [hbN, hL, hT] at hi
      norm_cast at hi
      have m1 : (x + 1) * b ≤ q.dimension * b := Nat.mul_le_mul_right b hx'
      have m2 : (y + 1) * b ≤ q.dimension * b := Nat.mul_le_mul_right b hy'
      omega
    · rw [hl] at hi
      cases hi
      refine ⟨hmin.1, hmin.2, fun hin => hout ?_⟩
      have hlw : logoW o q.mat = img.maxX := by unfold logoW logoSize; rw [hl]; simp only; omega
      have hlh : logoH o q.mat = img.maxY := by unfold logoH logoSize; rw [hl]; simp only; omega
      obtain ⟨f1, f2⟩ := (logoValid_iff rfl (hh.trans hw.symm) hl).1 hval
      rw [hmin.1, Int.sub_zero] at f1
      rw [hmin.2, Int.sub_zero] at f2
      rw [hlw, hlh] at hin
      have w1 : (o.attribute q.mat.width).w = canvasW o q.mat := by unfold Opts.attribute canvasW; simp only; omega
      have w2 : (o.attribute q.mat.width).h = canvasH o q.mat := by unfold Opts.attribute canvasH; rw [hw, hh]
      rw [w1] at f1
      rw [w2] at f2
      have r1 := logo_inside (D := (q.dimension * b : Nat)) (bw := b) (border := left) (cw := canvasW o q.mat) (by omega) (by omega) hk hmax.1 (by omega) (by omega)
        (by rw [e1]; push_cast; omega) f1 hin.1 hin.2.1
      have r2 := logo_inside (D := (q.dimension * b : Nat)) (bw := b) (border := top) (cw := canvasH o q.mat) (by omega) (by omega) hk hmax.2 (by omega) (by omega)
        (by rw [e2]; push_cast; omega) f2 hin.2.2.1 hin.2.2.2
      omega
  have size := border 0 0 (by omega) (by omega)
  have hcw : cv.w.toNat = left + q.dimension * b + left := by rw [size.1, e1, Int.toNat_natCast]
  have hch : cv.h.toNat = top + q.dimension * b + top := by rw [size.2.1, e2, Int.toNat_natCast]
  refine ⟨ops, o', cv, h1, h2, fun s hsn => ?_⟩
  rw [hcw, hch] at hsn
  have hcomm : b * q.dimension = q.dimension * b := Nat.mul_comm _ _
  refine C110_photo hE hRS hc ha h hx hv hlv hb0 (x := picture (b * q.dimension) fun i j => decide (cv.pix ((left + j : Nat) : Int) ((top + i : Nat) : Int) = o.qrColor))
    (picture_length _ _) (fun r hr => sheet_rows r hr) ?_ (left := left) (top := top) ?_ hsn
  · intro i j hi hj hne
    have g1 : j / b < q.dimension := Nat.div_lt_of_lt_mul hj
    have g2 : i / b < q.dimension := Nat.div_lt_of_lt_mul hi
    have hcov : covered o q.mat (j / b) (i / b) = true := by
      by_contra hn
      apply hne
      have d1 := Nat.div_add_mod j b
      have d2 := Nat.div_add_mod i b
      have l1 := Nat.mod_lt j hb0
      have l2 := Nat.mod_lt i hb0
      rw [pixel_picture hi hj, (bitmap_spec q.mat).2 _ _ (by omega) (by omega), h3 (j / b) (i / b) _ _ (by omega) (by omega) ?_ (by simpa using hn)]
      · exact Standard.dark_eq hcol _
      · unfold InBlock
        rw [hbN, hL, hT]
        have c1 : j / b * b = b * (j / b) := Nat.mul_comm _ _
        have c2 : i / b * b = b * (i / b) := Nat.mul_comm _ _
        norm_cast
        rw [Nat.add_mul, Nat.add_mul]
        omega
    obtain ⟨g1, g2, g3, g4⟩ := covered_range (hw.trans hs.symm) (hh.trans hs.symm) hl (by omega) (by omega) hk ⟨hbx.1, hby.1⟩ ⟨hbx.2.2, hby.2.2⟩ ⟨hbx.2.1, hby.2.1⟩ hcov
    rw [← hs]
    exact ⟨g3, g4, g1, g2⟩
  · have hlen : (photo (left + q.dimension * b + left) (top + q.dimension * b + top) fun x y => decide (cv.pix x y = o.qrColor)).length = top + q.dimension * b + top := sheet_length _ _ _
    have hwd : width (photo (left + q.dimension * b + left) (top + q.dimension * b + top) fun x y => decide (cv.pix x y = o.qrColor)) = left + q.dimension * b + left := by
      rw [photo, sheet_width, if_neg (by omega)]
    refine ⟨sheet_rows', ?_, ?_⟩
    · rw [hlen, hwd, picture_length, picture_width]
      omega
    · rw [hlen, hwd, picture_length, picture_width]
      intro i j hi hj
      rw [photo, pixel_sheet hi hj]
      by_cases hin : left ≤ j ∧ j < left + q.dimension * b ∧ top ≤ i ∧ i < top + q.dimension * b
      · rw [pixel_picture (by omega) (by omega), show left + (j - left) = j by omega, show top + (i - top) = i by omega]
        exact ⟨fun hh => ⟨by omega, by omega, by omega, by omega, hh⟩, fun hh => hh.2.2.2.2⟩
      · rw [(border j i hj hi).2.2 hin, decide_eq_true_eq]
        exact ⟨fun hh => absurd hh (contrast_background hcol), fun hh => absurd ⟨hh.2.2.1, by omega, hh.1, by omega⟩ hin⟩

end
end QR

namespace QR.Examples
open QR QR.Standard _root_.Spec

/-- **C110, the example program with a logo** (`createQRWithLogo`): whatever the logo shows and whatever its size, the reader that is told nothing but the colour of dark modules reads every ASCII text. -/
theorem C110_example {E : Ext} {unsjis : Nat → Option Nat} (hE : E.Ok unsjis) (hRS : E.rs = rsEncode) {c : AlignCache} (hc : CacheReachable c) {arrival : List Nat} (ha : Arrival arrival)
    (scale : Scaler) (blend : Blend) {img : Image} (hmin : img.minX = 0 ∧ img.minY = 0) (hmax : 0 ≤ img.maxX ∧ 0 ≤ img.maxY) :
    Reads E c arrival (logo (some img)) (fun o _ ops text => ∃ cv, paintAllImg blend ops = some cv ∧
      ∀ s, Seen (photo cv.w.toNat cv.h.toNat fun x y => decide (cv.pix x y = o.qrColor)) s → decodePhotoDamaged unsjis s = some (nats text)) scale := by
  have dc : Contrast defaultOpts := ⟨by decide, by decide⟩
  have d2 : 0 ≤ defaultOpts.borders.left ∧ defaultOpts.borders.left ≤ 2 * defaultOpts.qrBlockWidth ∧ defaultOpts.borders.right = defaultOpts.borders.left := by decide
  have d3 : 0 ≤ defaultOpts.borders.top ∧ defaultOpts.borders.top ≤ 2 * defaultOpts.qrBlockWidth ∧ defaultOpts.borders.bottom = defaultOpts.borders.top := by decide
  have d4 : (5 : Int) ≤ defaultOpts.logoSizeMultiplier := by decide
  refine ⟨{ defaultOpts with logo := some img }, rfl, fun text h1 h2 => ?_⟩
  obtain ⟨q, hq⟩ := C04_ascii hE hc ha (opts := []) (by decide) (by decide) h1 h2
  obtain ⟨v, _, hd, _⟩ := C11_dimension hE hc ha hq
  obtain ⟨ops, o', cv, e1, e2, e3⟩ := C110_logo hE hRS hc ha hq (fun h => ascii_not_mixed h1 h.2) (v := v) (by omega) (fun h => by
      rcases h with ⟨h, _⟩ | ⟨h, _⟩ <;> exact absurd h (by decide)) scale blend (o := { defaultOpts with logo := some img }) ⟨.inr rfl, rfl, rfl⟩ ⟨dc.fg, dc.bg⟩ d2 d3 rfl hmin hmax d4
  exact ⟨q, ops, o', hq, e1, cv, e2, e3⟩

end QR.Examples
