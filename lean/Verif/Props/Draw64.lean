import Verif.Model.Draw64
import Verif.Props.Scan
import Verif.Props.ImageOptions
/-!
# C94: 64 bits are enough

The other theorems about pictures compute with unbounded integers.  Here it is proved that this makes no difference, within generous limits.
-/
namespace QR.Standard
open QR QR.Matrix Spec

/-- Generous limits: borders of at most two million pixels (they may be negative), a multiplier of at most 2^31, a logo whose coordinates are at most 2^30. -/
structure Moderate (o : Opts) : Prop where
  top : -2 ^ 21 ≤ o.borders.top ∧ o.borders.top ≤ 2 ^ 21
  right : -2 ^ 21 ≤ o.borders.right ∧ o.borders.right ≤ 2 ^ 21
  bottom : -2 ^ 21 ≤ o.borders.bottom ∧ o.borders.bottom ≤ 2 ^ 21
  left : -2 ^ 21 ≤ o.borders.left ∧ o.borders.left ≤ 2 ^ 21
  multiplier : -2 ^ 31 ≤ o.logoSizeMultiplier ∧ o.logoSizeMultiplier ≤ 2 ^ 31
  logo : ∀ img, o.logo = some img → -2 ^ 30 ≤ img.minX ∧ img.minX ≤ img.maxX ∧ img.maxX ≤ 2 ^ 30 ∧ -2 ^ 30 ≤ img.minY ∧ img.minY ≤ img.maxY ∧ img.maxY ≤ 2 ^ 30

theorem wrap_eq {x : Int} (h1 : -2 ^ 63 ≤ x) (h2 : x < 2 ^ 63) : wrap x = x := by
  unfold wrap
  rw [Int.bmod_eq_of_le] <;> omega

theorem module_offset {x : Nat} (hx : x ≤ 177) {bw : Int} (h0 : 0 < bw) (h1 : bw ≤ 255) : 0 ≤ (x : Int) * bw ∧ (x : Int) * bw ≤ 45135 := by
  constructor <;> nlinarith

theorem half_range {a : Int} (h : -2 ^ 40 ≤ a ∧ a ≤ 2 ^ 40) : -2 ^ 40 ≤ Int.tdiv a 2 ∧ Int.tdiv a 2 ≤ 2 ^ 40 := by
  have : (Int.tdiv a 2).natAbs ≤ a.natAbs := by rw [Int.natAbs_tdiv]; exact Nat.div_le_self _ _
  omega

theorem overlaps64_eq {x y : Nat} (hx : x ≤ 177) (hy : y ≤ 177) {bw left top w h lw lh : Int} (h0 : 0 < bw) (h1 : bw ≤ 255)
    (hl : -2 ^ 21 ≤ left ∧ left ≤ 2 ^ 21) (ht : -2 ^ 21 ≤ top ∧ top ≤ 2 ^ 21) (hw : -2 ^ 24 ≤ w ∧ w ≤ 2 ^ 24) (hh : -2 ^ 24 ≤ h ∧ h ≤ 2 ^ 24)
    (hlw : 0 ≤ lw ∧ lw ≤ 2 ^ 31) (hlh : 0 ≤ lh ∧ lh ≤ 2 ^ 31) :
    blockOverlapsLogo64 x y bw left top w h lw lh = blockOverlapsLogo x y bw left top w h lw lh := by
  obtain ⟨x1, x2⟩ := module_offset hx h0 h1
  obtain ⟨y1, y2⟩ := module_offset hy h0 h1
  unfold blockOverlapsLogo64 blockOverlapsLogo add64 sub64 mul64
  generalize (x : Int) * bw = a at *
  generalize (y : Int) * bw = b at *
  have e1 := wrap_eq (x := a) (by omega) (by omega)
  have e2 := wrap_eq (x := b) (by omega) (by omega)
  have e3 := wrap_eq (x := a + left) (by omega) (by omega)
  have e4 := wrap_eq (x := b + top) (by omega) (by omega)
  have e5 := wrap_eq (x := a + left + bw) (by omega) (by omega)
  have e6 := wrap_eq (x := b + top + bw) (by omega) (by omega)
  have e7 := wrap_eq (x := w - lw) (by omega) (by omega)
  have e8 := wrap_eq (x := h - lh) (by omega) (by omega)
  have k1 := half_range (a := w - lw) (by omega)
  have k2 := half_range (a := h - lh) (by omega)
  have e9 := wrap_eq (x := Int.tdiv (w - lw) 2 + lw) (by omega) (by omega)
  have e10 := wrap_eq (x := Int.tdiv (h - lh) 2 + lh) (by omega) (by omega)
  simp only [e1, e2, e3, e4, e5, e6, e7, e8, e9, e10]

theorem logoSize64_eq {o : Opts} (hm : Moderate o) (w h : Int) : logoSize64 o w h = logoSize o w h := by
  unfold logoSize64 logoSize
  cases hl : o.logo with
  | none => rfl
  | some img =>
    obtain ⟨a, b, c, d, e, f⟩ := hm.logo img hl
    have k := hm.multiplier
    have p : ∀ s : Int, 0 ≤ s → s ≤ 2 ^ 31 → mul64 o.logoSizeMultiplier s = o.logoSizeMultiplier * s := by
      intro s s0 s1
      refine wrap_eq ?_ ?_
      · nlinarith [mul_nonneg (show (0 : Int) ≤ o.logoSizeMultiplier + 2 ^ 31 by omega) s0]
      · nlinarith [mul_nonneg (show (0 : Int) ≤ 2 ^ 31 - o.logoSizeMultiplier by omega) s0]
    have e1 : sub64 img.maxX img.minX = img.maxX - img.minX := wrap_eq (by omega) (by omega)
    have e2 : sub64 img.maxY img.minY = img.maxY - img.minY := wrap_eq (by omega) (by omega)
    have e3 := p (img.maxX - img.minX) (by omega) (by omega)
    have e4 := p (img.maxY - img.minY) (by omega) (by omega)
    simp only [validLogoImage64, validLogoImage, e1, e2, e3, e4]

/-- Options with the same borders, block width and logo. -/
theorem drawModule64_eq {o : Opts} (hm : Moderate o) (scale : Scaler) {w h lw lh : Int} (hw : -2 ^ 24 ≤ w ∧ w ≤ 2 ^ 24) (hh : -2 ^ 24 ≤ h ∧ h ≤ 2 ^ 24)
    (hlw : 0 ≤ lw ∧ lw ≤ 2 ^ 31) (hlh : 0 ≤ lh ∧ lh ≤ 2 ^ 31) (dim : Nat) (bm : List (List Bool)) (safe : Bool) (shape : Shape) {x y : Nat} (hx : x ≤ 177) (hy : y ≤ 177) (v : QRValue) :
    drawModule64 scale w h dim bm safe lw lh shape o x y v = drawModule scale w h dim bm safe lw lh shape o x y v := by
  obtain ⟨b0, b1⟩ := blockWidth_pos o
  have hb := (translate_sim (Sim.refl o) v).2.eq
  have e : (o.translateToRGBA v).2.borders = o.borders := by rw [hb]
  obtain ⟨x1, x2⟩ := module_offset hx b0 b1
  obtain ⟨y1, y2⟩ := module_offset hy b0 b1
  have l := hm.left
  have t := hm.top
  unfold drawModule64 drawModule
  have e0 := overlaps64_eq hx hy b0 b1 hm.left hm.top hw hh hlw hlh
  have e1 : add64 (mul64 x o.qrBlockWidth) o.borders.left = x * o.qrBlockWidth + o.borders.left := by
    unfold add64 mul64
    rw [wrap_eq (x := (x : Int) * o.qrBlockWidth) (by omega) (by omega), wrap_eq (by omega) (by omega)]
  have e2 : add64 (mul64 y o.qrBlockWidth) o.borders.top = y * o.qrBlockWidth + o.borders.top := by
    unfold add64 mul64
    rw [wrap_eq (x := (y : Int) * o.qrBlockWidth) (by omega) (by omega), wrap_eq (by omega) (by omega)]
  simp only [e0, e, e1, e2]
  rfl

theorem Sim.moderate {o o' : Opts} (h : Sim o o') (hm : Moderate o) : Moderate o' := by
  obtain ⟨a, b, c, d, e, f⟩ := hm
  have := h.eq
  generalize o'.bgColor = k at this
  subst this
  exact ⟨a, b, c, d, e, f⟩

theorem foldl_congr_inv {α β : Type} {f g : β → α → β} (P : β → Prop) : ∀ (l : List α) (s : β), P s → (∀ s a, P s → a ∈ l → f s a = g s a ∧ P (g s a)) → l.foldl f s = l.foldl g s := by
  intro l
  induction l with
  | nil => intro s _ _; rfl
  | cons a l ih =>
    intro s hs h
    obtain ⟨e, p⟩ := h s a hs (by simp)
    rw [List.foldl_cons, List.foldl_cons, e]
    exact ih _ p fun s b hs hb => h s b hs (by simp [hb])

theorem foldlM_congr_mem {α β : Type} {f g : β → α → Option β} : ∀ (l : List α) (s : β), (∀ s a, a ∈ l → f s a = g s a) → l.foldlM f s = l.foldlM g s := by
  intro l
  induction l with
  | nil => intro s _; rfl
  | cons a l ih =>
    intro s h
    rw [List.foldlM_cons, List.foldlM_cons, h s a (by simp)]
    exact congrArg _ (funext fun b => ih b fun s c hc => h s c (by simp [hc]))

theorem canvas_range (o : Opts) {n : Nat} (hn : n ≤ 177) {a b : Int} (ha : -2 ^ 21 ≤ a ∧ a ≤ 2 ^ 21) (hb : -2 ^ 21 ≤ b ∧ b ≤ 2 ^ 21) :
    add64 (add64 (mul64 n o.qrBlockWidth) a) b = n * o.qrBlockWidth + a + b ∧
    -2 ^ 22 ≤ (n : Int) * o.qrBlockWidth + a + b ∧ (n : Int) * o.qrBlockWidth + a + b ≤ 2 ^ 22 + 45135 := by
  obtain ⟨b0, b1⟩ := blockWidth_pos o
  obtain ⟨x1, x2⟩ := module_offset hn b0 b1
  unfold add64 mul64
  rw [wrap_eq (x := (n : Int) * o.qrBlockWidth) (by omega) (by omega), wrap_eq (x := (n : Int) * o.qrBlockWidth + a) (by omega) (by omega),
    wrap_eq (x := (n : Int) * o.qrBlockWidth + a + b) (by omega) (by omega)]
  omega

theorem allocates_moderate {w h : Int} (hw : -2 ^ 22 ≤ w ∧ w ≤ 2 ^ 22 + 45135) (hh : -2 ^ 22 ≤ h ∧ h ≤ 2 ^ 22 + 45135) : allocates w h = true := by
  have a : w.natAbs ≤ 4239439 := by omega
  have b : h.natAbs ≤ 4239439 := by omega
  have := Nat.mul_le_mul a b
  unfold allocates
  exact decide_eq_true (by omega)

/-- **C94.** For every symbol, and options within generous limits, the picture is allocated and drawn without overflow: `draw` on 64 bits makes the same calls as `draw` with unbounded integers. -/
theorem C94_draw {E : Ext} {unsjis : Nat → Option Nat} (hE : E.Ok unsjis) {c : AlignCache} (hc : CacheReachable c)
    {arrival : List Nat} (ha : Arrival arrival) {t : TextType} {text : Bytes} {opts : List EncodeOption} {q : QRCode}
    (h : newWith E c arrival t text opts = .ok q) (scale : Scaler) {o : Opts} (hm : Moderate o) :
    draw64 scale o q.mat = draw scale o q.mat := by
  obtain ⟨hw, hh⟩ := mat_size hE hc ha h
  have hd : q.dimension ≤ 177 := by
    obtain ⟨v', k, m, p, bits, hd, h1, h40, _⟩ := symbol_facts hE hc ha h
    omega
  obtain ⟨e1, w1, w2⟩ := canvas_range o (n := q.mat.width) (by omega) hm.left hm.right
  obtain ⟨e2, h1, h2⟩ := canvas_range o (n := q.mat.height) (by omega) hm.top hm.bottom
  unfold draw64 draw
  simp only [e1, e2]
  generalize (q.mat.width : Int) * o.qrBlockWidth + o.borders.left + o.borders.right = w at *
  generalize (q.mat.height : Int) * o.qrBlockWidth + o.borders.top + o.borders.bottom = hgt at *
  rw [if_pos (allocates_moderate ⟨w1, w2⟩ ⟨h1, h2⟩)]
  have hs := backgroundColor_sim o
  have hmo := hs.moderate hm
  obtain ⟨b0, b1⟩ := blockWidth_pos o.backgroundColor.2
  rw [logoSize64_eq hmo]
  generalize o.backgroundColor.2 = o1 at *
  have hsz : 0 ≤ (logoSize o1 w hgt).2.1 ∧ (logoSize o1 w hgt).2.1 ≤ 2 ^ 31 ∧ 0 ≤ (logoSize o1 w hgt).2.2 ∧ (logoSize o1 w hgt).2.2 ≤ 2 ^ 31 := by
    unfold logoSize
    cases hl : o1.logo with
    | none => simp
    | some img =>
      obtain ⟨a, b, c, d, e, f⟩ := hmo.logo img hl
      simp only
      omega
  obtain ⟨s1, s2, s3, s4⟩ := hsz
  generalize logoSize o1 w hgt = sz at *
  obtain ⟨valid, lw, lh⟩ := sz
  simp only at *
  have hclear : clearedBitmap64 o1 q.mat w hgt (valid && o1.logoSafeZone) lw lh = clearedBitmap o1 q.mat w hgt (valid && o1.logoSafeZone) lw lh := by
    unfold clearedBitmap64 clearedBitmap
    split
    · refine foldlM_congr_mem _ _ ?_
      rintro bm ⟨x, y, v⟩ hmem
      obtain ⟨g1, g2⟩ := mem_iterate.1 ⟨v, hmem⟩
      simp only
      rw [overlaps64_eq (by omega) (by omega) b0 b1 hmo.left hmo.top ⟨by omega, by omega⟩ ⟨by omega, by omega⟩ ⟨s1, s2⟩ ⟨s3, s4⟩]
    · rfl
  rw [hclear]
  refine congrArg (fun f => Option.map f _) (funext fun bm => ?_)
  have hfold := foldl_congr_inv (f := fun (st : List DrawOp × Opts) (x : Nat × Nat × QRValue) =>
      (st.1 ++ (drawModule64 scale w hgt q.mat.width bm (valid && o1.logoSafeZone) lw lh o1.getShape st.2 x.1 x.2.1 x.2.2).1,
        (drawModule64 scale w hgt q.mat.width bm (valid && o1.logoSafeZone) lw lh o1.getShape st.2 x.1 x.2.1 x.2.2).2))
    (g := fun (st : List DrawOp × Opts) (x : Nat × Nat × QRValue) =>
      (st.1 ++ (drawModule scale w hgt q.mat.width bm (valid && o1.logoSafeZone) lw lh o1.getShape st.2 x.1 x.2.1 x.2.2).1,
        (drawModule scale w hgt q.mat.width bm (valid && o1.logoSafeZone) lw lh o1.getShape st.2 x.1 x.2.1 x.2.2).2))
    (fun st => Sim o1 st.2) (q.mat.iterate .row) ([.newContext w hgt, .fillRect o.backgroundColor.1 0 0 w hgt], o1) (Sim.refl o1) (by
      rintro st ⟨x, y, v⟩ hst hmem
      obtain ⟨g1, g2⟩ := mem_iterate.1 ⟨v, hmem⟩
      have := drawModule64_eq (hst.moderate hmo) scale (w := w) (h := hgt) (lw := lw) (lh := lh) ⟨by omega, by omega⟩ ⟨by omega, by omega⟩ ⟨s1, s2⟩ ⟨s3, s4⟩ q.mat.width bm
        (valid && o1.logoSafeZone) o1.getShape (x := x) (y := y) (by omega) (by omega) v
      simp only
      rw [this]
      exact ⟨rfl, (drawModule_sim hst scale w hgt q.mat.width bm (valid && o1.logoSafeZone) lw lh x y v).2⟩)
  rw [hfold]
  have k1 : sub64 w lw = w - lw := wrap_eq (by omega) (by omega)
  have k2 : sub64 hgt lh = hgt - lh := wrap_eq (by omega) (by omega)
  rw [k1, k2]
  rfl

/-- **C94, the limit of the borders.** Borders of 2^22 pixels or more on all sides (up to 2^61, beyond which the sums wrap around): the picture cannot be allocated and `draw` panics. -/
theorem C94_too_large {E : Ext} {unsjis : Nat → Option Nat} (hE : E.Ok unsjis) {c : AlignCache} (hc : CacheReachable c)
    {arrival : List Nat} (ha : Arrival arrival) {t : TextType} {text : Bytes} {opts : List EncodeOption} {q : QRCode}
    (h : newWith E c arrival t text opts = .ok q) (scale : Scaler) {o : Opts}
    (ht : 2 ^ 22 ≤ o.borders.top ∧ o.borders.top ≤ 2 ^ 61) (hr : 2 ^ 22 ≤ o.borders.right ∧ o.borders.right ≤ 2 ^ 61)
    (hb : 2 ^ 22 ≤ o.borders.bottom ∧ o.borders.bottom ≤ 2 ^ 61) (hl : 2 ^ 22 ≤ o.borders.left ∧ o.borders.left ≤ 2 ^ 61) :
    draw64 scale o q.mat = none := by
  obtain ⟨hw, hh⟩ := mat_size hE hc ha h
  obtain ⟨v', k, m, p, bits, hd, h1, h40, _⟩ := symbol_facts hE hc ha h
  have hd0 : 21 ≤ q.dimension := by omega
  have hd1 : q.dimension ≤ 177 := by omega
  obtain ⟨b0, b1⟩ := blockWidth_pos o
  have key : ∀ {n : Nat} {a b : Int}, 21 ≤ n → n ≤ 177 → 2 ^ 22 ≤ a ∧ a ≤ 2 ^ 61 → 2 ^ 22 ≤ b ∧ b ≤ 2 ^ 61 →
      2 ^ 23 < add64 (add64 (mul64 n o.qrBlockWidth) a) b := by
    intro n a b n0 n1 ha hb
    obtain ⟨x1, x2⟩ := module_offset n1 b0 b1
    have x3 : 0 < (n : Int) * o.qrBlockWidth := Int.mul_pos (by omega) b0
    unfold add64 mul64
    rw [wrap_eq (x := (n : Int) * o.qrBlockWidth) (by omega) (by omega), wrap_eq (x := (n : Int) * o.qrBlockWidth + a) (by omega) (by omega),
      wrap_eq (x := (n : Int) * o.qrBlockWidth + a + b) (by omega) (by omega)]
    omega
  have kw := key (n := q.mat.width) (by omega) (by omega) hl hr
  have kh := key (n := q.mat.height) (by omega) (by omega) ht hb
  unfold draw64
  simp only
  refine if_neg ?_
  generalize add64 (add64 (mul64 q.mat.width o.qrBlockWidth) o.borders.left) o.borders.right = w at kw ⊢
  generalize add64 (add64 (mul64 q.mat.height o.qrBlockWidth) o.borders.top) o.borders.bottom = hgt at kh ⊢
  have a : 8388609 ≤ w.natAbs := by omega
  have b : 8388609 ≤ hgt.natAbs := by omega
  have := Nat.mul_le_mul a b
  unfold allocates
  simp only [decide_eq_true_eq]
  omega

theorem drawModule64_sim {o o' : Opts} (hs : Sim o o') (scale : Scaler) (w h : Int) (dim : Nat) (bm : List (List Bool)) (safe : Bool) (lw lh : Int) (shape : Shape) (x y : Nat) (v : QRValue) :
    Sim o (drawModule64 scale w h dim bm safe lw lh shape o' x y v).2 := by
  have e := (translate_sim hs v).2
  unfold drawModule64
  simp only
  split
  · exact hs
  · cases v.qrtype <;> simp only <;> first | exact e | (split <;> exact e)

theorem fold_sim {α : Type} {o : Opts} {f : List DrawOp × Opts → α → List DrawOp × Opts} (hf : ∀ st a, Sim o st.2 → Sim o (f st a).2) : ∀ (l : List α) (st : List DrawOp × Opts), Sim o st.2 →
    Sim o (l.foldl f st).2 := by
  intro l
  induction l with
  | nil => intro st h; exact h
  | cons a l ih => intro st h; exact ih _ (hf st a h)

theorem wraps_aux (scale : Scaler) {m : Matrix} {dim : Nat} (hw : m.width = dim) (hh : m.height = dim) (hd1 : dim ≤ 177) {o : Opts} {img : Image} {a b : Nat}
    (h0 : img.minX = 0 ∧ img.minY = 0) (hx : img.maxX = 4 * a) (hy : img.maxY = 4 * b) (hb : a < 2 ^ 30 ∧ b < 2 ^ 30)
    (ho : o.logo = some img ∧ o.logoSizeMultiplier = 2 ^ 62 ∧ o.logoSafeZone = false)
    (bl : -2 ^ 21 ≤ o.borders.left ∧ o.borders.left ≤ 2 ^ 21 ∧ o.borders.left = o.borders.right ∧ o.borders.left = o.borders.top ∧ o.borders.left = o.borders.bottom ∧ 0 ≤ o.borders.left) :
    ∃ ops o', draw64 scale o m = some (ops, o') ∧ ∃ x y, (img, x, y) ∈ images ops := by
  obtain ⟨l1, l2, l3, l4, l5, l6⟩ := bl
  obtain ⟨b0, b1⟩ := blockWidth_pos o
  obtain ⟨x1, x2⟩ := module_offset (x := dim) hd1 b0 b1
  obtain ⟨e1, w1, w2⟩ := canvas_range o (n := m.width) (by omega) ⟨l1, l2⟩ (b := o.borders.right) (by omega)
  obtain ⟨e2, g1, g2⟩ := canvas_range o (n := m.height) (by omega) (a := o.borders.top) (by omega) (b := o.borders.bottom) (by omega)
  have w0 : 0 ≤ (m.width : Int) * o.qrBlockWidth + o.borders.left + o.borders.right := by rw [hw]; omega
  have hh0 : 0 ≤ (m.height : Int) * o.qrBlockWidth + o.borders.top + o.borders.bottom := by rw [hh]; omega
  unfold draw64
  simp only [e1, e2]
  generalize (m.width : Int) * o.qrBlockWidth + o.borders.left + o.borders.right = w at *
  generalize (m.height : Int) * o.qrBlockWidth + o.borders.top + o.borders.bottom = hgt at *
  rw [if_pos (allocates_moderate ⟨w1, w2⟩ ⟨g1, g2⟩)]
  have hs := backgroundColor_sim o
  have hlogo : o.backgroundColor.2.logo = some img ∧ o.backgroundColor.2.logoSizeMultiplier = 2 ^ 62 ∧ o.backgroundColor.2.logoSafeZone = false := by
    rw [hs.eq]; exact ho
  have hm : ∀ n : Nat, mul64 (2 ^ 62) (4 * n) = 0 := by
    intro n
    unfold mul64 wrap
    rw [show (2 ^ 62 : Int) * (4 * n) = 0 + (2 ^ 64 : Nat) * n by norm_num; ring]
    rw [Int.add_mul_bmod_self_left, Int.zero_bmod]
  have hvalid : (logoSize64 o.backgroundColor.2 w
      hgt).1 = true := by
    unfold logoSize64
    rw [hlogo.1]
    have s1 : sub64 img.maxX img.minX = 4 * a := by rw [h0.1, hx]; exact (wrap_eq (by omega) (by omega)).trans (by omega)
    have s2 : sub64 img.maxY img.minY = 4 * b := by rw [h0.2, hy]; exact (wrap_eq (by omega) (by omega)).trans (by omega)
    simp only [hlogo.2.1, s1, s2, validLogoImage64, hm]
    exact Bool.and_eq_true_iff.2 ⟨decide_eq_true w0, decide_eq_true hh0⟩
  generalize hsz : logoSize64 o.backgroundColor.2 w
      hgt = sz at hvalid ⊢
  obtain ⟨valid, lw, lh⟩ := sz
  subst hvalid
  simp only [hlogo.2.2, clearedBitmap64, Bool.and_false, Bool.false_eq_true, if_false, Option.map_some]
  generalize hf : @List.foldl (List DrawOp × Opts) (Nat × Nat × QRValue) _ _ (m.iterate .row) = st
  have hsim : Sim o.backgroundColor.2 st.2 := by
    rw [← hf]
    refine fold_sim (o := o.backgroundColor.2) ?_ _ _ (Sim.refl o.backgroundColor.2)
    exact fun st a h => drawModule64_sim h _ _ _ _ _ _ _ _ _ _ _ _
  have hl : st.2.logo = some img := by rw [hsim.eq]; exact hlogo.1
  simp only [hl, if_true]
  refine ⟨_, _, rfl, Int.tdiv (sub64 w lw) 2,
    Int.tdiv (sub64 hgt lh) 2, ?_⟩
  rw [images_append]
  exact List.mem_append_right _ (List.mem_singleton.2 rfl)

/-- **C94, the limit of the multiplier.** With a multiplier of 2^62 a logo must be refused: it would have to be 2^62 times smaller than the symbol.  But if its sides are multiples of four the product
wraps around to 0 and the logo, of whatever size, is drawn. -/
theorem C94_wraps {E : Ext} {unsjis : Nat → Option Nat} (hE : E.Ok unsjis) {c : AlignCache} (hc : CacheReachable c)
    {arrival : List Nat} (ha : Arrival arrival) {t : TextType} {text : Bytes} {opts : List EncodeOption} {q : QRCode}
    (h : newWith E c arrival t text opts = .ok q) (scale : Scaler) {img : Image} {a b : Nat} (h0 : img.minX = 0 ∧ img.minY = 0) (hx : img.maxX = 4 * a) (hy : img.maxY = 4 * b)
    (hb : 0 < a ∧ 0 < b ∧ a < 2 ^ 30 ∧ b < 2 ^ 30) :
    ∃ o, newWithWriter false [.logo (some img), .logoSizeMultiplier (2 ^ 62)] = some o ∧
      (∃ ops o', draw64 scale o q.mat = some (ops, o') ∧ ∃ x y, (img, x, y) ∈ images ops) ∧
      ∃ ops o', draw scale o q.mat = some (ops, o') ∧ images ops = [] := by
  obtain ⟨hw, hh⟩ := mat_size hE hc ha h
  obtain ⟨v', k, m, p, bits, hd, h1, h40, _⟩ := symbol_facts hE hc ha h
  have hd0 : 21 ≤ q.dimension := by omega
  have hd1 : q.dimension ≤ 177 := by omega
  refine ⟨{ defaultOpts with logo := some img, logoSizeMultiplier := 2 ^ 62 }, rfl, ?_, ?_⟩
  · refine wraps_aux scale hw hh hd1 h0 hx hy ⟨hb.2.2.1, hb.2.2.2⟩ ⟨rfl, rfl, rfl⟩ ?_
    have : -2097152 ≤ defaultOpts.borders.left ∧ defaultOpts.borders.left ≤ 2097152 ∧ defaultOpts.borders.left = defaultOpts.borders.right ∧ defaultOpts.borders.left = defaultOpts.borders.top ∧
      defaultOpts.borders.left = defaultOpts.borders.bottom ∧ 0 ≤ defaultOpts.borders.left := by decide
    norm_num
    exact this
  · obtain ⟨ops, o', e, _, h2⟩ := C56_logo scale (o := { defaultOpts with logo := some img, logoSizeMultiplier := 2 ^ 62 }) hw hh
    refine ⟨ops, o', e, (h2 img rfl).1 fun h => ?_⟩
    have hx' := h.1
    rw [show ({ defaultOpts with logo := some img, logoSizeMultiplier := 2 ^ 62 } : Opts).attribute q.dimension = defaultOpts.attribute q.dimension from rfl] at hx'
    have hW : (defaultOpts.attribute q.dimension).w ≤ 10000 := by
      have e : (defaultOpts.attribute q.dimension).w = q.dimension * 20 + defaultOpts.borders.right + defaultOpts.borders.left := rfl
      have e1 : defaultOpts.borders.right ≤ 100 ∧ defaultOpts.borders.left ≤ 100 := by decide
      omega
    simp only [h0.1, hx] at hx'
    have : (2 : Int) ^ 62 * (4 * a - 0) = 18446744073709551616 * a := by ring
    omega

end QR.Standard
