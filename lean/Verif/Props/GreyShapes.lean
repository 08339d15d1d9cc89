import Verif.Props.Grey
import Verif.Props.Machine
import Verif.Props.ProgramsPixels
/-!
# C108: pictures with shapes, halftone images and logos in JPEG

A scanner that knows where the blocks are gets one brightness for every module, more or less the one that the pixel at the centre of the block had (`Spec/Grey.lean`: `finderHalf`).
-/
namespace QR.Standard
open QR _root_.Spec

/-- The brightness of the pixels that the scanner looks at. -/
def greysAt (dim : Nat) (cv : Canvas) (pt : Nat → Nat → Int × Int) : List (List Nat) :=
  (List.range dim).map fun y => (List.range dim).map fun x => brightness (cv.pix (pt x y).1 (pt x y).2).jpeg

/-- One number for every module. -/
def grid (dim : Nat) (f : Nat → Nat → Nat) : List (List Nat) := (List.range dim).map fun y => (List.range dim).map fun x => f x y

theorem forall₂_getD {α β : Type} {R : α → β → Prop} {a : α} {b : β} : ∀ {l : List α} {l' : List β}, List.Forall₂ R l l' → ∀ i < l.length, R (l.getD i a) (l'.getD i b)
  | _, _, .nil, i, h => by cases h
  | _, _, .cons h1 _, 0, _ => h1
  | _, _, .cons _ t, i + 1, h => by
    rw [List.getD_cons_succ, List.getD_cons_succ]
    exact forall₂_getD t i (Nat.lt_of_succ_lt_succ h)

theorem level_near {dim e : Nat} {f : Nat → Nat → Nat} {g : List (List Nat)} (h : _root_.Spec.Near e (grid dim f) g) {i j : Nat}
    (hi : i < dim) (hj : j < dim) : f j i ≤ level g i j + e ∧ level g i j ≤ f j i + e := by
  have e1 : (grid dim f).getD i [] = (List.range dim).map fun x => f x i := by
    unfold grid
    rw [List.getD_eq_getElem?_getD, List.getElem?_map, List.getElem?_range hi, Option.map_some, Option.getD_some]
  have e2 : ((List.range dim).map fun x => f x i).getD j 0 = f j i := by
    rw [List.getD_eq_getElem?_getD, List.getElem?_map, List.getElem?_range hj, Option.map_some, Option.getD_some]
  have h1 := forall₂_getD (a := []) (b := []) h i (by simpa [grid] using hi)
  rw [e1] at h1
  have h2 := forall₂_getD (a := 0) (b := 0) h1 j (by simpa using hj)
  rw [e2] at h2
  exact h2

theorem near_rows {dim e : Nat} {f : Nat → Nat → Nat} {g : List (List Nat)} (h : _root_.Spec.Near e (grid dim f) g) :
    g.length = dim ∧ ∀ r ∈ g, r.length = dim := by
  have hlen := h.length_eq
  refine ⟨by rw [← hlen]; simp [grid], fun r hr => ?_⟩
  obtain ⟨i, hi, rfl⟩ := List.getElem_of_mem hr
  have hR := h.get (i := i) (by rw [hlen]; exact hi) hi
  simp only [grid, List.get_eq_getElem, List.getElem_map] at hR
  have := hR.length_eq
  simpa using this.symm

theorem pixel_finderHalf {dim e : Nat} {f : Nat → Nat → Nat} {g : List (List Nat)} (h : _root_.Spec.Near e (grid dim f) g) {i j : Nat}
    (hi : i < dim) (hj : j < dim) : pixel (finderHalf g) i j = onSide (level g 0 0) (level g 1 1) (level g i j) := by
  obtain ⟨h1, h2⟩ := near_rows h
  unfold pixel finderHalf
  have hr : g[i]'(by omega) ∈ g := List.getElem_mem _
  have hl := h2 _ hr
  unfold level
  rw [List.getD_eq_getElem?_getD, List.getD_eq_getElem?_getD, List.getElem?_map, List.getElem?_eq_getElem (h1.symm ▸ hi : i < g.length), Option.map_some, Option.getD_some, List.getElem?_map,
    List.getElem?_eq_getElem (hl.symm ▸ hj), Option.map_some, Option.getD_some]
  congr 1
  rw [List.getD_eq_getElem?_getD, List.getD_eq_getElem?_getD, List.getElem?_eq_getElem (h1.symm ▸ hi : i < g.length), Option.getD_some,
    List.getElem?_eq_getElem (hl.symm ▸ hj), Option.getD_some]

/-- Whatever is less than a quarter away is on its side. -/
theorem onSide_eq {d d' l e a b v f0 f1 fv : Nat} (h4 : 2 * d' + 4 * e < d + l ∨ l + d' + 4 * e < 2 * d) (ha : f0 ≤ a + e ∧ a ≤ f0 + e) (hb : f1 ≤ b + e ∧ b ≤ f1 + e)
    (hv : fv ≤ v + e ∧ v ≤ fv + e) {x : Bool} (h0 : d ≤ f0 ∧ f0 ≤ d') (h1 : f1 = l) (hx : if x then d ≤ fv ∧ fv ≤ d' else fv = l) : onSide a b v = x := by
  unfold onSide
  cases x <;> simp only [if_true, Bool.false_eq_true, if_false] at hx <;> rcases h4 with h4 | h4
  · rw [if_pos (by omega)]; exact decide_eq_false (by omega)
  · rw [if_neg (by omega)]; exact decide_eq_false (by omega)
  · rw [if_pos (by omega)]; exact decide_eq_true (by omega)
  · rw [if_neg (by omega)]; exact decide_eq_true (by omega)

/-- The brightness of a pixel that has the colour of its module. -/
theorem module_grey {o : Opts} (hcol : Contrast o) (v : QRValue) :
    brightness (over (moduleColor o v) (over o.backgroundColor.1 ⟨0, 0, 0, 0⟩)).jpeg = if v.bit then brightness o.qrColor.jpeg else brightness o.bgColor.jpeg := by
  unfold moduleColor
  rw [show v.qrbool = v.bit from rfl]
  cases v.bit with
  | true => simp only [if_true]; rw [over_opaque hcol.fg]
  | false =>
    simp only [Bool.false_eq_true, if_false]
    cases ht : o.bgTransparent with
    | true =>
      have hbgc : o.backgroundColor.1 = { o.bgColor with a := 0 } := by unfold Opts.backgroundColor; rw [ht]; rfl
      rw [if_pos rfl, over_clear, hbgc, over_invisible]
      rfl
    | false =>
      rcases hcol.bg with hb | ⟨ha, _⟩
      · rw [ht] at hb; cases hb
      · rw [if_neg (by decide), over_opaque ha]

/-- The colours of dark modules: their brightness is between two numbers. -/
def Tones (o : Opts) (d d' : Nat) : Prop :=
  (o.qrGradient = none ∧ d = brightness o.qrColor.jpeg ∧ d' = brightness o.qrColor.jpeg) ∨
  ∃ g, o.qrGradient = some g ∧ o.bgTransparent = false ∧
    ∀ a b, Together g.stops a b → ∀ c, ChannelsBetween 1 a.color b.color c → d ≤ brightness c.jpeg ∧ brightness c.jpeg ≤ d'

theorem tones_pixel {o : Opts} (hcol : Contrast o) {d d' l : Nat} (hd : Tones o d d') (hb : l = brightness o.bgColor.jpeg) {v : QRValue} {c : RGBA}
    (h1 : o.qrGradient = none → c = over (moduleColor o v) (over o.backgroundColor.1 ⟨0, 0, 0, 0⟩))
    (h2 : ∀ g, o.qrGradient = some g → o.bgTransparent = false → Tone o g v c) :
    if v.bit then d ≤ brightness c.jpeg ∧ brightness c.jpeg ≤ d' else brightness c.jpeg = l := by
  rcases hd with ⟨hn, rfl, rfl⟩ | ⟨g, hg, ht, hr⟩
  · rw [h1 hn, module_grey hcol]
    cases v.bit <;> simp [hb]
  · have := h2 g hg ht
    unfold Tone at this
    cases hv : v.bit with
    | true =>
      rw [hv, if_pos rfl] at this
      obtain ⟨a, b, hab, hc⟩ := this
      rw [if_pos rfl]
      exact hr a b hab c hc
    | false =>
      rw [hv, if_neg (by decide)] at this
      rw [if_neg (by decide), this, hb]

variable {E : Ext} {unsjis : Nat → Option Nat} {c : AlignCache} {arrival : List Nat} {t : TextType} {text : Bytes} {opts : List EncodeOption} {q : QRCode}

/-- What the scanner makes of the brightness of the modules that show their colour. -/
theorem grey_modules (hE : E.Ok unsjis) (hc : CacheReachable c) (ha : Arrival arrival) (h : newWith E c arrival t text opts = .ok q)
    {f : Nat → Nat → Nat} {e d d' l : Nat} (h4 : 2 * d' + 4 * e < d + l ∨ l + d' + 4 * e < 2 * d) {g : List (List Nat)}
    (hg : _root_.Spec.Near e (grid q.dimension f) g) {Ok : Nat → Nat → Prop}
    (hf : ∀ x y, x < q.dimension → y < q.dimension → Ok x y → if (q.mat.raw x y).bit then d ≤ f x y ∧ f x y ≤ d' else f x y = l) (h0 : Ok 0 0) (h1 : Ok 1 1) :
    ∀ i j, i < q.dimension → j < q.dimension → Ok j i → pixel (finderHalf g) i j = pixel q.mat.bitmap i j := by
  obtain ⟨hmw, hmh⟩ := mat_size hE hc ha h
  obtain ⟨v, k, st, hdim, hq, _⟩ := corner_of hE hc ha h
  have hs21 : 21 ≤ side v := by have := hq.version; unfold side; omega
  obtain ⟨⟨a1, _, a3, _⟩, _⟩ := finder_cells hq
  obtain ⟨_, hbit⟩ := bitmap_spec q.mat
  have hd2 : 21 ≤ q.dimension := by
    obtain ⟨v, k, m, p, bits, hd, h1, h40, _⟩ := symbol_facts hE hc ha h
    omega
  have b0 : (q.mat.raw 0 0).bit = true := by rw [← hbit 0 0 (by omega) (by omega)]; exact a1
  have b1 : (q.mat.raw 1 1).bit = false := by rw [← hbit 1 1 (by omega) (by omega)]; exact a3
  intro i j hi hj hok
  rw [pixel_finderHalf hg hi hj, hbit i j (by omega) (by omega)]
  have n0 := level_near hg (i := 0) (j := 0) (by omega) (by omega)
  have n1 := level_near hg (i := 1) (j := 1) (by omega) (by omega)
  have nv := level_near hg hi hj
  have m0 := hf 0 0 (by omega) (by omega) h0
  have m1 := hf 1 1 (by omega) (by omega) h1
  rw [b0, if_pos rfl] at m0
  rw [b1, if_neg (by decide)] at m1
  exact onSide_eq h4 n0 n1 nv m0 m1 (hf j i hj hi hok)

theorem finderHalf_eq {dim : Nat} {m : Matrix} (hw : m.width = dim) (hh : m.height = dim) {f : Nat → Nat → Nat} {e : Nat} {g : List (List Nat)}
    (hg : _root_.Spec.Near e (grid dim f) g)
    (h : ∀ i j, i < dim → j < dim → pixel (finderHalf g) i j = pixel m.bitmap i j) : finderHalf g = m.bitmap := by
  obtain ⟨⟨t1, t2⟩, hp⟩ := bitmap_spec m
  obtain ⟨r1, r2⟩ := near_rows hg
  have key : scan dim (fun px py => pixel (finderHalf g) py.toNat px.toNat) (fun x y => ((x : Int), (y : Int))) = m.bitmap :=
    scan_eq hw hh fun x y hx hy => by rw [← hp y x (by omega) (by omega), ← h y x hy hx]; rfl
  rw [← key]
  apply List.ext_getElem
  · rw [scan_length, finderHalf, List.length_map, r1]
  · intro i h1 h2
    rw [finderHalf, List.length_map] at h1
    apply List.ext_getElem
    · simp only [finderHalf, List.getElem_map, List.length_map, scan, List.length_range]
      exact r2 _ (List.getElem_mem _)
    · intro j h3 h4
      have e1 : (finderHalf g)[i][j] = pixel (finderHalf g) i j := by
        unfold pixel
        rw [List.getD_eq_getElem?_getD, List.getD_eq_getElem?_getD, List.getElem?_eq_getElem (l := finderHalf g) (i := i) (by rw [finderHalf, List.length_map]; exact h1), Option.getD_some, List.getElem?_eq_getElem h3, Option.getD_some]
      rw [e1]
      simp [scan]

/-- From the picture to the text, without a logo. -/
theorem grey_of_picture (hE : E.Ok unsjis) (hc : CacheReachable c) (ha : Arrival arrival) (h : newWith E c arrival t text opts = .ok q)
    (hx : ¬ (modeIn opts = encAuto ∧ AlnumThenKanji E.sjis (nats text)))
    {drawn : Option (List DrawOp × Opts)} {cov : Coverage} {blend : Blend} {grad : GradientPainter}
    {lib : LibShape} {run : Shape → Bool → Ctx → List Cmd} {o : Opts} (hpic : CentrePictureRun drawn cov blend grad lib run o q.mat) (hcol : Contrast o)
    {e d d' l : Nat} (hd : Tones o d d') (hb : l = brightness o.bgColor.jpeg) (h4 : 2 * d' + 4 * e < d + l ∨ l + d' + 4 * e < 2 * d)
    (hl : ∀ img, o.logo = some img → ¬ (o.logoSizeMultiplier * (img.maxX - img.minX) ≤ (o.attribute q.dimension).w ∧
      o.logoSizeMultiplier * (img.maxY - img.minY) ≤ (o.attribute q.dimension).h)) :
    ∃ ops o' cv, drawn = some (ops, o') ∧ paintAllRun cov run blend grad ops = some cv ∧
      ∀ pt, AtCentres o q.dimension pt → ∀ g, _root_.Spec.Near e (greysAt q.dimension cv pt) g → decode unsjis (finderHalf g) = some (nats text) := by
  obtain ⟨hmw, hmh⟩ := mat_size hE hc ha h
  have hval : ∀ img, o.logo = some img → logoValid o q.mat = false := by
    intro img hi
    rw [← Bool.not_eq_true]
    intro hv
    exact hl img hi (logoValid_iff hmw hmh hi |>.1 hv)
  have hcovd : ∀ x y, covered o q.mat x y = false := by
    intro x y
    unfold covered
    cases hlo : o.logo with
    | none => rfl
    | some img => rw [hval img hlo]; rfl
  have hsafe : safeOn o q.mat = false := by
    unfold safeOn
    cases hlo : o.logo with
    | none => unfold logoValid logoSize; rw [hlo]; rfl
    | some img => rw [hval img hlo]; rfl
  obtain ⟨ops, o', cv, h1, h2, h3⟩ := hpic
  refine ⟨ops, o', cv, h1, h2, fun pt hpt g hg => ?_⟩
  have := grey_modules hE hc ha h h4 (f := fun x y => brightness (cv.pix (pt x y).1 (pt x y).2).jpeg) hg (Ok := fun _ _ => True) (fun x y hx hy _ => by
    have := (h3 x y _ _ (by omega) (by omega) (hpt x y hx hy) (hcovd x y) (fun hs => by rw [hsafe] at hs; cases hs)).2
    exact tones_pixel hcol hd hb this.1 this.2) trivial trivial
  rw [finderHalf_eq hmw hmh (f := fun x y => brightness (cv.pix (pt x y).1 (pt x y).2).jpeg) hg fun i j hi hj => this i j hi hj trivial]
  exact C01_roundtrip_partial hE hc ha h hx

/-- From the picture to the text, with a logo. -/
theorem grey_of_picture_logo (hE : E.Ok unsjis) (hRS : E.rs = rsEncode) (hc : CacheReachable c) (ha : Arrival arrival) (h : newWith E c arrival t text opts = .ok q)
    (hx : ¬ (modeIn opts = encAuto ∧ AlnumThenKanji E.sjis (nats text)))
    {v : Nat} (hv : q.dimension = 17 + 4 * v)
    (hlv : ¬ (levelIn opts = .L ∧ v ∈ [1, 2, 3, 4, 5, 6, 36] ∨ levelIn opts = .M ∧ v ∈ [2, 4]))
    {drawn : Option (List DrawOp × Opts)} {cov : Coverage} {blend : Blend} {grad : GradientPainter}
    {lib : LibShape} {run : Shape → Bool → Ctx → List Cmd} {o : Opts} (hpic : CentrePictureRun drawn cov blend grad lib run o q.mat) (hcol : Contrast o)
    {e d d' l : Nat} (hd : Tones o d d') (hb : l = brightness o.bgColor.jpeg) (h4 : 2 * d' + 4 * e < d + l ∨ l + d' + 4 * e < 2 * d)
    (hbx : 0 ≤ o.borders.left ∧ o.borders.left ≤ 2 * o.qrBlockWidth ∧ o.borders.right = o.borders.left)
    (hby : 0 ≤ o.borders.top ∧ o.borders.top ≤ 2 * o.qrBlockWidth ∧ o.borders.bottom = o.borders.top)
    {img : Image} (hl : o.logo = some img) (_hmin : img.minX = 0 ∧ img.minY = 0) (hmax : 0 ≤ img.maxX ∧ 0 ≤ img.maxY)
    (hk : 5 ≤ o.logoSizeMultiplier) :
    ∃ ops o' cv, drawn = some (ops, o') ∧ paintAllRun cov run blend grad ops = some cv ∧
      ∀ pt, AtCentres o q.dimension pt → ∀ g, _root_.Spec.Near e (greysAt q.dimension cv pt) g → decodeDamaged unsjis (finderHalf g) = some (nats text) := by
  obtain ⟨hmw, hmh⟩ := mat_size hE hc ha h
  have hs : side v = q.dimension := by rw [hv]; rfl
  obtain ⟨ops, o', cv, h1, h2, h3⟩ := hpic
  have hrange : ∀ x y, covered o q.mat x y = true → logoLo v ≤ x ∧ x ≤ logoHi v ∧ logoLo v ≤ y ∧ y ≤ logoHi v := fun x y hcov =>
    covered_range (hmw.trans hs.symm) (hmh.trans hs.symm) hl (by omega) (by omega) hk ⟨hbx.1, hby.1⟩ ⟨hbx.2.2, hby.2.2⟩ ⟨hbx.2.1, hby.2.1⟩ hcov
  refine ⟨ops, o', cv, h1, h2, fun pt hpt g hg => ?_⟩
  have hlo : 2 ≤ logoLo v := by
    obtain ⟨v', k, m, p, bits, hd', h1', h40, _⟩ := symbol_facts hE hc ha h
    unfold logoLo
    omega
  have hpix := grey_modules hE hc ha h h4 (f := fun x y => brightness (cv.pix (pt x y).1 (pt x y).2).jpeg) hg
    (Ok := fun x y => ¬ (logoLo v ≤ x ∧ x ≤ logoHi v ∧ logoLo v ≤ y ∧ y ≤ logoHi v)) (fun x y hx hy hn => by
      have := (h3 x y _ _ (by omega) (by omega) (hpt x y hx hy) ?_ ?_).2
      · exact tones_pixel hcol hd hb this.1 this.2
      · rw [← Bool.not_eq_true]
        exact fun hcv => hn (hrange _ _ hcv)
      · intro hsz _
        rw [← Bool.not_eq_true]
        intro ho
        have hcv : covered o q.mat y x = true := by
          unfold safeOn at hsz
          unfold covered
          rw [hl, ho]
          simpa using (Bool.and_eq_true_iff.1 hsz).1
        obtain ⟨g1, g2, g3, g4⟩ := hrange _ _ hcv
        exact hn ⟨g3, g4, g1, g2⟩) (by omega) (by omega)
  refine middle_damage hE hRS hc ha h hx hv hlv ((List.length_map ..).trans (near_rows (f := fun x y => brightness (cv.pix (pt x y).1 (pt x y).2).jpeg) hg).1) ?_
  intro i j hi hj hne
  rw [hs] at hi hj
  by_contra hn
  exact hne (hpix i j hi hj fun ⟨g1, g2, g3, g4⟩ => hn ⟨g3, g4, g1, g2⟩).symm

/-- **C108.**  Shapes in JPEG: any shape of this library that is not too thin in blocks of at least 10 pixels (as in C83), no halftone, no gradient, no logo (or one that is too large), dark on light
or light on dark, transparent or not: if the pixels that the scanner looks at change their brightness by less than a quarter of the contrast, it reads exactly the text. -/
theorem C108_shapes
    (hE : E.Ok unsjis) (hc : CacheReachable c) (ha : Arrival arrival) (h : newWith E c arrival t text opts = .ok q)
    (hx : ¬ (modeIn opts = encAuto ∧ AlnumThenKanji E.sjis (nats text)))
    (scale : Scaler) {cov : Coverage} (hcov : Rasters cov) (blend : Blend) {put : Put} (hput : PutsOver put) (direction : Rat → Rat × Rat)
    (assembled : Nat → DrawFn × DrawFn) {o : Opts} (hw : 10 ≤ o.qrBlockWidth) (hbold : (meaning assembled o.getShape).bold) (hht : o.halftone = none)
    (hcol : Contrast o) (hgr : o.qrGradient = none)
    {e d l : Nat} (hd : d = brightness o.qrColor.jpeg) (hlt : l = brightness o.bgColor.jpeg) (h4 : d + 4 * e < l ∨ l + 4 * e < d)
    (hb : 0 ≤ o.borders.top ∧ 0 ≤ o.borders.right ∧ 0 ≤ o.borders.bottom ∧ 0 ≤ o.borders.left)
    (hl : ∀ img, o.logo = some img → ¬ (o.logoSizeMultiplier * (img.maxX - img.minX) ≤ (o.attribute q.dimension).w ∧
      o.logoSizeMultiplier * (img.maxY - img.minY) ≤ (o.attribute q.dimension).h)) :
    ∃ ops o' cv, draw scale o q.mat = some (ops, o') ∧ paintAllShapes cov (meaning assembled) blend put direction ops = some cv ∧
      ∀ pt, AtCentres o q.dimension pt → ∀ g, _root_.Spec.Near e (greysAt q.dimension cv pt) g → decode unsjis (finderHalf g) = some (nats text) := by
  obtain ⟨hmw, hmh⟩ := mat_size hE hc ha h
  have hdim : 0 < q.dimension := by obtain ⟨v, _, hd, _⟩ := C11_dimension hE hc ha h; omega
  exact grey_of_picture hE hc ha h hx (shapes_picture scale hcov blend hput direction assembled hw hbold hht hcol (fun g hg => by rw [hgr] at hg; cases hg) (m := q.mat) (hmw.trans hmh.symm) (by omega) (by omega)
    (fun img hi hv => absurd (logoValid_iff hmw hmh hi |>.1 hv) (hl img hi))) hcol (.inl ⟨hgr, hd, hd⟩) hlt (by omega) hl

/-- **C108, with a logo** under the conditions of C69, for a scanner that corrects errors, whatever the logo shows. -/
theorem C108_shapes_logo
    (hE : E.Ok unsjis) (hRS : E.rs = rsEncode) (hc : CacheReachable c) (ha : Arrival arrival) (h : newWith E c arrival t text opts = .ok q)
    (hx : ¬ (modeIn opts = encAuto ∧ AlnumThenKanji E.sjis (nats text)))
    {v : Nat} (hv : q.dimension = 17 + 4 * v)
    (hlv : ¬ (levelIn opts = .L ∧ v ∈ [1, 2, 3, 4, 5, 6, 36] ∨ levelIn opts = .M ∧ v ∈ [2, 4]))
    (scale : Scaler) {cov : Coverage} (hcov : Rasters cov) (blend : Blend) {put : Put} (hput : PutsOver put) (direction : Rat → Rat × Rat)
    (assembled : Nat → DrawFn × DrawFn) {o : Opts} (hw : 10 ≤ o.qrBlockWidth) (hbold : (meaning assembled o.getShape).bold) (hht : o.halftone = none)
    (hcol : Contrast o) (hgr : o.qrGradient = none)
    {e d l : Nat} (hd : d = brightness o.qrColor.jpeg) (hlt : l = brightness o.bgColor.jpeg) (h4 : d + 4 * e < l ∨ l + 4 * e < d)
    (hbx : 0 ≤ o.borders.left ∧ o.borders.left ≤ 2 * o.qrBlockWidth ∧ o.borders.right = o.borders.left)
    (hby : 0 ≤ o.borders.top ∧ o.borders.top ≤ 2 * o.qrBlockWidth ∧ o.borders.bottom = o.borders.top)
    {img : Image} (hl : o.logo = some img) (hmin : img.minX = 0 ∧ img.minY = 0) (hmax : 0 ≤ img.maxX ∧ 0 ≤ img.maxY) (hk : 5 ≤ o.logoSizeMultiplier) :
    ∃ ops o' cv, draw scale o q.mat = some (ops, o') ∧ paintAllShapes cov (meaning assembled) blend put direction ops = some cv ∧
      ∀ pt, AtCentres o q.dimension pt → ∀ g, _root_.Spec.Near e (greysAt q.dimension cv pt) g → decodeDamaged unsjis (finderHalf g) = some (nats text) := by
  obtain ⟨hmw, hmh⟩ := mat_size hE hc ha h
  have hdim : 0 < q.dimension := by obtain ⟨v, _, hd, _⟩ := C11_dimension hE hc ha h; omega
  exact grey_of_picture_logo hE hRS hc ha h hx hv hlv (shapes_picture scale hcov blend hput direction assembled hw hbold hht hcol (fun g hg => by rw [hgr] at hg; cases hg) (m := q.mat) (hmw.trans hmh.symm) (by omega) (by omega)
    (fun i hi _ => by rw [hl] at hi; cases hi; exact hmin)) hcol (.inl ⟨hgr, hd, hd⟩) hlt (by omega) hbx hby hl hmin hmax hk

/-- **C108, halftone.**  The same with a halftone image under the conditions of C84. -/
theorem C108_halftone
    (hE : E.Ok unsjis) (hc : CacheReachable c) (ha : Arrival arrival) (h : newWith E c arrival t text opts = .ok q)
    (hx : ¬ (modeIn opts = encAuto ∧ AlnumThenKanji E.sjis (nats text)))
    (scale : Scaler) {cov : Coverage} (hcov : Rasters cov) (blend : Blend) {put : Put} (hput : PutsOver put) (direction : Rat → Rat × Rat)
    (assembled : Nat → DrawFn × DrawFn) {o : Opts} {himg : Image} (hht : o.halftone = some himg) (hS : SubPixels o (meaning assembled o.getShape)) (hbold : (meaning assembled o.getShape).bold)
    (hcol : Contrast o) (hgr : o.qrGradient = none)
    {e d l : Nat} (hd : d = brightness o.qrColor.jpeg) (hlt : l = brightness o.bgColor.jpeg) (h4 : d + 4 * e < l ∨ l + 4 * e < d)
    (hb : 0 ≤ o.borders.top ∧ 0 ≤ o.borders.right ∧ 0 ≤ o.borders.bottom ∧ 0 ≤ o.borders.left)
    (hl : ∀ img, o.logo = some img → ¬ (o.logoSizeMultiplier * (img.maxX - img.minX) ≤ (o.attribute q.dimension).w ∧
      o.logoSizeMultiplier * (img.maxY - img.minY) ≤ (o.attribute q.dimension).h)) :
    ∃ ops o' cv, draw scale o q.mat = some (ops, o') ∧ paintAllShapes cov (meaning assembled) blend put direction ops = some cv ∧
      ∀ pt, AtCentres o q.dimension pt → ∀ g, _root_.Spec.Near e (greysAt q.dimension cv pt) g → decode unsjis (finderHalf g) = some (nats text) := by
  obtain ⟨hmw, hmh⟩ := mat_size hE hc ha h
  have hdim : 0 < q.dimension := by obtain ⟨v, _, hd, _⟩ := C11_dimension hE hc ha h; omega
  exact grey_of_picture hE hc ha h hx (halftone_picture scale hcov blend hput direction assembled hS hbold hht hcol (fun g hg => by rw [hgr] at hg; cases hg) (m := q.mat) (hmw.trans hmh.symm) (by omega) (by omega)
    (fun img hi hv => absurd (logoValid_iff hmw hmh hi |>.1 hv) (hl img hi))) hcol (.inl ⟨hgr, hd, hd⟩) hlt (by omega) hl

/-- **C108, halftone and logo.** -/
theorem C108_halftone_logo
    (hE : E.Ok unsjis) (hRS : E.rs = rsEncode) (hc : CacheReachable c) (ha : Arrival arrival) (h : newWith E c arrival t text opts = .ok q)
    (hx : ¬ (modeIn opts = encAuto ∧ AlnumThenKanji E.sjis (nats text)))
    {v : Nat} (hv : q.dimension = 17 + 4 * v)
    (hlv : ¬ (levelIn opts = .L ∧ v ∈ [1, 2, 3, 4, 5, 6, 36] ∨ levelIn opts = .M ∧ v ∈ [2, 4]))
    (scale : Scaler) {cov : Coverage} (hcov : Rasters cov) (blend : Blend) {put : Put} (hput : PutsOver put) (direction : Rat → Rat × Rat)
    (assembled : Nat → DrawFn × DrawFn) {o : Opts} {himg : Image} (hht : o.halftone = some himg) (hS : SubPixels o (meaning assembled o.getShape)) (hbold : (meaning assembled o.getShape).bold)
    (hcol : Contrast o) (hgr : o.qrGradient = none)
    {e d l : Nat} (hd : d = brightness o.qrColor.jpeg) (hlt : l = brightness o.bgColor.jpeg) (h4 : d + 4 * e < l ∨ l + 4 * e < d)
    (hbx : 0 ≤ o.borders.left ∧ o.borders.left ≤ 2 * o.qrBlockWidth ∧ o.borders.right = o.borders.left)
    (hby : 0 ≤ o.borders.top ∧ o.borders.top ≤ 2 * o.qrBlockWidth ∧ o.borders.bottom = o.borders.top)
    {img : Image} (hl : o.logo = some img) (hmin : img.minX = 0 ∧ img.minY = 0) (hmax : 0 ≤ img.maxX ∧ 0 ≤ img.maxY) (hk : 5 ≤ o.logoSizeMultiplier) :
    ∃ ops o' cv, draw scale o q.mat = some (ops, o') ∧ paintAllShapes cov (meaning assembled) blend put direction ops = some cv ∧
      ∀ pt, AtCentres o q.dimension pt → ∀ g, _root_.Spec.Near e (greysAt q.dimension cv pt) g → decodeDamaged unsjis (finderHalf g) = some (nats text) := by
  obtain ⟨hmw, hmh⟩ := mat_size hE hc ha h
  have hdim : 0 < q.dimension := by obtain ⟨v, _, hd, _⟩ := C11_dimension hE hc ha h; omega
  exact grey_of_picture_logo hE hRS hc ha h hx hv hlv (halftone_picture scale hcov blend hput direction assembled hS hbold hht hcol (fun g hg => by rw [hgr] at hg; cases hg) (m := q.mat) (hmw.trans hmh.symm) (by omega) (by omega)
    (fun i hi _ => by rw [hl] at hi; cases hi; exact hmin)) hcol (.inl ⟨hgr, hd, hd⟩) hlt (by omega) hbx hby hl hmin hmax hk

/-- **C108, on any machine** (C106), with or without a halftone image. -/
theorem C108_machine
    (hE : E.Ok unsjis) (hc : CacheReachable c) (ha : Arrival arrival) (h : newWith E c arrival t text opts = .ok q)
    (hx : ¬ (modeIn opts = encAuto ∧ AlnumThenKanji E.sjis (nats text)))
    (M : Machine) (hA : M.arch.bits = 32 ∨ M.arch.bits = 64)
    (scale : Scaler) {cov : Coverage} (hcov : Rasters cov) (blend : Blend) {put : Put} (hput : PutsOver put) (direction : Rat → Rat × Rat)
    (assembled : Nat → DrawFn × DrawFn) {o : Opts} (hm : Small o) (hw : 10 ≤ o.qrBlockWidth) (hbold : (meaning assembled o.getShape).bold64 float64Round)
    (hht : ∀ himg, o.halftone = some himg → SubPixels o (meaning assembled o.getShape))
    (hcol : Contrast o) (hgr : o.qrGradient = none)
    {e d l : Nat} (hd : d = brightness o.qrColor.jpeg) (hlt : l = brightness o.bgColor.jpeg) (h4 : d + 4 * e < l ∨ l + 4 * e < d)
    (hb : 0 ≤ o.borders.top ∧ 0 ≤ o.borders.right ∧ 0 ≤ o.borders.bottom ∧ 0 ≤ o.borders.left)
    (hfit : 4 * ((o.attribute q.dimension).w.natAbs * (o.attribute q.dimension).h.natAbs) ≤ M.arch.limit)
    (hl : ∀ img, o.logo = some img → ¬ (o.logoSizeMultiplier * (img.maxX - img.minX) ≤ (o.attribute q.dimension).w ∧
      o.logoSizeMultiplier * (img.maxY - img.minY) ≤ (o.attribute q.dimension).h)) :
    ∃ ops o' cv, drawM M float64Round scale o q.mat = some (ops, o') ∧ M.paint cov (meaning assembled) blend put direction ops = some cv ∧
      ∀ pt, AtCentres o q.dimension pt → ∀ g, _root_.Spec.Near e (greysAt q.dimension cv pt) g → decode unsjis (finderHalf g) = some (nats text) := by
  obtain ⟨hmw, hmh⟩ := mat_size hE hc ha h
  have hdim : 0 < q.dimension := by obtain ⟨v, _, hd, _⟩ := C11_dimension hE hc ha h; omega
  exact grey_of_picture hE hc ha h hx (machine_picture hE hc ha h M hA scale hcov blend hput direction assembled hm hw hbold hht hcol (fun g hg => by rw [hgr] at hg; cases hg) (by omega) hfit
    (fun img hi hv => absurd (logoValid_iff hmw hmh hi |>.1 hv) (hl img hi))) hcol (.inl ⟨hgr, hd, hd⟩) hlt (by omega) hl

/-- **C108, on any machine, with a logo.** -/
theorem C108_machine_logo
    (hE : E.Ok unsjis) (hRS : E.rs = rsEncode) (hc : CacheReachable c) (ha : Arrival arrival) (h : newWith E c arrival t text opts = .ok q)
    (hx : ¬ (modeIn opts = encAuto ∧ AlnumThenKanji E.sjis (nats text)))
    {v : Nat} (hv : q.dimension = 17 + 4 * v)
    (hlv : ¬ (levelIn opts = .L ∧ v ∈ [1, 2, 3, 4, 5, 6, 36] ∨ levelIn opts = .M ∧ v ∈ [2, 4]))
    (M : Machine) (hA : M.arch.bits = 32 ∨ M.arch.bits = 64)
    (scale : Scaler) {cov : Coverage} (hcov : Rasters cov) (blend : Blend) {put : Put} (hput : PutsOver put) (direction : Rat → Rat × Rat)
    (assembled : Nat → DrawFn × DrawFn) {o : Opts} (hm : Small o) (hw : 10 ≤ o.qrBlockWidth) (hbold : (meaning assembled o.getShape).bold64 float64Round)
    (hht : ∀ himg, o.halftone = some himg → SubPixels o (meaning assembled o.getShape))
    (hcol : Contrast o) (hgr : o.qrGradient = none)
    {e d l : Nat} (hd : d = brightness o.qrColor.jpeg) (hlt : l = brightness o.bgColor.jpeg) (h4 : d + 4 * e < l ∨ l + 4 * e < d)
    (hbx : 0 ≤ o.borders.left ∧ o.borders.left ≤ 2 * o.qrBlockWidth ∧ o.borders.right = o.borders.left)
    (hby : 0 ≤ o.borders.top ∧ o.borders.top ≤ 2 * o.qrBlockWidth ∧ o.borders.bottom = o.borders.top)
    (hfit : 4 * ((o.attribute q.dimension).w.natAbs * (o.attribute q.dimension).h.natAbs) ≤ M.arch.limit)
    {img : Image} (hl : o.logo = some img) (hmin : img.minX = 0 ∧ img.minY = 0) (hmax : 0 ≤ img.maxX ∧ 0 ≤ img.maxY) (hk : 5 ≤ o.logoSizeMultiplier) :
    ∃ ops o' cv, drawM M float64Round scale o q.mat = some (ops, o') ∧ M.paint cov (meaning assembled) blend put direction ops = some cv ∧
      ∀ pt, AtCentres o q.dimension pt → ∀ g, _root_.Spec.Near e (greysAt q.dimension cv pt) g → decodeDamaged unsjis (finderHalf g) = some (nats text) := by
  obtain ⟨hmw, hmh⟩ := mat_size hE hc ha h
  have hdim : 0 < q.dimension := by obtain ⟨v, _, hd, _⟩ := C11_dimension hE hc ha h; omega
  exact grey_of_picture_logo hE hRS hc ha h hx hv hlv (machine_picture hE hc ha h M hA scale hcov blend hput direction assembled hm hw hbold hht hcol (fun g hg => by rw [hgr] at hg; cases hg) (by omega) hfit
    (fun i hi _ => by rw [hl] at hi; cases hi; exact hmin)) hcol (.inl ⟨hgr, hd, hd⟩) hlt (by omega) hbx hby hl hmin hmax hk

/-- **C108, gradients.**  With a gradient on a background that is not transparent: if the colours between any two stops that follow each other (or one below) have a brightness from `d` to `d'`, all of
them on one side of the background, every change of less than a quarter of what is left of the contrast leaves the text readable. -/
theorem C108_gradient
    (hE : E.Ok unsjis) (hc : CacheReachable c) (ha : Arrival arrival) (h : newWith E c arrival t text opts = .ok q)
    (hx : ¬ (modeIn opts = encAuto ∧ AlnumThenKanji E.sjis (nats text)))
    (scale : Scaler) {cov : Coverage} (hcov : Rasters cov) (blend : Blend) {put : Put} (hput : PutsOver put) (direction : Rat → Rat × Rat)
    (assembled : Nat → DrawFn × DrawFn) {o : Opts} (hw : 10 ≤ o.qrBlockWidth) (hbold : (meaning assembled o.getShape).bold) (hht : o.halftone = none)
    (hcol : Contrast o) {gr : LinearGradient} (hgr : o.qrGradient = some gr) (hgc : GradientContrast o gr) (hopaque : o.bgTransparent = false)
    {e d d' l : Nat} (hd : ∀ a b, Together gr.stops a b → ∀ k, ChannelsBetween 1 a.color b.color k → d ≤ brightness k.jpeg ∧ brightness k.jpeg ≤ d')
    (hlt : l = brightness o.bgColor.jpeg) (h4 : 2 * d' + 4 * e < d + l ∨ l + d' + 4 * e < 2 * d)
    (hb : 0 ≤ o.borders.top ∧ 0 ≤ o.borders.right ∧ 0 ≤ o.borders.bottom ∧ 0 ≤ o.borders.left)
    (hl : ∀ img, o.logo = some img → ¬ (o.logoSizeMultiplier * (img.maxX - img.minX) ≤ (o.attribute q.dimension).w ∧
      o.logoSizeMultiplier * (img.maxY - img.minY) ≤ (o.attribute q.dimension).h)) :
    ∃ ops o' cv, draw scale o q.mat = some (ops, o') ∧ paintAllShapes cov (meaning assembled) blend put direction ops = some cv ∧
      ∀ pt, AtCentres o q.dimension pt → ∀ g, _root_.Spec.Near e (greysAt q.dimension cv pt) g → decode unsjis (finderHalf g) = some (nats text) := by
  obtain ⟨hmw, hmh⟩ := mat_size hE hc ha h
  have hdim : 0 < q.dimension := by obtain ⟨v, _, hd, _⟩ := C11_dimension hE hc ha h; omega
  exact grey_of_picture hE hc ha h hx (shapes_picture scale hcov blend hput direction assembled hw hbold hht hcol (fun g hg => by rw [hgr] at hg; cases hg; exact hgc) (m := q.mat) (hmw.trans hmh.symm) (by omega) (by omega)
    (fun img hi hv => absurd (logoValid_iff hmw hmh hi |>.1 hv) (hl img hi))) hcol (.inr ⟨gr, hgr, hopaque, hd⟩) hlt h4 hl

/-- **C108, gradients on any machine**, with or without a halftone image. -/
theorem C108_gradient_machine
    (hE : E.Ok unsjis) (hc : CacheReachable c) (ha : Arrival arrival) (h : newWith E c arrival t text opts = .ok q)
    (hx : ¬ (modeIn opts = encAuto ∧ AlnumThenKanji E.sjis (nats text)))
    (M : Machine) (hA : M.arch.bits = 32 ∨ M.arch.bits = 64)
    (scale : Scaler) {cov : Coverage} (hcov : Rasters cov) (blend : Blend) {put : Put} (hput : PutsOver put) (direction : Rat → Rat × Rat)
    (assembled : Nat → DrawFn × DrawFn) {o : Opts} (hm : Small o) (hw : 10 ≤ o.qrBlockWidth) (hbold : (meaning assembled o.getShape).bold64 float64Round)
    (hht : ∀ himg, o.halftone = some himg → SubPixels o (meaning assembled o.getShape))
    (hcol : Contrast o) {gr : LinearGradient} (hgr : o.qrGradient = some gr) (hgc : GradientContrast o gr) (hopaque : o.bgTransparent = false)
    {e d d' l : Nat} (hd : ∀ a b, Together gr.stops a b → ∀ k, ChannelsBetween 1 a.color b.color k → d ≤ brightness k.jpeg ∧ brightness k.jpeg ≤ d')
    (hlt : l = brightness o.bgColor.jpeg) (h4 : 2 * d' + 4 * e < d + l ∨ l + d' + 4 * e < 2 * d)
    (hb : 0 ≤ o.borders.top ∧ 0 ≤ o.borders.right ∧ 0 ≤ o.borders.bottom ∧ 0 ≤ o.borders.left)
    (hfit : 4 * ((o.attribute q.dimension).w.natAbs * (o.attribute q.dimension).h.natAbs) ≤ M.arch.limit)
    (hl : ∀ img, o.logo = some img → ¬ (o.logoSizeMultiplier * (img.maxX - img.minX) ≤ (o.attribute q.dimension).w ∧
      o.logoSizeMultiplier * (img.maxY - img.minY) ≤ (o.attribute q.dimension).h)) :
    ∃ ops o' cv, drawM M float64Round scale o q.mat = some (ops, o') ∧ M.paint cov (meaning assembled) blend put direction ops = some cv ∧
      ∀ pt, AtCentres o q.dimension pt → ∀ g, _root_.Spec.Near e (greysAt q.dimension cv pt) g → decode unsjis (finderHalf g) = some (nats text) := by
  obtain ⟨hmw, hmh⟩ := mat_size hE hc ha h
  have hdim : 0 < q.dimension := by obtain ⟨v, _, hd, _⟩ := C11_dimension hE hc ha h; omega
  exact grey_of_picture hE hc ha h hx (machine_picture hE hc ha h M hA scale hcov blend hput direction assembled hm hw hbold hht hcol (fun g hg => by rw [hgr] at hg; cases hg; exact hgc) (by omega) hfit
    (fun img hi hv => absurd (logoValid_iff hmw hmh hi |>.1 hv) (hl img hi))) hcol (.inr ⟨gr, hgr, hopaque, hd⟩) hlt h4 hl

/-- **C108, gradients on any machine, with a logo.** -/
theorem C108_gradient_machine_logo
    (hE : E.Ok unsjis) (hRS : E.rs = rsEncode) (hc : CacheReachable c) (ha : Arrival arrival) (h : newWith E c arrival t text opts = .ok q)
    (hx : ¬ (modeIn opts = encAuto ∧ AlnumThenKanji E.sjis (nats text)))
    {v : Nat} (hv : q.dimension = 17 + 4 * v)
    (hlv : ¬ (levelIn opts = .L ∧ v ∈ [1, 2, 3, 4, 5, 6, 36] ∨ levelIn opts = .M ∧ v ∈ [2, 4]))
    (M : Machine) (hA : M.arch.bits = 32 ∨ M.arch.bits = 64)
    (scale : Scaler) {cov : Coverage} (hcov : Rasters cov) (blend : Blend) {put : Put} (hput : PutsOver put) (direction : Rat → Rat × Rat)
    (assembled : Nat → DrawFn × DrawFn) {o : Opts} (hm : Small o) (hw : 10 ≤ o.qrBlockWidth) (hbold : (meaning assembled o.getShape).bold64 float64Round)
    (hht : ∀ himg, o.halftone = some himg → SubPixels o (meaning assembled o.getShape))
    (hcol : Contrast o) {gr : LinearGradient} (hgr : o.qrGradient = some gr) (hgc : GradientContrast o gr) (hopaque : o.bgTransparent = false)
    {e d d' l : Nat} (hd : ∀ a b, Together gr.stops a b → ∀ k, ChannelsBetween 1 a.color b.color k → d ≤ brightness k.jpeg ∧ brightness k.jpeg ≤ d')
    (hlt : l = brightness o.bgColor.jpeg) (h4 : 2 * d' + 4 * e < d + l ∨ l + d' + 4 * e < 2 * d)
    (hbx : 0 ≤ o.borders.left ∧ o.borders.left ≤ 2 * o.qrBlockWidth ∧ o.borders.right = o.borders.left)
    (hby : 0 ≤ o.borders.top ∧ o.borders.top ≤ 2 * o.qrBlockWidth ∧ o.borders.bottom = o.borders.top)
    (hfit : 4 * ((o.attribute q.dimension).w.natAbs * (o.attribute q.dimension).h.natAbs) ≤ M.arch.limit)
    {img : Image} (hl : o.logo = some img) (hmin : img.minX = 0 ∧ img.minY = 0) (hmax : 0 ≤ img.maxX ∧ 0 ≤ img.maxY) (hk : 5 ≤ o.logoSizeMultiplier) :
    ∃ ops o' cv, drawM M float64Round scale o q.mat = some (ops, o') ∧ M.paint cov (meaning assembled) blend put direction ops = some cv ∧
      ∀ pt, AtCentres o q.dimension pt → ∀ g, _root_.Spec.Near e (greysAt q.dimension cv pt) g → decodeDamaged unsjis (finderHalf g) = some (nats text) := by
  obtain ⟨hmw, hmh⟩ := mat_size hE hc ha h
  have hdim : 0 < q.dimension := by obtain ⟨v, _, hd, _⟩ := C11_dimension hE hc ha h; omega
  exact grey_of_picture_logo hE hRS hc ha h hx hv hlv (machine_picture hE hc ha h M hA scale hcov blend hput direction assembled hm hw hbold hht hcol (fun g hg => by rw [hgr] at hg; cases hg; exact hgc) (by omega) hfit
    (fun i hi _ => by rw [hl] at hi; cases hi; exact hmin)) hcol (.inr ⟨gr, hgr, hopaque, hd⟩) hlt h4 hbx hby hl hmin hmax hk

end QR.Standard

namespace QR.Cli
open QR QR.Standard _root_.Spec

/-- **C108, the command line program** with circles and halftone pictures (as in C75): the file it writes by default is a JPEG, and every change of brightness by up to 63 of 255 leaves the text readable. -/
theorem C108_cli {E : Ext} {unsjis : Nat → Option Nat} (hE : E.Ok unsjis) {c : AlignCache} (hc : CacheReachable c)
    {arrival : List Nat} (ha : Arrival arrival) (readImage : Bytes → Option Image) (f : Flags)
    {top right bottom left : Nat} (hb : parseBorders f.borders = some [top, right, bottom, left])
    {q : QRCode} (hq : new E c arrival .string f.text = .ok q) (hx : ¬ AlnumThenKanji E.sjis (nats f.text))
    (ht : f.terminal = false)
    (hs : (10 ≤ usedBlock f ∧ (f.halftone = [] ∨ readImage f.halftone = none)) ∨ (12 ≤ usedBlock f ∧ f.circle = false) ∨ (30 ≤ usedBlock f ∧ usedBlock f % 3 = 0))
    (scale : Scaler) {cov : Coverage} (hcov : Rasters cov) (blend : Blend) {put : Put} (hput : PutsOver put) (direction : Rat → Rat × Rat) (assembled : Nat → DrawFn × DrawFn) :
    ∃ o ops o' cv, run E c arrival readImage f = .file f.output o q ∧ draw scale o q.mat = some (ops, o') ∧
      paintAllShapes cov (meaning assembled) blend put direction ops = some cv ∧
      ∀ pt : Nat → Nat → Int × Int, (∀ x y, x < q.dimension → y < q.dimension → CentreOf left top (usedBlock f) x y (pt x y).1 (pt x y).2) →
        ∀ g, _root_.Spec.Near 63 (greysAt q.dimension cv pt) g → decode unsjis (finderHalf g) = some (nats f.text) := by
  obtain ⟨o, hr, h1, h2, h3, h4, h5, h6, h7, h8, h9⟩ := file_options E c arrival readImage f hb hq ht
  rw [new_eq] at hq
  have hbold : (meaning assembled o.getShape).bold := by
    rw [h3]
    cases f.circle <;> exact trivial
  have hnn : 0 ≤ o.borders.top ∧ 0 ≤ o.borders.right ∧ 0 ≤ o.borders.bottom ∧ 0 ≤ o.borders.left := by rw [h1]; simp
  have hbw : brightness o.qrColor.jpeg + 4 * 63 < brightness o.bgColor.jpeg ∨ brightness o.bgColor.jpeg + 4 * 63 < brightness o.qrColor.jpeg := by rw [h6, h7]; left; decide
  have hpic : ∃ ops o' cv, draw scale o q.mat = some (ops, o') ∧ paintAllShapes cov (meaning assembled) blend put direction ops = some cv ∧
      ∀ pt, AtCentres o q.dimension pt → ∀ g, _root_.Spec.Near 63 (greysAt q.dimension cv pt) g → decode unsjis (finderHalf g) = some (nats f.text) := by
    cases hht : o.halftone with
    | none =>
      exact C108_shapes hE hc ha hq (fun h => hx h.2) scale hcov blend hput direction assembled (by rw [h2]; omega) hbold hht (file_contrast h6 h7) h9 rfl rfl hbw hnn
        (fun img hi => by rw [h8] at hi; cases hi)
    | some himg =>
      have hsub : SubPixels o (meaning assembled o.getShape) := by
        rcases hs with ⟨_, hh⟩ | ⟨h12, hci⟩ | ⟨h30, hm⟩
        · exfalso
          rw [h5] at hht
          split at hht
          · cases hht
          · rcases hh with hh | hh
            · contradiction
            · rw [hh] at hht; cases hht
        · refine ⟨by rw [h2]; exact h12, .inl ?_⟩
          rw [h3, hci]; rfl
        · refine ⟨by rw [h2]; omega, .inr ⟨by rw [h2]; exact h30, by rw [h2]; exact hm, ?_⟩⟩
          rw [h3]
          cases f.circle <;> rfl
      exact C108_halftone hE hc ha hq (fun h => hx h.2) scale hcov blend hput direction assembled hht hsub hbold (file_contrast h6 h7) h9 rfl rfl hbw hnn
        (fun img hi => by rw [h8] at hi; cases hi)
  obtain ⟨ops, o', cv, d1, d2, d3⟩ := hpic
  exact ⟨o, ops, o', cv, hr, d1, d2, fun pt hpt => d3 pt fun x y hx hy => atCentre_of (by rw [h1, h2]; exact hpt x y hx hy)⟩

end QR.Cli
