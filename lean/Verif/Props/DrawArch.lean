import Verif.Model.DrawArch
import Verif.Props.Draw64
import Verif.Props.Wasm
/-!
# C99: pictures on 32-bit platforms and in WebAssembly
-/
namespace QR.Standard
open QR QR.Matrix _root_.Spec

/-- Limits: borders of at most a million pixels (they may be negative), and for a logo a multiplier of at most 256, coordinates of at most 2^20. -/
structure Small (o : Opts) : Prop where
  top : -2 ^ 20 ≤ o.borders.top ∧ o.borders.top ≤ 2 ^ 20
  right : -2 ^ 20 ≤ o.borders.right ∧ o.borders.right ≤ 2 ^ 20
  bottom : -2 ^ 20 ≤ o.borders.bottom ∧ o.borders.bottom ≤ 2 ^ 20
  left : -2 ^ 20 ≤ o.borders.left ∧ o.borders.left ≤ 2 ^ 20
  multiplier : ∀ img, o.logo = some img → -256 ≤ o.logoSizeMultiplier ∧ o.logoSizeMultiplier ≤ 256
  logo : ∀ img, o.logo = some img → -2 ^ 20 ≤ img.minX ∧ img.minX ≤ img.maxX ∧ img.maxX ≤ 2 ^ 20 ∧ -2 ^ 20 ≤ img.minY ∧ img.minY ≤ img.maxY ∧ img.maxY ≤ 2 ^ 20

theorem wrapOn_eq {A : Arch} (hA : A.bits = 32 ∨ A.bits = 64) {x : Int} (h1 : -2 ^ 31 ≤ x) (h2 : x < 2 ^ 31) : A.wrap x = x := by
  unfold Arch.wrap
  rcases hA with h | h <;> rw [h, Int.bmod_eq_of_le] <;> omega

theorem half_small {a : Int} (h : -2 ^ 25 ≤ a ∧ a ≤ 2 ^ 25) : -2 ^ 25 ≤ Int.tdiv a 2 ∧ Int.tdiv a 2 ≤ 2 ^ 25 := by
  have : (Int.tdiv a 2).natAbs ≤ a.natAbs := by rw [Int.natAbs_tdiv]; exact Nat.div_le_self _ _
  omega

theorem overlapsOn_eq {A : Arch} (hA : A.bits = 32 ∨ A.bits = 64) {x y : Nat} (hx : x ≤ 177) (hy : y ≤ 177) {bw left top w h lw lh : Int} (h0 : 0 < bw) (h1 : bw ≤ 255)
    (hl : -2 ^ 20 ≤ left ∧ left ≤ 2 ^ 20) (ht : -2 ^ 20 ≤ top ∧ top ≤ 2 ^ 20) (hw : -2 ^ 24 ≤ w ∧ w ≤ 2 ^ 24) (hh : -2 ^ 24 ≤ h ∧ h ≤ 2 ^ 24)
    (hlw : 0 ≤ lw ∧ lw ≤ 2 ^ 21) (hlh : 0 ≤ lh ∧ lh ≤ 2 ^ 21) :
    blockOverlapsLogoOn A x y bw left top w h lw lh = blockOverlapsLogo x y bw left top w h lw lh := by
  obtain ⟨x1, x2⟩ := module_offset hx h0 h1
  obtain ⟨y1, y2⟩ := module_offset hy h0 h1
  unfold blockOverlapsLogoOn blockOverlapsLogo Arch.add Arch.sub Arch.mul
  generalize (x : Int) * bw = a at *
  generalize (y : Int) * bw = b at *
  have e1 := wrapOn_eq hA (x := a) (by omega) (by omega)
  have e2 := wrapOn_eq hA (x := b) (by omega) (by omega)
  have e3 := wrapOn_eq hA (x := a + left) (by omega) (by omega)
  have e4 := wrapOn_eq hA (x := b + top) (by omega) (by omega)
  have e5 := wrapOn_eq hA (x := a + left + bw) (by omega) (by omega)
  have e6 := wrapOn_eq hA (x := b + top + bw) (by omega) (by omega)
  have e7 := wrapOn_eq hA (x := w - lw) (by omega) (by omega)
  have e8 := wrapOn_eq hA (x := h - lh) (by omega) (by omega)
  have k1 := half_small (a := w - lw) (by omega)
  have k2 := half_small (a := h - lh) (by omega)
  have e9 := wrapOn_eq hA (x := Int.tdiv (w - lw) 2 + lw) (by omega) (by omega)
  have e10 := wrapOn_eq hA (x := Int.tdiv (h - lh) 2 + lh) (by omega) (by omega)
  simp only [e1, e2, e3, e4, e5, e6, e7, e8, e9, e10]

theorem logoSizeOn_eq {A : Arch} (hA : A.bits = 32 ∨ A.bits = 64) {o : Opts} (hm : Small o) (w h : Int) : logoSizeOn A o w h = logoSize o w h := by
  unfold logoSizeOn logoSize
  cases hl : o.logo with
  | none => rfl
  | some img =>
    obtain ⟨a, b, c, d, e, f⟩ := hm.logo img hl
    have k := hm.multiplier img hl
    have p : ∀ s : Int, 0 ≤ s → s ≤ 2 ^ 21 → A.mul o.logoSizeMultiplier s = o.logoSizeMultiplier * s := by
      intro s s0 s1
      refine wrapOn_eq hA ?_ ?_
      · nlinarith [mul_nonneg (show (0 : Int) ≤ o.logoSizeMultiplier + 256 by omega) s0]
      · nlinarith [mul_nonneg (show (0 : Int) ≤ 256 - o.logoSizeMultiplier by omega) s0]
    have e1 : A.sub img.maxX img.minX = img.maxX - img.minX := wrapOn_eq hA (by omega) (by omega)
    have e2 : A.sub img.maxY img.minY = img.maxY - img.minY := wrapOn_eq hA (by omega) (by omega)
    have e3 := p (img.maxX - img.minX) (by omega) (by omega)
    have e4 := p (img.maxY - img.minY) (by omega) (by omega)
    simp only [validLogoImageOn, validLogoImage, e1, e2, e3, e4]

theorem drawModuleOn_eq {A : Arch} (hA : A.bits = 32 ∨ A.bits = 64) {o : Opts} (hm : Small o) (scale : Scaler) {w h lw lh : Int} (hw : -2 ^ 24 ≤ w ∧ w ≤ 2 ^ 24) (hh : -2 ^ 24 ≤ h ∧ h ≤ 2 ^ 24)
    (hlw : 0 ≤ lw ∧ lw ≤ 2 ^ 21) (hlh : 0 ≤ lh ∧ lh ≤ 2 ^ 21) (dim : Nat) (bm : List (List Bool)) (safe : Bool) (shape : Shape) {x y : Nat} (hx : x ≤ 177) (hy : y ≤ 177) (v : QRValue) :
    drawModuleOn A scale w h dim bm safe lw lh shape o x y v = drawModule scale w h dim bm safe lw lh shape o x y v := by
  obtain ⟨b0, b1⟩ := blockWidth_pos o
  have hb := (translate_sim (Sim.refl o) v).2.eq
  have e : (o.translateToRGBA v).2.borders = o.borders := by rw [hb]
  obtain ⟨x1, x2⟩ := module_offset hx b0 b1
  obtain ⟨y1, y2⟩ := module_offset hy b0 b1
  have l := hm.left
  have t := hm.top
  unfold drawModuleOn drawModule
  have e0 := overlapsOn_eq hA hx hy b0 b1 hm.left hm.top hw hh hlw hlh
  have e1 : A.add (A.mul x o.qrBlockWidth) o.borders.left = x * o.qrBlockWidth + o.borders.left := by
    unfold Arch.add Arch.mul
    rw [wrapOn_eq hA (x := (x : Int) * o.qrBlockWidth) (by omega) (by omega), wrapOn_eq hA (by omega) (by omega)]
  have e2 : A.add (A.mul y o.qrBlockWidth) o.borders.top = y * o.qrBlockWidth + o.borders.top := by
    unfold Arch.add Arch.mul
    rw [wrapOn_eq hA (x := (y : Int) * o.qrBlockWidth) (by omega) (by omega), wrapOn_eq hA (by omega) (by omega)]
  simp only [e0, e, e1, e2]
  rfl

theorem Sim.small {o o' : Opts} (h : Sim o o') (hm : Small o) : Small o' := by
  obtain ⟨a, b, c, d, e, f⟩ := hm
  have := h.eq
  generalize o'.bgColor = k at this
  subst this
  exact ⟨a, b, c, d, e, f⟩

theorem canvasOn_range {A : Arch} (hA : A.bits = 32 ∨ A.bits = 64) (o : Opts) {n : Nat} (hn : n ≤ 177) {a b : Int} (ha : -2 ^ 20 ≤ a ∧ a ≤ 2 ^ 20) (hb : -2 ^ 20 ≤ b ∧ b ≤ 2 ^ 20) :
    A.add (A.add (A.mul n o.qrBlockWidth) a) b = n * o.qrBlockWidth + a + b ∧
    -2 ^ 22 ≤ (n : Int) * o.qrBlockWidth + a + b ∧ (n : Int) * o.qrBlockWidth + a + b ≤ 2 ^ 22 := by
  obtain ⟨b0, b1⟩ := blockWidth_pos o
  obtain ⟨x1, x2⟩ := module_offset hn b0 b1
  unfold Arch.add Arch.mul
  rw [wrapOn_eq hA (x := (n : Int) * o.qrBlockWidth) (by omega) (by omega), wrapOn_eq hA (x := (n : Int) * o.qrBlockWidth + a) (by omega) (by omega),
    wrapOn_eq hA (x := (n : Int) * o.qrBlockWidth + a + b) (by omega) (by omega)]
  omega

/-- **C99.** On a platform whose `int` has 32 or 64 bits, for every symbol and options within the limits: nothing overflows. `draw` panics if the bytes of the picture, four for each pixel,
are more than the platform's largest slice, and otherwise makes the calls of exact arithmetic. -/
theorem C99_draw {E : Ext} {unsjis : Nat → Option Nat} (hE : E.Ok unsjis) {c : AlignCache} (hc : CacheReachable c)
    {arrival : List Nat} (ha : Arrival arrival) {t : TextType} {text : Bytes} {opts : List EncodeOption} {q : QRCode}
    (h : newWith E c arrival t text opts = .ok q) (scale : Scaler) {o : Opts} (hm : Small o) {A : Arch} (hA : A.bits = 32 ∨ A.bits = 64) :
    drawOn A scale o q.mat = if 4 * ((o.attribute q.dimension).w.natAbs * (o.attribute q.dimension).h.natAbs) ≤ A.limit then draw scale o q.mat else none := by
  obtain ⟨hw, hh⟩ := mat_size hE hc ha h
  have hd : q.dimension ≤ 177 := by
    obtain ⟨v', k, m, p, bits, hd, h1, h40, _⟩ := symbol_facts hE hc ha h
    omega
  obtain ⟨e1, w1, w2⟩ := canvasOn_range hA o (n := q.mat.width) (by omega) hm.left hm.right
  obtain ⟨e2, h1, h2⟩ := canvasOn_range hA o (n := q.mat.height) (by omega) hm.top hm.bottom
  unfold drawOn draw
  simp only [e1, e2]
  have aw : (o.attribute q.dimension).w = (q.mat.width : Int) * o.qrBlockWidth + o.borders.left + o.borders.right := by
    rw [show (o.attribute q.dimension).w = (q.dimension : Int) * o.qrBlockWidth + o.borders.right + o.borders.left from rfl, hw]
    omega
  have ah : (o.attribute q.dimension).h = (q.mat.height : Int) * o.qrBlockWidth + o.borders.top + o.borders.bottom := by
    rw [show (o.attribute q.dimension).h = (q.dimension : Int) * o.qrBlockWidth + o.borders.top + o.borders.bottom from rfl, hh]
  rw [aw, ah]
  generalize (q.mat.width : Int) * o.qrBlockWidth + o.borders.left + o.borders.right = w at *
  generalize (q.mat.height : Int) * o.qrBlockWidth + o.borders.top + o.borders.bottom = hgt at *
  unfold Arch.allocates
  rw [if_congr (decide_eq_true_iff (p := 4 * (w.natAbs * hgt.natAbs) ≤ A.limit)) rfl rfl]
  refine if_congr Iff.rfl ?_ rfl
  have hs := backgroundColor_sim o
  have hmo := hs.small hm
  obtain ⟨b0, b1⟩ := blockWidth_pos o.backgroundColor.2
  rw [logoSizeOn_eq hA hmo]
  generalize o.backgroundColor.2 = o1 at *
  have hsz : 0 ≤ (logoSize o1 w hgt).2.1 ∧ (logoSize o1 w hgt).2.1 ≤ 2 ^ 21 ∧ 0 ≤ (logoSize o1 w hgt).2.2 ∧ (logoSize o1 w hgt).2.2 ≤ 2 ^ 21 := by
    unfold logoSize
    cases hl : o1.logo with
    | none => simp
    | some img =>
      obtain ⟨a, b, c, d, e, f⟩ := hmo.logo img hl
      simp only
      omega
  obtain ⟨s1, s2, s3, s4⟩ := hsz
  generalize logoSize o1 w hgt = sz at *
  obtain ⟨valid, lw, lh⟩ := sz
  simp only at *
  have hclear : clearedBitmapOn A o1 q.mat w hgt (valid && o1.logoSafeZone) lw lh = clearedBitmap o1 q.mat w hgt (valid && o1.logoSafeZone) lw lh := by
    unfold clearedBitmapOn clearedBitmap
    split
    · refine foldlM_congr_mem _ _ ?_
      rintro bm ⟨x, y, v⟩ hmem
      obtain ⟨g1, g2⟩ := mem_iterate.1 ⟨v, hmem⟩
      simp only
      rw [overlapsOn_eq hA (by omega) (by omega) b0 b1 hmo.left hmo.top ⟨by omega, by omega⟩ ⟨by omega, by omega⟩ ⟨s1, s2⟩ ⟨s3, s4⟩]
    · rfl
  rw [hclear]
  refine congrArg (fun f => Option.map f _) (funext fun bm => ?_)
  have hfold := foldl_congr_inv (f := fun (st : List DrawOp × Opts) (x : Nat × Nat × QRValue) =>
      (st.1 ++ (drawModuleOn A scale w hgt q.mat.width bm (valid && o1.logoSafeZone) lw lh o1.getShape st.2 x.1 x.2.1 x.2.2).1,
        (drawModuleOn A scale w hgt q.mat.width bm (valid && o1.logoSafeZone) lw lh o1.getShape st.2 x.1 x.2.1 x.2.2).2))
    (g := fun (st : List DrawOp × Opts) (x : Nat × Nat × QRValue) =>
      (st.1 ++ (drawModule scale w hgt q.mat.width bm (valid && o1.logoSafeZone) lw lh o1.getShape st.2 x.1 x.2.1 x.2.2).1,
        (drawModule scale w hgt q.mat.width bm (valid && o1.logoSafeZone) lw lh o1.getShape st.2 x.1 x.2.1 x.2.2).2))
    (fun st => Sim o1 st.2) (q.mat.iterate .row) ([.newContext w hgt, .fillRect o.backgroundColor.1 0 0 w hgt], o1) (Sim.refl o1) (by
      rintro st ⟨x, y, v⟩ hst hmem
      obtain ⟨g1, g2⟩ := mem_iterate.1 ⟨v, hmem⟩
      have := drawModuleOn_eq hA (hst.small hmo) scale (w := w) (h := hgt) (lw := lw) (lh := lh) ⟨by omega, by omega⟩ ⟨by omega, by omega⟩ ⟨s1, s2⟩ ⟨s3, s4⟩ q.mat.width bm
        (valid && o1.logoSafeZone) o1.getShape (x := x) (y := y) (by omega) (by omega) v
      simp only
      rw [this]
      exact ⟨rfl, (drawModule_sim hst scale w hgt q.mat.width bm (valid && o1.logoSafeZone) lw lh x y v).2⟩)
  rw [hfold]
  have k1 : A.sub w lw = w - lw := wrapOn_eq hA (by omega) (by omega)
  have k2 : A.sub hgt lh = hgt - lh := wrapOn_eq hA (by omega) (by omega)
  rw [k1, k2]
  rfl

/-- `amd64` is the platform of `Model/Draw64.lean`. -/
theorem C99_same (scale : Scaler) (o : Opts) (m : Matrix) : drawOn amd64 scale o m = draw64 scale o m := rfl

theorem square_side {o : Opts} {b : Int} (hb : o.borders = ⟨b, b, b, b⟩) (d : Nat) :
    (o.attribute d).w = d * o.qrBlockWidth + 2 * b ∧ (o.attribute d).h = d * o.qrBlockWidth + 2 * b := by
  refine ⟨?_, ?_⟩
  · rw [show (o.attribute d).w = (d : Int) * o.qrBlockWidth + o.borders.right + o.borders.left from rfl, hb]
    simp only
    omega
  · rw [show (o.attribute d).h = (d : Int) * o.qrBlockWidth + o.borders.top + o.borders.bottom from rfl, hb]
    simp only
    omega

/-- **C99.** The largest square pictures: 23170 pixels a side on a 32-bit platform, 32768 in WebAssembly. -/
theorem C99_limits {E : Ext} {unsjis : Nat → Option Nat} (hE : E.Ok unsjis) {c : AlignCache} (hc : CacheReachable c)
    {arrival : List Nat} (ha : Arrival arrival) {t : TextType} {text : Bytes} {opts : List EncodeOption} {q : QRCode}
    (h : newWith E c arrival t text opts = .ok q) (scale : Scaler) {o : Opts} (hm : Small o) {b : Nat} (hb : o.borders = ⟨b, b, b, b⟩) :
    (drawOn i386 scale o q.mat = if (q.dimension : Int) * o.qrBlockWidth + 2 * b ≤ 23170 then draw scale o q.mat else none) ∧
    (drawOn wasm scale o q.mat = if (q.dimension : Int) * o.qrBlockWidth + 2 * b ≤ 32768 then draw scale o q.mat else none) ∧
    drawOn amd64 scale o q.mat = draw scale o q.mat := by
  have hd : q.dimension ≤ 177 := by
    obtain ⟨v', k, m, p, bits, hd, h1, h40, _⟩ := symbol_facts hE hc ha h
    omega
  obtain ⟨b0, b1⟩ := blockWidth_pos o
  obtain ⟨x1, x2⟩ := module_offset hd b0 b1
  obtain ⟨ew, eh⟩ := square_side hb q.dimension
  have hl := hm.left.2
  rw [hb] at hl
  simp only at hl
  have k : ∀ s : Nat, (4 * (s * s) ≤ 2 ^ 31 - 1 ↔ s ≤ 23170) ∧ (4 * (s * s) ≤ 2 ^ 32 ↔ s ≤ 32768) ∧ (s ≤ 2 ^ 22 → 4 * (s * s) ≤ 2 ^ 48) := by
    intro s
    refine ⟨⟨fun h => ?_, fun h => ?_⟩, ⟨fun h => ?_, fun h => ?_⟩, fun h => ?_⟩
    · by_contra g
      have := Nat.mul_le_mul (show 23171 ≤ s by omega) (show 23171 ≤ s by omega)
      omega
    · have := Nat.mul_le_mul h h
      omega
    · by_contra g
      have := Nat.mul_le_mul (show 32769 ≤ s by omega) (show 32769 ≤ s by omega)
      omega
    · have := Nat.mul_le_mul h h
      omega
    · have := Nat.mul_le_mul h h
      omega
  have d1 := C99_draw hE hc ha h scale hm (A := i386) (Or.inl rfl)
  have d2 := C99_draw hE hc ha h scale hm (A := wasm) (Or.inr rfl)
  have d3 := C99_draw hE hc ha h scale hm (A := amd64) (Or.inr rfl)
  rw [ew, eh] at d1 d2 d3
  generalize (q.dimension : Int) * o.qrBlockWidth = a at *
  obtain ⟨k1, k2, k3⟩ := k (a + 2 * b).natAbs
  refine ⟨d1.trans (if_congr (k1.trans ?_) rfl rfl), d2.trans (if_congr (k2.trans ?_) rfl rfl), d3.trans (if_pos (k3 ?_))⟩ <;> omega

/-- **C99.** Version 40 with the default borders: drawn on a 32-bit platform exactly for blocks of at most 130 pixels, in WebAssembly exactly for blocks of at most 184. -/
theorem C99_largest {E : Ext} {unsjis : Nat → Option Nat} (hE : E.Ok unsjis) {c : AlignCache} (hc : CacheReachable c)
    {arrival : List Nat} (ha : Arrival arrival) {t : TextType} {text : Bytes} {opts : List EncodeOption} {q : QRCode}
    (h : newWith E c arrival t text opts = .ok q) (hq : q.dimension = 177) (scale : Scaler) {o : Opts} (hm : Small o) (hb : o.borders = ⟨40, 40, 40, 40⟩) :
    (drawOn i386 scale o q.mat = if o.qrBlockWidth ≤ 130 then draw scale o q.mat else none) ∧
    (drawOn wasm scale o q.mat = if o.qrBlockWidth ≤ 184 then draw scale o q.mat else none) := by
  obtain ⟨h1, h2, _⟩ := C99_limits hE hc ha h scale hm (b := 40) hb
  rw [hq] at h1 h2
  refine ⟨h1.trans (if_congr ?_ rfl rfl), h2.trans (if_congr ?_ rfl rfl)⟩ <;> constructor <;> intro g <;> push_cast at * <;> omega

theorem draw_no_logo (scale : Scaler) {o : Opts} (hl : o.logo = none) (m : Matrix) : draw scale o m ≠ none := by
  have e : o.backgroundColor.2.logo = none := by
    have := (backgroundColor_sim o).eq
    rw [this]
    exact hl
  have s : ∀ w h, logoSize o.backgroundColor.2 w h = (false, 0, 0) := fun w h => by
    unfold logoSize
    rw [e]
  unfold draw
  simp only [s]
  intro h
  cases h

/-- **C99.** The browser program, with a complete options object: when the text can be encoded, `generateQRCode` panics exactly if a side of the picture has more than 32768 pixels. -/
theorem C99_browser {E : Ext} {unsjis : Nat → Option Nat} (hE : E.Ok unsjis) {c : AlignCache} (hc : CacheReachable c)
    {arrival : List Nat} (ha : Arrival arrival) (scale : Scaler) (save : Opts → Matrix → Wasm.Saved) (hsave : ∀ o m, save o m = .panics ↔ drawOn wasm scale o m = none)
    (content : Wasm.JS) (get : String → Wasm.JS) (rest : List Wasm.JS) {ver mode w : Int} {mar : Nat} {t1 t2 t3 t4 : Bytes} {tr ci : Bool} {lv : Int}
    (h1 : get "encodeVersion" = .number ver t1) (h2 : get "encodeMode" = .number mode t2) (h3 : get "outputQrWidth" = .number w t3)
    (h4 : get "outputMargin" = .number mar t4) (h5 : get "outputBgTransparent" = .boolean tr) (h6 : get "outputCircleShape" = .boolean ci)
    (h7 : Wasm.UsableColour (get "outputBgColor")) (h8 : Wasm.UsableColour (get "outputQrColor")) (h9 : Wasm.LevelField (get "encodeECLevel") lv)
    (hmar : mar ≤ 2 ^ 20) {opts : List EncodeOption} (ho : applyOptions opts = { version := Wasm.versionOf ver, minimumVersion := 0, encMode := Wasm.modeOf mode, ecLevel := lv })
    {q : QRCode} (hq : newWith E c arrival .string content.str opts = .ok q) :
    Wasm.genqrcode E c arrival save (content :: .object get :: rest) = .panics ↔
      32768 < q.dimension * (if w % 256 = 0 then 20 else w % 256) + 2 * (if mar = 0 then 40 else (mar : Int)) := by
  obtain ⟨eo, o, a1, a2, a3, _, _, _, _, _, a4, _, _, _, a5⟩ := Wasm.C52_settings_partial E c arrival save content get rest h1 h2 h3 h4 h5 h6 h7 h8 h9
  have hq' : newWith E c arrival .string content.str eo = .ok q := by
    unfold newWith at hq ⊢
    rw [a1, ← ho]
    exact hq
  obtain ⟨b1, b2, b3⟩ := a5 q hq'
  have hb : o.borders = ⟨((if mar = 0 then 40 else mar : Nat) : Int), ((if mar = 0 then 40 else mar : Nat) : Int), ((if mar = 0 then 40 else mar : Nat) : Int), ((if mar = 0 then 40 else mar : Nat) : Int)⟩ := by
    rw [a2]
    by_cases hz : mar = 0
    · rw [if_pos (by omega), if_pos hz]
      rfl
    · rw [if_neg (by omega), if_neg hz]
  have hsm : Small o := by
    have : (if mar = 0 then 40 else mar) ≤ 2 ^ 20 := by split <;> omega
    refine ⟨?_, ?_, ?_, ?_, fun img h => ?_, fun img h => ?_⟩
    · rw [hb]; simp only; omega
    · rw [hb]; simp only; omega
    · rw [hb]; simp only; omega
    · rw [hb]; simp only; omega
    · rw [a4] at h; cases h
    · rw [a4] at h; cases h
  have d := (C99_limits hE hc ha hq' scale hsm hb).2.1
  have hn := draw_no_logo scale a4 q.mat
  rw [a3] at d
  have em : ((if mar = 0 then 40 else mar : Nat) : Int) = if mar = 0 then 40 else (mar : Int) := by split <;> simp
  rw [em] at d
  have hpanic : Wasm.genqrcode E c arrival save (content :: .object get :: rest) = .panics ↔ save o q.mat = .panics := by
    refine ⟨fun g => ?_, b3⟩
    cases hs : save o q.mat with
    | panics => rfl
    | image b => rw [b2 b hs] at g; cases g
    | error e => rw [b1 e hs] at g; cases g
  rw [hpanic, hsave, d]
  constructor
  · intro g
    by_contra hle
    rw [if_pos (by omega)] at g
    exact hn g
  · intro g
    rw [if_neg (by omega)]

/-- The default options, and blocks of 255 pixels, are within the limits. -/
theorem small_default : Small defaultOpts := ⟨by decide, by decide, by decide, by decide, (fun _ h => by cases h), fun _ h => by cases h⟩
example : Small { defaultOpts with qrWidth := 255 } ∧ ({ defaultOpts with qrWidth := 255 } : Opts).qrBlockWidth = 255 :=
  ⟨⟨by decide, by decide, by decide, by decide, (fun _ h => by cases h), fun _ h => by cases h⟩, rfl⟩

end QR.Standard
