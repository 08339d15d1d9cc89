import Verif.Model.Standard
import Verif.Proof.Bitmap
/-!
# The calls `draw` makes, in closed form
-/
namespace QR.Standard
open QR Matrix Spec

abbrev Scaler := Image → Nat → Int → Int → UInt32 × UInt32 × UInt32 × UInt32

/-- Options that differ at most in the background colour, and only if it is transparent. -/
structure Sim (o o' : Opts) : Prop where
  eq : o' = { o with bgColor := o'.bgColor }
  bg : o.bgTransparent = false → o'.bgColor = o.bgColor

theorem Sim.refl (o : Opts) : Sim o o := ⟨rfl, fun _ => rfl⟩

theorem backgroundColor_sim (o : Opts) : Sim o o.backgroundColor.2 := by
  unfold Opts.backgroundColor
  cases h : o.bgTransparent
  · exact ⟨rfl, fun _ => rfl⟩
  · refine ⟨?_, fun g => by rw [h] at g; cases g⟩
    simp [h]

/-- The colour of a module. -/
def moduleColor (o : Opts) (v : QRValue) : RGBA :=
  if v.qrbool then o.qrColor else if o.bgTransparent then ⟨0, 0, 0, 0⟩ else o.bgColor

theorem translate_sim {o o' : Opts} (h : Sim o o') (v : QRValue) :
    (o'.translateToRGBA v).1 = moduleColor o v ∧ Sim o (o'.translateToRGBA v).2 := by
  obtain ⟨e, t⟩ := h
  generalize hb : o'.bgColor = b at e t
  subst e
  unfold Opts.translateToRGBA moduleColor
  cases v.qrbool
  · cases ht : o.bgTransparent
    · refine ⟨by simpa [ht] using t ht, ⟨by simp [ht], ?_⟩⟩
      simpa [ht] using t ht
    · refine ⟨by simp [ht], ⟨by simp [ht], ?_⟩⟩
      simp [ht]
  · refine ⟨by simp, ⟨by simp, ?_⟩⟩
    simpa using t

/-- The context of a module. -/
def moduleCtx (o : Opts) (bm : List (List Bool)) (x y : Nat) (v : QRValue) : Ctx where
  x := (((x : Int) * o.qrBlockWidth + o.borders.left : Int) : Rat)
  y := (((y : Int) * o.qrBlockWidth + o.borders.top : Int) : Rat)
  w := o.qrBlockWidth
  h := o.qrBlockWidth
  color := moduleColor o v
  neighbours := getNeighbours bm x y

/-- The nine sub-blocks of a data module. -/
def subOps (scale : Scaler) (dim : Nat) (o : Opts) (img : Image) (bm : List (List Bool)) (x y : Nat) (v : QRValue) : List DrawOp :=
  (List.range 3).flatMap fun (i : Nat) => (List.range 3).map fun (j : Nat) =>
    DrawOp.shape false o.getShape
      { x := (moduleCtx o bm x y v).x + (i : Rat) * ((o.qrBlockWidth : Rat) / 3),
        y := (moduleCtx o bm x y v).y + (j : Rat) * ((o.qrBlockWidth : Rat) / 3),
        w := ((o.qrBlockWidth : Rat) / 3).floor, h := ((o.qrBlockWidth : Rat) / 3).floor,
        color := if i = 1 ∧ j = 1 then moduleColor o v
          else halftoneColor scale img (dim * 3) o.bgTransparent (x * 3 + i) (y * 3 + j),
        neighbours := 0 }

/-- The calls for one module. -/
def moduleOps (scale : Scaler) (w h : Int) (dim : Nat) (bm : List (List Bool)) (safe : Bool) (lw lh : Int) (o : Opts)
    (x y : Nat) (v : QRValue) : List DrawOp :=
  if safe && blockOverlapsLogo x y o.qrBlockWidth o.borders.left o.borders.top w h lw lh && v.qrbool then []
  else match o.halftone with
    | none => [.shape (decide (v.ty = .finder)) o.getShape (moduleCtx o bm x y v)]
    | some img => if v.ty = .data then subOps scale dim o img bm x y v
      else [.shape (decide (v.ty = .finder)) o.getShape (moduleCtx o bm x y v)]

theorem drawModule_sim {o o' : Opts} (hs : Sim o o') (scale : Scaler) (w h : Int) (dim : Nat) (bm : List (List Bool)) (safe : Bool)
    (lw lh : Int) (x y : Nat) (v : QRValue) :
    (drawModule scale w h dim bm safe lw lh o.getShape o' x y v).1 = moduleOps scale w h dim bm safe lw lh o x y v ∧
    Sim o (drawModule scale w h dim bm safe lw lh o.getShape o' x y v).2 := by
  have hf : o'.qrBlockWidth = o.qrBlockWidth ∧ o'.borders = o.borders := by rw [hs.eq]; exact ⟨rfl, rfl⟩
  have ht := translate_sim hs v
  have hf2 : (o'.translateToRGBA v).2.halftone = o.halftone ∧ (o'.translateToRGBA v).2.bgTransparent = o.bgTransparent ∧
      (o'.translateToRGBA v).2.borders = o.borders := by
    rw [ht.2.eq]; exact ⟨rfl, rfl, rfl⟩
  unfold drawModule moduleOps
  simp only [hf.1, hf.2]
  split
  · exact ⟨rfl, hs⟩
  obtain ⟨ty, bit⟩ := v
  simp only [QRValue.qrtype, hf2.1, hf2.2.1, hf2.2.2, ht.1]
  cases ty
  case data =>
    cases hh : o.halftone with
    | none => exact ⟨rfl, ht.2⟩
    | some img => exact ⟨rfl, ht.2⟩
  all_goals
    cases hh : o.halftone with
    | none => exact ⟨rfl, ht.2⟩
    | some img => exact ⟨rfl, ht.2⟩

/-- The canvas size of `draw`. -/
def canvasW (o : Opts) (m : Matrix) : Int := m.width * o.qrBlockWidth + o.borders.left + o.borders.right
def canvasH (o : Opts) (m : Matrix) : Int := m.height * o.qrBlockWidth + o.borders.top + o.borders.bottom

/-- Is the logo of an allowed size? -/
def logoValid (o : Opts) (m : Matrix) : Bool := (logoSize o (canvasW o m) (canvasH o m)).1
def logoW (o : Opts) (m : Matrix) : Int := (logoSize o (canvasW o m) (canvasH o m)).2.1
def logoH (o : Opts) (m : Matrix) : Int := (logoSize o (canvasW o m) (canvasH o m)).2.2

/-- Is the safe zone in effect? -/
def safeOn (o : Opts) (m : Matrix) : Bool := logoValid o m && o.logoSafeZone

/-- Does the block of module `(x, y)` overlap the logo? -/
def overlaps (o : Opts) (m : Matrix) (x y : Nat) : Bool :=
  blockOverlapsLogo x y o.qrBlockWidth o.borders.left o.borders.top (canvasW o m) (canvasH o m) (logoW o m) (logoH o m)

theorem foldl_ops {o : Opts} {g : Opts → Nat × Nat × QRValue → List DrawOp × Opts} {f : Nat × Nat × QRValue → List DrawOp}
    (hg : ∀ o' a, Sim o o' → (g o' a).1 = f a ∧ Sim o (g o' a).2) :
    ∀ (l : List (Nat × Nat × QRValue)) (ops : List DrawOp) (o' : Opts), Sim o o' →
      ∃ o'', Sim o o'' ∧ l.foldl (fun (st : List DrawOp × Opts) a => (st.1 ++ (g st.2 a).1, (g st.2 a).2)) (ops, o') =
        (ops ++ l.flatMap f, o'') := by
  intro l
  induction l with
  | nil => intro ops o' h; exact ⟨o', h, by simp⟩
  | cons a l ih =>
    intro ops o' h
    obtain ⟨h1, h2⟩ := hg o' a h
    obtain ⟨o'', h3, h4⟩ := ih (ops ++ f a) (g o' a).2 h2
    refine ⟨o'', h3, ?_⟩
    rw [List.foldl_cons]
    simp only [h1]
    rw [h4, List.flatMap_cons, List.append_assoc]

/-- The calls at the end of `draw`. -/
def tailOps (o : Opts) (m : Matrix) : List DrawOp :=
  (match o.qrGradient with
    | none => []
    | some g => [.gradient g o.qrColor]) ++
  match o.logo with
    | none => []
    | some img => if logoValid o m then
        [.image img (Int.tdiv (canvasW o m - logoW o m) 2) (Int.tdiv (canvasH o m - logoH o m) 2)] else []

/-- The bitmap the neighbour masks are taken from. -/
def maskBitmap (o : Opts) (m : Matrix) : Option (List (List Bool)) :=
  clearedBitmap o m (canvasW o m) (canvasH o m) (safeOn o m) (logoW o m) (logoH o m)

/-- `draw` in closed form. -/
theorem draw_eq (scale : Scaler) (o : Opts) (m : Matrix) {bm : List (List Bool)} (hbm : maskBitmap o m = some bm) :
    ∃ o', Sim o o' ∧ draw scale o m = some
      ([.newContext (canvasW o m) (canvasH o m), .fillRect o.backgroundColor.1 0 0 (canvasW o m) (canvasH o m)] ++
        (m.iterate .row).flatMap (fun a => moduleOps scale (canvasW o m) (canvasH o m) m.width bm (safeOn o m) (logoW o m)
          (logoH o m) o a.1 a.2.1 a.2.2) ++ tailOps o m, o') := by
  have hs := backgroundColor_sim o
  have hsz : logoSize o.backgroundColor.2 (canvasW o m) (canvasH o m) = logoSize o (canvasW o m) (canvasH o m) := by
    rw [hs.eq]; rfl
  have hsafe : o.backgroundColor.2.logoSafeZone = o.logoSafeZone := by rw [hs.eq]
  have hshape : o.backgroundColor.2.getShape = o.getShape := by rw [hs.eq]; rfl
  have hclr : ∀ w h s lw lh, clearedBitmap o.backgroundColor.2 m w h s lw lh = clearedBitmap o m w h s lw lh := by
    intro w h s lw lh; rw [hs.eq]; rfl
  unfold draw
  simp only
  rw [show (m.width : Int) * o.qrBlockWidth + o.borders.left + o.borders.right = canvasW o m from rfl,
    show (m.height : Int) * o.qrBlockWidth + o.borders.top + o.borders.bottom = canvasH o m from rfl]
  simp only [hsz, hsafe, hshape, hclr]
  have hbm' : clearedBitmap o m (canvasW o m) (canvasH o m) ((logoSize o (canvasW o m) (canvasH o m)).1 && o.logoSafeZone)
      (logoSize o (canvasW o m) (canvasH o m)).2.1 (logoSize o (canvasW o m) (canvasH o m)).2.2 = some bm := hbm
  rw [hbm', Option.map_some]
  obtain ⟨o'', h1, h2⟩ := foldl_ops (o := o)
    (g := fun o' a => drawModule scale (canvasW o m) (canvasH o m) m.width bm (safeOn o m) (logoW o m) (logoH o m) o.getShape o'
      a.1 a.2.1 a.2.2)
    (f := fun a => moduleOps scale (canvasW o m) (canvasH o m) m.width bm (safeOn o m) (logoW o m) (logoH o m) o a.1 a.2.1 a.2.2)
    (fun o' a h => drawModule_sim h scale _ _ _ _ _ _ _ _ _ _) (m.iterate .row)
    [.newContext (canvasW o m) (canvasH o m), .fillRect o.backgroundColor.1 0 0 (canvasW o m) (canvasH o m)]
    o.backgroundColor.2 hs
  refine ⟨o'', h1, ?_⟩
  have h2' : (m.iterate .row).foldl (fun (st : List DrawOp × Opts) (a : Nat × Nat × QRValue) =>
      (st.1 ++ (drawModule scale (canvasW o m) (canvasH o m) m.width bm
        ((logoSize o (canvasW o m) (canvasH o m)).1 && o.logoSafeZone) (logoSize o (canvasW o m) (canvasH o m)).2.1
        (logoSize o (canvasW o m) (canvasH o m)).2.2 o.getShape st.2 a.1 a.2.1 a.2.2).1,
        (drawModule scale (canvasW o m) (canvasH o m) m.width bm
        ((logoSize o (canvasW o m) (canvasH o m)).1 && o.logoSafeZone) (logoSize o (canvasW o m) (canvasH o m)).2.1
        (logoSize o (canvasW o m) (canvasH o m)).2.2 o.getShape st.2 a.1 a.2.1 a.2.2).2))
      ([.newContext (canvasW o m) (canvasH o m), .fillRect o.backgroundColor.1 0 0 (canvasW o m) (canvasH o m)],
        o.backgroundColor.2) = _ := h2
  rw [h2']
  have hg : o''.qrGradient = o.qrGradient ∧ o''.logo = o.logo ∧ o''.qrColor = o.qrColor := by rw [h1.eq]; exact ⟨rfl, rfl, rfl⟩
  simp only [hg.1, hg.2.1, hg.2.2]
  unfold tailOps
  cases o.qrGradient <;> cases o.logo <;> simp only [List.append_nil, List.nil_append, List.append_assoc]
  · congr 1; congr 1
    unfold logoValid logoW logoH
    split <;> simp
  · congr 1; congr 1
    unfold logoValid logoW logoH
    split <;> simp

/-! ## The bitmap of the neighbour masks -/

theorem maskBitmap_off {o : Opts} {m : Matrix} (h : safeOn o m = false) : maskBitmap o m = some m.bitmap := by
  unfold maskBitmap clearedBitmap
  rw [h]; rfl

theorem clearCell_eq {W H : Nat} {t : List (List Bool)} (h : Table W H t) {i j : Nat} (hi : i < H) (hj : j < W) :
    ∃ t', clearCell t i j = some t' ∧ Table W H t' ∧
      ∀ a b, a < H → b < W → pixel t' a b = if a = i ∧ b = j then false else pixel t a b := by
  have hi' : i < t.length := by rw [h.1]; exact hi
  have hl : (t[i]).length = W := h.2 _ (List.getElem_mem hi')
  unfold clearCell
  rw [List.getElem?_eq_getElem hi']
  simp only
  rw [if_pos (by rw [hl]; exact hj)]
  refine ⟨_, rfl, ⟨by rw [List.length_set]; exact h.1, ?_⟩, ?_⟩
  · intro r hr
    rcases List.mem_or_eq_of_mem_set hr with hr | rfl
    · exact h.2 r hr
    · rw [List.length_set]; exact hl
  · intro a b ha hb
    unfold pixel
    have ha' : a < t.length := by rw [h.1]; exact ha
    have e2 : t.getD a [] = t[a] := by rw [List.getD_eq_getElem?_getD, List.getElem?_eq_getElem ha']; rfl
    rw [e2, List.getD_eq_getElem?_getD (l := t.set i _), List.getElem?_set]
    by_cases hai : i = a
    · subst hai
      rw [if_pos rfl, if_pos hi', Option.getD_some, List.getD_set_eq]
      by_cases hbj : j = b
      · simp [hbj, hl, hb]
      · have : ¬ b = j := fun h => hbj h.symm
        simp [hbj, this]
    · rw [if_neg hai, List.getElem?_eq_getElem ha', Option.getD_some, if_neg (fun h => hai h.1.symm)]

open Classical in
theorem clear_fold {W H : Nat} (p : Nat → Nat → Bool) : ∀ (cells : List (Nat × Nat × QRValue)) (t : List (List Bool)), Table W H t →
    (∀ a ∈ cells, a.1 < H ∧ a.2.1 < W) →
    ∃ t', cells.foldlM (fun bm (a : Nat × Nat × QRValue) => if p a.1 a.2.1 then clearCell bm a.1 a.2.1 else some bm) t = some t' ∧
      Table W H t' ∧ ∀ i j, i < H → j < W →
        pixel t' i j = if (∃ v, (i, j, v) ∈ cells) ∧ p i j = true then false else pixel t i j := by
  intro cells
  induction cells with
  | nil => intro t h _; exact ⟨t, rfl, h, fun i j _ _ => by simp⟩
  | cons a cells ih =>
    intro t h hc
    rw [List.foldlM_cons]
    have hrest : ∀ b ∈ cells, b.1 < H ∧ b.2.1 < W := fun b hb => hc b (by simp [hb])
    cases hp : p a.1 a.2.1 with
    | false =>
      obtain ⟨t', e, ht', hpx⟩ := ih t h hrest
      refine ⟨t', by simpa using e, ht', ?_⟩
      intro i j hi hj
      rw [hpx i j hi hj]
      by_cases hpij : p i j = true
      · have : (∃ v, (i, j, v) ∈ a :: cells) ↔ ∃ v, (i, j, v) ∈ cells := by
          constructor
          · rintro ⟨v, hv⟩
            rcases List.mem_cons.1 hv with rfl | hv
            · rw [hpij] at hp; cases hp
            · exact ⟨v, hv⟩
          · rintro ⟨v, hv⟩; exact ⟨v, by simp [hv]⟩
        simp only [this]
      · rw [if_neg (fun h => hpij h.2), if_neg (fun h => hpij h.2)]
    | true =>
      obtain ⟨t1, e1, ht1, hpx1⟩ := clearCell_eq h (hc a (by simp)).1 (hc a (by simp)).2
      obtain ⟨t', e, ht', hpx⟩ := ih t1 ht1 hrest
      refine ⟨t', by simpa [e1] using e, ht', ?_⟩
      intro i j hi hj
      rw [hpx i j hi hj]
      by_cases hin : (∃ v, (i, j, v) ∈ cells) ∧ p i j = true
      · rw [if_pos hin, if_pos ⟨by obtain ⟨v, hv⟩ := hin.1; exact ⟨v, by simp [hv]⟩, hin.2⟩]
      · rw [if_neg hin, hpx1 i j hi hj]
        by_cases hia : i = a.1 ∧ j = a.2.1
        · rw [if_pos hia, if_pos]
          refine ⟨⟨a.2.2, ?_⟩, by rw [hia.1, hia.2]; exact hp⟩
          rw [hia.1, hia.2]; simp
        · rw [if_neg hia, if_neg]
          rintro ⟨⟨v, hv⟩, hpij⟩
          rcases List.mem_cons.1 hv with rfl | hv
          · exact hia ⟨rfl, rfl⟩
          · exact hin ⟨⟨v, hv⟩, hpij⟩

theorem mem_iterate {m : Matrix} {x y : Nat} : (∃ v, (x, y, v) ∈ m.iterate .row) ↔ x < m.width ∧ y < m.height := by
  unfold iterate coords
  simp only [List.mem_map, List.mem_flatMap, List.mem_range]
  constructor
  · rintro ⟨v, p, ⟨h, hh, x, hx, rfl⟩, he⟩
    simp only [Prod.mk.injEq] at he
    omega
  · rintro ⟨hx, hy⟩
    exact ⟨m.raw x y, (x, y), ⟨y, hy, x, hx, rfl⟩, rfl⟩

/-- With the safe zone, on a square symbol: the code clears `bitMap[x][y]`, which is the entry of module `(y, x)`. -/
theorem maskBitmap_on {o : Opts} {m : Matrix} (hsq : m.width = m.height) (h : safeOn o m = true) :
    ∃ bm, maskBitmap o m = some bm ∧ Table m.width m.height bm ∧
      ∀ x y, x < m.width → y < m.height → pixel bm y x = if overlaps o m y x then false else (m.raw x y).bit := by
  obtain ⟨ht, hpx⟩ := bitmap_spec m
  obtain ⟨bm, e, hT, hb⟩ := clear_fold (overlaps o m) (m.iterate .row) m.bitmap ht (by
    rintro ⟨x, y, v⟩ ha
    have := mem_iterate.1 ⟨v, ha⟩
    simp only
    omega)
  refine ⟨bm, ?_, hT, ?_⟩
  · unfold maskBitmap clearedBitmap
    rw [h, if_pos rfl]
    exact e
  · intro x y hx hy
    rw [hb y x hy hx, hpx y x hy hx]
    by_cases ho : overlaps o m y x = true
    · rw [if_pos ⟨mem_iterate.2 (by omega), ho⟩, if_pos ho]
    · rw [if_neg (fun h => ho h.2), if_neg ho]

end QR.Standard
