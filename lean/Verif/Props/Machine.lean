import Verif.Model.Machine
import Verif.Props.DrawArch
import Verif.Props.Shapes64
import Verif.Props.ScanHalftonePixels
import Verif.Props.Fma
/-!
# C106: pictures as a machine computes them
-/
namespace QR.Standard
open QR QR.Matrix _root_.Spec Plane

/-! ## The calls -/

/-- A coordinate as computed, and exactly: off by at most `e`, and not at all where it is whole. -/
def CoordCl (e a b : Rat) : Prop := (b - e ≤ a ∧ a ≤ b + e) ∧ ((∃ n : Int, b = n) → a = b)

/-- The same for a block. -/
structure CtxCl (e : Rat) (c d : Ctx) : Prop where
  x : CoordCl e c.x d.x
  y : CoordCl e c.y d.y
  rest : c.w = d.w ∧ c.h = d.h ∧ c.color = d.color ∧ c.neighbours = d.neighbours

/-- The same call, but for the coordinates of blocks. -/
inductive OpCl (e : Rat) : DrawOp → DrawOp → Prop
  | same (op : DrawOp) : OpCl e op op
  | shape (fin : Bool) (sh : Shape) {c d : Ctx} (h : CtxCl e c d) : OpCl e (.shape fin sh c) (.shape fin sh d)

theorem CoordCl.refl {e : Rat} (he : 0 ≤ e) (a : Rat) : CoordCl e a a := ⟨⟨by linarith, by linarith⟩, fun _ => rfl⟩

/-- If all coordinates are whole, nothing differs. -/
theorem CtxCl.eq {e : Rat} {c d : Ctx} (h : CtxCl e c d) (hx : ∃ n : Int, d.x = n) (hy : ∃ n : Int, d.y = n) : c = d := by
  obtain ⟨⟨_, e1⟩, ⟨_, e2⟩, e3, e4, e5, e6⟩ := h
  have := e1 hx
  have := e2 hy
  cases c; cases d
  simp_all

theorem opCl_refl {e : Rat} : ∀ l : List DrawOp, List.Forall₂ (OpCl e) l l
  | [] => .nil
  | op :: l => .cons (.same op) (opCl_refl l)

theorem forall₂_append {α β : Type} {R : α → β → Prop} : ∀ {l : List α} {l' : List β} {k : List α} {k' : List β}, List.Forall₂ R l l' → List.Forall₂ R k k' →
    List.Forall₂ R (l ++ k) (l' ++ k')
  | _, _, _, _, .nil, h => h
  | _, _, _, _, .cons hh ht, h => .cons hh (forall₂_append ht h)

theorem forall₂_map {α β γ : Type} {R : β → γ → Prop} {f : α → β} {g : α → γ} : ∀ {l : List α}, (∀ a ∈ l, R (f a) (g a)) → List.Forall₂ R (l.map f) (l.map g)
  | [], _ => .nil
  | a :: _, h => .cons (h a List.mem_cons_self) (forall₂_map fun b hb => h b (List.mem_cons_of_mem _ hb))

theorem forall₂_flatMap {α β γ : Type} {R : β → γ → Prop} {f : α → List β} {g : α → List γ} : ∀ {l : List α}, (∀ a ∈ l, List.Forall₂ R (f a) (g a)) →
    List.Forall₂ R (l.flatMap f) (l.flatMap g)
  | [], _ => .nil
  | a :: _, h => by
    rw [List.flatMap_cons, List.flatMap_cons]
    exact forall₂_append (h a List.mem_cons_self) (forall₂_flatMap fun b hb => h b (List.mem_cons_of_mem _ hb))

/-- A third of the width of a block. -/
theorem third_rnd {rnd : Rat → Rat} (H : Rnd rnd) {bw : Int} (h0 : 0 < bw) (h1 : bw ≤ 255) :
    (bw / 3 - 1 / 2 ^ 43 ≤ rnd (rnd bw / 3) ∧ rnd (rnd bw / 3) ≤ (bw : Rat) / 3 + 1 / 2 ^ 43) ∧ (bw % 3 = 0 → rnd (rnd bw / 3) = (bw : Rat) / 3) ∧
      (rnd (rnd bw / 3)).floor = ((bw : Rat) / 3).floor := by
  have b0 : (0 : Rat) < bw := by exact_mod_cast h0
  have b1 : (bw : Rat) ≤ 255 := by exact_mod_cast h1
  have e : rnd (bw : Rat) = bw := H.int _ (by omega) (by omega)
  rw [e]
  obtain ⟨n1, n2⟩ := H.near ((bw : Rat) / 3)
  rw [abs_of_nonneg (by linarith)] at n1 n2
  have hk : ((bw : Rat) / 3 + 1) / 2 ^ 50 ≤ 86 / 2 ^ 50 := div_le_div_of_nonneg_right (by linarith) (by norm_num)
  have near : (bw : Rat) / 3 - 1 / 2 ^ 43 ≤ rnd ((bw : Rat) / 3) ∧ rnd ((bw : Rat) / 3) ≤ (bw : Rat) / 3 + 1 / 2 ^ 43 := by
    norm_num at hk n1 n2 ⊢
    constructor <;> linarith
  have exact : bw % 3 = 0 → rnd ((bw : Rat) / 3) = (bw : Rat) / 3 := by
    intro hm
    have : (bw : Rat) / 3 = ((bw / 3 : Int) : Rat) := by
      have h3 : bw = 3 * (bw / 3) := by omega
      have h3' : (bw : Rat) = 3 * ((bw / 3 : Int) : Rat) := by exact_mod_cast congrArg (Int.cast : Int → Rat) h3
      linarith
    rw [this]
    exact H.int _ (by omega) (by omega)
  refine ⟨near, exact, ?_⟩
  by_cases hm : bw % 3 = 0
  · rw [exact hm]
  · rw [floor_third]
    have l1 : (3 * (bw / 3) + 1 : Rat) ≤ 3 * ((bw / 3 : Int) : Rat) + 1 + 3 * ((bw : Rat) / 3 - ((bw / 3 : Int) : Rat)) := by
      have : (((bw / 3) * 3 : Int) : Rat) ≤ (bw : Rat) := Rat.intCast_le_intCast.2 (by omega)
      push_cast at this
      linarith
    have l2 : 3 * ((bw / 3 : Int) : Rat) + 1 ≤ (bw : Rat) := by exact_mod_cast (by omega : 3 * (bw / 3) + 1 ≤ bw)
    have l3 : (bw : Rat) ≤ 3 * ((bw / 3 : Int) : Rat) + 2 := by exact_mod_cast (by omega : bw ≤ 3 * (bw / 3) + 2)
    norm_num at near
    apply Int.le_antisymm
    · apply Int.le_of_lt_add_one
      rw [Rat.floor_lt_iff]
      push_cast
      linarith [near.2]
    · rw [Rat.le_floor_iff]
      linarith [near.1]

/-- The coordinates of a sub-block. -/
theorem sub_coord {rnd : Rat → Rat} (H : Rnd rnd) {bw : Int} (h0 : 0 < bw) (h1 : bw ≤ 255) {X : Int} (x0 : -2 ^ 22 ≤ X) (x1 : X ≤ 2 ^ 22) (fused : Bool) {i : Nat} (hi : i < 3) :
    CoordCl (1 / 1000) (plusMul rnd fused (rnd X) (rnd i) (rnd (rnd bw / 3))) ((X : Rat) + (i : Rat) * ((bw : Rat) / 3)) := by
  obtain ⟨⟨n1, n2⟩, n3, _⟩ := third_rnd H h0 h1
  have eX : rnd (X : Rat) = X := H.int _ (by omega) (by omega)
  have ei : rnd (i : Rat) = i := by
    have := H.int (i : Int) (by omega) (by omega)
    simpa using this
  rw [eX, ei]
  generalize rnd (rnd (bw : Rat) / 3) = hw at *
  have b0 : (0 : Rat) < bw := by exact_mod_cast h0
  have b1 : (bw : Rat) ≤ 255 := by exact_mod_cast h1
  have xr0 : (-4194304 : Rat) ≤ X := by exact_mod_cast x0
  have xr1 : (X : Rat) ≤ 4194304 := by exact_mod_cast x1
  have i0 : (0 : Rat) ≤ i := by positivity
  have i2 : (i : Rat) ≤ 2 := by exact_mod_cast (by omega : i ≤ 2)
  norm_num at n1 n2
  -- the product
  have p1 : (i : Rat) * ((bw : Rat) / 3) - 1 / 2 ^ 42 ≤ i * hw := by nlinarith
  have p2 : i * hw ≤ (i : Rat) * ((bw : Rat) / 3) + 1 / 2 ^ 42 := by nlinarith
  have p3 : 0 ≤ (i : Rat) * ((bw : Rat) / 3) := by positivity
  have p4 : (i : Rat) * ((bw : Rat) / 3) ≤ 170 := by nlinarith
  norm_num at p1 p2
  obtain ⟨q1, q2⟩ := H.near (i * hw)
  have q3 : |(i : Rat) * hw| ≤ 171 := abs_le.2 ⟨by linarith, by linarith⟩
  have q4 : (|(i : Rat) * hw| + 1) / 2 ^ 50 ≤ 172 / 2 ^ 50 := div_le_div_of_nonneg_right (by linarith) (by norm_num)
  norm_num at q1 q2 q4
  have sum : ∀ t : Rat, (i : Rat) * ((bw : Rat) / 3) - 1 / 100000 ≤ t → t ≤ (i : Rat) * ((bw : Rat) / 3) + 1 / 100000 →
      (X : Rat) + (i : Rat) * ((bw : Rat) / 3) - 1 / 1000 ≤ rnd (X + t) ∧ rnd (X + t) ≤ (X : Rat) + (i : Rat) * ((bw : Rat) / 3) + 1 / 1000 := by
    intro t t1 t2
    obtain ⟨s1, s2⟩ := H.near (X + t)
    have s3 : |(X : Rat) + t| ≤ 4195000 := abs_le.2 ⟨by linarith, by linarith⟩
    have s4 : (|(X : Rat) + t| + 1) / 2 ^ 50 ≤ 4195001 / 2 ^ 50 := div_le_div_of_nonneg_right (by linarith) (by norm_num)
    norm_num at s1 s2 s4
    constructor <;> linarith
  refine ⟨?_, ?_⟩
  · unfold plusMul
    split
    · exact sum _ (by linarith) (by linarith)
    · exact sum _ (by linarith) (by linarith)
  · rintro ⟨n, hn⟩
    -- the product is whole
    have hmod : i = 0 ∨ bw % 3 = 0 := by
      have h3 : (i : Rat) * bw = 3 * ((n - X : Int) : Rat) := by push_cast; linarith
      have h3' : (i : Int) * bw = 3 * (n - X) := by exact_mod_cast h3
      have hi' : i = 0 ∨ i = 1 ∨ i = 2 := by omega
      rcases hi' with rfl | rfl | rfl
      · exact .inl rfl
      · right; push_cast at h3'; omega
      · right; push_cast at h3'; omega
    have hz : (i : Rat) * hw = (i : Rat) * ((bw : Rat) / 3) := by
      rcases hmod with rfl | hm
      · simp
      · rw [n3 hm]
    have hk : (i : Rat) * ((bw : Rat) / 3) = ((n - X : Int) : Rat) := by push_cast; linarith
    have hkb : -1 ≤ n - X ∧ n - X ≤ 171 := by
      have a : (-1 : Rat) ≤ ((n - X : Int) : Rat) := by linarith
      have b : ((n - X : Int) : Rat) ≤ 171 := by linarith
      exact ⟨by exact_mod_cast a, by exact_mod_cast b⟩
    have e1 : rnd ((n - X : Int) : Rat) = ((n - X : Int) : Rat) := H.int _ (by omega) (by omega)
    have e2 : rnd (n : Rat) = n := H.int _ (by omega) (by omega)
    have e3 : (X : Rat) + ((n - X : Int) : Rat) = n := by push_cast; ring
    unfold plusMul
    rw [hz, hk, e1, e3, e2]
    split <;> rfl

/-- No coordinate falls between pixels: no halftone image, or blocks whose width is a multiple of three. -/
def NoThirds (o : Opts) : Prop := o.halftone = none ∨ o.qrBlockWidth % 3 = 0

/-- The difference that is possible. -/
def Within (e : Rat) (o : Opts) : Prop := e = 1 / 1000 ∨ (e = 0 ∧ NoThirds o)

theorem Within.sub {e : Rat} {o : Opts} (h : Within e o) {img : Image} (hi : o.halftone = some img) {a : Rat} {X : Int} {i : Nat}
    (hc : CoordCl (1 / 1000) a ((X : Rat) + (i : Rat) * ((o.qrBlockWidth : Rat) / 3))) : CoordCl e a ((X : Rat) + (i : Rat) * ((o.qrBlockWidth : Rat) / 3)) := by
  rcases h with rfl | ⟨rfl, h⟩
  · exact hc
  · rcases h with h | h
    · rw [hi] at h; cases h
    · have h3 : o.qrBlockWidth = 3 * (o.qrBlockWidth / 3) := by omega
      have h3' : (o.qrBlockWidth : Rat) = 3 * ((o.qrBlockWidth / 3 : Int) : Rat) := by exact_mod_cast congrArg (Int.cast : Int → Rat) h3
      have e := hc.2 ⟨X + i * (o.qrBlockWidth / 3), by rw [h3']; push_cast; ring⟩
      exact ⟨⟨by linarith, by linarith⟩, fun _ => e⟩

theorem Sim.within {e : Rat} {o o' : Opts} (h : Sim o o') (hw : Within e o) : Within e o' := by
  rcases hw with rfl | ⟨rfl, hw⟩
  · exact .inl rfl
  · refine .inr ⟨rfl, ?_⟩
    unfold NoThirds at hw ⊢
    have e1 : o'.halftone = o.halftone := by rw [h.eq]
    have e2 : o'.qrBlockWidth = o.qrBlockWidth := by rw [h.eq]; rfl
    rw [e1, e2]; exact hw

/-- One module: the calls of exact arithmetic, but for the coordinates. -/
theorem drawModuleM_near (M : Machine) {rnd : Rat → Rat} (H : Rnd rnd) (scale : Scaler) {o : Opts} (hm : Small o) {e : Rat} (he : Within e o) (hA : M.arch.bits = 32 ∨ M.arch.bits = 64) (w h : Int) (dim : Nat) (bm : List (List Bool)) (safe : Bool)
    (lw lh : Int) (shape : Shape) {x y : Nat} (hx : x ≤ 177) (hy : y ≤ 177) (v : QRValue) :
    List.Forall₂ (OpCl e) (drawModuleM M rnd scale w h dim bm safe lw lh shape o x y v).1 (drawModuleOn M.arch scale w h dim bm safe lw lh shape o x y v).1 ∧
    (drawModuleM M rnd scale w h dim bm safe lw lh shape o x y v).2 = (drawModuleOn M.arch scale w h dim bm safe lw lh shape o x y v).2 := by
  obtain ⟨b0, b1⟩ := blockWidth_pos o
  have hb := (translate_sim (Sim.refl o) v).2.eq
  have eb : (o.translateToRGBA v).2.borders = o.borders := by rw [hb]
  have eh : (o.translateToRGBA v).2.halftone = o.halftone := by rw [hb]
  obtain ⟨x1, x2⟩ := module_offset hx b0 b1
  obtain ⟨y1, y2⟩ := module_offset hy b0 b1
  have l := hm.left
  have t := hm.top
  have e1 : M.arch.add (M.arch.mul x o.qrBlockWidth) o.borders.left = x * o.qrBlockWidth + o.borders.left := by
    unfold Arch.add Arch.mul
    rw [wrapOn_eq hA (x := (x : Int) * o.qrBlockWidth) (by omega) (by omega), wrapOn_eq hA (by omega) (by omega)]
  have e2 : M.arch.add (M.arch.mul y o.qrBlockWidth) o.borders.top = y * o.qrBlockWidth + o.borders.top := by
    unfold Arch.add Arch.mul
    rw [wrapOn_eq hA (x := (y : Int) * o.qrBlockWidth) (by omega) (by omega), wrapOn_eq hA (by omega) (by omega)]
  unfold drawModuleM drawModuleOn
  simp only [eb, e1, e2]
  generalize hX : (x : Int) * o.qrBlockWidth + o.borders.left = X at *
  generalize hY : (y : Int) * o.qrBlockWidth + o.borders.top = Y at *
  have rX : rnd (X : Rat) = X := H.int _ (by omega) (by omega)
  have rY : rnd (Y : Rat) = Y := H.int _ (by omega) (by omega)
  split
  · exact ⟨.nil, rfl⟩
  · obtain ⟨ty, bit⟩ := v
    simp only [QRValue.qrtype, rX, rY]
    rw [eh]
    cases hh : o.halftone <;> cases ty <;> first | exact ⟨opCl_refl _, rfl⟩ | skip
    simp only
    refine ⟨forall₂_flatMap fun i hi => forall₂_map fun j hj => OpCl.shape _ _ ⟨?_, ?_, ?_, ?_, rfl, rfl⟩, trivial⟩
    · have := sub_coord H b0 b1 (X := X) (by omega) (by omega) (M.sub x y i j).1 (List.mem_range.1 hi)
      rw [rX] at this
      exact he.sub hh this
    · have := sub_coord H b0 b1 (X := Y) (by omega) (by omega) (M.sub x y i j).2 (List.mem_range.1 hj)
      rw [rY] at this
      exact he.sub hh this
    · exact (third_rnd H b0 b1).2.2
    · exact (third_rnd H b0 b1).2.2

theorem drawModuleOn_sim (A : Arch) (scale : Scaler) (w h : Int) (dim : Nat) (bm : List (List Bool)) (safe : Bool) (lw lh : Int) (shape : Shape) (o : Opts) (x y : Nat) (v : QRValue) :
    Sim o (drawModuleOn A scale w h dim bm safe lw lh shape o x y v).2 := by
  have ht := (translate_sim (Sim.refl o) v).2
  unfold drawModuleOn
  simp only
  split
  · exact Sim.refl o
  · obtain ⟨ty, bit⟩ := v
    simp only [QRValue.qrtype]
    generalize hh : (o.translateToRGBA ⟨ty, bit⟩).2.halftone = hf
    cases ty <;> cases hf <;> exact ht

/-- Two runs over the modules that make nearly the same calls. -/
theorem foldl_near {α : Type} {R : DrawOp → DrawOp → Prop} {f g : Opts → α → List DrawOp × Opts} (P : Opts → Prop) : ∀ (l : List α) (ops ops' : List DrawOp) (o : Opts), P o →
    List.Forall₂ R ops ops' → (∀ o a, P o → a ∈ l → List.Forall₂ R (f o a).1 (g o a).1 ∧ (f o a).2 = (g o a).2 ∧ P (g o a).2) →
    List.Forall₂ R (l.foldl (fun (st : List DrawOp × Opts) a => (st.1 ++ (f st.2 a).1, (f st.2 a).2)) (ops, o)).1
      (l.foldl (fun (st : List DrawOp × Opts) a => (st.1 ++ (g st.2 a).1, (g st.2 a).2)) (ops', o)).1 ∧
    (l.foldl (fun (st : List DrawOp × Opts) a => (st.1 ++ (f st.2 a).1, (f st.2 a).2)) (ops, o)).2 =
      (l.foldl (fun (st : List DrawOp × Opts) a => (st.1 ++ (g st.2 a).1, (g st.2 a).2)) (ops', o)).2
  | [], _, _, _, _, hr, _ => ⟨hr, rfl⟩
  | a :: l, ops, ops', o, hp, hr, h => by
    obtain ⟨h1, h2, h3⟩ := h o a hp List.mem_cons_self
    rw [List.foldl_cons, List.foldl_cons]
    simp only
    rw [h2]
    exact foldl_near P l _ _ _ h3 (forall₂_append hr h1) fun o b hp hb => h o b hp (List.mem_cons_of_mem _ hb)

/-- The calls of a run of `draw`. -/
def OpsCl (e : Rat) : Option (List DrawOp × Opts) → Option (List DrawOp × Opts) → Prop
  | none, none => True
  | some a, some b => List.Forall₂ (OpCl e) a.1 b.1 ∧ a.2 = b.2
  | _, _ => False

theorem drawM_near (M : Machine) {rnd : Rat → Rat} (H : Rnd rnd) (scale : Scaler) {o : Opts} (hm : Small o) {e : Rat} (he : Within e o) (hA : M.arch.bits = 32 ∨ M.arch.bits = 64) {m : Matrix} (hw : m.width ≤ 177) (hh : m.height ≤ 177) :
    OpsCl e (drawM M rnd scale o m) (drawOn M.arch scale o m) := by
  have hs := backgroundColor_sim o
  have hmo := hs.small hm
  have heo := hs.within he
  unfold drawM drawOn
  simp only
  split
  · generalize o.backgroundColor.2 = o1 at *
    generalize o.backgroundColor.1 = bg at *
    generalize M.arch.add (M.arch.add (M.arch.mul m.width o.qrBlockWidth) o.borders.left) o.borders.right = w at *
    generalize M.arch.add (M.arch.add (M.arch.mul m.height o.qrBlockWidth) o.borders.top) o.borders.bottom = hgt at *
    generalize logoSizeOn M.arch o1 w hgt = sz at *
    obtain ⟨valid, lw, lh⟩ := sz
    simp only
    cases clearedBitmapOn M.arch o1 m w hgt (valid && o1.logoSafeZone) lw lh with
    | none => exact trivial
    | some bm =>
      rw [Option.map_some, Option.map_some]
      have hfold := foldl_near (R := OpCl e)
        (f := fun o' (a : Nat × Nat × QRValue) => drawModuleM M rnd scale w hgt m.width bm (valid && o1.logoSafeZone) lw lh o1.getShape o' a.1 a.2.1 a.2.2)
        (g := fun o' (a : Nat × Nat × QRValue) => drawModuleOn M.arch scale w hgt m.width bm (valid && o1.logoSafeZone) lw lh o1.getShape o' a.1 a.2.1 a.2.2)
        (fun o' => Small o' ∧ Within e o') (m.iterate .row) [.newContext w hgt, .fillRect bg 0 0 w hgt] _ o1 ⟨hmo, heo⟩ (opCl_refl _) (by
          rintro o' ⟨x, y, v⟩ hst hmem
          obtain ⟨g1, g2⟩ := mem_iterate.1 ⟨v, hmem⟩
          obtain ⟨k1, k2⟩ := drawModuleM_near M H scale hst.1 hst.2 hA w hgt m.width bm (valid && o1.logoSafeZone) lw lh o1.getShape (x := x) (y := y) (by omega) (by omega) v
          have hsim := drawModuleOn_sim M.arch scale w hgt m.width bm (valid && o1.logoSafeZone) lw lh o1.getShape o' x y v
          exact ⟨k1, k2, hsim.small hst.1, hsim.within hst.2⟩)
      obtain ⟨f1, f2⟩ := hfold
      change List.Forall₂ _ _ _ ∧ _
      generalize hst : List.foldl (fun (st : List DrawOp × Opts) (a : Nat × Nat × QRValue) =>
        (st.1 ++ (drawModuleM M rnd scale w hgt m.width bm (valid && o1.logoSafeZone) lw lh o1.getShape st.2 a.1 a.2.1 a.2.2).1,
          (drawModuleM M rnd scale w hgt m.width bm (valid && o1.logoSafeZone) lw lh o1.getShape st.2 a.1 a.2.1 a.2.2).2)) ([DrawOp.newContext w hgt, .fillRect bg 0 0 w hgt], o1) (m.iterate .row) = st at *
      generalize hst' : List.foldl (fun (st : List DrawOp × Opts) (a : Nat × Nat × QRValue) =>
        (st.1 ++ (drawModuleOn M.arch scale w hgt m.width bm (valid && o1.logoSafeZone) lw lh o1.getShape st.2 a.1 a.2.1 a.2.2).1,
          (drawModuleOn M.arch scale w hgt m.width bm (valid && o1.logoSafeZone) lw lh o1.getShape st.2 a.1 a.2.1 a.2.2).2)) ([DrawOp.newContext w hgt, .fillRect bg 0 0 w hgt], o1) (m.iterate .row) = st' at *
      simp only [f2]
      refine ⟨?_, trivial⟩
      cases st'.2.qrGradient <;> cases st'.2.logo <;> simp only
      · exact f1
      · split
        · exact forall₂_append f1 (opCl_refl _)
        · exact f1
      · exact forall₂_append f1 (opCl_refl _)
      · split
        · exact forall₂_append (forall₂_append f1 (opCl_refl _)) (opCl_refl _)
        · exact forall₂_append f1 (opCl_refl _)
  · exact trivial

theorem opCl_zero : ∀ {l l' : List DrawOp}, List.Forall₂ (OpCl 0) l l' → l = l'
  | _, _, .nil => rfl
  | _, _, .cons hh ht => by
    rw [opCl_zero ht]
    congr 1
    cases hh with
    | same => rfl
    | @shape fin sh c d h =>
      obtain ⟨⟨⟨a1, a2⟩, _⟩, ⟨⟨b1, b2⟩, _⟩, e3, e4, e5, e6⟩ := h
      have h1 : c.x = d.x := le_antisymm (by linarith) (by linarith)
      have h2 : c.y = d.y := le_antisymm (by linarith) (by linarith)
      cases c; cases d
      simp_all

/-- **C106, the calls.**  On every machine, within the limits of C99, `draw` makes the calls of exact arithmetic, one by one; coordinates that are whole are exact, and the others (a third of a
block, in halftone pictures) are off by at most a thousandth of a pixel.  It panics exactly if the picture is larger than the machine's largest slice. -/
theorem C106_calls {E : Ext} {unsjis : Nat → Option Nat} (hE : E.Ok unsjis) {c : AlignCache} (hc : CacheReachable c)
    {arrival : List Nat} (ha : Arrival arrival) {t : TextType} {text : Bytes} {opts : List EncodeOption} {q : QRCode}
    (h : newWith E c arrival t text opts = .ok q) (scale : Scaler) {o : Opts} (hm : Small o) (M : Machine) (hA : M.arch.bits = 32 ∨ M.arch.bits = 64) :
    (¬ 4 * ((o.attribute q.dimension).w.natAbs * (o.attribute q.dimension).h.natAbs) ≤ M.arch.limit → drawM M float64Round scale o q.mat = none) ∧
    (4 * ((o.attribute q.dimension).w.natAbs * (o.attribute q.dimension).h.natAbs) ≤ M.arch.limit → ∀ ops o', draw scale o q.mat = some (ops, o') →
      ∃ ops', drawM M float64Round scale o q.mat = some (ops', o') ∧ List.Forall₂ (OpCl (1 / 1000)) ops' ops ∧ (NoThirds o → ops' = ops)) := by
  obtain ⟨hw, hh⟩ := mat_size hE hc ha h
  have hd : q.dimension ≤ 177 := by
    obtain ⟨v', k, m, p, bits, hd, h1, h40, _⟩ := symbol_facts hE hc ha h
    omega
  have key := C99_draw hE hc ha h scale hm hA
  have near := fun (e : Rat) (he : Within e o) => drawM_near M Rnd.float64 scale hm he hA (m := q.mat) (by omega) (by omega)
  refine ⟨fun hbig => ?_, fun hfit ops o' hdr => ?_⟩
  · rw [if_neg hbig] at key
    have := near _ (.inl rfl)
    rw [key] at this
    cases hM : drawM M float64Round scale o q.mat with
    | none => rfl
    | some a => rw [hM] at this; exact this.elim
  · rw [if_pos hfit, hdr] at key
    have n1 := near _ (.inl rfl)
    rw [key] at n1
    cases hM : drawM M float64Round scale o q.mat with
    | none => rw [hM] at n1; exact n1.elim
    | some a =>
      rw [hM] at n1
      obtain ⟨k1, k2⟩ := n1
      obtain ⟨ops', o''⟩ := a
      simp only at k1 k2
      subst k2
      refine ⟨ops', rfl, k1, fun hno => ?_⟩
      have n0 := near 0 (.inr ⟨rfl, hno⟩)
      rw [key, hM] at n0
      exact opCl_zero n0.1

/-! ## The picture -/

theorem forall₂_append_inv {α β : Type} {R : α → β → Prop} : ∀ {b c : List β} {l : List α}, List.Forall₂ R l (b ++ c) → ∃ l1 l2, l = l1 ++ l2 ∧ List.Forall₂ R l1 b ∧ List.Forall₂ R l2 c
  | [], _, l, h => ⟨[], l, rfl, .nil, h⟩
  | _ :: _, _, _, .cons hh ht => by
    obtain ⟨l1, l2, rfl, h1, h2⟩ := forall₂_append_inv ht
    exact ⟨_ :: l1, l2, rfl, .cons hh h1, h2⟩

theorem opCl_other {e : Rat} : ∀ {l l' : List DrawOp}, List.Forall₂ (OpCl e) l l' → shapeCalls l' = [] → l = l'
  | _, _, .nil, _ => rfl
  | _, _, .cons (.same op) ht, h => by
    rename_i l1 l2
    have : shapeCalls l2 = [] := by
      unfold shapeCalls at h ⊢
      rw [List.filterMap_cons] at h
      split at h
      · exact h
      · cases h
    rw [opCl_other ht this]
  | _, _, .cons (.shape _ _ _) _, h => by cases h

/-- The calls for shapes. -/
def CallCl (e : Rat) (a b : Bool × Shape × Ctx) : Prop := a.1 = b.1 ∧ a.2.1 = b.2.1 ∧ CtxCl e a.2.2 b.2.2

theorem opCl_calls {e : Rat} (he : 0 ≤ e) : ∀ {calls : List (Bool × Shape × Ctx)} {l : List DrawOp}, List.Forall₂ (OpCl e) l (calls.map fun a => DrawOp.shape a.1 a.2.1 a.2.2) →
    ∃ calls', l = (calls'.map fun a => DrawOp.shape a.1 a.2.1 a.2.2) ∧ List.Forall₂ (CallCl e) calls' calls
  | [], _, .nil => ⟨[], rfl, .nil⟩
  | a :: calls, _, .cons hh ht => by
    obtain ⟨calls', rfl, h⟩ := opCl_calls he ht
    cases hh with
    | same => exact ⟨a :: calls', rfl, .cons ⟨rfl, rfl, .refl he _, .refl he _, rfl, rfl, rfl, rfl⟩ h⟩
    | shape fin sh hc =>
      rename_i c
      exact ⟨(a.1, a.2.1, c) :: calls', rfl, .cons ⟨rfl, rfl, hc⟩ h⟩

/-- A point close to a pixel at the centre of module `(i, j)`, in the coordinates of a sub-block. -/
theorem close_around_sub {o : Opts} (hw : 30 ≤ o.qrBlockWidth) (hmod : o.qrBlockWidth % 3 = 0) {i j : Nat} {px py : Int} (hc : AtCentre o i j px py) {p : Pt} (hp : CloseTo px py p)
    (scale : Scaler) (m : Matrix) (img : Image) (x y s t : Nat) :
    Around (3 * i + 1 - (3 * x + s) : Int) (3 * j + 1 - (3 * y + t) : Int) (inCtx (subCtx scale o m img x y s t) p) := by
  obtain ⟨c1, c2, c3, c4⟩ := close_centre hc hp
  have hk10 : (10 : Rat) ≤ ((o.qrBlockWidth / 3 : Int) : Rat) := by exact_mod_cast (by omega : 10 ≤ o.qrBlockWidth / 3)
  have e3 : (o.qrBlockWidth : Rat) = 3 * ((o.qrBlockWidth / 3 : Int) : Rat) := by
    have : o.qrBlockWidth = 3 * (o.qrBlockWidth / 3) := by omega
    exact_mod_cast congrArg (Int.cast : Int → Rat) this
  simp only [centre] at c1 c2 c3 c4
  unfold inCtx
  simp only [subCtx]
  push_cast
  rw [e3] at c1 c2 c3 c4 ⊢
  generalize ((o.qrBlockWidth / 3 : Int) : Rat) = w at *
  have hb : 0 < w / 2 := by linarith
  refine ⟨?_, ?_, ?_, ?_⟩ <;> simp only <;> push_cast
  · rw [le_div_iff₀ hb]; nlinarith
  · rw [div_le_iff₀ hb]; nlinarith
  · rw [le_div_iff₀ hb]; nlinarith
  · rw [div_le_iff₀ hb]; nlinarith

/-- Which third of which block a coordinate close to the middle of a block belongs to. -/
theorem third_near' {bw w left p a : Rat} (hbw : 12 ≤ bw) (hw : w ≤ bw / 3) {i x k : Nat} (hk : k < 3)
    (c1 : p ≤ left + bw * (i + 1 / 2) + 5 / 4) (c2 : left + bw * (i + 1 / 2) - 5 / 4 ≤ p)
    (ha : (x : Rat) * bw + left + (k : Rat) * (bw / 3) - 1 / 1000 ≤ a ∧ a ≤ (x : Rat) * bw + left + (k : Rat) * (bw / 3) + 1 / 1000)
    (h1 : a ≤ p) (h2 : p ≤ a + w) : x = i ∧ k = 1 := by
  have hpos : 0 < bw := by linarith
  obtain ⟨g1, g2⟩ := ha
  have a1 : ((6 * x + 2 * k : Nat) : Rat) * bw < ((6 * i + 4 : Nat) : Rat) * bw := by push_cast; linarith
  have a2 : ((6 * i + 2 : Nat) : Rat) * bw < ((6 * x + 2 * k + 2 : Nat) : Rat) * bw := by push_cast; linarith
  have b1 : 6 * x + 2 * k < 6 * i + 4 := by exact_mod_cast lt_of_mul_lt_mul_right a1 hpos.le
  have b2 : 6 * i + 2 < 6 * x + 2 * k + 2 := by exact_mod_cast lt_of_mul_lt_mul_right a2 hpos.le
  omega

/-- One sub-block on a machine. -/
theorem sub_pixels64 {assembled : Nat → DrawFn × DrawFn} {o : Opts} (hS : SubPixels o (meaning assembled o.getShape)) (hbold : (meaning assembled o.getShape).bold64 float64Round) (hm : Small o)
    (scale : Scaler) (m : Matrix) (img : Image) {x y s t : Nat} (hx : x ≤ 177) (hy : y ≤ 177) (hs : s < 3) (ht : t < 3) {c : Ctx} (hcl : CtxCl (1 / 1000) c (subCtx scale o m img x y s t)) (fuse : Nat → Bool) :
    let l := (meaning assembled o.getShape).cmds64 float64Round fuse false c
    leftover [] l = [] ∧
    (∀ i j px py, AtCentre o i j px py → ∀ path ∈ fills [] l, ∀ f ∈ path, ∀ p, CloseTo px py p → f.covers p → x = i ∧ y = j ∧ s = 1 ∧ t = 1) ∧
    (s = 1 → t = 1 → ∀ px py, AtCentre o x y px py → ∃ path ∈ fills [] l, ∃ f ∈ path, ∀ p, CloseTo px py p → f.covers p) := by
  intro l
  obtain ⟨b0, b1⟩ := blockWidth_pos o
  obtain ⟨x1, x2⟩ := module_offset hx b0 b1
  obtain ⟨y1, y2⟩ := module_offset hy b0 b1
  have hl := hm.left
  have htp := hm.top
  rcases hS.2 with hr | ⟨h30, hmod, hns⟩
  · have h12 : (12 : Rat) ≤ (o.qrBlockWidth : Rat) := by exact_mod_cast hS.1
    obtain ⟨⟨ex, _⟩, ⟨ey, _⟩, ew, eh, _, _⟩ := hcl
    have e1 : float64Round ((c.w : Int) : Rat) = ((o.qrBlockWidth / 3 : Int) : Rat) := by
      rw [ew]; exact Rnd.float64.int _ (by show _ ≤ o.qrBlockWidth / 3; omega) (by show o.qrBlockWidth / 3 ≤ _; omega)
    have e2 : float64Round ((c.h : Int) : Rat) = ((o.qrBlockWidth / 3 : Int) : Rat) := by
      rw [eh]; exact Rnd.float64.int _ (by show _ ≤ o.qrBlockWidth / 3; omega) (by show o.qrBlockWidth / 3 ≤ _; omega)
    have hlc : l = [.add (.rect c.x c.y ((o.qrBlockWidth / 3 : Int) : Rat) ((o.qrBlockWidth / 3 : Int) : Rat)), .fill] := by
      show (meaning assembled o.getShape).cmds64 float64Round fuse false c = _
      rw [hr]
      show [Cmd.add (.rect c.x c.y (float64Round c.w) (float64Round c.h)), .fill] = _
      rw [e1, e2]
    have hle : ((o.qrBlockWidth / 3 : Int) : Rat) ≤ (o.qrBlockWidth : Rat) / 3 := by
      have : (((o.qrBlockWidth / 3) * 3 : Int) : Rat) ≤ (o.qrBlockWidth : Rat) := Rat.intCast_le_intCast.2 (by omega)
      push_cast at this
      linarith
    have hk3 : (o.qrBlockWidth : Rat) / 6 + 5 / 4 + 1 / 100 < ((o.qrBlockWidth / 3 : Int) : Rat) := by
      have hk2 : (o.qrBlockWidth : Rat) + 8 < 6 * ((o.qrBlockWidth / 3 : Int) : Rat) ∨ o.qrBlockWidth = 13 ∨ o.qrBlockWidth = 14 ∨ o.qrBlockWidth = 12 := by
        have := hS.1
        by_cases h : o.qrBlockWidth + 8 < 6 * (o.qrBlockWidth / 3)
        · left; exact_mod_cast h
        · right; omega
      rcases hk2 with h | h | h | h
      · linarith
      · rw [h]; norm_num
      · rw [h]; norm_num
      · rw [h]; norm_num
    simp only [subCtx] at ex ey
    push_cast at ex ey
    rw [hlc]
    refine ⟨rfl, ?_, ?_⟩
    · intro i j px py hat path hpath f hf p hp hc
      have hpath' : path = [.rect c.x c.y ((o.qrBlockWidth / 3 : Int) : Rat) ((o.qrBlockWidth / 3 : Int) : Rat)] := by
        have : fills [] [Cmd.add (.rect c.x c.y ((o.qrBlockWidth / 3 : Int) : Rat) ((o.qrBlockWidth / 3 : Int) : Rat)), .fill] =
          [[.rect c.x c.y ((o.qrBlockWidth / 3 : Int) : Rat) ((o.qrBlockWidth / 3 : Int) : Rat)]] := rfl
        rw [this] at hpath
        exact List.mem_singleton.1 hpath
      subst hpath'
      have := List.mem_singleton.1 hf
      subst this
      obtain ⟨k1, k2, k3, k4⟩ := hc
      obtain ⟨c1, c2, c3, c4⟩ := close_centre hat hp
      simp only [centre] at c1 c2 c3 c4
      obtain ⟨r1, r2⟩ := third_near' (i := i) (x := x) (p := p.x) (left := o.borders.left) h12 hle hs c1 c2 ex k1 k2.le
      obtain ⟨r3, r4⟩ := third_near' (i := j) (x := y) (p := p.y) (left := o.borders.top) h12 hle ht c3 c4 ey k3 k4.le
      exact ⟨r1, r3, r2, r4⟩
    · rintro rfl rfl px py hat
      refine ⟨_, List.mem_cons_self, _, List.mem_cons_self, fun p hp => ?_⟩
      obtain ⟨c1, c2, c3, c4⟩ := close_centre hat hp
      simp only [centre] at c1 c2 c3 c4
      push_cast at ex ey hk3
      refine ⟨?_, ?_, ?_, ?_⟩ <;> linarith
  · have hk10 : 10 ≤ o.qrBlockWidth / 3 := by omega
    have e3 : (o.qrBlockWidth : Rat) / 3 = ((o.qrBlockWidth / 3 : Int) : Rat) := by
      have : o.qrBlockWidth = 3 * (o.qrBlockWidth / 3) := by omega
      have : (o.qrBlockWidth : Rat) = 3 * ((o.qrBlockWidth / 3 : Int) : Rat) := by exact_mod_cast congrArg (Int.cast : Int → Rat) this
      linarith
    have hsw : ∀ k : Nat, k < 3 → 0 ≤ (k : Int) * (o.qrBlockWidth / 3) ∧ (k : Int) * (o.qrBlockWidth / 3) ≤ 170 := by
      intro k hk
      have : k = 0 ∨ k = 1 ∨ k = 2 := by omega
      rcases this with rfl | rfl | rfl <;> push_cast <;> omega
    obtain ⟨s1, s2⟩ := hsw s hs
    obtain ⟨t1, t2⟩ := hsw t ht
    have wx : (subCtx scale o m img x y s t).x = (((x : Int) * o.qrBlockWidth + o.borders.left + s * (o.qrBlockWidth / 3) : Int) : Rat) := by
      simp only [subCtx]; rw [e3]; push_cast; ring
    have wy : (subCtx scale o m img x y s t).y = (((y : Int) * o.qrBlockWidth + o.borders.top + t * (o.qrBlockWidth / 3) : Int) : Rat) := by
      simp only [subCtx]; rw [e3]; push_cast; ring
    have hce := hcl.eq ⟨_, wx⟩ ⟨_, wy⟩
    subst hce
    have hwhole : Whole (subCtx scale o m img x y s t) := ⟨⟨_, wx, by omega, by omega⟩, ⟨_, wy, by omega, by omega⟩,
      ⟨by show 0 ≤ o.qrBlockWidth / 3; omega, by show o.qrBlockWidth / 3 ≤ _; omega⟩, by show 0 ≤ o.qrBlockWidth / 3; omega, by show o.qrBlockWidth / 3 ≤ _; omega⟩
    have hU : BlockNear _ _ l := lib64_near Rnd.float64 fuse (meaning assembled o.getShape) hbold false hwhole rfl hk10
    have hno : ¬ flag (subCtx scale o m img x y s t).neighbours 4 := by
      show ¬ flag 0 4
      intro h
      have : (0 : UInt16).toNat = 0 := rfl
      unfold flag at h
      rw [this, Nat.zero_testBit] at h
      cases h
    refine ⟨hU.left, ?_, ?_⟩
    · intro i j px py hat path hpath f hf p hp hc
      have hadd : Cmd.add f ∈ l := by
        rcases mem_fills_add l [] hpath hf with h | h
        · cases h
        · exact h
      rcases hU.near f hadd _ _ p (close_around_sub h30 hmod hat hp scale m img x y s t) hc with ⟨h1, h2⟩ | ⟨h4, _⟩
      · omega
      · exact absurd h4 hno
    · rintro rfl rfl px py hat
      obtain ⟨g, hg, hgc⟩ := hU.own (.inr hns)
      obtain ⟨path, hp, hgp⟩ := add_mem_fills l [] hU.left (.inr hg)
      refine ⟨path, hp, g, hgp, fun p hcl => hgc p ?_⟩
      have := close_around_sub h30 hmod hat hcl scale m img x y 1 1
      have e : (3 * (x : Int) + 1 - (3 * x + (1 : Nat))) = 0 ∧ (3 * (y : Int) + 1 - (3 * y + (1 : Nat))) = 0 := by omega
      rwa [e.1, e.2] at this

/-- The picture on a machine, without halftone. -/
theorem machine_plain {drawn : Option (List DrawOp × Opts)} (scale : Scaler) {cov : Coverage} (hcov : Rasters cov) (blend : Blend) {grad : GradientPainter}
    (assembled : Nat → DrawFn × DrawFn) (fuse : Shape → Bool → Ctx → Nat → Bool) {o : Opts} (hw : 10 ≤ o.qrBlockWidth) (hbold : (meaning assembled o.getShape).bold64 float64Round) (hht : o.halftone = none)
    (hcol : Contrast o) (hg : ∀ g, o.qrGradient = some g → KeepsInk o g grad) {m : Matrix} (hsq : m.width = m.height)
    (hb : 0 ≤ o.borders.top ∧ 0 ≤ o.borders.right ∧ 0 ≤ o.borders.bottom ∧ 0 ≤ o.borders.left) (hcw : canvasW o m ≤ 2 ^ 30) (hch : canvasH o m ≤ 2 ^ 30) (hpos : 0 < m.width)
    (hl : ∀ img, o.logo = some img → logoValid o m = true → img.minX = 0 ∧ img.minY = 0) (he : drawn = draw scale o m) :
    CentrePictureRun drawn cov blend grad (meaning assembled o.getShape) (run64 assembled fuse) o m := by
  obtain ⟨bm, o', cv, _, hd, hfold, s1, s2, hpix⟩ := shapes_body scale hcov blend grad (meaning assembled o.getShape) (run64 assembled fuse) hw hht hcol hsq hb hpos
    (fun bm x y hx hy => lib64_near Rnd.float64 _ _ hbold _ (module_whole hb hcw hch bm hx hy) rfl hw)
  exact picture_of_body blend (meaning assembled o.getShape) (run64 assembled fuse) hw hcol hg (he.trans hd) hfold s1 s2 hpix hl

/-- The picture on a machine, with a halftone image. -/
theorem machine_halftone {drawn : Option (List DrawOp × Opts)} (scale : Scaler) {cov : Coverage} (hcov : Rasters cov) (blend : Blend) {grad : GradientPainter}
    (assembled : Nat → DrawFn × DrawFn) (fuse : Shape → Bool → Ctx → Nat → Bool) {o : Opts} (hS : SubPixels o (meaning assembled o.getShape)) (hbold : (meaning assembled o.getShape).bold64 float64Round)
    {himg : Image} (hht : o.halftone = some himg) (hm : Small o)
    (hcol : Contrast o) (hg : ∀ g, o.qrGradient = some g → KeepsInk o g grad) {m : Matrix} (hsq : m.width = m.height) (hsize : m.width ≤ 177)
    (hb : 0 ≤ o.borders.top ∧ 0 ≤ o.borders.right ∧ 0 ≤ o.borders.bottom ∧ 0 ≤ o.borders.left) (hcw : canvasW o m ≤ 2 ^ 30) (hch : canvasH o m ≤ 2 ^ 30) (hpos : 0 < m.width)
    (hl : ∀ img, o.logo = some img → logoValid o m = true → img.minX = 0 ∧ img.minY = 0)
    (he : ∀ ops o', draw scale o m = some (ops, o') → ∃ ops', drawn = some (ops', o') ∧ List.Forall₂ (OpCl (1 / 1000)) ops' ops) :
    CentrePictureRun drawn cov blend grad (meaning assembled o.getShape) (run64 assembled fuse) o m := by
  have hw : 10 ≤ o.qrBlockWidth := by have := hS.1; omega
  obtain ⟨ops, o1, bm, hd, hM, hcalls⟩ := halftone_calls scale hsq hht
  obtain ⟨bm', hbm', _⟩ := mask_any (o := o) hsq
  obtain ⟨o', hde⟩ : ∃ o', draw scale o m = some (bodyOps scale o m bm' ++ tailOps o m, o') := by
    obtain ⟨o', _, he⟩ := draw_eq scale o m hbm'
    exact ⟨o', he⟩
  have hops : ops = bodyOps scale o m bm' ++ tailOps o m := by
    rw [hd] at hde
    exact congrArg Prod.fst (Option.some.inj hde)
  generalize hl0 : (m.iterate .row).flatMap (fun a => moduleOps scale (canvasW o m) (canvasH o m) m.width bm' (safeOn o m) (logoW o m)
          (logoH o m) o a.1 a.2.1 a.2.2) = l0
  have hsc : shapeCalls ops = shapeCalls l0 := by
    rw [hops]
    unfold bodyOps
    rw [hl0, shapeCalls_append, shapeCalls_append, (tail_shapes o m).1, List.append_nil]
    rfl
  have hl0' := only_shapes l0 (fun op hop => by
    rw [← hl0] at hop
    obtain ⟨a, _, hop⟩ := List.mem_flatMap.1 hop
    exact moduleOps_only op hop)
  rw [hsc] at hcalls
  have hbody : bodyOps scale o m bm' = headOps o m ++ (shapeCalls l0).map fun a => DrawOp.shape a.1 a.2.1 a.2.2 := by
    unfold bodyOps headOps
    rw [hl0, ← hl0']
  rw [hbody] at hde
  obtain ⟨ops', hdrawn, hcl⟩ := he _ _ hde
  obtain ⟨body, tail, rfl, hcl1, hcl2⟩ := forall₂_append_inv hcl
  obtain ⟨head, mid, rfl, hcl3, hcl4⟩ := forall₂_append_inv hcl1
  have e1 := opCl_other hcl2 (tail_shapes o m).1
  have e2 := opCl_other hcl3 rfl
  obtain ⟨calls', rfl, hcc⟩ := opCl_calls (by norm_num) hcl4
  subst e1 e2
  -- what the modules drawn whole do
  have hwhole : ∀ x y, x < m.width → y < m.height → Whole (moduleCtx o bm x y (m.raw x y)) := fun x y hx hy => module_whole hb hcw hch bm hx hy
  have hpx := fun x y (hx : x < m.width) (hy : y < m.height) =>
    module_pixels_run hw (meaning assembled o.getShape) hM x y (lib64_near Rnd.float64 (fuse o.getShape (decide ((m.raw x y).ty = .finder)) (moduleCtx o bm x y (m.raw x y)))
      (meaning assembled o.getShape) hbold (decide ((m.raw x y).ty = .finder)) (hwhole x y hx hy) rfl hw)
  -- the calls made
  have hmade : ∀ a' ∈ calls', ∃ x y, x < m.width ∧ y < m.height ∧
      (((m.raw x y).ty = .data ∧ ∃ s t, s < 3 ∧ t < 3 ∧ ∃ c, a' = (false, o.getShape, c) ∧ CtxCl (1 / 1000) c (subCtx scale o m himg x y s t)) ∨
       a' = (decide ((m.raw x y).ty = .finder), o.getShape, moduleCtx o bm x y (m.raw x y))) := by
    intro a' ha'
    obtain ⟨a, ha, h1, h2, h3⟩ := forall₂_left hcc a' ha'
    obtain ⟨x, y, hx, hy, _, ⟨hty, s, t, hs, ht, rfl⟩ | ⟨_, rfl⟩⟩ := (hcalls a).1 ha
    · refine ⟨x, y, hx, hy, .inl ⟨hty, s, t, hs, ht, a'.2.2, ?_, h3⟩⟩
      exact Prod.ext h1 (Prod.ext h2 rfl)
    · refine ⟨x, y, hx, hy, .inr ?_⟩
      have := h3.eq ⟨_, rfl⟩ ⟨_, rfl⟩
      exact Prod.ext h1 (Prod.ext h2 this)
  have hsub := fun {x y s t : Nat} (hx : x < m.width) (hy : y < m.height) (hs : s < 3) (ht : t < 3) {c : Ctx} (h : CtxCl (1 / 1000) c (subCtx scale o m himg x y s t)) =>
    sub_pixels64 (assembled := assembled) hS hbold hm scale m himg (by omega : x ≤ 177) (by omega : y ≤ 177) hs ht h (fuse o.getShape false c)
  obtain ⟨cv, h1, h2, h3, h4⟩ := calls_body hcov blend grad (run64 assembled fuse) hw hcol hsq hb hpos (calls := calls') (fun a ha => by
    obtain ⟨x, y, hx, hy, ⟨_, s, t, hs, ht, c, rfl, hc⟩ | rfl⟩ := hmade a ha
    · exact (hsub hx hy hs ht hc).1
    · exact (hpx x y hx hy).1)
  refine picture_of_body blend (meaning assembled o.getShape) (run64 assembled fuse) hw hcol hg hdrawn h1 h2 h3
    (fun x y px py hx hy hat hok => h4 x y px py hx hy hat (fun a ha => ?_) (fun hbit => ?_)) hl
  · obtain ⟨x', y', hx', hy', ⟨_, s, t, hs, ht, c, rfl, hc⟩ | rfl⟩ := hmade a ha
    · intro path hp f hf p hcl hcv
      obtain ⟨rfl, rfl, rfl, rfl⟩ := (hsub hx' hy' hs ht hc).2.1 x y px py hat path hp f hf p hcl hcv
      rw [hc.rest.2.2.1]
      simp only [subCtx, and_self, if_true]
    · exact (hpx x' y' hx' hy').2.1 x y px py hat
  · obtain ⟨g1, g2⟩ := hok hbit
    by_cases hdt : (m.raw x y).ty = .data
    · obtain ⟨a', ha', k1, k2, k3⟩ := forall₂_right hcc _ ((hcalls (false, o.getShape, subCtx scale o m himg x y 1 1)).2 ⟨x, y, hx, hy, drawn_of g1, .inl ⟨hdt, 1, 1, by omega, by omega, rfl⟩⟩)
      obtain ⟨path, hp, f, hf, hcv⟩ := (hsub hx hy (s := 1) (t := 1) (by omega) (by omega) k3).2.2 rfl rfl px py hat
      refine ⟨a', ha', path, ?_, f, hf, hcv⟩
      obtain ⟨b1, b2, b3⟩ := a'
      cases k1
      cases k2
      exact hp
    · obtain ⟨a', ha', k1, k2, k3⟩ := forall₂_right hcc _ ((hcalls (decide ((m.raw x y).ty = .finder), o.getShape, moduleCtx o bm x y (m.raw x y))).2 ⟨x, y, hx, hy, drawn_of g1, .inr ⟨hdt, rfl⟩⟩)
      have hce := k3.eq ⟨_, rfl⟩ ⟨_, rfl⟩
      obtain ⟨path, hp, f, hf, hcv⟩ := (hpx x y hx hy).2.2 px py hat hx hy hbit g2
      refine ⟨a', ha', path, ?_, f, hf, hcv⟩
      obtain ⟨b1, b2, b3⟩ := a'
      cases k1
      cases k2
      cases hce
      exact hp

/-- A gradient with fused operations. -/
theorem fused_keeps {o : Opts} {g : LinearGradient} (hcol : Contrast o) (hgc : GradientContrast o g) {put : Put} (hput : PutsOver put) (direction : Rat → Rat × Rat) (M : Machine) :
    KeepsInk o g (M.grad put direction) := by
  intro cv
  obtain ⟨cv', hcv'⟩ : ∃ cv', cv.applyGradientF M.gradient put direction g o.qrColor = some cv' := by
    unfold Canvas.applyGradientF
    rw [if_neg hgc.some_stop]
    exact ⟨_, rfl⟩
  refine ⟨cv', hcv', ?_⟩
  unfold Canvas.applyGradientF at hcv'
  rw [if_neg hgc.some_stop] at hcv'
  cases hcv'
  refine ⟨rfl, rfl, fun px py v hr hcc => ?_⟩
  simp only
  rw [if_pos hr, hcc]
  unfold gradientPixelF
  split
  · rename_i c hcc
    refine ⟨gradient_inkF hcol hgc hput _ _ _ hcc, fun ht => ?_⟩
    obtain ⟨c0, e, h0⟩ := gradient_colourF hgc.some_stop hgc.positions hgc.solid (M.gradient.channel px py)
        (gradientPosF float64Round M.gradient.corner (M.gradient.pixel px py) (direction g.angle).1 (direction g.angle).2 cv.w cv.h px py)
    rw [e] at hcc
    exact gradient_tone hcol hput ht v hcc h0
  · rename_i hcc
    exfalso
    split at hcc
    · obtain ⟨c, e, _⟩ := gradient_colourF hgc.some_stop hgc.positions hgc.solid (M.gradient.channel px py)
        (gradientPosF float64Round M.gradient.corner (M.gradient.pixel px py) (direction g.angle).1 (direction g.angle).2 cv.w cv.h px py)
      rw [e] at hcc
      cases hcc
    · cases hcc

/-- The picture of a symbol, on a machine. -/
theorem machine_picture {E : Ext} {unsjis : Nat → Option Nat} (hE : E.Ok unsjis) {c : AlignCache} (hc : CacheReachable c)
    {arrival : List Nat} (ha : Arrival arrival) {t : TextType} {text : Bytes} {opts : List EncodeOption} {q : QRCode}
    (h : newWith E c arrival t text opts = .ok q) (M : Machine) (hA : M.arch.bits = 32 ∨ M.arch.bits = 64)
    (scale : Scaler) {cov : Coverage} (hcov : Rasters cov) (blend : Blend) {put : Put} (hput : PutsOver put) (direction : Rat → Rat × Rat)
    (assembled : Nat → DrawFn × DrawFn) {o : Opts} (hm : Small o) (hw : 10 ≤ o.qrBlockWidth) (hbold : (meaning assembled o.getShape).bold64 float64Round)
    (hht : ∀ himg, o.halftone = some himg → SubPixels o (meaning assembled o.getShape))
    (hcol : Contrast o) (hg : ∀ g, o.qrGradient = some g → GradientContrast o g)
    (hb : 0 ≤ o.borders.top ∧ 0 ≤ o.borders.right ∧ 0 ≤ o.borders.bottom ∧ 0 ≤ o.borders.left)
    (hfit : 4 * ((o.attribute q.dimension).w.natAbs * (o.attribute q.dimension).h.natAbs) ≤ M.arch.limit)
    (hl : ∀ img, o.logo = some img → logoValid o q.mat = true → img.minX = 0 ∧ img.minY = 0) :
    CentrePictureRun (drawM M float64Round scale o q.mat) cov blend (M.grad put direction) (meaning assembled o.getShape) (M.run (meaning assembled)) o q.mat := by
  obtain ⟨hmw, hmh⟩ := mat_size hE hc ha h
  have hd : 0 < q.dimension ∧ q.dimension ≤ 177 := by
    obtain ⟨v', k, m, p, bits, hd, h1, h40, _⟩ := symbol_facts hE hc ha h
    omega
  obtain ⟨b0, b1⟩ := blockWidth_pos o
  have hcw : canvasW o q.mat ≤ 2 ^ 30 := by
    obtain ⟨_, x2⟩ := module_offset (x := q.mat.width) (by omega) b0 b1
    have := hm.left.2
    have := hm.right.2
    unfold canvasW; omega
  have hch : canvasH o q.mat ≤ 2 ^ 30 := by
    obtain ⟨_, x2⟩ := module_offset (x := q.mat.height) (by omega) b0 b1
    have := hm.top.2
    have := hm.bottom.2
    unfold canvasH; omega
  have key := (C106_calls hE hc ha h scale hm M hA).2 hfit
  have hk : ∀ g, o.qrGradient = some g → KeepsInk o g (M.grad put direction) := fun g hgr => fused_keeps hcol (hg g hgr) hput direction M
  cases hh : o.halftone with
  | none =>
    obtain ⟨bm, hbm, _⟩ := mask_any (o := o) (hmw.trans hmh.symm)
    obtain ⟨o', _, hdr⟩ := draw_eq scale o q.mat hbm
    obtain ⟨ops', h1, _, h3⟩ := key _ _ hdr
    exact machine_plain scale hcov blend assembled M.shape hw hbold hh hcol hk (hmw.trans hmh.symm) hb hcw hch (by omega) hl (by rw [h1, h3 (.inl hh), hdr])
  | some himg =>
    exact machine_halftone scale hcov blend assembled M.shape (hht himg hh) hbold hh hm hcol hk (hmw.trans hmh.symm) (by omega) hb hcw hch (by omega) hl
      (fun ops o' hdr => by
        obtain ⟨ops', h1, h2, _⟩ := key ops o' hdr
        exact ⟨ops', h1, h2⟩)

/-- **C106, readable.**  On every machine, whatever it fuses: within the limits of C99 and with a picture that fits, any shape of this library that is not too thin, with or without a halftone image
(under the conditions of C84) and a gradient, no logo (or one that is too large), borders that are not negative, colours that can be told apart: drawing succeeds, and a scanner that looks at one
pixel at the centre of every block reads exactly the text. -/
theorem C106_text {E : Ext} {unsjis : Nat → Option Nat} (hE : E.Ok unsjis) {c : AlignCache} (hc : CacheReachable c)
    {arrival : List Nat} (ha : Arrival arrival) {t : TextType} {text : Bytes} {opts : List EncodeOption} {q : QRCode}
    (h : newWith E c arrival t text opts = .ok q)
    (hx : ¬ (modeIn opts = encAuto ∧ AlnumThenKanji E.sjis (nats text)))
    (M : Machine) (hA : M.arch.bits = 32 ∨ M.arch.bits = 64)
    (scale : Scaler) {cov : Coverage} (hcov : Rasters cov) (blend : Blend) {put : Put} (hput : PutsOver put) (direction : Rat → Rat × Rat)
    (assembled : Nat → DrawFn × DrawFn) {o : Opts} (hm : Small o) (hw : 10 ≤ o.qrBlockWidth) (hbold : (meaning assembled o.getShape).bold64 float64Round)
    (hht : ∀ himg, o.halftone = some himg → SubPixels o (meaning assembled o.getShape))
    (hcol : Contrast o) (hg : ∀ g, o.qrGradient = some g → GradientContrast o g)
    (hb : 0 ≤ o.borders.top ∧ 0 ≤ o.borders.right ∧ 0 ≤ o.borders.bottom ∧ 0 ≤ o.borders.left)
    (hfit : 4 * ((o.attribute q.dimension).w.natAbs * (o.attribute q.dimension).h.natAbs) ≤ M.arch.limit)
    (hl : ∀ img, o.logo = some img → ¬ (o.logoSizeMultiplier * (img.maxX - img.minX) ≤ (o.attribute q.dimension).w ∧
      o.logoSizeMultiplier * (img.maxY - img.minY) ≤ (o.attribute q.dimension).h)) :
    ∃ ops o' cv, drawM M float64Round scale o q.mat = some (ops, o') ∧ M.paint cov (meaning assembled) blend put direction ops = some cv ∧
      ∀ pt, AtCentres o q.dimension pt → decode unsjis (seenInk o q.dimension cv pt) = some (nats text) := by
  obtain ⟨hmw, hmh⟩ := mat_size hE hc ha h
  exact text_of_picture hE hc ha h hx (machine_picture hE hc ha h M hA scale hcov blend hput direction assembled hm hw hbold hht hcol hg hb hfit
    (fun img hi hv => absurd (logoValid_iff hmw hmh hi |>.1 hv) (hl img hi))) hl

/-- **C106, with a logo** as in C69, for a scanner that corrects errors, with or without a safe zone. -/
theorem C106_text_logo {E : Ext} {unsjis : Nat → Option Nat} (hE : E.Ok unsjis) (hRS : E.rs = rsEncode) {c : AlignCache} (hc : CacheReachable c)
    {arrival : List Nat} (ha : Arrival arrival) {t : TextType} {text : Bytes} {opts : List EncodeOption} {q : QRCode}
    (h : newWith E c arrival t text opts = .ok q)
    (hx : ¬ (modeIn opts = encAuto ∧ AlnumThenKanji E.sjis (nats text)))
    {v : Nat} (hv : q.dimension = 17 + 4 * v)
    (hlv : ¬ (levelIn opts = .L ∧ v ∈ [1, 2, 3, 4, 5, 6, 36] ∨ levelIn opts = .M ∧ v ∈ [2, 4]))
    (M : Machine) (hA : M.arch.bits = 32 ∨ M.arch.bits = 64)
    (scale : Scaler) {cov : Coverage} (hcov : Rasters cov) (blend : Blend) {put : Put} (hput : PutsOver put) (direction : Rat → Rat × Rat)
    (assembled : Nat → DrawFn × DrawFn) {o : Opts} (hm : Small o) (hw : 10 ≤ o.qrBlockWidth) (hbold : (meaning assembled o.getShape).bold64 float64Round)
    (hht : ∀ himg, o.halftone = some himg → SubPixels o (meaning assembled o.getShape))
    (hcol : Contrast o) (hg : ∀ g, o.qrGradient = some g → GradientContrast o g)
    (hbx : 0 ≤ o.borders.left ∧ o.borders.left ≤ 2 * o.qrBlockWidth ∧ o.borders.right = o.borders.left)
    (hby : 0 ≤ o.borders.top ∧ o.borders.top ≤ 2 * o.qrBlockWidth ∧ o.borders.bottom = o.borders.top)
    (hfit : 4 * ((o.attribute q.dimension).w.natAbs * (o.attribute q.dimension).h.natAbs) ≤ M.arch.limit)
    {img : Image} (hl : o.logo = some img) (hmin : img.minX = 0 ∧ img.minY = 0) (hmax : 0 ≤ img.maxX ∧ 0 ≤ img.maxY)
    (hk : 5 ≤ o.logoSizeMultiplier) :
    ∃ ops o' cv, drawM M float64Round scale o q.mat = some (ops, o') ∧ M.paint cov (meaning assembled) blend put direction ops = some cv ∧
      ∀ pt, AtCentres o q.dimension pt → decodeDamaged unsjis (seenInk o q.dimension cv pt) = some (nats text) :=
  text_of_picture_logo hE hRS hc ha h hx hv hlv (machine_picture hE hc ha h M hA scale hcov blend hput direction assembled hm hw hbold hht hcol hg (by omega) hfit
    (fun i hi _ => by rw [hl] at hi; cases hi; exact hmin)) hbx hby hl hmin hmax hk

end QR.Standard
