import Verif.Props.Compressed
/-!
# The compressed writer with settings that are not positive
-/
namespace QR.Compressed
open QR

theorem intRange_empty {a b : Int} (h : b ≤ a) : intRange a b = [] := by
  unfold intRange
  rw [show (b - a).toNat = 0 by omega]
  rfl

theorem intRange_shift (a b d : Int) : intRange (a + d) (b + d) = (intRange a b).map (· + d) := by
  unfold intRange
  rw [show b + d - (a + d) = b - a by omega, List.map_map]
  apply List.map_congr_left
  intro i _
  simp only [Function.comp_apply]
  omega

/-- Painting with colour 0 changes nothing in a picture that has no other colour. -/
theorem set_zero {l : List Nat} (h : ∀ x ∈ l, x = 0) (k : Nat) : l.set k 0 = l := by
  apply List.ext_getElem?
  intro i
  by_cases hi : k = i
  · subst hi
    by_cases hk : k < l.length
    · rw [List.getElem?_set_self hk, List.getElem?_eq_getElem hk, h _ (List.getElem_mem hk)]
    · rw [List.getElem?_eq_none (by simp; omega), List.getElem?_eq_none (by omega)]
  · rw [List.getElem?_set_ne hi]

theorem foldlM_same {α β : Type} {f : β → α → Option β} {b : β} : ∀ l : List α, (∀ a ∈ l, f b a = some b) → l.foldlM f b = some b := by
  intro l
  induction l with
  | nil => intro _; rfl
  | cons a l ih =>
    intro h
    rw [List.foldlM_cons, h a (by simp)]
    exact ih fun x hx => h x (by simp [hx])

/-- The background is there already. -/
theorem background (w : Int) (p : List Nat) : rectangle 0 0 w w (newPaletted w w p) 0 = some (newPaletted w w p) := by
  unfold rectangle
  refine foldlM_same _ fun x hx => foldlM_same _ fun y hy => ?_
  rw [mem_intRange] at hx hy
  obtain ⟨n, rfl⟩ : ∃ n : Nat, w = n := ⟨w.toNat, by omega⟩
  have hs := newPaletted_square n p
  have hb := offset_lt (n := n) (x := x) (y := y) (by omega) (by omega) (by omega) (by omega)
  have e : (newPaletted n n p).pixOffset x y = y * n + x := by
    unfold Paletted.pixOffset; rw [hs.minX, hs.minY, hs.stride, Int.sub_zero, Int.sub_zero]
  unfold Paletted.setPix
  rw [e, hs.len, if_pos ⟨hb.1, by push_cast; exact hb.2⟩]
  have : (newPaletted n n p).pix.set (y * n + x).toNat 0 = (newPaletted n n p).pix :=
    set_zero (by intro v hv; exact (List.mem_replicate.1 hv).2) _
  rw [this]

/-- `Write` without the background. -/
theorem image_eq (p b : Int) (m : Matrix) : image ⟨p, b⟩ m = (m.iterate .column).foldlM (fun img (a : Nat × Nat × QRValue) =>
    if a.2.2.qrbool then rectangle ((a.1 : Int) * b + p) ((a.2.1 : Int) * b + p) (((a.1 : Int) + 1) * b + p) (((a.2.1 : Int) + 1) * b + p) img 1
    else some img) (newPaletted (m.width * b + 2 * p) (m.width * b + 2 * p) [backgroundColor, foregroundColor]) := by
  unfold image
  simp only
  have hpal : ∀ w, (newPaletted w w [backgroundColor, foregroundColor]).palette = [backgroundColor, foregroundColor] := fun _ => rfl
  rw [hpal, palette_indices.1, palette_indices.2, background]
  rfl

/-- Blocks without extent: nothing is drawn. -/
theorem image_blank {b : Int} (hb : b ≤ 0) (p : Int) (m : Matrix) :
    image ⟨p, b⟩ m = some (newPaletted (m.width * b + 2 * p) (m.width * b + 2 * p) [backgroundColor, foregroundColor]) := by
  rw [image_eq]
  refine foldlM_same _ fun a _ => ?_
  split
  · unfold rectangle
    rw [intRange_empty (a := (a.1 : Int) * b + p) (by rw [Int.add_mul, Int.one_mul]; omega)]
    rfl
  · rfl

/-! ## Panics -/

theorem foldlM_fails {α β : Type} {f : β → α → Option β} {P : β → Prop} (hP : ∀ b a b', P b → f b a = some b' → P b') {a : α}
    (hf : ∀ b, P b → f b a = none) : ∀ (l : List α) (b : β), a ∈ l → P b → l.foldlM f b = none := by
  intro l
  induction l with
  | nil => intro b h; cases h
  | cons x l ih =>
    intro b h hb
    rw [List.foldlM_cons]
    rcases List.mem_cons.1 h with rfl | h
    · rw [hf b hb]; rfl
    · cases hx : f b x with
      | none => rfl
      | some b' => exact ih b' h (hP _ _ _ hb hx)

theorem foldlM_keeps {α β : Type} {f : β → α → Option β} {P : β → Prop} (hP : ∀ b a b', P b → f b a = some b' → P b') :
    ∀ (l : List α) (b b' : β), P b → l.foldlM f b = some b' → P b' := by
  intro l
  induction l with
  | nil => intro b b' hb h; cases h; exact hb
  | cons x l ih =>
    intro b b' hb h
    rw [List.foldlM_cons] at h
    cases hx : f b x with
    | none => rw [hx] at h; cases h
    | some b1 => rw [hx] at h; exact ih b1 b' (hP _ _ _ hb hx) h

theorem setPix_frame {img i j : Paletted} {pos : Int} {c : Nat} (hf : Frame img i) (h : i.setPix pos c = some j) : Frame img j := by
  unfold Paletted.setPix at h
  split at h
  · cases h
    exact hf.trans ⟨rfl, rfl, rfl, rfl, rfl, rfl, by simp⟩
  · cases h

theorem rectangle_frame {img i j : Paletted} {x1 y1 x2 y2 : Int} {c : Nat} (hf : Frame img i) (h : rectangle x1 y1 x2 y2 i c = some j) : Frame img j := by
  refine foldlM_keeps (P := Frame img) (fun b x b' hb h => ?_) _ _ _ hf h
  exact foldlM_keeps (P := Frame img) (fun b y b' hb h => setPix_frame hb h) _ _ _ hb h

theorem rectangle_fails {img : Paletted} {x1 y1 x2 y2 x y : Int} {c : Nat} (hx : x1 ≤ x ∧ x < x2) (hy : y1 ≤ y ∧ y < y2)
    (h : ¬ (0 ≤ img.pixOffset x y ∧ img.pixOffset x y < img.pix.length)) : rectangle x1 y1 x2 y2 img c = none := by
  unfold rectangle
  refine foldlM_fails (P := Frame img) (fun b x b' hb h => ?_) (a := x) (fun b hb => ?_) _ _ (mem_intRange.2 hx) (Frame.refl _)
  · exact foldlM_keeps (P := Frame img) (fun b y b' hb h => setPix_frame hb h) _ _ _ hb h
  · refine foldlM_fails (P := Frame img) (fun b y b' hb h => setPix_frame hb h) (a := y) (fun i hi => ?_) _ _ (mem_intRange.2 hy) hb
    unfold Paletted.setPix
    have e : i.pixOffset x y = img.pixOffset x y := by unfold Paletted.pixOffset; rw [hi.1, hi.2.1, hi.2.2.2.2.1]
    rw [e, ← hi.2.2.2.2.2.2, if_neg h]

theorem mul_neg_of {a b : Int} (ha : a < 0) (hb : 0 < b) : a * b < 0 := Int.mul_neg_of_neg_of_pos ha hb

/-- The upper left corner lies outside the picture. -/
theorem image_panics {p b : Int} {m : Matrix} (hb : 0 < b) (hp : p < 0) (hq : -(m.width * b) < p) (h0 : (m.raw 0 0).bit = true)
    (hw : 0 < m.width) (hh : 0 < m.height) : image ⟨p, b⟩ m = none := by
  rw [image_eq]
  obtain ⟨D, hD⟩ : ∃ D : Int, D = m.width * b := ⟨_, rfl⟩
  rw [← hD] at hq ⊢
  refine foldlM_fails (P := Frame (newPaletted (D + 2 * p) (D + 2 * p) [backgroundColor, foregroundColor])) (fun i a j hi hj => ?_) (a := (0, 0, m.raw 0 0))
    (fun i hi => ?_) _ _ ?_ (Frame.refl _)
  · split at hj
    · exact rectangle_frame hi hj
    · cases hj; exact hi
  · have hbit : (m.raw 0 0).qrbool = true := h0
    simp only [hbit, if_true]
    refine rectangle_fails (x := p) (y := p) (by push_cast; omega) (by push_cast; omega) ?_
    unfold Paletted.pixOffset
    rw [← hi.1, ← hi.2.1, ← hi.2.2.2.2.1, ← hi.2.2.2.2.2.2]
    simp only [newPaletted, List.length_replicate]
    rcases Int.lt_trichotomy (D + 2 * p) 0 with h | h | h
    · rw [show min 0 (D + 2 * p) = D + 2 * p by omega, show max 0 (D + 2 * p) = 0 by omega]
      rintro ⟨h1, _⟩
      have := mul_neg_of (a := p - (D + 2 * p)) (b := 0 - (D + 2 * p)) (by omega) (by omega)
      omega
    · rw [h]
      simp
    · rw [show min 0 (D + 2 * p) = 0 by omega, show max 0 (D + 2 * p) = D + 2 * p by omega]
      rintro ⟨h1, _⟩
      have := mul_neg_of (a := p - 0) (b := D + 2 * p - 0) (by omega) (by omega)
      omega
  · exact List.mem_map.2 ⟨(0, 0), List.mem_flatMap.2 ⟨0, List.mem_range.2 hw, List.mem_map.2 ⟨0, List.mem_range.2 hh, rfl⟩⟩, rfl⟩

/-! ## Pictures left of and above the origin -/

/-- The same picture at another place. -/
def Paletted.shift (d : Int) (img : Paletted) : Paletted :=
  { img with minX := img.minX + d, minY := img.minY + d, maxX := img.maxX + d, maxY := img.maxY + d }

theorem foldlM_map {α β γ : Type} {f : β → α → Option β} {g : β → γ → Option β} {t : β → β} {s : γ → α}
    (h : ∀ b c, f (t b) (s c) = (g b c).map t) : ∀ (l : List γ) (b : β), (l.map s).foldlM f (t b) = (l.foldlM g b).map t := by
  intro l
  induction l with
  | nil => intro b; rfl
  | cons c l ih =>
    intro b
    rw [List.map_cons, List.foldlM_cons, List.foldlM_cons, h]
    cases g b c with
    | none => rfl
    | some b' => exact ih b'

theorem rectangle_shift (d x1 y1 x2 y2 : Int) (img : Paletted) (c : Nat) :
    rectangle (x1 + d) (y1 + d) (x2 + d) (y2 + d) (img.shift d) c = (rectangle x1 y1 x2 y2 img c).map (Paletted.shift d) := by
  unfold rectangle
  rw [intRange_shift, intRange_shift]
  refine foldlM_map (fun b x => ?_) _ _
  refine foldlM_map (fun i y => ?_) _ _
  have e : (i.shift d).pixOffset (x + d) (y + d) = i.pixOffset x y := by
    unfold Paletted.pixOffset Paletted.shift
    simp only
    rw [show y + d - (i.minY + d) = y - i.minY by omega, show x + d - (i.minX + d) = x - i.minX by omega]
  rw [e]
  unfold Paletted.setPix
  have e2 : (i.shift d).pix = i.pix := rfl
  rw [e2]
  split
  · rfl
  · rfl

theorem image_shift {p b : Int} {m : Matrix} (hb : 0 < b) (hp : p ≤ -(m.width * b)) :
    image ⟨p, b⟩ m = (image ⟨-(m.width * b) - p, b⟩ m).map (Paletted.shift (m.width * b + 2 * p)) := by
  rw [image_eq, image_eq]
  have hD0 : 0 ≤ m.width * b := Int.mul_nonneg (by omega) (by omega)
  obtain ⟨D, hD⟩ : ∃ D : Int, D = m.width * b := ⟨_, rfl⟩
  rw [← hD] at hp hD0 ⊢
  have e : newPaletted (D + 2 * p) (D + 2 * p) [backgroundColor, foregroundColor] =
      Paletted.shift (D + 2 * p) (newPaletted (D + 2 * (-D - p)) (D + 2 * (-D - p)) [backgroundColor, foregroundColor]) := by
    unfold newPaletted Paletted.shift
    simp only
    rw [show D + 2 * (-D - p) = -(D + 2 * p) by omega]
    rw [show min 0 (D + 2 * p) = D + 2 * p by omega, show max 0 (D + 2 * p) = 0 by omega, show min 0 (-(D + 2 * p)) = 0 by omega,
      show max 0 (-(D + 2 * p)) = -(D + 2 * p) by omega]
    simp only [Int.zero_add, Int.sub_zero, Int.zero_sub]
    rw [show -(D + 2 * p) + (D + 2 * p) = 0 by omega]
  rw [e]
  have key := foldlM_map (t := Paletted.shift (D + 2 * p)) (s := id) (g := fun img (a : Nat × Nat × QRValue) =>
    if a.2.2.qrbool then rectangle ((a.1 : Int) * b + (-D - p)) ((a.2.1 : Int) * b + (-D - p)) (((a.1 : Int) + 1) * b + (-D - p)) (((a.2.1 : Int) + 1) * b + (-D - p)) img 1
    else some img) (f := fun img (a : Nat × Nat × QRValue) =>
    if a.2.2.qrbool then rectangle ((a.1 : Int) * b + p) ((a.2.1 : Int) * b + p) (((a.1 : Int) + 1) * b + p) (((a.2.1 : Int) + 1) * b + p) img 1
    else some img) (fun i a => by
      simp only [id]
      split
      · rw [← rectangle_shift]
        congr 1 <;> omega
      · rfl) (m.iterate .column)
  rw [List.map_id] at key
  exact key _

end QR.Compressed
