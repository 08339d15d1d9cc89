import Verif.Spec.Grey
import Verif.Model.Jpeg
import Verif.Props.Negative
import Verif.Props.Cli
import Verif.Props.Programs
/-!
# C107: pictures in JPEG, the default format

`Spec/Grey.lean` has the reader `decodeGrey`: it gets the brightness of every pixel, more or less, and is told nothing.
-/
namespace QR
open _root_.Spec

/-! ## Dark and light pixels of a picture, however it is turned -/

theorem has_turn {b : Bool} {s : List (List Bool)} (h : ∃ i j, i < s.length ∧ j < width s ∧ pixel s i j = b) :
    ∃ i j, i < (turn s).length ∧ j < width (turn s) ∧ pixel (turn s) i j = b := by
  obtain ⟨i, j, hi, hj, h⟩ := h
  unfold turn
  rw [sheet_length, sheet_width, if_neg (by omega)]
  refine ⟨j, s.length - 1 - i, hj, by omega, ?_⟩
  rw [pixel_sheet hj (by omega), show s.length - 1 - (s.length - 1 - i) = i by omega]
  exact h

theorem has_mirror {b : Bool} {s : List (List Bool)} (h : ∃ i j, i < s.length ∧ j < width s ∧ pixel s i j = b) :
    ∃ i j, i < (mirror s).length ∧ j < width (mirror s) ∧ pixel (mirror s) i j = b := by
  obtain ⟨i, j, hi, hj, h⟩ := h
  unfold mirror
  rw [sheet_length, sheet_width, if_neg (by omega)]
  refine ⟨i, width s - 1 - j, hi, by omega, ?_⟩
  rw [pixel_sheet hi (by omega), show width s - 1 - (width s - 1 - j) = j by omega]
  exact h

theorem has_seen {b : Bool} {p s : List (List Bool)} (hs : Seen p s) (h : ∃ i j, i < p.length ∧ j < width p ∧ pixel p i j = b) :
    ∃ i j, i < s.length ∧ j < width s ∧ pixel s i j = b := by
  induction hs with
  | straight => exact h
  | turned _ ih => exact has_turn ih
  | mirrored _ ih => exact has_mirror ih

theorem seen_rows {p s : List (List Bool)} (hs : Seen p s) (h : ∀ r ∈ p, r.length = width p) : ∀ r ∈ s, r.length = width s := by
  cases hs with
  | straight => exact h
  | turned _ => exact turn_rows _
  | mirrored _ => exact mirror_rows _

theorem has_mem {b : Bool} {s : List (List Bool)} (hr : ∀ r ∈ s, r.length = width s) (h : ∃ i j, i < s.length ∧ j < width s ∧ pixel s i j = b) : b ∈ s.flatten := by
  obtain ⟨i, j, hi, hj, h⟩ := h
  have hm : s[i] ∈ s := List.getElem_mem hi
  have hl := hr _ hm
  refine List.mem_flatten.2 ⟨s[i], hm, ?_⟩
  have e : pixel s i j = (s[i])[j]'(by omega) := by
    unfold pixel
    rw [List.getD_eq_getElem?_getD, List.getD_eq_getElem?_getD, List.getElem?_eq_getElem hi, Option.getD_some, List.getElem?_eq_getElem (by omega : j < s[i].length), Option.getD_some]
  rw [e] at h
  rw [← h]
  exact List.getElem_mem _

/-! ## The middle -/

theorem foldlMin_le : ∀ (l : List Nat) (a : Nat), l.foldl min a ≤ a ∧ (∀ x ∈ l, l.foldl min a ≤ x)
  | [], a => ⟨Nat.le_refl _, fun _ h => by cases h⟩
  | b :: l, a => by
    obtain ⟨h1, h2⟩ := foldlMin_le l (min a b)
    refine ⟨Nat.le_trans h1 (Nat.min_le_left _ _), fun x hx => ?_⟩
    rcases List.mem_cons.1 hx with rfl | hx
    · exact Nat.le_trans h1 (Nat.min_le_right _ _)
    · exact h2 x hx

theorem le_foldlMin {k : Nat} : ∀ (l : List Nat) (a : Nat), k ≤ a → (∀ x ∈ l, k ≤ x) → k ≤ l.foldl min a
  | [], _, h, _ => h
  | b :: l, a, h, hl => le_foldlMin l (min a b) (Nat.le_min.2 ⟨h, hl b List.mem_cons_self⟩) fun x hx => hl x (List.mem_cons_of_mem _ hx)

theorem foldlMax_ge : ∀ (l : List Nat) (a : Nat), a ≤ l.foldl max a ∧ (∀ x ∈ l, x ≤ l.foldl max a)
  | [], a => ⟨Nat.le_refl _, fun _ h => by cases h⟩
  | b :: l, a => by
    obtain ⟨h1, h2⟩ := foldlMax_ge l (max a b)
    refine ⟨Nat.le_trans (Nat.le_max_left _ _) h1, fun x hx => ?_⟩
    rcases List.mem_cons.1 hx with rfl | hx
    · exact Nat.le_trans (Nat.le_max_right _ _) h1
    · exact h2 x hx

theorem foldlMax_le {k : Nat} : ∀ (l : List Nat) (a : Nat), a ≤ k → (∀ x ∈ l, x ≤ k) → l.foldl max a ≤ k
  | [], _, h, _ => h
  | b :: l, a, h, hl => foldlMax_le l (max a b) (Nat.max_le.2 ⟨h, hl b List.mem_cons_self⟩) fun x hx => hl x (List.mem_cons_of_mem _ hx)

/-- `v` is close to the brightness of `x`. -/
def CloseGrey (e d l : Nat) (x : Bool) (v : Nat) : Prop := (if x then d else l) ≤ v + e ∧ v ≤ (if x then d else l) + e

theorem forall₂_flatten_left {α β : Type} {R : α → β → Prop} : ∀ {s : List (List α)} {g : List (List β)}, List.Forall₂ (List.Forall₂ R) s g → ∀ a ∈ s.flatten, ∃ b ∈ g.flatten, R a b
  | _, _, .nil, _, h => by cases h
  | _, _, .cons (a := r) (b := r') hr ht, a, h => by
    rw [List.flatten_cons, List.mem_append] at h
    rcases h with h | h
    · have : ∀ {r : List α} {r' : List β}, List.Forall₂ R r r' → ∀ a ∈ r, ∃ b ∈ r', R a b := by
        intro r r' hh
        induction hh with
        | nil => intro a ha; cases ha
        | cons h1 _ ih =>
          intro a ha
          rcases List.mem_cons.1 ha with rfl | ha
          · exact ⟨_, List.mem_cons_self, h1⟩
          · obtain ⟨b, hb, h2⟩ := ih a ha
            exact ⟨b, List.mem_cons_of_mem _ hb, h2⟩
      obtain ⟨b, hb, h2⟩ := this hr a h
      exact ⟨b, by rw [List.flatten_cons]; exact List.mem_append_left _ hb, h2⟩
    · obtain ⟨b, hb, h2⟩ := forall₂_flatten_left ht a h
      exact ⟨b, by rw [List.flatten_cons]; exact List.mem_append_right _ hb, h2⟩

theorem forall₂_swap {α β : Type} {R : α → β → Prop} : ∀ {l : List α} {l' : List β}, List.Forall₂ R l l' → List.Forall₂ (fun b a => R a b) l' l
  | _, _, .nil => .nil
  | _, _, .cons h t => .cons h (forall₂_swap t)

theorem forall₂_imp {α β : Type} {R S : α → β → Prop} (h : ∀ a b, R a b → S a b) : ∀ {l : List α} {l' : List β}, List.Forall₂ R l l' → List.Forall₂ S l l'
  | _, _, .nil => .nil
  | _, _, .cons hh t => .cons (h _ _ hh) (forall₂_imp h t)

theorem forall₂_map_eq {α β γ : Type} {R : α → β → Prop} {f : β → γ} {k : α → γ} : ∀ {l : List α} {l' : List β}, List.Forall₂ R l l' → (∀ a ∈ l, ∀ b ∈ l', R a b → f b = k a) → l'.map f = l.map k
  | _, _, .nil, _ => rfl
  | _, _, .cons hh t, h => by
    rw [List.map_cons, List.map_cons, h _ List.mem_cons_self _ List.mem_cons_self hh, forall₂_map_eq t fun a ha b hb => h a (List.mem_cons_of_mem _ ha) b (List.mem_cons_of_mem _ hb)]

theorem near_greys {e d l : Nat} : ∀ {s : List (List Bool)} {g : List (List Nat)}, Near e (greys d l s) g → List.Forall₂ (List.Forall₂ (CloseGrey e d l)) s g
  | [], _, .nil => .nil
  | r :: s, _, .cons hh ht => by
    refine .cons ?_ (near_greys ht)
    have : ∀ {r : List Bool} {k : List Nat}, List.Forall₂ (fun a b => a ≤ b + e ∧ b ≤ a + e) (r.map fun x => if x then d else l) k → List.Forall₂ (CloseGrey e d l) r k := by
      intro r
      induction r with
      | nil => intro k hk; cases hk; exact .nil
      | cons a r ih => intro k hk; cases hk with | cons h1 h2 => exact .cons h1 (ih h2)
    exact this hh

/-- Dark and light are found. -/
theorem darkHalf_eq {e d l : Nat} (h4 : d + 4 * e < l) {s : List (List Bool)} {g : List (List Nat)} (hd : true ∈ s.flatten) (hl : false ∈ s.flatten) (h : Near e (greys d l s) g) :
    darkHalf g = s := by
  have hc := near_greys h
  obtain ⟨a, ha, a1, a2⟩ := forall₂_flatten_left hc _ hd
  obtain ⟨b, hb, b1, b2⟩ := forall₂_flatten_left hc _ hl
  simp only [if_true, Bool.false_eq_true, if_false] at a1 a2 b1 b2
  have hall : ∀ x ∈ g.flatten, d ≤ x + e ∧ x ≤ l + e := by
    intro x hx
    obtain ⟨v, hv, v1, v2⟩ := forall₂_flatten_left (R := fun b a => CloseGrey e d l a b) (forall₂_imp (fun _ _ h => forall₂_swap h) (forall₂_swap hc)) x hx
    cases v <;> simp only [if_true, Bool.false_eq_true, if_false] at v1 v2 <;> omega
  have lo1 : darkest g ≤ a := (foldlMin_le _ _).2 a ha
  have lo2 : d - e ≤ darkest g := by
    refine le_foldlMin _ _ ?_ fun x hx => by have := hall x hx; omega
    cases hg : g.flatten with
    | nil => rw [hg] at ha; cases ha
    | cons x k =>
      have := hall x (by rw [hg]; exact List.mem_cons_self)
      show d - e ≤ x
      omega
  have hi1 : b ≤ lightest g := (foldlMax_ge _ _).2 b hb
  have hi2 : lightest g ≤ l + e := foldlMax_le _ _ (Nat.zero_le _) fun x hx => (hall x hx).2
  unfold darkHalf
  generalize darkest g = lo at *
  generalize lightest g = hi at *
  have key : ∀ x v, CloseGrey e d l x v → decide (2 * v < lo + hi) = x := by
    rintro (_ | _) v ⟨v1, v2⟩ <;> simp only [if_true, Bool.false_eq_true, if_false] at v1 v2
    · exact decide_eq_false (by omega)
    · exact decide_eq_true (by omega)
  have : s = s.map fun r => r.map id := by simp
  conv => rhs; rw [this]
  exact forall₂_map_eq hc fun r _ k _ hrk => forall₂_map_eq hrk fun x _ v _ hxv => key x v hxv

theorem greys_negative (d l : Nat) (s : List (List Bool)) : greys d l (negative s) = greys l d s := by
  unfold greys negative
  rw [List.map_map]
  refine List.map_congr_left fun r _ => ?_
  simp only [Function.comp_apply, List.map_map]
  refine List.map_congr_left fun x _ => ?_
  cases x <;> rfl

theorem mem_negative {b : Bool} {s : List (List Bool)} (h : b ∈ s.flatten) : (!b) ∈ (negative s).flatten := by
  unfold negative
  obtain ⟨r, hr, hb⟩ := List.mem_flatten.1 h
  exact List.mem_flatten.2 ⟨_, List.mem_map_of_mem hr, List.mem_map_of_mem hb⟩

variable {E : Ext} {unsjis : Nat → Option Nat} {c : AlignCache} {arrival : List Nat} {t : TextType} {text : Bytes} {opts : List EncodeOption} {q : QRCode}

/-- A picture of a symbol has dark and light pixels. -/
theorem both_colours (hE : E.Ok unsjis) (hc : CacheReachable c) (ha : Arrival arrival) (h : newWith E c arrival t text opts = .ok q)
    {b left top : Nat} (hb : 0 < b) {p : List (List Bool)} (hp : Shows p left top (inflate b q.mat.bitmap)) {s : List (List Bool)} (hs : Seen p s) :
    true ∈ s.flatten ∧ false ∈ s.flatten := by
  obtain ⟨v, k, st, hd, hq, _⟩ := corner_of hE hc ha h
  obtain ⟨⟨a1, _, a3, _⟩, _⟩ := finder_cells hq
  have hs21 : 21 ≤ side v := by have := hq.version; unfold side; omega
  have hbig : b + b ≤ b * q.mat.bitmap.length := by
    rw [hq.rows]
    have := Nat.mul_le_mul_left b (show 2 ≤ side v by omega)
    omega
  have hroom := hp.room
  rw [inflate_length, inflate_width] at hroom
  have hrows := seen_rows hs hp.rows
  refine ⟨has_mem hrows (has_seen hs ⟨top, left, by omega, by omega, ?_⟩), has_mem hrows (has_seen hs ⟨top + b, left + b, by omega, by omega, ?_⟩)⟩
  · refine (hp.dark top left (by omega) (by omega)).2 ⟨by omega, by rw [inflate_length]; omega, by omega, by rw [inflate_width]; omega, ?_⟩
    rw [Nat.sub_self, Nat.sub_self, pixel_inflate (by omega) (by omega), Nat.zero_div]; exact a1
  · rw [← Bool.not_eq_true]
    intro hd
    obtain ⟨_, _, _, _, h5⟩ := (hp.dark (top + b) (left + b) (by omega) (by omega)).1 hd
    rw [Nat.add_sub_cancel_left, Nat.add_sub_cancel_left, pixel_inflate (by omega) (by omega), Nat.div_self hb, a3] at h5
    cases h5

/-- **C107, any picture.**  A picture that shows the symbol (as in C102), turned and mirrored in any way, with the brightness `d` for dark and `l` for light pixels (or light on dark): if
every pixel is changed by less than a quarter of the difference, the reader that is told nothing reads exactly the text. -/
theorem C107_grey (hE : E.Ok unsjis) (hc : CacheReachable c) (ha : Arrival arrival) (h : newWith E c arrival t text opts = .ok q)
    (hx : ¬ (modeIn opts = encAuto ∧ AlnumThenKanji E.sjis (nats text)))
    {b left top : Nat} (hb : 0 < b) {p : List (List Bool)} (hp : Shows p left top (inflate b q.mat.bitmap)) {s : List (List Bool)} (hs : Seen p s)
    {e d l : Nat} (h4 : d + 4 * e < l ∨ l + 4 * e < d) {g : List (List Nat)} (hg : Near e (greys d l s) g) : decodeGrey unsjis g = some (nats text) := by
  obtain ⟨b1, b2⟩ := both_colours hE hc ha h hb hp hs
  obtain ⟨_, n1, n2⟩ := C104_negative hE hc ha h hx hb hp hs
  unfold decodeGrey
  rcases h4 with h4 | h4
  · rw [darkHalf_eq h4 b1 b2 hg]; exact n1
  · rw [← greys_negative] at hg
    rw [darkHalf_eq h4 (mem_negative b2) (mem_negative b1) hg]; exact n2

/-- A quarter is too much: of the brightnesses 1 and 5, each changed by 1, one dark pixel is taken for a light one. -/
example : Near 1 (greys 1 5 [[true, true, false]]) [[0, 2, 4]] ∧ darkHalf [[0, 2, 4]] = [[true, false, false]] :=
  ⟨.cons (.cons ⟨by decide, by decide⟩ (.cons ⟨by decide, by decide⟩ (.cons ⟨by decide, by decide⟩ .nil))) .nil, by decide⟩

end QR

namespace QR.Standard
open QR _root_.Spec

variable {E : Ext} {unsjis : Nat → Option Nat} {c : AlignCache} {arrival : List Nat} {t : TextType} {text : Bytes} {opts : List EncodeOption} {q : QRCode}

/-- An invisible colour leaves its red, green and blue on an empty picture. -/
theorem overChan_invisible (c : UInt8) : overChan 0 c 0 = c := by
  have t : ∀ n < 256, overChan 0 (UInt8.ofNat n) 0 = UInt8.ofNat n := by decide +kernel
  have := t c.toNat c.toNat_lt
  rwa [UInt8.ofNat_toNat] at this

theorem over_invisible (c : RGBA) : over { c with a := 0 } ⟨0, 0, 0, 0⟩ = { c with a := 0 } := by
  simp only [over, overChan_invisible]

/-- The brightness of the pixels of a picture, for JPEG. -/
def Canvas.grey (cv : Canvas) : List (List Nat) := coloured cv.w.toNat cv.h.toNat fun x y => brightness (cv.pix x y).jpeg

/-- **C107, image writer.**  With rectangles, no halftone, gradient or logo, colours that can be told apart and borders that are not negative: if the brightness of foreground and background (transparent
or not) differ by more than `4 e`, and JPEG (or a printer, or a camera) changes the brightness of every pixel by `e` at most, the reader that is told nothing reads exactly the text. -/
theorem C107_standard (hE : E.Ok unsjis) (hc : CacheReachable c) (ha : Arrival arrival) (h : newWith E c arrival t text opts = .ok q)
    (hx : ¬ (modeIn opts = encAuto ∧ AlnumThenKanji E.sjis (nats text)))
    (scale : Scaler) {o : Opts} (hp : Plain o) (hcol : Contrast o)
    (hb : 0 ≤ o.borders.top ∧ 0 ≤ o.borders.right ∧ 0 ≤ o.borders.bottom ∧ 0 ≤ o.borders.left)
    {e d l : Nat} (hd : d = brightness o.qrColor.jpeg) (hl : l = brightness o.bgColor.jpeg) (h4 : d + 4 * e < l ∨ l + 4 * e < d) :
    ∃ ops o' cv, draw scale o q.mat = some (ops, o') ∧ paintAll ops = some cv ∧ ∀ g, Near e cv.grey g → decodeGrey unsjis g = some (nats text) := by
  obtain ⟨ops, o', cv, b, left, top, h1, h2, hb0, hs, htwo⟩ := plain_shows hE hc ha h scale hp hcol hb
  refine ⟨ops, o', cv, h1, h2, fun g hg => ?_⟩
  refine C107_grey hE hc ha h hx hb0 hs .straight h4 (g := g) ?_
  have hbg : brightness (over o.backgroundColor.1 ⟨0, 0, 0, 0⟩).jpeg = l := by
    rw [hl]
    cases ht : o.bgTransparent with
    | true =>
      have hbgc : o.backgroundColor.1 = { o.bgColor with a := 0 } := by unfold Opts.backgroundColor; rw [ht]; rfl
      rw [hbgc, over_invisible]; rfl
    | false =>
      rcases hcol.bg with hb | ⟨ha, _⟩
      · rw [ht] at hb; cases hb
      · have hbgc : o.backgroundColor.1 = o.bgColor := by unfold Opts.backgroundColor; rw [ht]; rfl
        rw [hbgc, over_opaque ha]
  have : cv.grey = greys d l (_root_.Spec.photo cv.w.toNat cv.h.toNat fun x y => decide (cv.pix x y = o.qrColor)) := by
    unfold Canvas.grey coloured greys _root_.Spec.photo sheet
    rw [List.map_map]
    refine List.map_congr_left fun y hy => ?_
    rw [Function.comp_apply, List.map_map]
    refine List.map_congr_left fun x hx => ?_
    show brightness (cv.pix x y).jpeg = if decide (cv.pix x y = o.qrColor) = true then d else l
    by_cases hf : cv.pix x y = o.qrColor
    · simp only [hf, hd, decide_true, if_true]
    · have hv := (htwo x y (List.mem_range.1 hx) (List.mem_range.1 hy)).resolve_left hf
      rw [if_neg (by simpa using hf), hv, hbg]
  rwa [← this]

/-- **C107, transparency.**  JPEG does not show it: with a new writer, `WithBgTransparent` gives the same red, green and blue everywhere. -/
theorem C107_transparent (scale : Scaler) {o : Opts} (hp : Plain o) (ha : o.bgColor.a = 255) (hf : o.bgTransparent = false) {m : Matrix}
    (hw : 0 < canvasW o m) (hh : 0 < canvasH o m) :
    ∃ ops o' cv ops' o'' cv', draw scale o m = some (ops, o') ∧ paintAll ops = some cv ∧
      draw scale { o with bgTransparent := true } m = some (ops', o'') ∧ paintAll ops' = some cv' ∧ cv'.w = cv.w ∧ cv'.h = cv.h ∧
      ∀ px py, 0 ≤ px ∧ px < cv.w → 0 ≤ py ∧ py < cv.h → (cv'.pix px py).jpeg = (cv.pix px py).jpeg := by
  have hp' : Plain { o with bgTransparent := true } := ⟨hp.shape, hp.halftone, hp.gradient, hp.logo⟩
  obtain ⟨ops, o', cv, h1, h2, h3, h4, _⟩ := plain_picture scale hp m (px := 0) (py := 0) ⟨by omega, hw⟩ ⟨by omega, hh⟩
  obtain ⟨ops', o'', cv', k1, k2, k3, k4, _⟩ := plain_picture scale hp' m (px := 0) (py := 0) ⟨by omega, hw⟩ ⟨by omega, hh⟩
  refine ⟨ops, o', cv, ops', o'', cv', h1, h2, k1, k2, k3.trans h3.symm, k4.trans h4.symm, fun px py hpx hpy => ?_⟩
  rw [h3] at hpx
  rw [h4] at hpy
  obtain ⟨_, _, _, g1, g2, _, _, g5, g6⟩ := plain_picture scale hp m hpx hpy
  obtain ⟨_, _, _, l1, l2, _, _, l5, l6⟩ := plain_picture scale hp' m (px := px) (py := py) hpx hpy
  rw [h1] at g1; cases g1
  rw [h2] at g2; cases g2
  rw [k1] at l1; cases l1
  rw [k2] at l2; cases l2
  have b1 : over o.backgroundColor.1 ⟨0, 0, 0, 0⟩ = o.bgColor := by
    have : o.backgroundColor.1 = o.bgColor := by unfold Opts.backgroundColor; rw [hf]; rfl
    rw [this, over_opaque ha]
  have b2 : over ({ o with bgTransparent := true } : Opts).backgroundColor.1 ⟨0, 0, 0, 0⟩ = { o.bgColor with a := 0 } := over_invisible o.bgColor
  rw [b1] at g5 g6
  rw [b2] at l5 l6
  by_cases hex : ∃ x y, x < m.width ∧ y < m.height ∧ InBlock o x y px py
  · obtain ⟨x, y, hx, hy, hi⟩ := hex
    rw [g5 x y hx hy hi, l5 x y hx hy hi]
    unfold moduleColor
    cases (m.raw x y).qrbool with
    | true => simp only [if_true, over, RGBA.jpeg]
    | false =>
      simp only [Bool.false_eq_true, if_false, hf, if_true]
      rw [over_clear, over_opaque ha]
      rfl
  · rw [g6 fun x y hx hy hi => hex ⟨x, y, hx, hy, hi⟩, l6 fun x y hx hy hi => hex ⟨x, y, hx, hy, hi⟩]
    rfl

/-! ### A writer with a transparent background, used again -/

theorem translate_clear {o : Opts} (ht : o.bgTransparent = true) (v : QRValue) :
    (o.translateToRGBA v).2.bgTransparent = true ∧ (v.qrbool = false → (o.translateToRGBA v).2.bgColor = ⟨0, 0, 0, 0⟩) ∧
      (o.bgColor = ⟨0, 0, 0, 0⟩ → (o.translateToRGBA v).2.bgColor = ⟨0, 0, 0, 0⟩) := by
  unfold Opts.translateToRGBA
  cases v.qrbool <;> simp [ht]

theorem drawModule_opts (scale : Scaler) (w h : Int) (dim : Nat) (bm : List (List Bool)) (lw lh : Int) (shape : Shape) (o : Opts) (x y : Nat) (v : QRValue) :
    (drawModule scale w h dim bm false lw lh shape o x y v).2 = (o.translateToRGBA v).2 := by
  unfold drawModule
  simp only [Bool.false_and, Bool.false_eq_true, if_false]
  split
  · rfl
  · split <;> rfl
  · rfl

theorem foldl_second {α β γ : Type} (f : γ → α → List β) (g : γ → α → γ) : ∀ (l : List α) (ops : List β) (o : γ),
    (l.foldl (fun (st : List β × γ) a => (st.1 ++ f st.2 a, g st.2 a)) (ops, o)).2 = l.foldl g o
  | [], _, _ => rfl
  | _ :: l, _, _ => foldl_second f g l _ _

theorem foldl_clear : ∀ (l : List (Nat × Nat × QRValue)) (o : Opts), o.bgTransparent = true → (o.bgColor = ⟨0, 0, 0, 0⟩ ∨ ∃ a ∈ l, a.2.2.qrbool = false) →
    (l.foldl (fun o a => (o.translateToRGBA a.2.2).2) o).bgColor = ⟨0, 0, 0, 0⟩
  | [], _, _, h => h.resolve_right fun ⟨_, h, _⟩ => by cases h
  | a :: l, o, ht, h => by
    obtain ⟨t1, t2, t3⟩ := translate_clear ht a.2.2
    rw [List.foldl_cons]
    refine foldl_clear l _ t1 ?_
    rcases h with h | ⟨b, hb, hv⟩
    · exact .inl (t3 h)
    · rcases List.mem_cons.1 hb with rfl | hb
      · exact .inl (t2 hv)
      · exact .inr ⟨b, hb, hv⟩

/-- What drawing leaves behind. -/
theorem draw_clear (scale : Scaler) {o : Opts} (hp : Plain o) (ht : o.bgTransparent = true) {m : Matrix} {x y : Nat} (hx : x < m.width) (hy : y < m.height) (hl : (m.raw x y).bit = false)
    {ops : List DrawOp} {o' : Opts} (h : draw scale o m = some (ops, o')) : o'.bgColor = ⟨0, 0, 0, 0⟩ := by
  have hs : ∀ o2 : Opts, Sim o o2 → (logoSize o2 (m.width * o.qrBlockWidth + o.borders.left + o.borders.right) (m.height * o.qrBlockWidth + o.borders.top + o.borders.bottom)).1 = false := by
    intro o2 h2
    have : o2.logo = none := by rw [h2.eq]; exact hp.logo
    unfold logoSize
    rw [this]
  have hbs := backgroundColor_sim o
  unfold draw at h
  simp only at h
  rw [hs _ hbs] at h
  simp only [Bool.false_and, clearedBitmap, Bool.false_eq_true, if_false, Option.map_some, Option.some.injEq] at h
  have h2 := congrArg Prod.snd h
  simp only at h2
  generalize m.width * o.qrBlockWidth + o.borders.left + o.borders.right = w at h2
  generalize m.height * o.qrBlockWidth + o.borders.top + o.borders.bottom = hgt at h2
  generalize logoSize o.backgroundColor.2 w hgt = sz at h2
  generalize o.backgroundColor.2.getShape = sh at h2
  rw [← h2, foldl_second (f := fun (o : Opts) (a : Nat × Nat × QRValue) => (drawModule scale w hgt m.width m.bitmap false sz.2.1 sz.2.2 sh o a.1 a.2.1 a.2.2).1)
    (g := fun (o : Opts) (a : Nat × Nat × QRValue) => (drawModule scale w hgt m.width m.bitmap false sz.2.1 sz.2.2 sh o a.1 a.2.1 a.2.2).2)]
  simp only [drawModule_opts]
  refine foldl_clear _ _ (by rw [hbs.eq]; exact ht) (.inr ⟨(x, y, m.raw x y), ?_, hl⟩)
  obtain ⟨v, hv⟩ := mem_iterate.2 ⟨hx, hy⟩
  have : v = m.raw x y := by
    unfold Matrix.iterate at hv
    obtain ⟨a, _, he⟩ := List.mem_map.1 hv
    cases he
    rfl
  rwa [← this]

/-- **C107, a writer used again.**  With a transparent background and black as foreground, every picture after the first is black all over in JPEG, whatever the texts. -/
theorem C107_again_counterexample (hE : E.Ok unsjis) (hc : CacheReachable c) (ha : Arrival arrival) (h : newWith E c arrival t text opts = .ok q)
    (scale : Scaler) {o : Opts} (hp : Plain o) (ht : o.bgTransparent = true) (hfg : o.qrColor = ⟨0, 0, 0, 255⟩) {ops : List DrawOp} {o' : Opts} (hd : draw scale o q.mat = some (ops, o'))
    (m : Matrix) {px py : Int} (hpx : 0 ≤ px ∧ px < canvasW o m) (hpy : 0 ≤ py ∧ py < canvasH o m) :
    ∃ ops' o'' cv, draw scale o' m = some (ops', o'') ∧ paintAll ops' = some cv ∧ cv.w = canvasW o m ∧ cv.h = canvasH o m ∧ (cv.pix px py).jpeg = (0, 0, 0) := by
  obtain ⟨hw, hh⟩ := mat_size hE hc ha h
  obtain ⟨v, k, st, hdim, hq, _⟩ := corner_of hE hc ha h
  have hs21 : 21 ≤ side v := by have := hq.version; unfold side; omega
  obtain ⟨⟨_, _, a3, _⟩, _⟩ := finder_cells hq
  obtain ⟨_, hbit⟩ := bitmap_spec q.mat
  have hlight : (q.mat.raw 1 1).bit = false := by rw [← hbit 1 1 (by omega) (by omega)]; exact a3
  have hclear := draw_clear scale hp ht (x := 1) (y := 1) (by omega) (by omega) hlight hd
  obtain ⟨o1, hsim, he⟩ := draw_eq scale o q.mat (maskBitmap_off (hp.safe q.mat))
  rw [he] at hd
  obtain rfl : o1 = o' := congrArg Prod.snd (Option.some.inj hd)
  have hp' : Plain o1 := by
    have e := hsim.eq
    generalize o1.bgColor = bgc at e
    subst e
    exact ⟨hp.shape, hp.halftone, hp.gradient, hp.logo⟩
  have hcw : canvasW o1 m = canvasW o m := by rw [hsim.eq]; rfl
  have hch : canvasH o1 m = canvasH o m := by rw [hsim.eq]; rfl
  have hfg' : o1.qrColor = ⟨0, 0, 0, 255⟩ := by rw [hsim.eq]; exact hfg
  have ht' : o1.bgTransparent = true := by rw [hsim.eq]; exact ht
  have hbg : o1.backgroundColor.1 = ⟨0, 0, 0, 0⟩ := by
    unfold Opts.backgroundColor
    rw [ht']
    simp only [if_true, hclear]
  obtain ⟨ops', o'', cv, g1, g2, g3, g4, g5, g6⟩ := plain_picture scale hp' m (px := px) (py := py) (by rw [hcw]; exact hpx) (by rw [hch]; exact hpy)
  refine ⟨ops', o'', cv, g1, g2, g3.trans hcw, g4.trans hch, ?_⟩
  rw [hbg, over_clear] at g5 g6
  by_cases hex : ∃ x y, x < m.width ∧ y < m.height ∧ InBlock o1 x y px py
  · obtain ⟨x, y, hx, hy, hi⟩ := hex
    rw [g5 x y hx hy hi]
    unfold moduleColor
    cases (m.raw x y).qrbool with
    | true => simp only [if_true, hfg', over_opaque]; rfl
    | false =>
      simp only [Bool.false_eq_true, if_false, ht', if_true]
      rw [over_clear]
      rfl
  · rw [g6 fun x y hx hy hi => hex ⟨x, y, hx, hy, hi⟩]
    rfl

/-- The brightness is the one of ITU-R BT.601, 0.299 red + 0.587 green + 0.114 blue, rounded: off by less than 0.504. -/
theorem C107_brightness (r g b a : UInt8) :
    let y := brightness (RGBA.jpeg ⟨r, g, b, a⟩)
    y ≤ 255 ∧ 1000 * y ≤ 299 * r.toNat + 587 * g.toNat + 114 * b.toNat + 504 ∧ 299 * r.toNat + 587 * g.toNat + 114 * b.toNat ≤ 1000 * y + 504 := by
  have h1 := r.toNat_lt; have h2 := g.toNat_lt; have h3 := b.toNat_lt
  simp only [brightness, RGBA.jpeg]
  omega

end QR.Standard

namespace QR.Compressed
open QR _root_.Spec

variable {E : Ext} {unsjis : Nat → Option Nat} {c : AlignCache} {arrival : List Nat} {t : TextType} {text : Bytes} {opts : List EncodeOption} {q : QRCode}

/-- **C107, compressed writer.**  The picture of the compressed writer, each pixel changed by 63 of 255 at most (printed, photographed), contains the text for the reader that is told nothing. -/
theorem C107_compressed (hE : E.Ok unsjis) (hc : CacheReachable c) (ha : Arrival arrival) (h : newWith E c arrival t text opts = .ok q)
    (hx : ¬ (modeIn opts = encAuto ∧ AlnumThenKanji E.sjis (nats text))) {padding blockSize : Nat} (hpos : 0 < blockSize) :
    ∃ img, Compressed.write (some ⟨padding, blockSize⟩) q.mat = some img ∧
      ∀ g, Near 63 (coloured img.maxX.toNat img.maxY.toNat fun x y => (img.at' x y).getD 0) g → decodeGrey unsjis g = some (nats text) := by
  obtain ⟨hw, hh⟩ := Standard.mat_size hE hc ha h
  have hd : 0 < q.dimension := by obtain ⟨v, _, hd, _⟩ := C11_dimension hE hc ha h; omega
  obtain ⟨img, hi, ⟨_, _, e1, e2⟩, hp⟩ := Compressed.C36_pixels q.mat (by omega) padding blockSize
  have s1 : img.maxX.toNat = q.dimension * blockSize + 2 * padding := by rw [e1, hw]; omega
  have s2 : img.maxY.toNat = q.dimension * blockSize + 2 * padding := by rw [e2, hw]; omega
  refine ⟨img, hi, fun g hg => ?_⟩
  rw [s1, s2] at hg
  refine C107_grey hE hc ha h hx hpos (left := padding) (top := padding) (p := photo (q.dimension * blockSize + 2 * padding) (q.dimension * blockSize + 2 * padding) fun x y => decide (img.at' x y = some 0x00))
    (shows_of hw hh hd hpos ?_ ?_) .straight (e := 63) (d := 0) (l := 255) (.inl (by decide)) (g := g) ?_
  · rw [Nat.mul_comm blockSize]; omega
  · intro px py h1 h2
    rw [decide_eq_true_eq]
    rw [← hw] at h1 h2
    rw [(hp px py h1 h2).2, hw, hh]
  · have : (coloured (q.dimension * blockSize + 2 * padding) (q.dimension * blockSize + 2 * padding) fun x y => (img.at' x y).getD 0) =
        greys 0 255 (photo (q.dimension * blockSize + 2 * padding) (q.dimension * blockSize + 2 * padding) fun x y => decide (img.at' x y = some 0x00)) := by
      unfold coloured greys photo sheet
      rw [List.map_map]
      refine List.map_congr_left fun y hy => ?_
      rw [Function.comp_apply, List.map_map]
      refine List.map_congr_left fun x hx => ?_
      show (img.at' x y).getD 0 = if decide (img.at' x y = some 0x00) = true then 0 else 255
      have hx' := List.mem_range.1 hx
      have hy' := List.mem_range.1 hy
      rw [← hw] at hx' hy'
      rcases (hp x y hx' hy').1 with e | e <;> rw [e] <;> rfl
    rwa [← this]

end QR.Compressed

namespace QR.Cli
open QR QR.Standard _root_.Spec

/-- **C107, command line.**  Without circles and halftone, with `--transparent` or without: whatever JPEG does to the brightness of the pixels, up to 63 of 255, the reader that is told nothing reads exactly
the text in the file. -/
theorem C107_cli {E : Ext} {unsjis : Nat → Option Nat} (hE : E.Ok unsjis) {c : AlignCache} (hc : CacheReachable c)
    {arrival : List Nat} (ha : Arrival arrival) (readImage : Bytes → Option Image) (f : Flags)
    {top right bottom left : Nat} (hb : parseBorders f.borders = some [top, right, bottom, left])
    {q : QRCode} (hq : new E c arrival .string f.text = .ok q) (hx : ¬ AlnumThenKanji E.sjis (nats f.text))
    (ht : f.terminal = false) (hcirc : f.circle = false) (hh : f.halftone = [] ∨ readImage f.halftone = none) (scale : Scaler) :
    ∃ o ops o' cv, run E c arrival readImage f = .file f.output o q ∧ draw scale o q.mat = some (ops, o') ∧ paintAll ops = some cv ∧
      ∀ g, Near 63 cv.grey g → decodeGrey unsjis g = some (nats f.text) := by
  obtain ⟨o, hr, h1, h2, h3, h4, h5, h6, h7, h8, h9⟩ := file_options E c arrival readImage f hb hq ht
  rw [hcirc] at h3
  have h5' : o.halftone = none := by
    rw [h5]
    split
    · rfl
    · rename_i hne
      exact hh.resolve_left hne
  have hrect := rects_of h3 h5' h9
  rw [new_eq] at hq
  obtain ⟨ops, o', cv, d1, d2, d3⟩ := C107_standard hE hc ha hq (fun h => hx h.2) scale ⟨hrect.shape, hrect.halftone, hrect.gradient, h8⟩
    (file_contrast h6 h7) (by rw [h1]; simp) (e := 63) rfl rfl (by rw [h6, h7]; left; decide)
  exact ⟨o, ops, o', cv, hr, d1, d2, d3⟩

end QR.Cli
