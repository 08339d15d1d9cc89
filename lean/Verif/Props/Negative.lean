import Verif.Proof.Negative
import Verif.Props.Photo
/-!
# C104: light on dark

`Spec/Negative.lean` has readers that are not told which colour is dark: `decodeEither` looks at a picture and at its negative,
`readings` tries every colour of a picture as the dark one.
-/
namespace QR
open _root_.Spec

variable {E : Ext} {unsjis : Nat → Option Nat} {c : AlignCache} {arrival : List Nat} {t : TextType} {text : Bytes} {opts : List EncodeOption} {q : QRCode}

/-- **C104, the negative.** In the negative of a picture that shows a symbol (as in C102), turned and mirrored in any way, the reader
finds nothing; so the reader that looks at both reads exactly the text, from the picture and from its negative. -/
theorem C104_negative (hE : E.Ok unsjis) (hc : CacheReachable c) (ha : Arrival arrival) (h : newWith E c arrival t text opts = .ok q)
    (hx : ¬ (modeIn opts = encAuto ∧ AlnumThenKanji E.sjis (nats text)))
    {b left top : Nat} (hb : 0 < b) {p : List (List Bool)} (hp : Shows p left top (inflate b q.mat.bitmap))
    {s : List (List Bool)} (hs : Seen p s) :
    decodePhoto unsjis (negative s) = none ∧ decodeEither unsjis s = some (nats text) ∧ decodeEither unsjis (negative s) = some (nats text) := by
  obtain ⟨v, k, st, _, hq, hf⟩ := corner_of hE hc ha h
  have h1 := decode_negative hq hb hp hs unsjis
  have h2 := C102_photo hE hc ha h hx hb hp hs
  refine ⟨h1, ?_, ?_⟩
  · unfold decodeEither; rw [h2]
  · unfold decodeEither; rw [h1, negative_negative, h2]

theorem eraseDups_nodup {α : Type} [DecidableEq α] : ∀ (n : Nat) (l : List α), l.length = n → l.eraseDups.Nodup := by
  intro n
  induction n using Nat.strongRecOn with
  | _ n ih =>
    intro l hl
    cases l with
    | nil => exact List.nodup_nil
    | cons a l =>
      rw [List.eraseDups_cons, List.nodup_cons]
      refine ⟨?_, ih _ ?_ _ rfl⟩
      · rw [List.mem_eraseDups, List.mem_filter]
        simp
      · have := List.length_filter_le (fun b => !b == a) l
        rw [List.length_cons] at hl
        omega

theorem filterMap_one {α β : Type} {f : α → Option β} {a : α} {y : β} (hf : f a = some y) : ∀ l : List α, l.Nodup → a ∈ l →
    (∀ x ∈ l, x ≠ a → f x = none) → l.filterMap f = [y] := by
  intro l
  induction l with
  | nil => intro _ h; cases h
  | cons x l ih =>
    intro hn hm hx
    rw [List.nodup_cons] at hn
    by_cases e : x = a
    · subst e
      rw [List.filterMap_cons, hf]
      have : l.filterMap f = [] := by
        rw [List.filterMap_eq_nil_iff]
        intro z hz
        exact hx z (by simp [hz]) fun e => hn.1 (e ▸ hz)
      rw [this]
    · rw [List.filterMap_cons, hx x (by simp) e]
      exact ih hn.2 ((List.mem_cons.1 hm).resolve_left (Ne.symm e)) fun z hz => hx z (by simp [hz])

theorem inColour_coloured {α : Type} [DecidableEq α] (c : α) (w h : Nat) (f : Nat → Nat → α) :
    inColour c (coloured w h f) = photo w h fun x y => decide (f x y = c) := by
  simp [inColour, coloured, photo, sheet, List.map_map, Function.comp_def]

theorem mem_coloured {α : Type} {c : α} {w h : Nat} {f : Nat → Nat → α} :
    c ∈ (coloured w h f).flatten ↔ ∃ x y, x < w ∧ y < h ∧ f x y = c := by
  simp only [coloured, List.mem_flatten, List.mem_map, List.mem_range]
  constructor
  · rintro ⟨_, ⟨y, hy, rfl⟩, hc⟩
    obtain ⟨x, hx, rfl⟩ := List.mem_map.1 hc
    exact ⟨x, y, List.mem_range.1 hx, hy, rfl⟩
  · rintro ⟨x, y, hx, hy, rfl⟩
    exact ⟨_, ⟨y, hy, rfl⟩, List.mem_map.2 ⟨x, List.mem_range.2 hx, rfl⟩⟩

/-- A picture in two colours of which one shows the symbol. -/
theorem two_colours (hE : E.Ok unsjis) (hc : CacheReachable c) (ha : Arrival arrival) (h : newWith E c arrival t text opts = .ok q)
    (hx : ¬ (modeIn opts = encAuto ∧ AlnumThenKanji E.sjis (nats text))) {α : Type} [DecidableEq α] {fg bg : α} (hne : bg ≠ fg)
    {w hgt : Nat} {f : Nat → Nat → α} (htwo : ∀ x y, x < w → y < hgt → f x y = fg ∨ f x y = bg)
    {b left top : Nat} (hb : 0 < b) (hp : Shows (photo w hgt fun x y => decide (f x y = fg)) left top (inflate b q.mat.bitmap)) :
    readings unsjis (coloured w hgt f) = [nats text] := by
  obtain ⟨_, h2, _⟩ := C104_negative hE hc ha h hx hb hp .straight
  have h1 := C102_photo hE hc ha h hx hb hp .straight
  obtain ⟨h3, _, _⟩ := C104_negative hE hc ha h hx hb hp .straight
  have hneg : negative (photo w hgt fun x y => decide (f x y = fg)) = photo w hgt fun x y => decide (f x y = bg) := by
    rw [photo, negative_sheet, photo]
    refine sheet_congr fun i j hi hj => ?_
    rcases htwo j i hj hi with e | e
    · rw [e]; simp [hne.symm]
    · rw [e]; simp [hne]
  rw [hneg] at h3
  unfold readings
  refine filterMap_one (a := fg) (by rw [inColour_coloured]; exact h1) _ (eraseDups_nodup _ _ rfl) ?_ ?_
  · rw [List.mem_eraseDups, mem_coloured]
    refine Classical.byContradiction fun hcon => ?_
    obtain ⟨v, k, st, hd, hq, _⟩ := corner_of hE hc ha h
    obtain ⟨⟨a1, _⟩, _⟩ := finder_cells hq
    have hs21 : 21 ≤ side v := by have := hq.version; unfold side; omega
    have hpos : 0 < b * q.mat.bitmap.length := Nat.mul_pos hb (by rw [hq.rows]; omega)
    have hroom := hp.room
    rw [inflate_length, inflate_width] at hroom
    have hl : (photo w hgt fun x y => decide (f x y = fg)).length = hgt := sheet_length _ _ _
    have hwd : width (photo w hgt fun x y => decide (f x y = fg)) = w := by
      rw [photo, sheet_width, if_neg (by rw [hl] at hroom; omega)]
    rw [hl, hwd] at hroom
    have hdk := (hp.dark top left (by rw [hl]; omega) (by rw [hwd]; omega)).2 ⟨by omega, by rw [inflate_length]; omega, by omega, by rw [inflate_width]; omega, by
      rw [Nat.sub_self, Nat.sub_self, pixel_inflate hpos hpos, Nat.zero_div]; exact a1⟩
    rw [photo, pixel_sheet (by omega) (by omega), decide_eq_true_eq] at hdk
    exact hcon ⟨left, top, by omega, by omega, hdk⟩
  · intro c' hc' hne'
    rw [List.mem_eraseDups, mem_coloured] at hc'
    obtain ⟨x, y, hx', hy', rfl⟩ := hc'
    have : f x y = bg := (htwo x y hx' hy').resolve_left hne'
    rw [this, inColour_coloured]
    exact h3

/-- **C104, compressed writer.** The reader that tries every colour finds one text in the picture, the right one. -/
theorem C104_compressed (hE : E.Ok unsjis) (hc : CacheReachable c) (ha : Arrival arrival) (h : newWith E c arrival t text opts = .ok q)
    (hx : ¬ (modeIn opts = encAuto ∧ AlnumThenKanji E.sjis (nats text))) {padding blockSize : Nat} (hpos : 0 < blockSize) :
    ∃ img, Compressed.write (some ⟨padding, blockSize⟩) q.mat = some img ∧
      readings unsjis (coloured img.maxX.toNat img.maxY.toNat fun x y => img.at' x y) = [nats text] := by
  obtain ⟨hw, hh⟩ := Standard.mat_size hE hc ha h
  have hd : 0 < q.dimension := by obtain ⟨v, _, hd, _⟩ := C11_dimension hE hc ha h; omega
  obtain ⟨img, hi, ⟨_, _, e1, e2⟩, hp⟩ := Compressed.C36_pixels q.mat (by omega) padding blockSize
  have s1 : img.maxX.toNat = q.dimension * blockSize + 2 * padding := by rw [e1, hw]; omega
  have s2 : img.maxY.toNat = q.dimension * blockSize + 2 * padding := by rw [e2, hw]; omega
  refine ⟨img, hi, ?_⟩
  rw [s1, s2]
  refine two_colours hE hc ha h hx (fg := some 0x00) (bg := some 0xff) (by decide) (fun x y hx' hy' => ?_) hpos (left := padding) (top := padding)
    (shows_of hw hh hd hpos ?_ ?_)
  · rw [← hw] at hx' hy'
    exact (hp x y hx' hy').1
  · rw [Nat.mul_comm blockSize]; omega
  · intro px py h1 h2
    rw [decide_eq_true_eq]
    rw [← hw] at h1 h2
    rw [(hp px py h1 h2).2, hw, hh]

end QR

namespace QR.Standard
open QR _root_.Spec

variable {E : Ext} {unsjis : Nat → Option Nat} {c : AlignCache} {arrival : List Nat} {t : TextType} {text : Bytes} {opts : List EncodeOption} {q : QRCode}

/-- **C104, image writer.** With rectangles, no halftone, gradient or logo, any two colours that can be told apart (light on dark, dark
on light, anything on a transparent background) and borders that are not negative: the reader that tries every colour of the picture
as the dark one finds one text, the right one. -/
theorem C104_standard (hE : E.Ok unsjis) (hc : CacheReachable c) (ha : Arrival arrival) (h : newWith E c arrival t text opts = .ok q)
    (hx : ¬ (modeIn opts = encAuto ∧ AlnumThenKanji E.sjis (nats text)))
    (scale : Scaler) {o : Opts} (hp : Plain o) (hcol : Contrast o)
    (hb : 0 ≤ o.borders.top ∧ 0 ≤ o.borders.right ∧ 0 ≤ o.borders.bottom ∧ 0 ≤ o.borders.left) :
    ∃ ops o' cv, draw scale o q.mat = some (ops, o') ∧ paintAll ops = some cv ∧
      readings unsjis (coloured cv.w.toNat cv.h.toNat fun x y => cv.pix x y) = [nats text] := by
  obtain ⟨ops, o', cv, b, left, top, h1, h2, hb0, hs, htwo⟩ := plain_shows hE hc ha h scale hp hcol hb
  refine ⟨ops, o', cv, h1, h2, ?_⟩
  exact two_colours hE hc ha h hx (contrast_background hcol) htwo hb0 hs

end QR.Standard
