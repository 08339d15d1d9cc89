import Verif.Model.Terminal
import Verif.Proof.Bitmap
/-!
# C38: the terminal writer
-/
namespace QR.Terminal
open QR

/-- A step of drawing, looked at through one cell `p`: the size stays, and the cell gets `c` if `S`, or else stays. -/
def Touch (p : Int × Int) (c : Cell) (s s' : Screen) (S : Prop) : Prop :=
  s'.cols = s.cols ∧ s'.rows = s.rows ∧ (S → s'.cells p = some c) ∧ (¬ S → s'.cells p = s.cells p)

theorem Touch.skip {p c s S} (h : ¬ S) : Touch p c s s S := ⟨rfl, rfl, fun g => absurd g h, fun _ => rfl⟩

theorem Touch.seq {p c s s' s'' S S'} (h : Touch p c s s' S) (g : Touch p c s' s'' S') : Touch p c s s'' (S ∨ S') := by
  obtain ⟨h1, h2, h3, h4⟩ := h
  obtain ⟨g1, g2, g3, g4⟩ := g
  refine ⟨g1.trans h1, g2.trans h2, ?_, ?_⟩
  · intro h
    by_cases hs : S'
    · exact g3 hs
    · rw [g4 hs]; exact h3 (h.resolve_right hs)
  · intro h
    rw [g4 (fun hs => h (Or.inr hs)), h4 (fun hs => h (Or.inl hs))]

theorem Touch.congr {p c s s' S S'} (h : Touch p c s s' S) (e : S ↔ S') : Touch p c s s' S' := by
  rw [← propext e]; exact h

/-- A fold of drawing steps. -/
theorem fold_touch {α : Type} {f : Screen → α → Screen} {S : α → Prop} {p : Int × Int} {c : Cell} {cols rows : Nat} :
    ∀ (l : List α) (s : Screen), s.cols = cols → s.rows = rows →
      (∀ a ∈ l, ∀ s, s.cols = cols → s.rows = rows → Touch p c s (f s a) (S a)) →
      Touch p c s (l.foldl f s) (∃ a ∈ l, S a) := by
  intro l
  induction l with
  | nil => intro s _ _ _; exact Touch.skip (by simp)
  | cons a l ih =>
    intro s hc hr h
    have h1 := h a (by simp) s hc hr
    have h2 := ih (f s a) (h1.1.trans hc) (h1.2.1.trans hr) (fun b hb => h b (by simp [hb]))
    rw [List.foldl_cons]
    apply (h1.seq h2).congr
    simp

theorem setCell_touch {s : Screen} {x y : Int} {p : Int × Int} {c d : Cell}
    (hp : 0 ≤ p.1 ∧ p.1 < s.cols ∧ 0 ≤ p.2 ∧ p.2 < s.rows) (hd : p = (x, y) → d = c) :
    Touch p c s (s.setCell x y d) (p = (x, y)) := by
  unfold Screen.setCell
  by_cases h1 : x < 0 ∨ x ≥ s.cols
  · rw [if_pos h1]
    apply Touch.skip
    rintro rfl
    simp only at hp
    omega
  rw [if_neg h1]
  by_cases h2 : y < 0 ∨ y ≥ s.rows
  · rw [if_pos h2]
    apply Touch.skip
    rintro rfl
    simp only at hp
    omega
  rw [if_neg h2]
  refine ⟨rfl, rfl, ?_, ?_⟩
  · intro h
    simp only [if_pos h, hd h]
  · intro h
    simp only [if_neg h]

theorem drawBlock_touch {s : Screen} {x y pad : Int} {p : Int × Int} {c : Cell} {fg bg : Nat}
    (hp : 0 ≤ p.1 ∧ p.1 < s.cols ∧ 0 ≤ p.2 ∧ p.2 < s.rows)
    (hd : (p.1 = x * 2 + 2 * pad ∨ p.1 = x * 2 + 2 * pad + 1) ∧ p.2 = y + pad → (⟨fullBlock, fg, bg⟩ : Cell) = c) :
    Touch p c s (drawBlock s x y pad fg bg) ((p.1 = x * 2 + 2 * pad ∨ p.1 = x * 2 + 2 * pad + 1) ∧ p.2 = y + pad) := by
  unfold drawBlock
  simp only
  have h1 := setCell_touch (s := s) (x := x * 2 + 2 * pad) (y := y + pad) (c := c) (d := ⟨fullBlock, fg, bg⟩) hp
    (fun h => hd (by rw [h]; exact ⟨Or.inl rfl, rfl⟩))
  have h2 := setCell_touch (s := s.setCell (x * 2 + 2 * pad) (y + pad) ⟨fullBlock, fg, bg⟩) (x := x * 2 + 2 * pad + 1)
    (y := y + pad) (c := c) (d := ⟨fullBlock, fg, bg⟩) (by rw [h1.1, h1.2.1]; exact hp)
    (fun h => hd (by rw [h]; exact ⟨Or.inr rfl, rfl⟩))
  apply (h1.seq h2).congr
  obtain ⟨p1, p2⟩ := p
  simp only [Prod.mk.injEq]
  constructor
  · rintro (⟨h, g⟩ | ⟨h, g⟩)
    · exact ⟨Or.inl h, g⟩
    · exact ⟨Or.inr h, g⟩
  · rintro ⟨h | h, g⟩
    · exact Or.inl ⟨h, g⟩
    · exact Or.inr ⟨h, g⟩

theorem preDraw_touch {s : Screen} {w h bg : Nat} {p : Int × Int}
    (hp : 0 ≤ p.1 ∧ p.1 < s.cols ∧ 0 ≤ p.2 ∧ p.2 < s.rows) :
    Touch p ⟨fullBlock, bg, bg⟩ s (preDraw s w h 1 bg) (p.1 < 2 * (w + 2) ∧ p.2 < h + 2) := by
  unfold preDraw
  have := fold_touch (f := fun (s : Screen) (i : Nat) =>
      (List.range (h + 2 * 1)).foldl (fun (s : Screen) (j : Nat) => drawBlock s i j 0 bg bg) s)
    (S := fun i => ∃ j ∈ List.range (h + 2 * 1), (p.1 = (i : Int) * 2 + 2 * 0 ∨ p.1 = (i : Int) * 2 + 2 * 0 + 1) ∧ p.2 = (j : Int) + 0)
    (p := p) (c := ⟨fullBlock, bg, bg⟩) (cols := s.cols) (rows := s.rows) (List.range (w + 2 * 1)) s rfl rfl
    (by
      intro i _ s' hc hr
      apply fold_touch (cols := s.cols) (rows := s.rows) _ _ hc hr
      intro j _ s'' hc' hr'
      exact drawBlock_touch (by rw [hc', hr']; exact hp) (fun _ => rfl))
  apply this.congr
  constructor
  · rintro ⟨i, hi, j, hj, h1, h2⟩
    have hi := List.mem_range.1 hi
    have hj := List.mem_range.1 hj
    constructor <;> omega
  · rintro ⟨h1, h2⟩
    refine ⟨(p.1 / 2).toNat, List.mem_range.2 (by omega), p.2.toNat, List.mem_range.2 (by omega), by omega, by omega⟩

/-- A fold that carries a second component it only overwrites. -/
theorem foldl_pair {α β γ : Type} (g : β → α → β) (k : α → γ) : ∀ (l : List α) (s : β) (c : γ),
    l.foldl (fun (st : β × γ) a => (g st.1 a, k a)) (s, c) = (l.foldl g s, (l.getLast?.map k).getD c) := by
  intro l
  induction l with
  | nil => intro s c; rfl
  | cons a l ih =>
    intro s c
    rw [List.foldl_cons, ih, List.foldl_cons]
    congr 1
    rw [List.getLast?_cons]
    cases l.getLast? <;> simp

theorem iterate_row_last {m : Matrix} (hw : 0 < m.width) (hh : 0 < m.height) :
    ((m.iterate .row).getLast?.map fun a => a.2.1) = some (m.height - 1) := by
  unfold Matrix.iterate Matrix.coords
  obtain ⟨w, hw⟩ : ∃ w, m.width = w + 1 := ⟨m.width - 1, by omega⟩
  obtain ⟨h, hh⟩ : ∃ h, m.height = h + 1 := ⟨m.height - 1, by omega⟩
  simp only [hw, hh]
  rw [List.range_succ (n := h), List.flatMap_append, List.map_append, List.getLast?_append]
  simp [List.range_succ]

theorem mem_row {m : Matrix} {a : Nat × Nat × QRValue} :
    a ∈ m.iterate .row ↔ ∃ x y, x < m.width ∧ y < m.height ∧ a = (x, y, m.raw x y) := by
  unfold Matrix.iterate Matrix.coords
  simp only [List.mem_map, List.mem_flatMap, List.mem_range]
  constructor
  · rintro ⟨p, ⟨h, hh, x, hx, rfl⟩, rfl⟩
    exact ⟨x, h, hx, hh, rfl⟩
  · rintro ⟨x, y, hx, hy, rfl⟩
    exact ⟨(x, y), ⟨y, hy, x, hx, rfl⟩, rfl⟩

/-- Is the cell part of the two cells of a dark module? -/
def Dark (m : Matrix) (p : Int × Int) : Prop :=
  ∃ x y, x < m.width ∧ y < m.height ∧ (m.raw x y).bit = true ∧ (p.1 = 2 * x + 2 ∨ p.1 = 2 * x + 3) ∧ p.2 = (y : Int) + 1

/-- The row of the tip. -/
theorem tipRow {m : Matrix} (hw : 0 < m.width) (hh : 0 < m.height) (s : Screen) (rw' : Nat → Nat) (amb : Nat → Bool) :
    render rw' amb s m = printTip rw' amb
      ((m.iterate .row).foldl (fun (s : Screen) (a : Nat × Nat × QRValue) =>
        drawBlock s a.1 a.2.1 1 (if a.2.2.qrbool then colorBlack else colorWhite) colorWhite)
        (preDraw s m.width m.height 1 colorWhite)) (m.height + 3) := by
  unfold render
  simp only
  have e := foldl_pair (fun (s : Screen) (a : Nat × Nat × QRValue) =>
        drawBlock s a.1 a.2.1 ((1 : Nat) : Int) (if a.2.2.qrbool then colorBlack else colorWhite) colorWhite)
        (fun (a : Nat × Nat × QRValue) => a.2.1) (m.iterate .row) (preDraw s m.width m.height 1 colorWhite) 0
  rw [iterate_row_last hw hh] at e
  simp only [Option.getD_some] at e
  simp only [e]
  rw [show ((m.height - 1 + 2 * 1 + 1 + 1 : Nat) : Int) = (m.height : Int) + 3 by omega]
  rfl

theorem printTip_other (rw' : Nat → Nat) (amb : Nat → Bool) (s : Screen) (y : Int) :
    (printTip rw' amb s y).cols = s.cols ∧ (printTip rw' amb s y).rows = s.rows ∧
    ∀ p : Int × Int, p.2 ≠ y → (printTip rw' amb s y).cells p = s.cells p := by
  unfold printTip
  generalize (0 : Int) = x0
  generalize tip = l
  induction l generalizing s x0 with
  | nil => exact ⟨rfl, rfl, fun _ _ => rfl⟩
  | cons r l ih =>
    rw [List.foldl_cons]
    simp only
    obtain ⟨h1, h2, h3⟩ := ih (s.setCell x0 y ⟨r, colorDefault, colorDefault⟩)
      (x0 + ((if rw' r = 0 ∨ rw' r = 2 ∧ amb r = true then 1 else rw' r : Nat) : Int))
    refine ⟨h1.trans ?_, h2.trans ?_, ?_⟩
    · unfold Screen.setCell; split
      · rfl
      · split <;> rfl
    · unfold Screen.setCell; split
      · rfl
      · split <;> rfl
    · intro p hp
      rw [h3 p hp]
      unfold Screen.setCell
      split
      · rfl
      split
      · rfl
      · have : p ≠ (x0, y) := by rintro rfl; exact hp rfl
        simp only [if_neg this]

/-- **C38, the symbol.**  For every matrix with at least one module and every terminal size: after drawing, every cell of the
terminal that lies in the area of `2 * (width + 2)` columns and `height + 2` rows shows a full block on white: in black if
the cell is one of the two cells `(2x+2, y+1)`, `(2x+3, y+1)` of a dark module `(x, y)`, and in white otherwise (light
modules and the quiet zone of one module around the symbol). -/
theorem C38_cells {m : Matrix} (hw : 0 < m.width) (hh : 0 < m.height) (s : Screen) (runeWidth : Nat → Nat)
    (ambiguous : Nat → Bool) (cx cy : Nat) (hx : cx < s.cols) (hy : cy < s.rows)
    (hcx : cx < 2 * (m.width + 2)) (hcy : cy < m.height + 2) :
    (Dark m (cx, cy) → (render runeWidth ambiguous s m).cells (cx, cy) = some ⟨fullBlock, colorBlack, colorWhite⟩) ∧
    (¬ Dark m (cx, cy) → (render runeWidth ambiguous s m).cells (cx, cy) = some ⟨fullBlock, colorWhite, colorWhite⟩) := by
  rw [tipRow hw hh]
  have hp : 0 ≤ ((cx : Int), (cy : Int)).1 ∧ ((cx : Int), (cy : Int)).1 < s.cols ∧ 0 ≤ ((cx : Int), (cy : Int)).2 ∧
      ((cx : Int), (cy : Int)).2 < s.rows := by simp only; omega
  rw [(printTip_other runeWidth ambiguous _ (m.height + 3)).2.2 (cx, cy) (by simp only; omega)]
  have hpre := preDraw_touch (s := s) (w := m.width) (h := m.height) (bg := colorWhite) hp
  have hbase : (preDraw s m.width m.height 1 colorWhite).cells (cx, cy) = some ⟨fullBlock, colorWhite, colorWhite⟩ :=
    hpre.2.2.1 (by simp only; omega)
  have hfold : ∀ c : Cell, (∀ x y, x < m.width → y < m.height →
        ((cx : Int) = (x : Int) * 2 + 2 * 1 ∨ (cx : Int) = (x : Int) * 2 + 2 * 1 + 1) ∧ (cy : Int) = (y : Int) + 1 →
        (⟨fullBlock, if (m.raw x y).qrbool then colorBlack else colorWhite, colorWhite⟩ : Cell) = c) →
      Touch (cx, cy) c (preDraw s m.width m.height 1 colorWhite)
        ((m.iterate .row).foldl (fun (s : Screen) (a : Nat × Nat × QRValue) =>
          drawBlock s a.1 a.2.1 1 (if a.2.2.qrbool then colorBlack else colorWhite) colorWhite)
          (preDraw s m.width m.height 1 colorWhite))
        (∃ a ∈ m.iterate .row, ((cx : Int) = (a.1 : Int) * 2 + 2 * 1 ∨ (cx : Int) = (a.1 : Int) * 2 + 2 * 1 + 1) ∧
          (cy : Int) = (a.2.1 : Int) + 1) := by
    intro c hc
    apply fold_touch (cols := s.cols) (rows := s.rows) _ _ hpre.1 hpre.2.1
    intro a ha s' hc' hr'
    obtain ⟨x, y, hx, hy, rfl⟩ := mem_row.1 ha
    exact drawBlock_touch (by rw [hc', hr']; exact hp) (hc x y hx hy)
  constructor
  · rintro ⟨x, y, hx, hy, hb, h1, h2⟩
    simp only at h1 h2
    refine (hfold ⟨fullBlock, colorBlack, colorWhite⟩ ?_).2.2.1 ⟨(x, y, m.raw x y), mem_row.2 ⟨x, y, hx, hy, rfl⟩, ?_⟩
    · intro x' y' _ _ h
      have e1 : x' = x := by omega
      have e2 : y' = y := by omega
      rw [e1, e2]
      simp only [QRValue.qrbool, hb, if_true]
    · simp only; omega
  · intro hd
    have hT := hfold ⟨fullBlock, colorWhite, colorWhite⟩ (by
      intro x y hx hy h
      by_cases hb : (m.raw x y).qrbool = true
      · exact absurd ⟨x, y, hx, hy, hb, by simp only; omega, by simp only; omega⟩ hd
      · rw [if_neg hb])
    by_cases hS : ∃ a ∈ m.iterate .row, ((cx : Int) = (a.1 : Int) * 2 + 2 * 1 ∨ (cx : Int) = (a.1 : Int) * 2 + 2 * 1 + 1) ∧
          (cy : Int) = (a.2.1 : Int) + 1
    · exact hT.2.2.1 hS
    · rw [hT.2.2.2 hS]; exact hbase

/-- **C38, nothing else.**  Every other cell outside the row of the tip (row `height + 3`, two rows below the quiet zone)
keeps its content. -/
theorem C38_rest {m : Matrix} (hw : 0 < m.width) (hh : 0 < m.height) (s : Screen) (runeWidth : Nat → Nat)
    (ambiguous : Nat → Bool) (cx cy : Nat) (hx : cx < s.cols) (hy : cy < s.rows)
    (hout : 2 * (m.width + 2) ≤ cx ∨ m.height + 2 ≤ cy) (htip : cy ≠ m.height + 3) :
    (render runeWidth ambiguous s m).cells (cx, cy) = s.cells (cx, cy) := by
  rw [tipRow hw hh]
  have hp : 0 ≤ ((cx : Int), (cy : Int)).1 ∧ ((cx : Int), (cy : Int)).1 < s.cols ∧ 0 ≤ ((cx : Int), (cy : Int)).2 ∧
      ((cx : Int), (cy : Int)).2 < s.rows := by simp only; omega
  rw [(printTip_other runeWidth ambiguous _ (m.height + 3)).2.2 (cx, cy) (by simp only; omega)]
  have hpre := preDraw_touch (s := s) (w := m.width) (h := m.height) (bg := colorWhite) hp
  have hT : Touch (cx, cy) ⟨0, 0, 0⟩ (preDraw s m.width m.height 1 colorWhite)
        ((m.iterate .row).foldl (fun (s : Screen) (a : Nat × Nat × QRValue) =>
          drawBlock s a.1 a.2.1 1 (if a.2.2.qrbool then colorBlack else colorWhite) colorWhite)
          (preDraw s m.width m.height 1 colorWhite))
        (∃ a ∈ m.iterate .row, ((cx : Int) = (a.1 : Int) * 2 + 2 * 1 ∨ (cx : Int) = (a.1 : Int) * 2 + 2 * 1 + 1) ∧
          (cy : Int) = (a.2.1 : Int) + 1) := by
    apply fold_touch (cols := s.cols) (rows := s.rows) _ _ hpre.1 hpre.2.1
    intro a ha s' hc' hr'
    obtain ⟨x, y, hx, hy, rfl⟩ := mem_row.1 ha
    refine drawBlock_touch (by rw [hc', hr']; exact hp) ?_
    intro h
    simp only at h
    omega
  rw [hT.2.2.2 (by
    rintro ⟨a, ha, h⟩
    obtain ⟨x, y, hx, hy, rfl⟩ := mem_row.1 ha
    simp only at h
    omega), hpre.2.2.2 (by simp only; omega)]

seal tip in
/-- **C38, the tip.**  If the runewidth library gives every character of the tip the width 1 (they are ASCII), the tip
"Press any key to quit." stands in row `height + 3` from column 0 on, as far as the terminal reaches. -/
theorem C38_tip {m : Matrix} (hw : 0 < m.width) (hh : 0 < m.height) (s : Screen) (runeWidth : Nat → Nat)
    (ambiguous : Nat → Bool) (hrw : ∀ r, 32 ≤ r → r < 127 → runeWidth r = 1) (i : Nat) (hi : i < tip.length)
    (hx : i < s.cols) (hy : m.height + 3 < s.rows) :
    (render runeWidth ambiguous s m).cells (i, m.height + 3) = some ⟨tip[i], colorDefault, colorDefault⟩ := by
  rw [tipRow hw hh]
  generalize hS : (m.iterate .row).foldl (fun (s : Screen) (a : Nat × Nat × QRValue) =>
          drawBlock s a.1 a.2.1 1 (if a.2.2.qrbool then colorBlack else colorWhite) colorWhite)
          (preDraw s m.width m.height 1 colorWhite) = s1
  have hsize : s1.cols = s.cols ∧ s1.rows = s.rows := by
    have hset : ∀ (s : Screen) x y d, (s.setCell x y d).cols = s.cols ∧ (s.setCell x y d).rows = s.rows := by
      intro s x y d; unfold Screen.setCell; split
      · exact ⟨rfl, rfl⟩
      · split <;> exact ⟨rfl, rfl⟩
    have hdb : ∀ (s : Screen) x y p f b, (drawBlock s x y p f b).cols = s.cols ∧ (drawBlock s x y p f b).rows = s.rows := by
      intro s x y p f b
      unfold drawBlock
      simp only
      exact ⟨((hset _ _ _ _).1).trans (hset _ _ _ _).1, ((hset _ _ _ _).2).trans (hset _ _ _ _).2⟩
    have hfold : ∀ {α : Type} (f : Screen → α → Screen), (∀ s a, (f s a).cols = s.cols ∧ (f s a).rows = s.rows) →
        ∀ (l : List α) s, (l.foldl f s).cols = s.cols ∧ (l.foldl f s).rows = s.rows := by
      intro α f h l
      induction l with
      | nil => intro s; exact ⟨rfl, rfl⟩
      | cons a l ih => intro s; rw [List.foldl_cons]; exact ⟨(ih _).1.trans (h s a).1, (ih _).2.trans (h s a).2⟩
    rw [← hS]
    have h1 := hfold (fun (s : Screen) (a : Nat × Nat × QRValue) =>
          drawBlock s a.1 a.2.1 1 (if a.2.2.qrbool then colorBlack else colorWhite) colorWhite)
          (fun _ _ => hdb _ _ _ _ _ _) (m.iterate .row) (preDraw s m.width m.height 1 colorWhite)
    have h2 : (preDraw s m.width m.height 1 colorWhite).cols = s.cols ∧ (preDraw s m.width m.height 1 colorWhite).rows = s.rows := by
      unfold preDraw
      exact hfold _ (fun s i => hfold _ (fun _ _ => hdb _ _ _ _ _ _) _ _) _ _
    exact ⟨h1.1.trans h2.1, h1.2.trans h2.2⟩
  have key : ∀ (l : List Nat) (s1 : Screen) (x0 : Nat), s1.cols = s.cols → s1.rows = s.rows →
      (∀ r ∈ l, 32 ≤ r ∧ r < 127) →
      let out := (l.foldl (fun (st : Screen × Int) r =>
        let w := runeWidth r
        let w := if w = 0 ∨ (w = 2 ∧ ambiguous r = true) then 1 else w
        (st.1.setCell st.2 ((m.height : Int) + 3) ⟨r, colorDefault, colorDefault⟩, st.2 + (w : Int))) (s1, (x0 : Int))).1
      (∀ j : Nat, j < x0 → out.cells (j, (m.height : Int) + 3) = s1.cells (j, (m.height : Int) + 3)) ∧
      (∀ j (hj : j < l.length), x0 + j < s.cols → out.cells (((x0 + j : Nat) : Int), (m.height : Int) + 3) =
        some ⟨l[j], colorDefault, colorDefault⟩) := by
    intro l
    induction l with
    | nil => intro s1 x0 _ _ _; exact ⟨fun _ _ => rfl, fun j hj => absurd hj (by simp)⟩
    | cons r l ih =>
      intro s1 x0 hc hr hl
      have hr1 : runeWidth r = 1 := hrw r (hl r (by simp)).1 (hl r (by simp)).2
      simp only [List.foldl_cons, hr1]
      rw [show (if 1 = 0 ∨ 1 = 2 ∧ ambiguous r = true then 1 else 1) = 1 by split <;> rfl]
      have hset : ∀ (s : Screen) x y d, (s.setCell x y d).cols = s.cols ∧ (s.setCell x y d).rows = s.rows := by
        intro s x y d; unfold Screen.setCell; split
        · exact ⟨rfl, rfl⟩
        · split <;> exact ⟨rfl, rfl⟩
      obtain ⟨i1, i2⟩ := ih (s1.setCell x0 ((m.height : Int) + 3) ⟨r, colorDefault, colorDefault⟩) (x0 + 1)
        ((hset _ _ _ _).1.trans hc) ((hset _ _ _ _).2.trans hr) (fun q hq => hl q (by simp [hq]))
      rw [show (x0 : Int) + ((1 : Nat) : Int) = ((x0 + 1 : Nat) : Int) by push_cast; rfl]
      refine ⟨?_, ?_⟩
      · intro j hj
        refine Eq.trans (i1 j (by omega)) ?_
        unfold Screen.setCell
        split
        · rfl
        split
        · rfl
        · have : ((j : Int), (m.height : Int) + 3) ≠ ((x0 : Int), (m.height : Int) + 3) := by
            simp only [ne_eq, Prod.mk.injEq, and_true]; omega
          simp only [if_neg this]
      · intro j hj hjc
        cases j with
        | zero =>
          refine Eq.trans (i1 x0 (by omega)) ?_
          unfold Screen.setCell
          rw [if_neg (by omega), if_neg (by omega)]
          simp
        | succ j =>
          have := i2 j (by simpa using hj) (by omega)
          rw [show x0 + (j + 1) = x0 + 1 + j by omega]
          exact this
  have hall : ∀ r ∈ tip, 32 ≤ r ∧ r < 127 := by decide +kernel
  have := (key tip s1 0 hsize.1 hsize.2 hall).2 i hi (by omega)
  unfold printTip
  rw [Nat.zero_add] at this
  rw [show (0 : Int) = ((0 : Nat) : Int) from rfl]
  exact this

/-- **C38, waiting.**  `Write` returns the error of `Flush` without waiting; otherwise it returns nil exactly when a key is
pressed, whatever other events come before, and it reads no event after that one. -/
theorem C38_hold (flush : Option Nat) (events : List Event) :
    (∀ e, flush = some e → hold flush events = (.flushError e, 0)) ∧
    (flush = none → ∀ before after, events = before ++ .key :: after → (∀ e ∈ before, e ≠ .key) →
      hold flush events = (.ok, before.length + 1)) ∧
    (flush = none → (∀ e ∈ events, e ≠ .key) → hold flush events = (.waiting, events.length)) := by
  refine ⟨?_, ?_, ?_⟩
  · rintro e rfl; rfl
  · rintro rfl before after rfl hb
    unfold hold
    simp only
    have : ∀ (l : List Event) n, (∀ e ∈ l, e ≠ .key) → hold.wait (l ++ .key :: after) n = (.ok, n + l.length + 1) := by
      intro l
      induction l with
      | nil => intro n _; rfl
      | cons e l ih =>
        intro n h
        have he : e ≠ .key := h e (by simp)
        have := ih (n + 1) (fun e' h' => h e' (by simp [h']))
        cases e <;> first | exact absurd rfl he | (rw [List.cons_append, hold.wait, this, List.length_cons]; congr 1; omega; simp)
    simpa using this before 0 hb
  · rintro rfl hb
    unfold hold
    simp only
    have : ∀ (l : List Event) n, (∀ e ∈ l, e ≠ .key) → hold.wait l n = (.waiting, n + l.length) := by
      intro l
      induction l with
      | nil => intro n _; rfl
      | cons e l ih =>
        intro n h
        have he : e ≠ .key := h e (by simp)
        have := ih (n + 1) (fun e' h' => h e' (by simp [h']))
        cases e <;> first | exact absurd rfl he | (rw [hold.wait, this, List.length_cons]; congr 1; omega; simp)
    simpa using this events 0 hb

/-- A 1x2 symbol: the dark module at (0, 1) has the cells (2, 2) and (3, 2). -/
example : let m : Matrix := ⟨1, 2, [[DATA_V0, DATA_V1]]⟩
    let s : Screen := ⟨80, 25, fun _ => none⟩
    Dark m (2, 2) ∧ Dark m (3, 2) ∧ ¬ Dark m (2, 1) ∧
    (render (fun _ => 1) (fun _ => false) s m).cells (0, 5) = some ⟨80, 0, 0⟩ := by
  refine ⟨⟨0, 1, by decide, by decide, by decide, by decide, by decide⟩,
    ⟨0, 1, by decide, by decide, by decide, by decide, by decide⟩, ?_, ?_⟩
  · rintro ⟨x, y, hx, hy, hb, h1, h2⟩
    simp only at hx hy h1 h2
    have e1 : x = 0 := by omega
    have e2 : y = 0 := by omega
    subst e1 e2
    revert hb; decide
  · decide +kernel

end QR.Terminal
