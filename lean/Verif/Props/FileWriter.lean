import Verif.Model.FileWriter
import Verif.Spec.HalfBlocks
import Verif.Proof.Bitmap
/-!
# C35: the file writer
-/
namespace QR.FileWriter
open QR Spec

theorem cell_eq {m : Matrix} {i j : Nat} (hi : i < m.height) (hj : j < m.width) :
    cell m.bitmap i j = some (m.raw j i).bit := by
  obtain ⟨h1, h2⟩ := bitmap_spec m
  have hy : i < m.bitmap.length := by rw [h1.1]; exact hi
  have hr := h1.2 _ (List.getElem_mem hy)
  have hx : j < (m.bitmap[i]).length := by rw [hr]; exact hj
  have := h2 i j hi hj
  unfold cell
  rw [List.getElem?_eq_getElem hy, Option.bind_some, List.getElem?_eq_getElem hx]
  unfold pixel at this
  rw [List.getD_eq_getElem?_getD (l := m.bitmap), List.getElem?_eq_getElem hy, Option.getD_some,
    List.getD_eq_getElem?_getD, List.getElem?_eq_getElem hx, Option.getD_some] at this
  rw [this]

theorem mapM_some {α β : Type} {f : α → Option β} {g : α → β} {l : List α} (h : ∀ a ∈ l, f a = some (g a)) :
    l.mapM f = some (l.map g) := by
  induction l with
  | nil => rfl
  | cons a l ih =>
    rw [List.mapM_cons, h a (by simp), ih (fun b hb => h b (by simp [hb]))]
    rfl

/-- The character of a line. -/
def lineChar (m : Matrix) (col row : Nat) : Nat :=
  let up := (m.raw row (col * 2)).bit
  let down := decide (col * 2 + 1 < m.height) && (m.raw row (col * 2 + 1)).bit
  if up && down then 9608 else if up then 9600 else if down then 9604 else 32

theorem charAt_eq {m : Matrix} {col row : Nat} (hc : col * 2 < m.height) (hr : row < m.width) :
    charAt m.bitmap col row = some (lineChar m col row) := by
  have hl : m.bitmap.length = m.height := (bitmap_spec m).1.1
  unfold charAt lineChar
  rw [cell_eq hc hr, hl]
  simp only [Option.bind_eq_bind, Option.bind_some]
  by_cases h : col * 2 + 1 < m.height
  · rw [if_pos h, cell_eq h hr]
    simp only [Option.bind_some, h, decide_true, Bool.true_and]
    cases (m.raw row (col * 2)).bit <;> cases (m.raw row (col * 2 + 1)).bit <;> rfl
  · rw [if_neg h]
    simp only [h, decide_false, Bool.false_and, Bool.and_false]
    cases (m.raw row (col * 2)).bit <;> rfl

/-- The picture. -/
def picture (m : Matrix) : List (List Nat) :=
  (List.range ((m.height + 1) / 2)).map fun col => (List.range m.width).map fun row => lineChar m col row

theorem output_eq (m : Matrix) : output m.bitmap = some (picture m) := by
  obtain ⟨h1, _⟩ := bitmap_spec m
  unfold output picture
  rw [h1.1, show m.height / 2 + m.height % 2 = (m.height + 1) / 2 by omega]
  apply mapM_some
  intro col hc
  have hc := List.mem_range.1 hc
  have h0 : 0 < m.bitmap.length := by rw [h1.1]; omega
  rw [List.getElem?_eq_getElem h0]
  simp only [Option.bind_eq_bind, Option.bind_some]
  rw [h1.2 _ (List.getElem_mem h0)]
  apply mapM_some
  intro row hr
  exact charAt_eq (by omega) (List.mem_range.1 hr)

theorem lineChar_cases (m : Matrix) (col row : Nat) :
    lineChar m col row = 32 ∨ lineChar m col row = 9600 ∨ lineChar m col row = 9604 ∨ lineChar m col row = 9608 := by
  unfold lineChar
  simp only
  split
  · simp
  split
  · simp
  split <;> simp

theorem runes_encode {r : Nat} (h : r = 32 ∨ r = 9600 ∨ r = 9604 ∨ r = 9608 ∨ r = 10) (rest : Bytes) :
    runes (encodeRune r ++ rest) = r :: runes rest := by
  rcases h with rfl | rfl | rfl | rfl | rfl <;>
    (simp only [encodeRune]; conv => lhs; unfold runes; simp [inRange, second3])

theorem runes_chunks (out : List (List Nat)) (h : ∀ l ∈ out, ∀ c ∈ l, c = 32 ∨ c = 9600 ∨ c = 9604 ∨ c = 9608) :
    runes (chunks out).flatten = out.flatMap fun l => l ++ [10] := by
  induction out with
  | nil => rfl
  | cons l out ih =>
    have hline : ∀ (l : List Nat) (rest : Bytes), (∀ c ∈ l, c = 32 ∨ c = 9600 ∨ c = 9604 ∨ c = 9608) →
        runes ((l.map encodeRune).flatten ++ rest) = l ++ runes rest := by
      intro l
      induction l with
      | nil => intro rest _; rfl
      | cons c l ihl =>
        intro rest hc
        rw [List.map_cons, List.flatten_cons, List.append_assoc, runes_encode (by
          rcases hc c (by simp) with h | h | h | h <;> simp [h])]
        rw [ihl rest (fun c' h' => hc c' (by simp [h']))]
        rfl
    unfold chunks at *
    rw [List.flatMap_cons, List.flatMap_cons, List.flatten_append, List.flatten_append, List.append_assoc,
      hline l _ (h l (by simp))]
    have h10 : [([0x0A] : Bytes)].flatten = encodeRune 10 := rfl
    rw [h10, runes_encode (by simp), ih (fun l' hl' => h l' (by simp [hl']))]
    simp

/-- The whole text. -/
def text (m : Matrix) : Bytes := (chunks (picture m)).flatten

theorem writeAll_spec (sink : Sink) (cs : List Bytes) : ∀ i,
    (writeAll sink i cs).1 <+: cs.flatten ∧
    (((writeAll sink i cs).2 = none ∧ (writeAll sink i cs).1 = cs.flatten ∧ ∀ k, k < cs.length → sink (i + k) = none) ∨
     ∃ k n e, k < cs.length ∧ sink (i + k) = some (n, e) ∧ (∀ k' < k, sink (i + k') = none) ∧
      (writeAll sink i cs).2 = some (.write e) ∧
      ∃ c, cs[k]? = some c ∧ (writeAll sink i cs).1 = (cs.take k).flatten ++ c.take n) := by
  induction cs with
  | nil => intro i; exact ⟨List.prefix_rfl, Or.inl ⟨rfl, rfl, by simp⟩⟩
  | cons c cs ih =>
    intro i
    rw [writeAll]
    cases hs : sink i with
    | some p =>
      obtain ⟨n, e⟩ := p
      simp only
      refine ⟨?_, Or.inr ⟨0, n, e, by simp, by simpa using hs, by simp, rfl, c, rfl, by simp⟩⟩
      exact (List.take_prefix n c).trans (by rw [List.flatten_cons]; exact List.prefix_append _ _)
    | none =>
      obtain ⟨h1, h2⟩ := ih (i + 1)
      simp only
      refine ⟨?_, ?_⟩
      · rw [List.flatten_cons, List.prefix_append_right_inj]; exact h1
      · rcases h2 with ⟨a, b, hk⟩ | ⟨k, n, e, hk, g1, g2, g3, c', g4, g5⟩
        · left
          refine ⟨a, by rw [b, List.flatten_cons], ?_⟩
          intro k hk'
          cases k with
          | zero => simpa using hs
          | succ k =>
            have := hk k (by simp at hk'; omega)
            rw [show i + (k + 1) = i + 1 + k by omega]; exact this
        · right
          refine ⟨k + 1, n, e, by simp; omega, by rw [show i + (k + 1) = i + 1 + k by omega]; exact g1, ?_, g3, c', g4, ?_⟩
          · intro k' hk'
            cases k' with
            | zero => simpa using hs
            | succ k' =>
              have := g2 k' (by omega)
              rw [show i + (k' + 1) = i + 1 + k' by omega]; exact this
          · rw [g5]; simp

/-- **C35, success.**  If no `WriteString` fails, `Write` returns nil and the file has received a text whose UTF-8 characters
form ⌈height/2⌉ lines, each of `width` block characters ended by a newline, and from which the colour of every module can
be read back. -/
theorem C35_picture (m : Matrix) (sink : Sink) (hs : ∀ i, sink i = none) :
    ∃ text lines, write (some sink) m = some (text, none) ∧ runes text = lines.flatMap (fun l => l ++ [10]) ∧
      lines.length = (m.height + 1) / 2 ∧ (∀ l ∈ lines, l.length = m.width ∧ ∀ c ∈ l, isBlockChar c = true) ∧
      ∀ x y, x < m.width → y < m.height → inkAt lines x y = some (m.raw x y).bit := by
  refine ⟨text m, picture m, ?_, ?_, ?_, ?_, ?_⟩
  · unfold write
    simp only
    rw [output_eq]
    obtain ⟨_, h | ⟨k, n, e, _, h, _⟩⟩ := writeAll_spec sink (chunks (picture m)) 0
    · simp only [Option.bind_eq_bind, Option.bind_some]
      rw [show writeAll sink 0 (chunks (picture m)) = ((writeAll sink 0 (chunks (picture m))).1, (writeAll sink 0 (chunks (picture m))).2) from rfl,
        h.1, h.2.1]
      rfl
    · rw [hs] at h; cases h
  · apply runes_chunks
    intro l hl c hc
    obtain ⟨a, _, rfl⟩ := List.mem_map.1 hl
    obtain ⟨b, _, rfl⟩ := List.mem_map.1 hc
    exact lineChar_cases m a b
  · simp [picture]
  · intro l hl
    obtain ⟨a, _, rfl⟩ := List.mem_map.1 hl
    refine ⟨by simp, ?_⟩
    intro c hc
    obtain ⟨b, _, rfl⟩ := List.mem_map.1 hc
    rcases lineChar_cases m a b with h | h | h | h <;> rw [h] <;> rfl
  · intro x y hx hy
    unfold inkAt picture
    have hy2 : y / 2 < (m.height + 1) / 2 := by omega
    rw [List.getElem?_map, List.getElem?_range hy2]
    simp only [Option.map_some, Option.bind_eq_bind, Option.bind_some]
    rw [List.getElem?_map, List.getElem?_range hx]
    simp only [Option.map_some, Option.bind_some]
    have hb : isBlockChar (lineChar m (y / 2) x) = true := by
      rcases lineChar_cases m (y / 2) x with h | h | h | h <;> rw [h] <;> rfl
    rw [if_pos hb]
    congr 1
    unfold lineChar
    by_cases he : y % 2 = 0
    · rw [if_pos he]
      rw [show y / 2 * 2 = y by omega]
      simp only
      cases (m.raw x y).bit <;> cases (decide (y + 1 < m.height) && (m.raw x (y + 1)).bit) <;> rfl
    · rw [if_neg he]
      rw [show y / 2 * 2 + 1 = y by omega]
      simp only [hy, decide_true, Bool.true_and]
      cases (m.raw x y).bit <;> cases (m.raw x (y / 2 * 2)).bit <;> rfl

/-- **C35, failure.**  Whatever the file does, `Write` does not panic, what has reached the file is a prefix of the full text
(the text of `C35_picture`), `Write` returns nil exactly if no call failed (and then all of it was written), and otherwise
the error of the first call that failed; after it no further call is made. -/
theorem C35_prefix (m : Matrix) (sink : Sink) :
    ∃ w r full, write (some sink) m = some (w, r) ∧ write (some fun _ => none) m = some (full, none) ∧ w <+: full ∧
      ((r = none ∧ w = full) ∨ ∃ k n e, sink k = some (n, e) ∧ (∀ k' < k, sink k' = none) ∧ r = some (.write e)) := by
  obtain ⟨full, lines, h1, _⟩ := C35_picture m (fun _ => none) (fun _ => rfl)
  have hfull : full = text m := by
    unfold write at h1
    simp only at h1
    rw [output_eq] at h1
    simp only [Option.bind_eq_bind, Option.bind_some, Option.some.injEq, Prod.ext_iff] at h1
    obtain ⟨_, h | ⟨k, n, e, _, h, _⟩⟩ := writeAll_spec (fun _ => none) (chunks (picture m)) 0
    · rw [← h1.1, h.2.1]; rfl
    · cases h
  refine ⟨(writeAll sink 0 (chunks (picture m))).1, (writeAll sink 0 (chunks (picture m))).2, full, ?_, h1, ?_, ?_⟩
  · unfold write
    simp only
    rw [output_eq]; rfl
  · rw [hfull]; exact (writeAll_spec sink _ 0).1
  · rcases (writeAll_spec sink (chunks (picture m)) 0).2 with ⟨a, b, _⟩ | ⟨k, n, e, _, g1, g2, g3, _⟩
    · left; exact ⟨a, by rw [b, hfull]; rfl⟩
    · right
      refine ⟨k, n, e, by simpa using g1, fun k' hk' => by simpa using g2 k' hk', g3⟩

/-- **C35, no file.**  With a nil file `Write` returns an error and writes nothing. -/
theorem C35_nil_file (m : Matrix) : write none m = some ([], some .nilFile) := rfl

/-- A 2x3 picture and a failing file. -/
example : let m : Matrix := ⟨2, 3, [[DATA_V1, DATA_V0, DATA_V1], [DATA_V0, DATA_V1, DATA_V0]]⟩
    write (some fun _ => none) m = some ([0xE2, 0x96, 0x80, 0xE2, 0x96, 0x84, 0x0A, 0xE2, 0x96, 0x80, 0x20, 0x0A], none) ∧
    write (some fun i => if i = 1 then some (2, 5) else none) m = some ([0xE2, 0x96, 0x80, 0xE2, 0x96], some (.write 5)) := by
  decide +kernel

end QR.FileWriter
