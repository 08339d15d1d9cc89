import Verif.Model.Fd
import Verif.Props.FileWriter
/-!
# C74: a `Save` that returns nil has written everything; what happens to the file, and to the next `Save`
-/
namespace QR
open Fd

namespace Fd

theorem encodeTo_spec (w : World) : ∀ (cs : List Bytes) (f : Fd), f.isOpen = true →
    (encodeTo w f cs).1.isOpen = true ∧
    ((encodeTo w f cs).2 = none ↔ ∀ i < cs.length, w.write (f.calls + i) = none) ∧
    ((encodeTo w f cs).2 = none → (encodeTo w f cs).1.content = f.content ++ cs.flatten ∧
      (encodeTo w f cs).1.calls = f.calls + cs.length) ∧
    (∃ n, (encodeTo w f cs).1.content = f.content ++ cs.flatten.take n) ∧ (encodeTo w f cs).2 ≠ some errClosed := by
  intro cs
  induction cs with
  | nil => intro f h; simp [encodeTo, h]
  | cons c cs ih =>
    intro f h
    unfold encodeTo Fd.write
    rw [h]
    simp only [Bool.true_eq_false, if_false]
    cases hw : w.write f.calls with
    | none =>
      simp only
      obtain ⟨i1, i2, i3, ⟨n, i4⟩, i5⟩ := ih { isOpen := true, content := f.content ++ c, calls := f.calls + 1 } rfl
      simp only at i2 i3 i4
      refine ⟨i1, ?_, ?_, ⟨c.length + n, ?_⟩, i5⟩
      · rw [i2]
        constructor
        · intro hi i hl
          cases i with
          | zero => simpa using hw
          | succ i =>
            have := hi i (by simpa using hl)
            rw [show f.calls + (i + 1) = f.calls + 1 + i by omega]; exact this
        · intro hi i hl
          have := hi (i + 1) (by simpa using hl)
          rw [show f.calls + 1 + i = f.calls + (i + 1) by omega]; exact this
      · intro h0
        obtain ⟨a, b⟩ := i3 h0
        rw [a, b]
        refine ⟨by simp, by simp; omega⟩
      · rw [i4]
        rw [List.flatten_cons, List.take_append, List.take_of_length_le (by omega : List.length c ≤ List.length c + n)]
        simp
    | some ne =>
      obtain ⟨n, e⟩ := ne
      simp only [errClosed]
      refine ⟨trivial, ⟨fun h => (by cases h), fun hi => ?_⟩, fun h => (by cases h), ⟨min n c.length, ?_⟩, (by simp)⟩
      · have := hi 0 (by simp)
        rw [Nat.add_zero, hw] at this
        cases this
      · simp only [List.flatten_cons]
        rw [List.take_append_of_le_length (Nat.min_le_right ..)]
        rcases Nat.le_total n c.length with h | h
        · rw [Nat.min_eq_left h]
        · rw [Nat.min_eq_right h, List.take_of_length_le h, List.take_length]

end Fd

/-- **C74, a first `Save`** with a standard or compressed writer on an open file (`pic m` is what is written for the symbol, in
order): `Save` returns nil exactly when every write succeeded, and then the file has received all of it; otherwise it returns
an error and the file has received the beginning of it.  In every case the file is closed afterwards. -/
theorem C74_first_save (w : World) (pic : Matrix → Option (List Bytes)) {wr : Writer Fd.Fd}
    (hwr : wr = Fd.standard w pic ∨ wr = Fd.compressed w pic) {f : Fd.Fd} (ho : f.isOpen = true) {m : Matrix} {cs : List Bytes}
    (hp : pic m = some cs) :
    let r := save (some m) (some wr) f
    r.1.isOpen = false ∧
    (r.2.1 = .returned none ↔ ∀ i < cs.length, w.write (f.calls + i) = none) ∧
    (r.2.1 = .returned none → r.1.content = f.content ++ cs.flatten) ∧
    (r.2.1 ≠ .returned none → ∃ e, r.2.1 = .returned (some e)) ∧
    (∃ n, r.1.content = f.content ++ cs.flatten.take n) := by
  obtain ⟨h1, h2, h3, h4, h5⟩ := encodeTo_spec w cs f ho
  rcases hwr with rfl | rfl
  · simp only [save, saveWith, deferredClose, Fd.standard, hp, Fd.Fd.close, h1, Bool.true_eq_false, if_false]
    rw [← h2]
    cases he : (encodeTo w f cs).2 with
    | none => cases hc : w.close <;> simp_all [Fd.out, errClosed]
    | some e => cases hc : w.close <;> simp_all [Fd.out, errClosed]
  · simp only [save, saveWith, deferredClose, Fd.compressed, hp, Fd.Fd.close, h1, Bool.true_eq_false, if_false]
    rw [← h2]
    cases he : (encodeTo w f cs).2 with
    | none => cases hc : w.close <;> simp_all [Fd.out, errClosed]
    | some e => cases hc : w.close <;> simp_all [Fd.out, errClosed]

/-- **C74, the warning.**  An error of closing the file is not returned, only logged. -/
theorem C74_close_error (w : World) (pic : Matrix → Option (List Bytes)) {wr : Writer Fd.Fd}
    (hwr : wr = Fd.standard w pic ∨ wr = Fd.compressed w pic) {f : Fd.Fd} (ho : f.isOpen = true) {m : Matrix} {cs : List Bytes}
    (hp : pic m = some cs) (e : Nat) :
    SaveEvent.logWarning e ∈ (save (some m) (some wr) f).2.2 ↔ ∃ k, w.close = some k ∧ e = k + 1 := by
  obtain ⟨h1, _⟩ := encodeTo_spec w cs f ho
  rcases hwr with rfl | rfl
  · simp only [save, saveWith, deferredClose, Fd.standard, hp, Fd.Fd.close, h1, Bool.true_eq_false, if_false]
    cases hc : w.close <;> simp [Fd.out, errClosed]
  · simp only [save, saveWith, deferredClose, Fd.compressed, hp, Fd.Fd.close, h1, Bool.true_eq_false, if_false]
    cases hc : w.close <;> simp [Fd.out, errClosed]

/-- **C74, a second `Save`** with the same standard or compressed writer returns an error and leaves the file as it is (whenever
there is something to write); the standard writer logs no warning, the compressed one does. -/
theorem C74_second_save (w : World) (pic : Matrix → Option (List Bytes)) {f : Fd.Fd} (ho : f.isOpen = false) {m : Matrix}
    {c : Bytes} {cs : List Bytes} (hp : pic m = some (c :: cs)) :
    save (some m) (some (Fd.standard w pic)) f = (f, .returned (some errClosed), [.writeCall m, .closeCall]) ∧
    save (some m) (some (Fd.compressed w pic)) f =
      (f, .returned (some errClosed), [.writeCall m, .closeCall, .logWarning errClosed]) := by
  constructor <;>
  simp [save, saveWith, deferredClose, Fd.standard, Fd.compressed, hp, Fd.Fd.close, ho, encodeTo, Fd.Fd.write, Fd.out]

/-- So of any number of `Save`s with one such writer only the first can succeed. -/
theorem C74_only_first (w : World) (pic : Matrix → Option (List Bytes)) {wr : Writer Fd.Fd}
    (hwr : wr = Fd.standard w pic ∨ wr = Fd.compressed w pic) {f : Fd.Fd} (ho : f.isOpen = true) (m : Matrix) (ms : List Matrix)
    (hp : ∀ m, ∃ c cs, pic m = some (c :: cs)) :
    (saves wr (m :: ms) f).1 = (save (some m) (some wr) f).1 ∧
    ∀ o ∈ (saves wr (m :: ms) f).2.tail, o = .returned (some errClosed) := by
  have closed : ∀ (ms : List Matrix) (g : Fd.Fd), g.isOpen = false → (saves wr ms g).1 = g ∧
      ∀ o ∈ (saves wr ms g).2, o = .returned (some errClosed) := by
    intro ms
    induction ms with
    | nil => intro g _; exact ⟨rfl, fun o h => by cases h⟩
    | cons a ms ih =>
      intro g hg
      obtain ⟨c, cs, hcs⟩ := hp a
      have h2 := C74_second_save w pic hg hcs
      have e : (save (some a) (some wr) g).1 = g ∧ (save (some a) (some wr) g).2.1 = .returned (some errClosed) := by
        rcases hwr with rfl | rfl
        · rw [h2.1]; exact ⟨rfl, rfl⟩
        · rw [h2.2]; exact ⟨rfl, rfl⟩
      obtain ⟨i1, i2⟩ := ih g hg
      simp only [saves, e.1, e.2]
      refine ⟨i1, ?_⟩
      intro o ho
      rcases List.mem_cons.1 ho with rfl | ho
      · rfl
      · exact i2 o ho
  obtain ⟨c, cs, hcs⟩ := hp m
  have h1 := (C74_first_save w pic hwr ho hcs).1
  exact closed ms _ h1

/-- **C74, the text file writer** never closes the file: if no write fails, any number of `Save`s return nil and write the
pictures one below the other, and the file is still open. -/
theorem C74_text_appends {w : World} (hw : ∀ i, w.write i = none) : ∀ (ms : List Matrix) {f : Fd.Fd}, f.isOpen = true →
    (saves (Fd.text w) ms f).1.isOpen = true ∧
    (saves (Fd.text w) ms f).1.content = f.content ++
      (ms.map fun m => (FileWriter.chunks (FileWriter.picture m)).flatten).flatten ∧
    ∀ o ∈ (saves (Fd.text w) ms f).2, o = .returned none := by
  intro ms
  induction ms with
  | nil => intro f h; exact ⟨h, by simp [saves], fun o h => by cases h⟩
  | cons m ms ih =>
    intro f ho
    obtain ⟨h1, h2, h3, _⟩ := encodeTo_spec w (FileWriter.chunks (FileWriter.picture m)) f ho
    have hn := h2.2 (fun i _ => hw _)
    obtain ⟨h3, _⟩ := h3 hn
    have e : save (some m) (some (Fd.text w)) f =
        ((encodeTo w f (FileWriter.chunks (FileWriter.picture m))).1, .returned none, [.writeCall m, .closeCall]) := by
      simp [save, saveWith, deferredClose, Fd.text, FileWriter.output_eq, hn, Fd.out]
    obtain ⟨i1, i2, i3⟩ := ih h1
    simp only [saves, e]
    refine ⟨i1, ?_, ?_⟩
    · rw [i2, h3]; simp
    · intro o ho
      rcases List.mem_cons.1 ho with rfl | ho
      · rfl
      · exact i3 o ho

/-- The zero value of `standard.Writer` returns an error from every `Save` and does not panic. -/
theorem C74_zero_writer {σ : Type} (s : σ) (m : Matrix) :
    save (some m) (some (Fd.standardZero σ)) s = (s, .returned (some 1), [.writeCall m, .closeCall]) := rfl

/-- A file whose third write fails half way: `Save` returns the error, the file has three bytes and is closed. -/
example : let w : World := ⟨fun i => if i = 2 then some (1, 4) else none, none⟩
    let pic : Matrix → Option (List Bytes) := fun _ => some [[1], [2], [3, 4], [5]]
    let r := save (some (newMatrix 1 1)) (some (Fd.standard w pic)) ⟨true, [], 0⟩
    r.1.content = [1, 2, 3] ∧ r.1.isOpen = false ∧ r.2.1 = .returned (some 5) := by decide

end QR
