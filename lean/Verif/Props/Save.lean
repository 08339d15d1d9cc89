import Verif.Model.Save
import Verif.Props.Total
/-!
# C34: `Save` calls `Write` once, then `Close` once, and returns `Write`'s error

A writer is arbitrary stateful user code.  The observer's view of a call of `Save` is the list of calls it makes (and the
warning it logs), in order.
-/
namespace QR
open Spec

/-- **C34, the calls.**  For every writer, every state of it and every symbol, `Save` calls `Write` exactly once, with the
symbol, and then `Close` exactly once, after `Write`'s effects - whether they return nil, an error, or panic; nothing else
is called.  The writer's final state is the one after these two calls. -/
theorem C34_calls {σ : Type} (w : Writer σ) (s : σ) (m : Matrix) :
    ∃ tail, (save (some m) (some w) s).2.2 = .writeCall m :: .closeCall :: tail ∧
      (∀ e ∈ tail, ∃ n, e = .logWarning n) ∧
      (save (some m) (some w) s).1 = (w.close (w.write s m).1).1 := by
  obtain ⟨wr, cl⟩ := w
  simp only [save, saveWith, deferredClose] at *
  cases h : wr s m with
  | mk s1 o =>
    cases h2 : cl s1 with
    | mk s2 o2 => cases o2 <;> simp [h2]

/-- **C34, the result.**  If neither call panics, `Save` returns exactly `Write`'s error, whatever `Close` returns; an error
of `Close` only causes a logged warning, which appears exactly then. -/
theorem C34_result {σ : Type} (w : Writer σ) (s : σ) (m : Matrix)
    (hc : ∀ p, (w.close (w.write s m).1).2 ≠ .panics p) :
    (save (some m) (some w) s).2.1 = (match (w.write s m).2 with
      | .ok => .returned none
      | .error e => .returned (some e)
      | .panics p => .panicked p) ∧
    ∀ e, SaveEvent.logWarning e ∈ (save (some m) (some w) s).2.2 ↔ (w.close (w.write s m).1).2 = .error e := by
  obtain ⟨wr, cl⟩ := w
  simp only [save, saveWith, deferredClose] at *
  cases h : wr s m with
  | mk s1 o =>
    rw [h] at hc
    simp only at hc
    cases h2 : cl s1 with
    | mk s2 o2 =>
      rw [h2] at hc
      cases o2 with
      | ok => cases o <;> simp [h2]
      | error n => cases o <;> simp [h2, eq_comm]
      | panics p => exact absurd rfl (hc p)

/-- **C34, panics.**  If `Write` panics, `Close` has still been called (`C34_calls`) and the panic goes on; a panic of `Close`
becomes the outcome of `Save`, whatever `Write` did. -/
theorem C34_panics {σ : Type} (w : Writer σ) (s : σ) (m : Matrix) :
    (∀ p, (w.close (w.write s m).1).2 = .panics p → (save (some m) (some w) s).2.1 = .panicked p) ∧
    (∀ p, (w.write s m).2 = .panics p → (∃ p', (w.close (w.write s m).1).2 = .panics p') ∨
      (save (some m) (some w) s).2.1 = .panicked p) := by
  obtain ⟨wr, cl⟩ := w
  simp only [save, saveWith, deferredClose] at *
  cases h : wr s m with
  | mk s1 o =>
    cases h2 : cl s1 with
    | mk s2 o2 =>
      constructor
      · intro p hp
        simp only [h2] at hp
        subst hp
        rfl
      · intro p hp
        simp only at hp
        subst hp
        cases o2 with
        | ok => right; simp
        | error e => right; simp
        | panics p' => left; exact ⟨p', rfl⟩

/-- **C34, nil writer.**  It does nothing and returns nil. -/
theorem C34_nil_writer {σ : Type} (s : σ) (m : Matrix) : save (some m) (none : Option (Writer σ)) s = (s, .returned none, []) := rfl

/-- Every code made by `New`/`NewWith` has a matrix, so `Save` on it does not dereference nil, and `Dimension` is its width
(C11 says which). -/
theorem C34_made_by_new {E : Ext} {c : AlignCache} {arrival : List Nat} {t : TextType} {text : Bytes} {opts : List EncodeOption}
    {q : QRCode} (_h : newWith E c arrival t text opts = .ok q) {σ : Type} (w : Option (Writer σ)) (s : σ) :
    (save (some q.mat) w s).2.1 ≠ .nilDeref ∧ dimension (some q.mat) = q.mat.width := by
  refine ⟨?_, rfl⟩
  cases w with
  | none => simp [save, saveWith, nonWriter, deferredClose]
  | some w =>
    obtain ⟨wr, cl⟩ := w
    simp only [save, saveWith, deferredClose]
    cases h : wr s q.mat with
    | mk s1 o =>
      cases h2 : cl s1 with
      | mk s2 o2 => cases o <;> cases o2 <;> simp [h2]

/-- Outside of `New`/`NewWith`: the zero `QRCode` has dimension 0, and its `Save` panics with a nil dereference - after calling
`Close` on the writer, without calling `Write`. -/
theorem C34_zero_code {σ : Type} (w : Writer σ) (s : σ) :
    dimension none = 0 ∧ (save none (some w) s).2.2.head? = some .closeCall ∧
    ((∀ p, (w.close s).2 ≠ .panics p) → (save none (some w) s).2.1 = .nilDeref) := by
  obtain ⟨wr, cl⟩ := w
  simp only [dimension, save, saveWith, deferredClose]
  cases h2 : cl s with
  | mk s2 o2 => cases o2 <;> simp

/-- A writer whose `Write` fails on the second call and whose `Close` fails always. -/
example : let w : Writer Nat := ⟨fun n _ => (n + 1, if n = 0 then .ok else .error 7), fun n => (n + 10, .error 9)⟩
    (save (some (newMatrix 1 1)) (some w) 0 = (11, .returned none, [.writeCall (newMatrix 1 1), .closeCall, .logWarning 9])) ∧
    (save (some (newMatrix 1 1)) (some w) 11).2.1 = .returned (some 7) := by decide

end QR
