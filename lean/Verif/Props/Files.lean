import Verif.Model.Files
/-!
# C37: what an image file contains after saving

`chunks.flatten` is the encoded image.
-/
namespace QR.Files

/-- Writing the chunks of an encoder from offset `off` on. -/
theorem writeChunks_spec (p : String) (chunks : List Content) : ∀ (fs : FS) (off : Nat) (old : Content), fs p = some old →
    off ≤ old.length →
    writeChunks p fs off chunks p = some (old.take off ++ chunks.flatten ++ old.drop (off + chunks.flatten.length)) ∧
    ∀ q, q ≠ p → writeChunks p fs off chunks q = fs q := by
  induction chunks with
  | nil =>
    intro fs off old h hoff
    refine ⟨?_, fun _ _ => rfl⟩
    rw [writeChunks, h]; simp
  | cons c cs ih =>
    intro fs off old h hoff
    rw [writeChunks]
    have hov : overwrite ((fs p).getD []) off c = old.take off ++ c ++ old.drop (off + c.length) := by
      rw [h, Option.getD_some, overwrite, show off - old.length = 0 by omega]; simp
    rw [hov]
    have hlen : off + c.length ≤ (old.take off ++ c ++ old.drop (off + c.length)).length := by
      simp only [List.length_append, List.length_take, List.length_drop]; omega
    obtain ⟨h1, h2⟩ := ih (fs.put p (old.take off ++ c ++ old.drop (off + c.length))) (off + c.length) _
      (by simp [FS.put]) hlen
    refine ⟨?_, ?_⟩
    · rw [h1]
      congr 1
      have hl : (old.take off ++ c).length = off + c.length := by simp; omega
      rw [List.take_append_of_le_length (by omega), List.take_of_length_le (by omega), List.drop_append, hl]
      rw [List.drop_of_length_le (by omega)]
      rw [List.drop_drop, List.flatten_cons, List.length_append]
      simp only [List.nil_append, List.append_assoc]
      congr 4
      omega
    · intro q hq
      rw [h2 q hq]
      simp [FS.put, hq]

/-- **C37 for the standard writer.**  If the file can be opened at all, then after `New` and `Save` the file contains exactly
the encoded image, whatever it contained before, and no other file has changed.  (`os.Stat` never fails with an
"already exists" error in practice; if it did, the file would be `default.jpeg`.) -/
theorem C37_standard (fs : FS) (filename : String) (chunks : List Content) {stat : Stat} (hstat : stat ≠ .existErr) :
    ∃ fs', standardSave stat false fs filename chunks = some fs' ∧ fs' filename = some chunks.flatten ∧
      ∀ q, q ≠ filename → fs' q = fs q := by
  have hn : standardName stat filename = filename := by
    cases stat <;> first | rfl | exact absurd rfl hstat
  unfold standardSave
  simp only [hn]
  have ho : openFile false fs filename standardFlags = some (fs.put filename []) := by
    unfold openFile
    cases fs filename <;> rfl
  rw [ho, Option.map_some]
  refine ⟨_, rfl, ?_, ?_⟩
  · have := (writeChunks_spec filename chunks (fs.put filename []) 0 [] (by simp [FS.put]) (by simp)).1
    rw [this]; simp
  · intro q hq
    rw [(writeChunks_spec filename chunks (fs.put filename []) 0 [] (by simp [FS.put]) (by simp)).2 q hq]
    simp [FS.put, hq]

/-- **C37 for debug drawings.** -/
theorem C37_debug (fs : FS) (filename : String) (chunks : List Content) :
    ∃ fs', debugSave false fs filename chunks = some fs' ∧ fs' filename = some chunks.flatten ∧
      ∀ q, q ≠ filename → fs' q = fs q := C37_standard fs filename chunks (stat := .ok) (by simp)

/-- The same for the fall-back name. -/
theorem C37_standard_fallback (fs : FS) (filename : String) (chunks : List Content) :
    ∃ fs', standardSave .existErr false fs filename chunks = some fs' ∧ fs' "default.jpeg" = some chunks.flatten ∧
      ∀ q, q ≠ "default.jpeg" → fs' q = fs q := C37_standard fs "default.jpeg" chunks (stat := .ok) (by simp)

/-- **C37 for the compressed writer, the part that holds.**  After `New` and `Save` the file begins with the encoded image;
it contains exactly the encoded image if and only if the file did not exist before or was not longer than the image.  No
other file has changed.  (The property as stated in English is false: see `C37_counterexample`.) -/
theorem C37_compressed_partial (fs : FS) (filename : String) (chunks : List Content) :
    ∃ fs', compressedSave false fs filename chunks = some fs' ∧
      fs' filename = some (chunks.flatten ++ ((fs filename).getD []).drop chunks.flatten.length) ∧
      (fs' filename = some chunks.flatten ↔ ∀ old, fs filename = some old → old.length ≤ chunks.flatten.length) ∧
      ∀ q, q ≠ filename → fs' q = fs q := by
  have ho : openFile false fs filename compressedFlags = some (fs.put filename ((fs filename).getD [])) := by
    unfold openFile
    cases h : fs filename <;> rfl
  unfold compressedSave
  rw [ho, Option.map_some]
  have key := writeChunks_spec filename chunks (fs.put filename ((fs filename).getD [])) 0 ((fs filename).getD [])
    (by simp [FS.put]) (by omega)
  have h1 : writeChunks filename (fs.put filename ((fs filename).getD [])) 0 chunks filename =
      some (chunks.flatten ++ ((fs filename).getD []).drop chunks.flatten.length) := by
    rw [key.1]; simp
  refine ⟨_, rfl, h1, ?_, ?_⟩
  · rw [h1, Option.some.injEq]
    constructor
    · intro h old ho
      rw [ho, Option.getD_some] at h
      have h := congrArg List.length h
      rw [List.length_append, List.length_drop] at h
      omega
    · intro h
      cases ho : fs filename with
      | none => simp
      | some old =>
        have := h old ho
        rw [Option.getD_some, List.drop_of_length_le this, List.append_nil]
  · intro q hq
    rw [key.2 q hq]
    simp [FS.put, hq]

/-- **C37 is false for the compressed writer**: the file is opened without `O_TRUNC`, so the tail of a longer old file stays
behind the new image. -/
theorem C37_counterexample : ¬ ∀ (fs : FS) (filename : String) (chunks : List Content),
    ∃ fs', compressedSave false fs filename chunks = some fs' ∧ fs' filename = some chunks.flatten := by
  intro h
  obtain ⟨fs', h1, h2⟩ := h (fun p => if p = "qr.png" then some [1, 2, 3, 4] else none) "qr.png" [[9], [8]]
  obtain ⟨fs'', g1, _, g3, _⟩ := C37_compressed_partial (fun p => if p = "qr.png" then some [1, 2, 3, 4] else none) "qr.png" [[9], [8]]
  rw [h1, Option.some.injEq] at g1
  subst g1
  have := g3.1 h2 [1, 2, 3, 4] (by simp)
  simp at this

/-- If the file cannot be opened, `New` fails and nothing changes. -/
theorem C37_open_error (fs : FS) (filename : String) (chunks : List Content) (stat : Stat) :
    standardSave stat true fs filename chunks = none ∧ compressedSave true fs filename chunks = none := ⟨rfl, rfl⟩

/-- The old tail. -/
example : ((compressedSave false (fun p => if p = "qr.png" then some [1, 2, 3, 4] else none) "qr.png" [[9], [8]]).bind
      fun fs => fs "qr.png") = some [9, 8, 3, 4] ∧
    ((standardSave .otherErr false (fun p => if p = "qr.png" then some [1, 2, 3, 4] else none) "qr.png" [[9], [8]]).bind
      fun fs => fs "qr.png") = some [9, 8] := by decide +kernel

end QR.Files
