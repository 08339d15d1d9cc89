import Verif.Model.QRCode
import Verif.Spec.Capacity
/-!
# The version table against the standard
-/
namespace QR
open Spec

/-- Level of a Go `ecLevel` constant (version.go:24-33). -/
def levelOf (ec : Nat) : Level := if ec = 1 then .L else if ec = 2 then .M else if ec = 3 then .Q else .H

/-- The entry of a mode. -/
def capOf (c : Capacity) : Mode → Nat
  | .numeric => c.numeric | .alnum => c.alphaNumeric | .byte => c.byte | .kanji => c.jp

/-- All (data codewords, EC codewords) pairs of the blocks in order. -/
def blockList (gs : List Group) : List (Nat × Nat) :=
  gs.flatMap fun g => List.replicate g.numBlocks (g.numDataCodewords, g.ecPerBlock)

/-- What the standard requires of a table row. -/
structure RowOk (v ec : Nat) (V : Version) : Prop where
  ver : V.ver = v
  level : V.ecLevel = ec
  blocks : blockList V.groups = (List.range (numBlocks v (levelOf ec))).map
    fun b => (blockLen v (levelOf ec) b, ecPerBlock v (levelOf ec))
  total : V.numTotalCodewords = dataCodewords v (levelOf ec)
  rem : V.remainderBits = rawModules v % 8
  room : ∀ m, fits v (levelOf ec) m (capOf V.cap m) ∧ ¬ fits v (levelOf ec) m (capOf V.cap m + 1)
  count : ∀ m, capOf V.cap m < 2 ^ countWidth v m
  groups : V.numGroups = if numShort v (levelOf ec) = numBlocks v (levelOf ec) then 1 else 2

def rowOkB (v ec : Nat) (V : Version) : Bool :=
  decide (V.ver = v) && decide (V.ecLevel = ec) &&
  decide (blockList V.groups = (List.range (numBlocks v (levelOf ec))).map
    fun b => (blockLen v (levelOf ec) b, ecPerBlock v (levelOf ec))) &&
  decide (V.numTotalCodewords = dataCodewords v (levelOf ec)) &&
  decide (V.remainderBits = rawModules v % 8) &&
  ([Mode.numeric, .alnum, .byte, .kanji].all fun m =>
    decide (fits v (levelOf ec) m (capOf V.cap m)) && !decide (fits v (levelOf ec) m (capOf V.cap m + 1)) &&
    decide (capOf V.cap m < 2 ^ countWidth v m)) &&
  decide (V.numGroups = if numShort v (levelOf ec) = numBlocks v (levelOf ec) then 1 else 2)

theorem RowOk.of {v ec : Nat} {V : Version} (h : rowOkB v ec V = true) : RowOk v ec V := by
  simp only [rowOkB, Bool.and_eq_true, decide_eq_true_eq, List.all_cons, List.all_nil, Bool.not_eq_true',
    decide_eq_false_iff_not] at h
  obtain ⟨⟨⟨⟨⟨⟨h1, h2⟩, h3⟩, h4⟩, h5⟩, a, b, c, d, _⟩, h6⟩ := h
  refine ⟨h1, h2, h3, h4, h5, ?_, ?_, h6⟩
  · intro m; cases m
    · exact a.1
    · exact b.1
    · exact c.1
    · exact d.1
  · intro m; cases m
    · exact a.2
    · exact b.2
    · exact c.2
    · exact d.2

theorem table_check : ∀ i < 160, ∃ V, versions[i]? = some V ∧ rowOkB (i / 4 + 1) (i % 4 + 1) V = true := by
  have h : ((List.range 160).all fun i => match versions[i]? with
    | some V => rowOkB (i / 4 + 1) (i % 4 + 1) V | none => false) = true := by decide +kernel
  intro i hi
  have := List.all_eq_true.1 h i (List.mem_range.2 hi)
  revert this
  cases versions[i]? with
  | none => simp
  | some V => intro h; exact ⟨V, rfl, h⟩

theorem table_row {v ec : Nat} (h1 : 1 ≤ v) (h40 : v ≤ 40) (he1 : 1 ≤ ec) (he4 : ec ≤ 4) :
    ∃ V, versions[(v - 1) * 4 + (ec - 1)]? = some V ∧ RowOk v ec V := by
  obtain ⟨V, h, hr⟩ := table_check ((v - 1) * 4 + (ec - 1)) (by omega)
  rw [show ((v - 1) * 4 + (ec - 1)) / 4 + 1 = v by omega, show ((v - 1) * 4 + (ec - 1)) % 4 + 1 = ec by omega] at hr
  exact ⟨V, h, RowOk.of hr⟩

theorem versions_length : versions.length = 160 := by decide +kernel

theorem loadVersionLoop_hit (ec : Nat) : ∀ (k n i : Nat), k < n →
    (∀ t < k, ∃ W : Version, versions[i + t]? = some W ∧ W.ecLevel ≠ ec) →
    ∀ V : Version, versions[i + k]? = some V → V.ecLevel = ec →
    loadVersionLoop ec n i = .ok V := by
  intro k
  induction k with
  | zero =>
    intro n i hn _ V hV he
    obtain ⟨n, rfl⟩ : ∃ m, n = m + 1 := ⟨n - 1, by omega⟩
    simp only [Nat.add_zero] at hV
    simp [loadVersionLoop, show ¬ (i : Int) < 0 by omega, hV, he]
  | succ k ih =>
    intro n i hn hno V hV he
    obtain ⟨n, rfl⟩ : ∃ m, n = m + 1 := ⟨n - 1, by omega⟩
    obtain ⟨W, hW, hWe⟩ := hno 0 (by omega)
    simp only [Nat.add_zero] at hW
    have := ih n (i + 1) (by omega) (fun t ht => by
      obtain ⟨W, h⟩ := hno (t + 1) (by omega)
      exact ⟨W, by rw [show i + 1 + t = i + (t + 1) by omega]; exact h⟩) V
      (by rw [show i + 1 + k = i + (k + 1) by omega]; exact hV) he
    simp only [loadVersionLoop, show ¬ (i : Int) < 0 by omega, if_false, Int.toNat_natCast, hW]
    rw [if_neg (by omega)]
    simpa using this

/-- `loadVersion` finds the row of every legal version and level. -/
theorem loadVersion_ok {v ec : Nat} (h1 : 1 ≤ v) (h40 : v ≤ 40) (he1 : 1 ≤ ec) (he4 : ec ≤ 4) :
    ∃ V, loadVersion v ec = .ok V ∧ RowOk v ec V := by
  obtain ⟨V, hV, hr⟩ := table_row h1 h40 he1 he4
  refine ⟨V, ?_, hr⟩
  unfold loadVersion
  rw [show ((v : Int) - 1) * 4 = (((v - 1) * 4 : Nat) : Int) by omega]
  refine loadVersionLoop_hit ec (ec - 1) 4 ((v - 1) * 4) (by omega) ?_ V hV hr.level
  intro t ht
  obtain ⟨W, hW, hw⟩ := table_row (ec := t + 1) h1 h40 (by omega) (by omega)
  exact ⟨W, by simpa using hW, by rw [hw.level]; omega⟩

theorem RowOk.cap_iff {v ec : Nat} {V : Version} (h : RowOk v ec V) (m : Mode) (n : Nat) :
    n ≤ capOf V.cap m ↔ fits v (levelOf ec) m n := by
  obtain ⟨h1, h2⟩ := h.room m
  unfold fits at *
  constructor
  · intro hn
    have := payloadBits_mono m hn
    omega
  · intro hf
    refine Decidable.byContradiction fun hc => ?_
    have := payloadBits_mono m (show capOf V.cap m + 1 ≤ n by omega)
    omega

/-! ## Format and version words -/

theorem formatInfo_ok {V : Version} {ec k : Nat} (hl : V.ecLevel = ec) (he1 : 1 ≤ ec) (he4 : ec ≤ 4) (hk : k < 8) :
    formatInfo V k = .ok (natBits 15 (formatWord (levelOf ec) k)) := by
  have h : ∀ ec ∈ [1, 2, 3, 4], ∀ k ∈ List.range 8, ∀ V : Version, V.ecLevel = ec →
      formatInfo V k = .ok (natBits 15 (formatWord (levelOf ec) k)) := by
    intro ec hec k hk V hV
    have hgo : ∀ ec ∈ [1, 2, 3, 4], ∀ k ∈ List.range 8, formatInfo ⟨0, ec, ⟨0,0,0,0⟩, 0, []⟩ k = .ok (natBits 15 (formatWord (levelOf ec) k)) := by
      decide +kernel
    rw [← hgo ec hec k hk]
    unfold formatInfo
    simp only [hV]
  exact h ec (by simp; omega) k (List.mem_range.2 hk) V hl

theorem verInfo_ok {V : Version} {v : Nat} (hv : V.ver = v) (h7 : 7 ≤ v) (h40 : v ≤ 40) :
    verInfo V = .ok (some (natBits 18 (versionWord v))) := by
  have h : ∀ v ∈ List.range 41, 7 ≤ v → versionBitSequence[v]? = some (versionWord v) := by decide +kernel
  unfold verInfo
  rw [hv, if_neg (by omega), h v (List.mem_range.2 (by omega)) h7]

theorem natBits_length (n x : Nat) : (natBits n x).length = n := by
  induction n with
  | zero => rfl
  | succ n ih => simp [natBits, ih]

theorem natBits_get (n x k : Nat) (hk : k < (natBits n x).length) :
    (natBits n x)[k] = x.testBit (n - 1 - k) := by
  induction n generalizing k with
  | zero => simp [natBits] at hk
  | succ n ih =>
    cases k with
    | zero => simp [natBits]
    | succ k =>
      simp only [natBits, List.getElem_cons_succ]
      rw [ih]; congr 1; omega

end QR
