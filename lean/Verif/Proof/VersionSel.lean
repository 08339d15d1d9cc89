import Verif.Proof.Detect
/-!
# Version selection and options
-/
namespace QR
open Spec

theorem capMark_eq (c : Capacity) (m : Mode) : capMark c (modeNum m) = some (capOf c m) := by
  cases m <;> rfl

/-- Capacities grow with the version. -/
theorem cap_mono_step : ∀ i < 156, ∃ V W, versions[i]? = some V ∧ versions[i + 4]? = some W ∧
    ∀ m, capOf V.cap m ≤ capOf W.cap m := by
  have h : ((List.range 156).all fun i => match versions[i]?, versions[i + 4]? with
    | some V, some W => [Mode.numeric, .alnum, .byte, .kanji].all fun m => decide (capOf V.cap m ≤ capOf W.cap m)
    | _, _ => false) = true := by decide +kernel
  intro i hi
  have := List.all_eq_true.1 h i (List.mem_range.2 hi)
  revert this
  cases versions[i]? with
  | none => simp
  | some V =>
    cases versions[i + 4]? with
    | none => simp
    | some W =>
      intro h
      refine ⟨V, W, rfl, rfl, fun m => ?_⟩
      simp only [List.all_cons, List.all_nil, Bool.and_true, Bool.and_eq_true, decide_eq_true_eq] at h
      cases m
      · exact h.1
      · exact h.2.1
      · exact h.2.2.1
      · exact h.2.2.2

theorem levelOf_surj (lv : Level) : ∃ ec, 1 ≤ ec ∧ ec ≤ 4 ∧ levelOf ec = lv := by
  cases lv
  · exact ⟨1, by decide⟩
  · exact ⟨2, by decide⟩
  · exact ⟨3, by decide⟩
  · exact ⟨4, by decide⟩

theorem fits_step {v : Nat} (h1 : 1 ≤ v) (h40 : v < 40) (lv : Level) (m : Mode) (n : Nat) (h : fits v lv m n) :
    fits (v + 1) lv m n := by
  obtain ⟨ec, he1, he4, rfl⟩ := levelOf_surj lv
  obtain ⟨V, hV, rV⟩ := table_row h1 (by omega) he1 he4
  obtain ⟨W, hW, rW⟩ := table_row (v := v + 1) (by omega) (by omega) he1 he4
  obtain ⟨V', W', hV', hW', hle⟩ := cap_mono_step ((v - 1) * 4 + (ec - 1)) (by omega)
  rw [hV] at hV'
  rw [show (v - 1) * 4 + (ec - 1) + 4 = (v + 1 - 1) * 4 + (ec - 1) by omega, hW] at hW'
  cases hV'; cases hW'
  rw [← rV.cap_iff] at h
  rw [← rW.cap_iff]
  exact Nat.le_trans h (hle m)

/-- What fits into a version fits into every larger one. -/
theorem fits_mono {u v : Nat} (h1 : 1 ≤ u) (huv : u ≤ v) (h40 : v ≤ 40) (lv : Level) (m : Mode) (n : Nat)
    (h : fits u lv m n) : fits v lv m n := by
  induction v with
  | zero => omega
  | succ v ih =>
    by_cases he : u = v + 1
    · rw [← he]; exact h
    · exact fits_step (by omega) (by omega) lv m n (ih (by omega) (by omega))

theorem versionLoop_spec {ec : Nat} (he1 : 1 ≤ ec) (he4 : ec ≤ 4) (m : Mode) (want : Nat) : ∀ (n v0 : Nat),
    v0 + n = 41 → 1 ≤ v0 →
    (∃ v V, v0 ≤ v ∧ v ≤ 40 ∧ fits v (levelOf ec) m want ∧ (∀ u, v0 ≤ u → u < v → ¬ fits u (levelOf ec) m want) ∧
      RowOk v ec V ∧ analyzeVersionLoop (modeNum m) want n ((v0 - 1) * 4 + (ec - 1)) = .ok V) ∨
    ((∀ u, v0 ≤ u → u ≤ 40 → ¬ fits u (levelOf ec) m want) ∧
      analyzeVersionLoop (modeNum m) want n ((v0 - 1) * 4 + (ec - 1)) = .err .analyzeVersionFailed) := by
  intro n
  induction n with
  | zero => intro v0 h _; right; exact ⟨fun u h1 h2 => by omega, rfl⟩
  | succ n ih =>
    intro v0 h h1
    obtain ⟨V, hV, rV⟩ := table_row h1 (by omega) he1 he4
    by_cases hf : fits v0 (levelOf ec) m want
    · left
      refine ⟨v0, V, Nat.le_refl _, by omega, hf, fun u h1 h2 => by omega, rV, ?_⟩
      rw [analyzeVersionLoop, hV]
      simp only [capMark_eq]
      rw [if_pos ((rV.cap_iff m want).2 hf)]
    · have hstep : analyzeVersionLoop (modeNum m) want (n + 1) ((v0 - 1) * 4 + (ec - 1)) =
          analyzeVersionLoop (modeNum m) want n ((v0 + 1 - 1) * 4 + (ec - 1)) := by
        rw [analyzeVersionLoop, hV]
        simp only [capMark_eq]
        rw [if_neg (fun hc => hf ((rV.cap_iff m want).1 hc))]
        congr 1; omega
      rw [hstep]
      rcases ih (v0 + 1) (by omega) (by omega) with ⟨v, W, a1, a2, a3, a4, a5, a6⟩ | ⟨a1, a2⟩
      · left
        refine ⟨v, W, by omega, a2, a3, fun u u1 u2 => ?_, a5, a6⟩
        by_cases hu : u = v0
        · subst hu; exact hf
        · exact a4 u (by omega) u2
      · right
        refine ⟨fun u u1 u2 => ?_, a2⟩
        by_cases hu : u = v0
        · subst hu; exact hf
        · exact a1 u (by omega) u2

/-- Characters counted for version selection. -/
def wantOf (m : Mode) (raw : Bytes) : Nat := if m = .byte then raw.length else runeCount raw

theorem analyzeVersion_spec {ec : Nat} (he1 : 1 ≤ ec) (he4 : ec ≤ 4) (m : Mode) (raw : Bytes) :
    (∃ v V, 1 ≤ v ∧ v ≤ 40 ∧ fits v (levelOf ec) m (wantOf m raw) ∧
      (∀ u, 1 ≤ u → u < v → ¬ fits u (levelOf ec) m (wantOf m raw)) ∧
      RowOk v ec V ∧ analyzeVersion raw ec (modeNum m) = .ok V) ∨
    ((∀ u, 1 ≤ u → u ≤ 40 → ¬ fits u (levelOf ec) m (wantOf m raw)) ∧
      analyzeVersion raw ec (modeNum m) = .err .analyzeVersionFailed) := by
  have hw : (if modeNum m = encByte then raw.length else runeCount raw) = wantOf m raw := by
    cases m <;> rfl
  have e : analyzeVersion raw ec (modeNum m) = analyzeVersionLoop (modeNum m) (wantOf m raw) 40 ((1 - 1) * 4 + (ec - 1)) := by
    unfold analyzeVersion
    rw [hw]
    obtain rfl | rfl | rfl | rfl : ec = 1 ∨ ec = 2 ∨ ec = 3 ∨ ec = 4 := by omega
    all_goals rfl
  rw [e]
  exact versionLoop_spec he1 he4 m _ 40 1 rfl (Nat.le_refl _)

theorem wantOf_eq {E : Ext} {m : Mode} {raw : Bytes} (h : Representable E m raw) : wantOf m raw = countOf m raw := by
  have ascii : (∀ r ∈ runes raw, r < 128) → runeCount raw = raw.length := by
    intro h
    have := congrArg List.length (ascii_bytes h)
    rw [nats, List.length_map] at this
    exact this.symm
  cases m with
  | numeric => exact ascii (fun r hr => alnum_lt (num_alnum (h r hr)))
  | alnum => exact ascii (fun r hr => alnum_lt (h r hr))
  | byte => rfl
  | kanji => rfl

/-! ## Options -/

/-- The values options can take. -/
structure OptOk (o : EncodingOption) : Prop where
  version : o.version = 0 ∨ (1 ≤ o.version ∧ o.version ≤ 40)
  minimum : o.minimumVersion = 0 ∨ (1 ≤ o.minimumVersion ∧ o.minimumVersion ≤ 40)
  level : 1 ≤ o.ecLevel ∧ o.ecLevel ≤ 4

theorem optOk_default : OptOk defaultEncodingOption := ⟨Or.inl rfl, Or.inl rfl, by decide⟩

theorem optOk_apply {o : EncodingOption} (h : OptOk o) (x : EncodeOption) : OptOk (x.apply o) := by
  cases x with
  | withEncodingMode m => unfold EncodeOption.apply; simp only; split <;> [exact h; exact ⟨h.1, h.2, h.3⟩]
  | withErrorCorrectionLevel l =>
    unfold EncodeOption.apply; simp only
    split
    · exact h
    · rename_i hc
      refine ⟨h.1, h.2, ?_⟩
      simp only [ecLow, ecHighest] at hc ⊢
      omega
  | withVersion v =>
    unfold EncodeOption.apply; simp only
    split
    · exact h
    · exact ⟨by simp only; omega, h.2, h.3⟩
  | withMinimumVersion v =>
    unfold EncodeOption.apply; simp only
    split
    · exact h
    · exact ⟨h.1, by simp only; omega, h.3⟩

theorem optOk_foldl (opts : List EncodeOption) : ∀ o, OptOk o → OptOk (opts.foldl EncodeOption.apply o) := by
  induction opts with
  | nil => intro o h; exact h
  | cons x opts ih => intro o h; exact ih _ (optOk_apply h x)

theorem optOk_applyOptions (opts : List EncodeOption) : OptOk (applyOptions opts) := optOk_foldl opts _ optOk_default

/-- Outcome of version selection for a legal option set. -/
theorem calcVersion_spec {o : EncodingOption} (ho : OptOk o) (m : Mode) (hm : o.encMode = modeNum m) (raw : Bytes) :
    (1 ≤ o.version ∧ calcVersionNumber raw o = .ok o.version) ∨
    (o.version = 0 ∧ ∃ v : Nat, 1 ≤ v ∧ v ≤ 40 ∧ fits v (levelOf o.ecLevel.toNat) m (wantOf m raw) ∧
      (∀ u, 1 ≤ u → u < v → ¬ fits u (levelOf o.ecLevel.toNat) m (wantOf m raw)) ∧
      calcVersionNumber raw o = .ok (max (v : Int) o.minimumVersion)) ∨
    (o.version = 0 ∧ (∀ u, 1 ≤ u → u ≤ 40 → ¬ fits u (levelOf o.ecLevel.toNat) m (wantOf m raw)) ∧
      calcVersionNumber raw o = .err .analyzeVersionFailed) := by
  have hl := ho.level
  unfold calcVersionNumber
  rcases ho.version with hv | hv
  · right
    rw [if_neg (by omega)]
    have he : o.ecLevel = ((o.ecLevel.toNat : Nat) : Int) := by omega
    have hm' : o.encMode = modeNum m := hm
    rw [hm']
    rcases analyzeVersion_spec (ec := o.ecLevel.toNat) (by omega) (by omega) m raw with
      ⟨v, V, a1, a2, a3, a4, a5, a6⟩ | ⟨a1, a2⟩
    · left
      refine ⟨hv, v, a1, a2, a3, a4, ?_⟩
      rw [← he] at a6
      rw [a6, Res.bind_ok, a5.ver]
      rcases ho.minimum with h0 | h0
      · rw [if_neg (by omega)]; congr 1; omega
      · by_cases hlt : (v : Int) < o.minimumVersion
        · rw [if_pos (by omega)]; congr 1; omega
        · rw [if_neg (by omega)]; congr 1; omega
    · right
      refine ⟨hv, a1, ?_⟩
      rw [← he] at a2
      rw [a2]; rfl
  · left
    refine ⟨hv.1, ?_⟩
    rw [if_pos (by simp only [ecLow, ecHighest]; omega)]

end QR
