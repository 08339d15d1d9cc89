import Verif.Instances.Base
import Verif.Props.Mixed
import Verif.Props.MaskChoice
import Verif.Props.Conc
import Verif.Props.Codec
import Verif.Props.Tables
import Verif.Props.Penalty
import Verif.Props.MatrixApi
import Verif.Props.Search
import Verif.Props.Align
import Verif.Props.ReedSolomon
import Verif.Props.Damage
import Verif.Props.DamageLimit
import Verif.Props.Apart
import Verif.Props.Reference
import Verif.Props.Sizes
import Verif.Props.Turn
/-!
# Instances: making symbols (C01 to C31, C48 to C50, C68, C77, C78, C82, C90 to C92)
-/
namespace QR.Instances
open QR Spec

local notation "hE" => demo_ok
local notation "hc" => fresh_reachable
local notation "ha" => inOrder_arrival

/-! ## C01 to C10 -/

example := C01_roundtrip_partial hE hc ha qa_ok fun h => greeting_plain h.2
theorem demo_unsjis (s r : Nat) (h : demoUnsjis s = some r) : 0x80 ≤ r := by
  unfold demoUnsjis at h
  split at h <;> simp at h <;> omega
example := C01_exact hE demo_unsjis hc ha qa_ok
example := C01_ascii hE hc ha qa_ok greeting_ascii
example := C02_auto_mode_partial hE hc ha qa_ok rfl greeting_plain
example := C02_counterexample hE hc ha qm_ok rfl demo_mixed
/-- `Hello` and `HELLO`. -/
example := C03_injective_partial hE hc hc ha ha qa_ok q7_ok (by decide) (fun h => greeting_plain h.2) (fun h => absurd h.1 (by decide))
/-- `1漢` and `2漢`. -/
example := C03_collisions hE fresh inOrder .string (a := mixed) (b := [0x32, 0xE6, 0xBC, 0xA2]) (opts := []) rfl demo_mixed
  ((mixed_iff demoExt _).1 ⟨[0x32], [0x6F22], by decide +kernel, by simp, by simp, by decide, by decide +kernel⟩) (by decide +kernel)
example := C04_smallest_version hE hc ha qa_ok rfl
theorem hello_alnum : UsesMode demoExt.sjis (modeIn opts7) (nats hello) .alnum := Or.inl ⟨rfl, by simp only [Spec.Encodable]; decide⟩
example := C04_error_iff hE hc ha (t := .string) (by simp) (opts := opts7) rfl hello_alnum
example := C04_ascii hE hc ha (opts := [.withMinimumVersion 3]) rfl (Or.inl rfl) greeting_ascii (by decide)
example := C05_never_overfull hE hc ha (t := .bytes) (by simp) hello (opts := opts7) (Or.inr ⟨.alnum, rfl⟩) rfl
example := C05_stream_fits hE hc ha qa_ok rfl
example := C06_honoured hE hc ha (t := .string) (by simp) hello (opts := [.withVersion 5]) (Or.inl rfl) (v := 5) rfl
example := C06_error_iff_partial hE hc ha (t := .string) (by simp) greeting (opts := [.withVersion 5]) (Or.inl rfl) (v := 5) rfl fun h => greeting_plain h.2
example := C06_counterexample hE hc ha (t := .string) (by simp) mixed (opts := [.withVersion 2]) (v := 2) rfl rfl demo_mixed
example := C07_newWith_no_panic hE hc ha (t := .string) (by simp) hello (opts := opts7) (Or.inr ⟨.alnum, rfl⟩)
example := C07_new_no_panic hE hc ha (t := .bytes) (by simp) hello
example := C08_no_panic_partial hE hc ha .defined hello [.withVersion 1]
example := C08_unsupported_mode demoExt fresh inOrder (t := .string) (by simp) hello (opts := [.withEncodingMode 3]) (by
  rintro (h | ⟨m, h⟩)
  · cases h
  · cases m <;> cases h)
example := C09_rejects_iff hE hc ha (t := .string) (by simp) greeting (opts := [.withEncodingMode encNumeric]) (m := .numeric) rfl
example := C09_fails_iff hE hc ha (t := .string) (by simp) hello (opts := [.withEncodingMode encNumeric]) (m := .numeric) rfl (by decide)
example := C09_byte_accepts hE hc ha (t := .string) (by simp) greeting (opts := [.withEncodingMode encByte]) rfl (by decide)
example := C10_order_irrelevant [.withVersion 5, .withErrorCorrectionLevel 4] [.withErrorCorrectionLevel 4, .withVersion 41, .withVersion 5] rfl rfl rfl rfl demoExt fresh inOrder .string hello
example := C10_commute (.withVersion 5) (.withErrorCorrectionLevel 4) rfl [.withVersion 3] []
example := C10_invalid_ignored [.withVersion 3] [] (.withVersion 41) (Or.inr (Or.inl ⟨41, rfl, by decide⟩))

/-! ## C11 to C22 -/

example := C11_dimension hE hc ha q7_ok
example := C12_function_patterns hE hc ha q7_ok q7_dim
example := C13_format_information hE hc ha q7_ok q7_dim
example := (C14_version_information hE hc ha q7_ok q7_dim).1 (by decide)
example := C15_every_module_determined hE hc ha q7_ok q7_dim
example := C16_zigzag hE hc ha q7_ok
example := C17_mask hE hc ha q7_ok q7_dim
example := C18_lowest_penalty hE hc q7_ok
example := C101_three_finders hE hc ha q7_ok
example := C101_one_way_up hE hc ha q7_ok (.mirrored (.turned .straight))
example := C101_any_way hE hc ha qa_ok (fun h => greeting_plain h.2) (.turned (.turned (.turned (.mirrored .straight))))
example := C101_same_view hE hc hc ha ha q7_ok q7_ok (.turned .straight) (.turned .straight)
example := C78_lowest hE rfl hc ha q7_ok
example := C19_exact hE rfl hc q7_ok
example := C19_up_to_mask hE hc ha backwards_arrival q7_ok
/-- The text `29` in both orders. -/
example : ∃ c q, newWith demoExt c inOrder .string [50, 57] [] = .ok q ∧ newWith demoExt c backwards .string [50, 57] [] = .ok q := by
  obtain ⟨c, h, hu⟩ := demo_unique
  obtain ⟨q, hq⟩ := C04_ascii hE h ha (opts := []) rfl (Or.inl rfl) (text := [50, 57]) (by unfold AllAscii; decide) (by decide)
  exact ⟨c, q, hq, C19_deterministic_partial hE h ha backwards_arrival hq 0 (by decide) hu⟩
example := C21_blocks hE hc ha q7_ok
example := C22_layout hE hc ha q7_ok

/-- The symbol, as the specification describes it, is determined. -/
example : ∃ v k s, ∀ bm, IsSymbol v (levelIn opts7) k s bm → bm = q7.mat.bitmap := by
  obtain ⟨v, s, M, _, h, h'⟩ := C18_lowest_penalty hE hc q7_ok
  obtain ⟨q', k, h1, h2, h3, _⟩ := h' _ ha
  rw [q7_ok] at h1; cases h1
  exact ⟨v, k, s, fun bm hb => by rw [h3]; exact C15_symbol_unique hb (h k h2).1⟩

/-! ## C20 -/

section
open QR.Conc
theorem started_exists : ∃ q cpy masks, Started demoExt fresh hello opts7 q cpy masks := started_of_ok hE hc q7_ok
noncomputable def q0 : QRCode := Classical.choose started_exists
noncomputable def cpy : Matrix := Classical.choose (Classical.choose_spec started_exists)
noncomputable def masks : Nat → Matrix := Classical.choose (Classical.choose_spec (Classical.choose_spec started_exists))
/-- The goroutines of `q7` are about to be started. -/
theorem P : Started demoExt fresh hello opts7 q0 cpy masks := Classical.choose_spec (Classical.choose_spec (Classical.choose_spec started_exists))

/-- Some complete run, with the workers finishing backwards. -/
theorem run_exists : ∃ sched s k, run q0 (initial cpy masks) sched = some s ∧ s.main = .finished k ∧ s.sent = backwards := C20_all_orders hE hc P backwards_arrival
example : ∃ sched s k, run q0 (initial cpy masks) sched = some s ∧ s.main = .finished k ∧ Arrival s.sent ∧ sched.length = 8 * (q0.v.dimension * q0.v.dimension + 6) + 27 ∧
    s.sent.Perm (List.range 8) := by
  obtain ⟨sched, s, k, h, hk, _⟩ := run_exists
  exact ⟨sched, s, k, h, hk, (C20_result hE hc P h hk).1, (C20_terminates hE hc P h).2.2.1.2 ⟨k, hk⟩, (C20_wait hE hc P h (Or.inr (Or.inr ⟨k, hk⟩))).1⟩
/-- The run of no steps, and then the first step of the main goroutine. -/
example := C20_terminates hE hc P (sched := []) rfl
example := C20_channel hE hc P (sched := []) rfl
/-- After the first two steps of the main goroutine the first worker can run. -/
example : ∃ s, run q0 (initial cpy masks) [.main, .main] = some s ∧ ∃ s', step q0 s (.worker 0) = some s' :=
  ⟨_, rfl, C20_never_blocked hE hc P (sched := [.main, .main]) rfl (i := 0) (by decide) (by intro h; cases h) (by intro h; cases h)⟩
/-- Two states that differ in the memory of another worker. -/
example (m : Matrix) :=
  let s : St := { initial cpy masks with pc := fun _ => .xor [(0, 0)] }
  let t : St := { s with heap := upd s.heap (matPtr 3) m }
  C20_own_memory q0 (i := 0) (s := s) (t := t) rfl rfl rfl rfl rfl rfl rfl rfl rfl
example := fun s' => C20_no_crosstalk hE hc P (sched := []) (s' := s') rfl
end

/-! ## C23 to C31 -/

example := C23_payload_roundtrip hE .numeric [48, 49, 57] demo_codec.1
example := C23_payload_injective hE .numeric [48, 49, 57] [48, 49, 57] demo_codec.1 demo_codec.1 rfl rfl
example := C24_entries.2 7 3 (by decide) (by decide) (by decide) (by decide)

/-- The entry of version 7 and level Q. -/
theorem entry : ∃ V, loadVersion 7 3 = .ok V := (C24_entries.2 7 3 (by decide) (by decide) (by decide) (by decide)).imp fun _ h => h.2.1
noncomputable def V7 : Version := Classical.choose entry
theorem V7_ok : loadVersion 7 3 = .ok V7 := Classical.choose_spec entry
example := C24_blocks (by decide) (by decide) (by decide) (by decide) V7_ok
example := C24_capacities (by decide) (by decide) (by decide) (by decide) V7_ok .byte 86
example := C24_alignment (v := 7) (by decide) (by decide)
example := C24_format_word (by decide) (by decide) (by decide) (by decide) V7_ok (k := 4) (by decide)
example := C24_version_word (by decide) (by decide) (by decide) (by decide) V7_ok
theorem entry' : ∃ V, loadVersion 40 1 = .ok V := (C24_entries.2 40 1 (by decide) (by decide) (by decide) (by decide)).imp fun _ h => h.2.1
noncomputable def V40 : Version := Classical.choose entry'
theorem V40_ok : loadVersion 40 1 = .ok V40 := Classical.choose_spec entry'
example := C25_format_distance (by decide) (by decide) (by decide) (by decide) (by decide) V7_ok (by decide) (by decide) (by decide) (by decide) (by decide) V40_ok
  (C24_format_word (by decide) (by decide) (by decide) (by decide) V7_ok (k := 4) (by decide))
  (C24_format_word (by decide) (by decide) (by decide) (by decide) V40_ok (k := 4) (by decide)) (by decide)
theorem word7 : verInfo V7 = .ok (some (numBits 18 (versionWord 7))) := C24_version_word (by decide) (by decide) (by decide) (by decide) V7_ok
theorem word40 : verInfo V40 = .ok (some (numBits 18 (versionWord 40))) := C24_version_word (by decide) (by decide) (by decide) (by decide) V40_ok
example := C25_version_distance (by decide) (by decide) (by decide) (by decide) V7_ok (by decide) (by decide) (by decide) (by decide) V40_ok word7 word40 (by decide)
/-- A word read with one wrong bit. -/
example := C25_format_correctable (by decide) (by decide) (by decide) (by decide) (by decide) V7_ok (by decide) (by decide) (by decide) (by decide) (by decide) V7_ok
  (C24_format_word (by decide) (by decide) (by decide) (by decide) V7_ok (k := 4) (by decide))
  (C24_format_word (by decide) (by decide) (by decide) (by decide) V7_ok (k := 4) (by decide)) (r := numBits 15 (formatWord (levelOf 3) 4 ^^^ 1))
  (by decide +kernel) (by decide +kernel) (by decide +kernel)
example := C25_version_correctable (by decide) (by decide) (by decide) (by decide) V7_ok (by decide) (by decide) (by decide) (by decide) V7_ok word7 word7
  (r := numBits 18 (versionWord 7 ^^^ 1)) (by decide +kernel) (by decide +kernel) (by decide +kernel)

/-- What is used of a symbol in C26 to C30. -/
theorem q7_sq : q7.mat.Sq q7.dimension ∧ 0 < q7.dimension ∧ q7.dimension ≤ 177 := demo_penalty hE hc ha q7_ok
example := C26_rule1 q7_sq.1
example := C27_rule2_partial q7_sq.1
example := C28_rule3_partial q7_sq.1
example := C29_counts [1, 2, 1, 2, 1] [1, 2, 1] (by decide)
example := C30_rule4_partial q7_sq.1 q7_sq.2.1
example := C30_below_sentinel q7_sq.1 q7_sq.2.1 q7_sq.2.2
example := (C31_wellformed 2 3).2 demoMatrix demo_matrix.1
example := C31_col demo_matrix.1 1
example := (C31_row demoMatrix 1).2.1 (by decide) (by decide) (by decide)
example := (C31_row (newMatrix 3 2) 1).2.2 (by decide) (by decide) (by decide)
example := C31_access demo_matrix.1 1 2 FINDER_V1
example := C31_string FINDER_V1 FINDER_V1 rfl

/-! ## C48 to C50 -/

theorem read_version {text : Bytes} {opts : List EncodeOption} {q : QRCode} (h : newWith demoExt fresh inOrder .string text opts = .ok q) {u : Nat} (hd : q.dimension = 17 + 4 * u)
    {v : Nat} {lv : Level} {k : Nat} {bits : List Bool} (hr : readData q.mat.bitmap = some (v, lv, k, bits)) : v = u := by
  obtain ⟨w, _, h1, h2, _⟩ := C11_dimension hE hc ha h
  have hv : readVersion q.mat.bitmap = some v := by
    unfold readData at hr
    cases hv : readVersion q.mat.bitmap with
    | none => rw [hv] at hr; cases hr
    | some v' =>
      rw [hv] at hr
      cases hf : readFormat q.mat.bitmap with
      | none => rw [hf] at hr; cases hr
      | some x =>
        rw [hf] at hr
        exact congrArg (fun o => o.map Prod.fst) hr
  unfold readVersion at hv
  rw [h2] at hv
  simp only at hv
  split at hv
  · have := Option.some.inj hv
    omega
  · cases hv

/-- What a reader makes of the data of a symbol. -/
theorem decode_read {un : Nat → Option Nat} {bm : List (List Bool)} {v : Nat} {lv : Level} {k : Nat} {bits : List Bool} (hr : readData bm = some (v, lv, k, bits)) :
    Spec.decode un bm = readSegments un v (bits.length + 1) bits := by
  unfold readData at hr
  unfold Spec.decode
  cases hv : readVersion bm with
  | none => rw [hv] at hr; cases hr
  | some v' =>
    rw [hv] at hr
    cases hf : readFormat bm with
    | none => rw [hf] at hr; cases hr
    | some x =>
      rw [hf] at hr
      have := Option.some.inj hr
      simp only [Prod.mk.injEq] at this
      obtain ⟨rfl, rfl, rfl, rfl⟩ := this
      rfl

/-- Version 7 and level Q: the only entry with that key. -/
example := C48_found 7 3 (by decide) (by decide) (by decide) (by decide)
example := C48_above 41 1 (by decide) 200 (by decide)
example := C49_never_written (C49_reachable hc)
example := C49_history_irrelevant (C49_reachable hc) (v := 7) (by decide)
example := C49_cold (c := []) (v := 7) (by decide) (by decide) rfl
example : ∃ v lv k bits, readData q7.mat.bitmap = some (v, lv, k, bits) ∧ ∀ b < numBlocks v lv, IsCodeword (ecPerBlock v lv) (blockBytes v lv (codewordsOf q7.mat.bitmap v k) b) := by
  obtain ⟨v, lv, k, bits, h, _⟩ := C21_blocks hE hc ha q7_ok
  exact ⟨v, lv, k, bits, h, (C50_codewords hE rfl hc ha q7_ok h).2.2⟩
/-- The symbols of `HELLO` and `HALLO`: some block differs, and then in many codewords. -/
example : ∃ b < numBlocks 7 .Q, ∃ k k', ecPerBlock 7 .Q < hamming (blockBytes 7 .Q (codewordsOf q7.mat.bitmap 7 k) b) (blockBytes 7 .Q (codewordsOf qh.mat.bitmap 7 k') b) := by
  obtain ⟨v, lv, k, bits, h, _, rfl⟩ := C21_blocks hE hc ha q7_ok
  obtain ⟨v', lv', k', bits', h', _, rfl⟩ := C21_blocks hE hc ha qh_ok
  have hv : v = 7 := read_version q7_ok q7_dim h
  have hv' : v' = 7 := read_version qh_ok qh_dim h'
  subst hv hv'
  by_contra hno
  have hall : ∀ b < numBlocks 7 .Q, blockBytes 7 .Q (codewordsOf q7.mat.bitmap 7 k) b = blockBytes 7 .Q (codewordsOf qh.mat.bitmap 7 k') b := by
    intro b hb
    by_contra hne
    exact hno ⟨b, hb, k, k', C50_distance hE rfl hc hc ha ha q7_ok qh_ok h h' hb hne⟩
  -- then a reader could not tell the two symbols apart
  have hz : ∀ l : List GF, hamming l l = 0 := fun l => by
    unfold hamming
    induction l with
    | nil => rfl
    | cons a l ih => rw [List.zip_cons_cons, List.countP_cons, ih]; simp
  have hbits : bits = bits' := C50_correctable hE rfl hc hc ha ha q7_ok qh_ok h h' (codewordsOf q7.mat.bitmap 7 k) (fun b _ => by rw [hz]; omega)
    (fun b hb => by (show hamming (blockBytes 7 .Q (codewordsOf qh.mat.bitmap 7 k') b) (blockBytes 7 .Q (codewordsOf q7.mat.bitmap 7 k) b) ≤ _; rw [hall b hb, hz]; omega))
  subst hbits
  have e := C01_roundtrip_partial hE hc ha q7_ok (fun h => absurd h.1 (by decide))
  have e' := C01_roundtrip_partial hE hc ha qh_ok (fun h => absurd h.1 (by decide))
  rw [decode_read h] at e
  rw [decode_read h'] at e'
  rw [e] at e'
  exact absurd (Option.some.inj e') (by decide)
example := C50_nontrivial (v := 7) (by decide) (by decide) .L

/-! ## C68, C77, C78, C82 -/

example := C68_damage hE rfl hc ha q7_ok (fun h => absurd h.1 (by decide)) q7_dim (bm := q7.mat.bitmap)
example := fun (bm : List (List Bool)) hl h6 he => C68_few_modules hE rfl hc ha q7_ok (fun h => absurd h.1 (by decide)) q7_dim (bm := bm) hl h6 he
/-! `C68_limit` is applied to a concrete picture in the proof of `C69_counterexample` (see `Instances/Scans.lean`). -/

example := C68_margin (v := 7) (by decide) (by decide)
example := C77_reference hE rfl hc q7_ok
example := C77_bitmap hE rfl hc ha q7_ok
example : ∃ m v p, (m, v) = (Mode.alnum, 7) ∧ PayloadOf demoExt.sjis (modeIn opts7) m (nats hello) p := by
  obtain ⟨m, v, p, _, _, h1, h2, h3, _⟩ := C77_reference hE rfl hc q7_ok
  obtain ⟨u, h4, h5, _⟩ := C11_dimension hE hc ha q7_ok
  obtain ⟨e1, e2, _⟩ := C77_determined h1 h1 h2 h4 h3 h3
  refine ⟨m, v, p, ?_, h3⟩
  have h7 := q7_dim
  have : m = .alnum := by
    rcases h1 with ⟨h, _⟩ | ⟨h, _⟩ | ⟨h, _⟩
    · exact (modeNum_inj (a := .alnum) h).symm
    · exact absurd h (by decide)
    · exact absurd h (by decide)
  rw [this, show v = 7 by omega]
example := C78_mask_choice hE rfl hc q7_ok
example := C78_all hE rfl hc q7_ok
example := demo_choice hc ha
example := C82_apart hE rfl hc hc ha ha q7_ok qh_ok (by decide) (fun h => absurd h.1 (by decide)) (fun h => absurd h.1 (by decide)) q7_dim qh_dim
example := C82_modules hE rfl hc hc ha ha q7_ok qh_ok (by decide) (fun h => absurd h.1 (by decide)) (fun h => absurd h.1 (by decide)) q7_dim qh_dim
example := C82_margin (v := 7) (by decide) (by decide)
example := C82_unambiguous hE rfl hc hc ha ha q7_ok qh_ok (by decide) (fun h => absurd h.1 (by decide)) (fun h => absurd h.1 (by decide)) q7_dim qh_dim (bm := q7.mat.bitmap)

/-! ## C90 to C92 -/

/-- `HELLO` at level L in alphanumeric mode. -/
example : ∃ q, newWith demoExt fresh inOrder .string [0x48, 0x45, 0x4C, 0x4C, 0x4F] opts7 = .ok q :=
  (C90_capacity hE hc ha (t := .string) (by simp) (opts := opts7) rfl hello_alnum).1 (by decide +kernel)
/-- 3000 bytes are too many. -/
example : ∃ e, newWith demoExt fresh inOrder .string (List.replicate 3000 0x61) [.withEncodingMode encByte] = .err e :=
  (C90_capacity hE hc ha (t := .string) (by simp) (text := List.replicate 3000 0x61) (opts := [.withEncodingMode encByte]) rfl (m := .byte) (Or.inl ⟨rfl, trivial⟩)).2 (by
    simp only [Spec.charCount]
    rw [nats_length, List.length_replicate]
    decide)
/-- `HELLO` in a lower level. -/
example := C91_monotone hE hc hc ha ha (t := .string) (t' := .string) (by simp) (opts := .withErrorCorrectionLevel ecLow :: opts7) (opts' := opts7) rfl rfl hello_alnum hello_alnum le_rfl (by decide) (by decide)
  q7_ok
/-- `Hello`, automatic instead of byte mode. -/
example : ∃ q q', newWith demoExt fresh inOrder .string greeting [.withEncodingMode encByte] = .ok q' ∧ newWith demoExt fresh inOrder .string greeting [] = .ok q ∧ q.dimension ≤ q'.dimension := by
  obtain ⟨q', hq'⟩ := (C90_capacity hE hc ha (t := .string) (by simp) (text := greeting) (opts := [.withEncodingMode encByte]) rfl (m := .byte) (Or.inl ⟨rfl, trivial⟩)).1 (by decide +kernel)
  obtain ⟨q, hq, hd⟩ := C92_automatic_partial hE hc hc ha ha (t := .string) (by simp) (opts := []) (opts' := [.withEncodingMode encByte]) greeting_plain rfl (by decide) rfl rfl rfl rfl hq'
  exact ⟨q, q', hq', hq, hd⟩
example := C92_counterexample hc hc ha ha

end QR.Instances
