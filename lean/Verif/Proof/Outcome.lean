import Verif.Proof.Build
import Verif.Proof.Bitmap
/-!
# The outcome of `NewWith`, and what a reader sees
-/
namespace QR
open Spec Matrix

/-- The assumptions about the two external libraries (reedsolomon, x/text). -/
structure Ext.Ok (E : Ext) (unsjis : Nat → Option Nat) : Prop where
  rs : E.Systematic
  sjis : E.ShiftJIS unsjis
  ascii : E.Ascii

/-- The mode option is one of auto, numeric, alphanumeric, kanji, byte. -/
def Supported (mode : Nat) : Prop := mode = encAuto ∨ ∃ m, mode = modeNum m

/-- The mode the code works in. -/
inductive ChosenMode (E : Ext) (raw : Bytes) (mode : Nat) : Mode → Prop
  | mixed : mode = encAuto → Mixed E raw → ChosenMode E raw mode .kanji
  | auto : mode = encAuto → ¬ Mixed E raw → ChosenMode E raw mode (bestMode E raw)
  | explicit (m : Mode) : mode = modeNum m → Representable E m raw → ChosenMode E raw mode m

theorem modeNum_inj {a b : Mode} (h : modeNum a = modeNum b) : a = b := by
  cases a <;> cases b <;> first | rfl | exact absurd h (by decide)

theorem modeNum_ne_auto (m : Mode) : modeNum m ≠ encAuto := by cases m <;> decide

theorem validate_spec (E : Ext) (m : Mode) (raw : Bytes) :
    (Representable E m raw ∧ validateEncodingMode E (modeNum m) raw = none) ∨
    (¬ Representable E m raw ∧ ∃ r ∈ runes raw, validateEncodingMode E (modeNum m) raw = some (.cannotEncode r (modeNum m))) := by
  have key : ∀ f : Nat → Bool, ((∀ r ∈ runes raw, f r = true) ∧ (runes raw).find? (fun r => !f r) = none) ∨
      (¬ (∀ r ∈ runes raw, f r = true) ∧ ∃ r ∈ runes raw, (runes raw).find? (fun r => !f r) = some r) := by
    intro f
    cases hf : (runes raw).find? (fun r => !f r) with
    | none =>
      left
      refine ⟨?_, rfl⟩
      intro r hr
      have := List.find?_eq_none.1 hf r hr
      simpa using this
    | some r =>
      right
      have h1 := List.mem_of_find?_eq_some hf
      have h2 := List.find?_some hf
      refine ⟨fun h => ?_, r, h1, rfl⟩
      have := h r h1
      rw [this] at h2; simp at h2
  cases m with
  | numeric =>
    rcases key analyzeNum with ⟨h1, h2⟩ | ⟨h1, r, h2, h3⟩
    · left; exact ⟨h1, by simp [validateEncodingMode, modeNum, h2]⟩
    · right; exact ⟨h1, r, h2, by simp [validateEncodingMode, modeNum, h3]⟩
  | alnum =>
    rcases key analyzeAlphaNum with ⟨h1, h2⟩ | ⟨h1, r, h2, h3⟩
    · left; exact ⟨h1, by simp [validateEncodingMode, modeNum, h2, encNumeric, encAlphanumeric]⟩
    · right; exact ⟨h1, r, h2, by simp [validateEncodingMode, modeNum, h3, encNumeric, encAlphanumeric]⟩
  | kanji =>
    rcases key (analyzeJP E) with ⟨h1, h2⟩ | ⟨h1, r, h2, h3⟩
    · left; exact ⟨h1, by simp [validateEncodingMode, modeNum, h2, encNumeric, encAlphanumeric, encKanji]⟩
    · right; exact ⟨h1, r, h2, by simp [validateEncodingMode, modeNum, h3, encNumeric, encAlphanumeric, encKanji]⟩
  | byte => left; exact ⟨trivial, rfl⟩

theorem chooseMode_spec (E : Ext) (raw : Bytes) (opt : EncodingOption) (hs : Supported opt.encMode) :
    (∃ m, ChosenMode E raw opt.encMode m ∧ chooseMode E raw opt = .ok (modeNum m)) ∨
    (∃ m r, opt.encMode = modeNum m ∧ ¬ Representable E m raw ∧ r ∈ runes raw ∧
      chooseMode E raw opt = .err (.cannotEncode r (modeNum m))) := by
  unfold chooseMode
  rcases hs with h0 | ⟨m, hm⟩
  · left
    rw [if_pos h0, analyzeMode_eq]
    rcases detect_cases E raw with ⟨h1, h2⟩ | ⟨h1, h2⟩
    · exact ⟨.kanji, .mixed h0 h1, by rw [h2]⟩
    · exact ⟨_, .auto h0 h1, by rw [h2]⟩
  · rw [if_neg (by rw [hm]; exact modeNum_ne_auto m), hm]
    rcases validate_spec E m raw with ⟨h1, h2⟩ | ⟨h1, r, h2, h3⟩
    · left; exact ⟨m, .explicit m rfl h1, by rw [h2]⟩
    · right; exact ⟨m, r, rfl, h1, h2, by rw [h3]⟩

/-- The text is representable in the mode used. -/
theorem ChosenMode.cases {E : Ext} {raw : Bytes} {mode : Nat} {m : Mode} (h : ChosenMode E raw mode m) :
    Representable E m raw ∨ (mode = encAuto ∧ Mixed E raw ∧ m = .kanji) := by
  cases h with
  | mixed h0 h1 => right; exact ⟨h0, h1, rfl⟩
  | auto h0 h1 => left; exact bestMode_rep E raw
  | explicit _ h0 h1 => left; exact h1

theorem payload_cases {E : Ext} {unsjis : Nat → Option Nat} (hE : E.Ok unsjis) {raw : Bytes} {mode : Nat} {m : Mode}
    (h : ChosenMode E raw mode m) :
    ∃ p, encodePayload E (modeNum m) raw = .ok p ∧
      ((Representable E m raw ∧ p.length = payloadBits m (countOf m raw) ∧
          ∀ rest, readPayload unsjis m (countOf m raw) (p ++ rest) = some (nats raw, rest)) ∨
       (Mixed E raw ∧ m = .kanji ∧ p = [])) := by
  rcases h.cases with h' | ⟨_, h', h''⟩
  · obtain ⟨p, h1, h2, h3⟩ := payload_ok hE.sjis m raw h'
    exact ⟨p, h1, Or.inl ⟨h', h2, h3⟩⟩
  · subst h''
    refine ⟨[], ?_, Or.inr ⟨h', rfl, rfl⟩⟩
    have : encodePayload E (modeNum .kanji) raw = .ok (encodeKanji (toShiftJIS E raw)) := rfl
    rw [this, mixed_payload hE.ascii h']; rfl

/-- A finished code: version `v`, level `ec`, mask `k`, encoded stream `bs`. -/
structure Built (E : Ext) (v ec k : Nat) (bs : Bits) (raw : Bytes) (q : QRCode) : Prop where
  v1 : 1 ≤ v
  v40 : v ≤ 40
  mask : k < 8
  row : RowOk v ec q.v
  len : bs.length = 8 * dataCodewords v (levelOf ec)
  sym : Symbol v k (natBits 15 (formatWord (levelOf ec) k)) (natBits 18 (versionWord v))
    (finalStream E v (levelOf ec) bs) q.mat
  text : q.sourceText = raw
  stream : q.dataBSet = finalStream E v (levelOf ec) bs

/-- In every schedule a code with stream `bs` is built; its matrix is one of eight candidates that do not depend on the
schedule, the first in arrival order among those with the lowest score. -/
def BuildsTo (E : Ext) (c : AlignCache) (raw : Bytes) (opt : EncodingOption) (v : Nat) (bs : Bits) : Prop :=
  (∃ q0, init E c raw opt = .ok q0 ∧ Inited E v opt.ecLevel.toNat bs raw q0) ∧
  ∃ M s, Candidates v opt.ecLevel.toNat (finalStream E v (levelOf opt.ecLevel.toNat) bs) M s ∧
    ∀ arrival, Arrival arrival → ∃ q k, build E c arrival raw opt = .ok q ∧ Built E v opt.ecLevel.toNat k bs raw q ∧
      q.mat = M k ∧ Chosen s arrival k

theorem build_ok {E : Ext} (hE : E.Systematic) {c : AlignCache} (hc : CacheOk c) {raw : Bytes} {opt : EncodingOption}
    (ho : OptOk opt) {m : Mode} (hm : chooseMode E raw opt = .ok (modeNum m)) {v : Nat} (h1 : 1 ≤ v) (h40 : v ≤ 40)
    (hv : calcVersionNumber raw { opt with encMode := modeNum m } = .ok (v : Int))
    {p : Bits} (hp : encodePayload E (modeNum m) raw = .ok p)
    (hle : 4 + countWidth v m + p.length ≤ 8 * dataCodewords v (levelOf opt.ecLevel.toNat)) :
    ∃ bs, Filled (8 * dataCodewords v (levelOf opt.ecLevel.toNat)) (segment v m (countOf m raw) p) bs ∧
      BuildsTo E c raw opt v bs := by
  obtain ⟨q, bs, hq, hi, hfill⟩ := (init_ok hE hc ho hm h1 h40 hv hp).1 hle
  have hl := ho.level
  have hlen : q.dataBSet.length = rawModules v := by
    rw [hi.stream]; exact finalStream_length hE h1 h40 _ hfill.1
  obtain ⟨M, s, cpy, hcand, _, _, hsel⟩ := masking_spec h1 h40 (by omega) (by omega) hi.row hi.mat hlen
  refine ⟨bs, hfill, ⟨q, hq, hi⟩, M, s, by rw [← hi.stream]; exact hcand, fun arrival harr => ?_⟩
  obtain ⟨a, k, b, e1, hk, hmask, e2, e3⟩ := hsel arrival harr
  refine ⟨{ q with mat := M k }, k, ?_, ⟨h1, h40, hk, hi.row, hfill.1, ?_, hi.text, hi.stream⟩, rfl, a, b, e1, e2, e3⟩
  · unfold build; rw [hq, Res.bind_ok, hmask]
  · have := hcand.sym k hk
    rw [hi.stream] at this
    exact this

/-- Every outcome of `build` for supported modes. -/
theorem build_cases {E : Ext} {unsjis : Nat → Option Nat} (hE : E.Ok unsjis) {c : AlignCache} (hc : CacheOk c)
    {raw : Bytes} {opt : EncodingOption} (ho : OptOk opt) (hs : Supported opt.encMode) :
    (∃ m r, opt.encMode = modeNum m ∧ ¬ Representable E m raw ∧
      ∀ arrival, build E c arrival raw opt = .err (.cannotEncode r (modeNum m))) ∨
    ∃ m, ChosenMode E raw opt.encMode m ∧
      ((opt.version = 0 ∧ (∀ u : Nat, 1 ≤ u → u ≤ 40 → ¬ fits u (levelOf opt.ecLevel.toNat) m (wantOf m raw)) ∧
          ∀ arrival, build E c arrival raw opt = .err .analyzeVersionFailed) ∨
       ∃ (v : Nat) (p : Bits), 1 ≤ v ∧ v ≤ 40 ∧
        ((1 ≤ opt.version ∧ opt.version = v) ∨
         (opt.version = 0 ∧ ∃ u : Nat, 1 ≤ u ∧ u ≤ 40 ∧ fits u (levelOf opt.ecLevel.toNat) m (wantOf m raw) ∧
            (∀ w : Nat, 1 ≤ w → w < u → ¬ fits w (levelOf opt.ecLevel.toNat) m (wantOf m raw)) ∧
            (v : Int) = max (u : Int) opt.minimumVersion)) ∧
        ((Representable E m raw ∧ p.length = payloadBits m (countOf m raw) ∧
            ∀ rest, readPayload unsjis m (countOf m raw) (p ++ rest) = some (nats raw, rest)) ∨
         (Mixed E raw ∧ m = .kanji ∧ p = [])) ∧
        ((8 * dataCodewords v (levelOf opt.ecLevel.toNat) < 4 + countWidth v m + p.length ∧
            ∀ arrival, build E c arrival raw opt = .err (.wrongVersionCap v
              (8 * dataCodewords v (levelOf opt.ecLevel.toNat)) (4 + countWidth v m + p.length))) ∨
         (4 + countWidth v m + p.length ≤ 8 * dataCodewords v (levelOf opt.ecLevel.toNat) ∧
          ∃ bs, Filled (8 * dataCodewords v (levelOf opt.ecLevel.toNat)) (segment v m (countOf m raw) p) bs ∧
            BuildsTo E c raw opt v bs))) := by
  rcases chooseMode_spec E raw opt hs with ⟨m, hcm, hm⟩ | ⟨m, r, h1, h2, _, h3⟩
  · right
    refine ⟨m, hcm, ?_⟩
    have ho' : OptOk { opt with encMode := modeNum m } := ⟨ho.1, ho.2, ho.3⟩
    obtain ⟨p, hp, hpc⟩ := payload_cases hE hcm
    rcases calcVersion_spec ho' m rfl raw with ⟨h1, h2⟩ | ⟨h0, u, h1, h2, h3, h4, h5⟩ | ⟨h0, h1, h2⟩
    · right
      simp only at h1 h2
      have hver := ho.version
      have hvn : opt.version = ((opt.version.toNat : Nat) : Int) := by omega
      refine ⟨opt.version.toNat, p, by omega, by omega, Or.inl ⟨h1, hvn⟩, hpc, ?_⟩
      replace h2 := h2.trans (congrArg Res.ok hvn)
      by_cases hle : 4 + countWidth opt.version.toNat m + p.length ≤ 8 * dataCodewords opt.version.toNat (levelOf opt.ecLevel.toNat)
      · right; exact ⟨hle, build_ok hE.rs hc ho hm (by omega) (by omega) h2 hp hle⟩
      · left
        refine ⟨by omega, fun arrival => ?_⟩
        unfold build
        rw [(init_ok hE.rs hc ho hm (by omega) (by omega) h2 hp).2 (by omega)]
        rfl
    · right
      simp only at h0 h3 h4 h5
      have hmn := ho.minimum
      obtain ⟨v, hv⟩ : ∃ v : Nat, (v : Int) = max (u : Int) opt.minimumVersion := ⟨(max (u : Int) opt.minimumVersion).toNat, by omega⟩
      refine ⟨v, p, by omega, by omega, Or.inr ⟨h0, u, h1, h2, h3, h4, hv⟩, hpc, ?_⟩
      rw [← hv] at h5
      by_cases hle : 4 + countWidth v m + p.length ≤ 8 * dataCodewords v (levelOf opt.ecLevel.toNat)
      · right; exact ⟨hle, build_ok hE.rs hc ho hm (by omega) (by omega) h5 hp hle⟩
      · left
        refine ⟨by omega, fun arrival => ?_⟩
        unfold build
        rw [(init_ok hE.rs hc ho hm (by omega) (by omega) h5 hp).2 (by omega)]
        rfl
    · left
      refine ⟨h0, h1, fun arrival => ?_⟩
      unfold build init
      rw [hm, Res.bind_ok]
      simp only [h2, Res.bind_err]
  · left
    refine ⟨m, r, h1, h2, fun arrival => ?_⟩
    unfold build init
    rw [h3]; rfl

/-! ## The reader -/

theorem formatWord_lt (lv : Level) (k : Nat) (hk : k < 8) : formatWord lv k < 2 ^ 15 := by
  have : ∀ lv ∈ Level.all, ∀ k ∈ List.range 8, formatWord lv k < 2 ^ 15 := by decide +kernel
  exact this lv (by cases lv <;> decide) k (List.mem_range.2 hk)

theorem find_format (lv : Level) (k : Nat) (hk : k < 8) :
    (formats.find? fun (p : Level × Nat) => formatWord p.1 p.2 == formatWord lv k) = some (lv, k) := by
  have : ∀ lv ∈ Level.all, ∀ k ∈ List.range 8,
    (formats.find? fun (p : Level × Nat) => formatWord p.1 p.2 == formatWord lv k) = some (lv, k) := by decide +kernel
  exact this lv (by cases lv <;> decide) k (List.mem_range.2 hk)

theorem formatCells1_lt {v i j : Nat} (h1 : 1 ≤ v) (h : (i, j) ∈ formatCells1) : i < side v ∧ j < side v := by
  have hn : side v = 17 + 4 * v := rfl
  have : ∀ p ∈ formatCells1, p.1 ≤ 8 ∧ p.2 ≤ 8 := by decide
  have := this _ h
  simp only at this
  omega

/-- A reader finds version, level, mask and stream. -/
theorem Built.read {E : Ext} {v ec k : Nat} {bs : Bits} {raw : Bytes} {q : QRCode} (hE : E.Systematic)
    (h : Built E v ec k bs raw q) :
    readVersion q.mat.bitmap = some v ∧ readFormat q.mat.bitmap = some (levelOf ec, k) ∧
    readStream q.mat.bitmap v k = finalStream E v (levelOf ec) bs ∧
    (deinterleave v (levelOf ec) (toCodewords (totalCodewords v) (readStream q.mat.bitmap v k))).flatMap byteToBits = bs := by
  have s := h.sym.sq
  have hlen := bitmap_length s
  have hn : side v = 17 + 4 * v := rfl
  have h1 := h.v1
  have h40 := h.v40
  have hstream : readStream q.mat.bitmap v k = finalStream E v (levelOf ec) bs := by
    rw [← h.sym.data]
    unfold readStream
    apply List.map_congr_left
    rintro ⟨i, j⟩ hij
    have := (mem_dataModules h1).1 hij
    simp only
    rw [bitmap_at s this.1 this.2.1]
  refine ⟨?_, ?_, hstream, ?_⟩
  · unfold readVersion
    simp only [hlen]
    rw [if_pos (by omega)]
    congr 1; omega
  · unfold readFormat
    have : readCells q.mat.bitmap formatCells1 = formatWord (levelOf ec) k := by
      unfold readCells
      have e : (formatCells1.map fun (p : Nat × Nat) => pixel q.mat.bitmap p.1 p.2) = natBits 15 (formatWord (levelOf ec) k) := by
        rw [← h.sym.fmt1]
        apply List.map_congr_left
        rintro ⟨i, j⟩ hij
        have := formatCells1_lt h1 hij
        simp only
        rw [bitmap_at s this.1 this.2]
      refine Eq.trans (congrArg bitsToNat e) ?_
      rw [bitsToNat_natBits, Nat.mod_eq_of_lt (formatWord_lt _ _ h.mask)]
    simp only [this]
    exact find_format _ _ h.mask
  · rw [hstream]
    exact deinterleave_eq hE h1 h40 _ h.len

/-- A reader recovers the text. -/
theorem Built.decode {E : Ext} {unsjis : Nat → Option Nat} (hE : E.Systematic) {v ec k : Nat} {bs : Bits} {raw : Bytes} {q : QRCode}
    (h : Built E v ec k bs raw q) {m : Mode} {n : Nat} {p : Bits} {out : List Nat}
    (hf : Filled (8 * dataCodewords v (levelOf ec)) (segment v m n p) bs) (hn : n < 2 ^ countWidth v m)
    (hr : ∀ rest, readPayload unsjis m n (p ++ rest) = some (out, rest)) :
    Spec.decode unsjis q.mat.bitmap = some out := by
  obtain ⟨h1, h2, h3, h4⟩ := h.read hE
  unfold Spec.decode
  rw [h1]
  simp only [Option.bind_eq_bind, Option.bind_some, h2, h4]
  apply read_filled hn hr hf
  have := segment_length v m n p
  have h5 := hf.1
  obtain ⟨_, t, pp, kk, e, _⟩ := hf
  rw [e]
  simp only [List.length_append]
  omega

/-- The count of a text that fits fits into the count field. -/
theorem count_lt {v : Nat} (h1 : 1 ≤ v) (h40 : v ≤ 40) (lv : Level) {m : Mode} {n : Nat} (h : fits v lv m n) :
    n < 2 ^ countWidth v m := by
  obtain ⟨ec, he1, he4, rfl⟩ := levelOf_surj lv
  obtain ⟨V, _, rV⟩ := table_row h1 h40 he1 he4
  exact Nat.lt_of_le_of_lt ((rV.cap_iff m n).2 h) (rV.count m)

end QR
