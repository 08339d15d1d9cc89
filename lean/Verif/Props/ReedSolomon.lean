import Verif.Props.Symbol
/-!
# C50: error correction really corrects

`hRS : E.rs = rsEncode`: the external Reed-Solomon package is a systematic coder of the standard's code
(`Spec/ReedSolomon.lean`: data followed by the remainder modulo the generator polynomial over GF(256)).
-/
namespace QR
open Spec QR.Matrix

/-- The bytes of block `b`: data codewords, then error correction codewords, found in the codeword sequence at the
places the standard prescribes. -/
def blockBytes (v : Nat) (lv : Level) (cw : List Nat) (b : Nat) : List GF :=
  (dataBlock v lv cw b ++ ecBlock v lv cw b).map GF.ofNat'

theorem bitsToNat_lt8 (l : List Bool) (h : l.length ≤ 8) : bitsToNat l < 256 := by
  have key : ∀ (l : List Bool) (a : Nat), l.foldl (fun a b => 2 * a + b.toNat) a < 2 ^ l.length * (a + 1) := by
    intro l
    induction l with
    | nil => intro a; simp
    | cons x l ih =>
      intro a
      have := ih (2 * a + x.toNat)
      rw [List.foldl_cons, List.length_cons, Nat.pow_succ, Nat.mul_assoc]
      refine Nat.lt_of_lt_of_le this (Nat.mul_le_mul_left _ ?_)
      have : x.toNat ≤ 1 := by cases x <;> decide
      omega
  have := key l 0
  have h2 : 2 ^ l.length ≤ 2 ^ 8 := Nat.pow_le_pow_right (by decide) h
  unfold bitsToNat
  omega

theorem toCodewords_lt (n : Nat) (bs : List Bool) : ∀ x ∈ toCodewords n bs, x < 256 := by
  induction n generalizing bs with
  | zero => simp [toCodewords]
  | succ n ih =>
    intro x hx
    rcases List.mem_cons.1 hx with rfl | hx
    · exact bitsToNat_lt8 _ (by rw [List.length_take]; omega)
    · exact ih _ x hx

theorem getD_lt {l : List Nat} (h : ∀ x ∈ l, x < 256) (i : Nat) : l.getD i 0 < 256 := by
  rw [List.getD_eq_getElem?_getD]
  cases he : l[i]? with
  | none => simp
  | some x => exact h x (List.mem_of_getElem? he)

theorem bitsToNat_byteToBits {x : Nat} (h : x < 256) : bitsToNat (byteToBits x) = x := by
  have : ∀ x ∈ List.range 256, bitsToNat (byteToBits x) = x := by decide +kernel
  exact this x (List.mem_range.2 h)

theorem byteToBits_length (x : Nat) : (byteToBits x).length = 8 := by simp [byteToBits]

theorem flatMap_byteToBits_length (l : List Nat) : (l.flatMap byteToBits).length = 8 * l.length := by
  induction l with
  | nil => rfl
  | cons a l ih => rw [List.flatMap_cons, List.length_append, ih, byteToBits_length, List.length_cons]; omega

theorem toCodewords_flatMap (l : List Nat) (h : ∀ x ∈ l, x < 256) : toCodewords l.length (l.flatMap byteToBits) = l := by
  induction l with
  | nil => rfl
  | cons a l ih =>
    rw [List.flatMap_cons, List.length_cons, toCodewords, List.take_left' (byteToBits_length a), List.drop_left' (byteToBits_length a),
      bitsToNat_byteToBits (h a (by simp)), ih (fun x hx => h x (by simp [hx]))]

theorem flatMap_bytes_inj {a b : List Nat} (ha : ∀ x ∈ a, x < 256) (hb : ∀ x ∈ b, x < 256)
    (h : a.flatMap byteToBits = b.flatMap byteToBits) : a = b := by
  have hl : a.length = b.length := by
    have := congrArg List.length h
    rw [flatMap_byteToBits_length, flatMap_byteToBits_length] at this
    omega
  rw [← toCodewords_flatMap a ha, ← toCodewords_flatMap b hb, h, hl]

theorem dataBlock_lt (v lv) {cw : List Nat} (h : ∀ x ∈ cw, x < 256) (b : Nat) : ∀ x ∈ dataBlock v lv cw b, x < 256 := by
  intro x hx
  obtain ⟨t, _, rfl⟩ := List.mem_map.1 hx
  exact getD_lt h _

theorem ecBlock_lt (v lv) {cw : List Nat} (h : ∀ x ∈ cw, x < 256) (b : Nat) : ∀ x ∈ ecBlock v lv cw b, x < 256 := by
  intro x hx
  obtain ⟨t, _, rfl⟩ := List.mem_map.1 hx
  exact getD_lt h _

theorem ofNat_map_inj {a b : List Nat} (ha : ∀ x ∈ a, x < 256) (hb : ∀ x ∈ b, x < 256)
    (h : a.map GF.ofNat' = b.map GF.ofNat') : a = b := by
  have e : ∀ l : List Nat, (∀ x ∈ l, x < 256) → (l.map GF.ofNat').map GF.val = l := by
    intro l hl
    rw [List.map_map]
    conv => rhs; rw [← List.map_id l]
    exact List.map_congr_left fun x hx => Nat.mod_eq_of_lt (hl x hx)
  rw [← e a ha, ← e b hb, h]

theorem stream_codeword {v : Nat} {lv : Level} {bits stream : List Bool} (h : IsStream rsEncode v lv bits stream)
    {b : Nat} (hb : b < numBlocks v lv) :
    IsCodeword (ecPerBlock v lv) (blockBytes v lv (toCodewords (totalCodewords v) stream) b) := by
  have hlt := toCodewords_lt (totalCodewords v) stream
  generalize hcw : toCodewords (totalCodewords v) stream = cw at hlt
  have hec := h.ec b hb
  rw [hcw] at hec
  have hd := dataBlock_lt v lv hlt b
  have he := ecBlock_lt v lv hlt b
  unfold blockBytes
  generalize dataBlock v lv cw b = D at hec hd ⊢
  generalize ecBlock v lv cw b = Q at hec he ⊢
  unfold rsEncode at hec
  have hec := List.append_cancel_left hec
  rw [flatMap_byteToBits_length, Nat.mul_div_cancel_left _ (by omega), toCodewords_flatMap D hd] at hec
  generalize hP : rsParity (D.map GF.ofNat') (ecPerBlock v lv) = P at hec
  have hQ : Q = P.map GF.val := by
    apply flatMap_bytes_inj he
    · intro x hx; obtain ⟨p, _, rfl⟩ := List.mem_map.1 hx; exact p.lt
    · rw [hec, List.flatMap_map]
  rw [List.map_append, hQ, List.map_map]
  have : P.map (GF.ofNat' ∘ GF.val) = P := by
    conv => rhs; rw [← List.map_id P]
    exact List.map_congr_left fun p _ => GF.ext' (Nat.mod_eq_of_lt p.lt)
  rw [this, ← hP]
  exact rs_codeword _ _

theorem blockBytes_length (v lv) (cw : List Nat) (b : Nat) :
    (blockBytes v lv cw b).length = blockLen v lv b + ecPerBlock v lv := by
  simp [blockBytes, dataBlock, ecBlock]

theorem block_short {v : Nat} (h1 : 1 ≤ v) (h40 : v ≤ 40) (lv : Level) (b : Nat) : blockLen v lv b + ecPerBlock v lv ≤ 255 := by
  have t : ∀ v ∈ List.range 41, ∀ lv ∈ Level.all, shortLen v lv + 1 + ecPerBlock v lv ≤ 255 := by decide +kernel
  have := t v (List.mem_range.2 (by omega)) lv (by cases lv <;> decide)
  unfold blockLen
  split <;> omega

/-- The codewords a reader takes from a symbol under mask `k`. -/
def codewordsOf (bm : List (List Bool)) (v k : Nat) : List Nat := toCodewords (totalCodewords v) (readStream bm v k)

/-- In every symbol each block is a codeword of the standard's Reed-Solomon code with as many check bytes as the
block has error correction codewords. -/
theorem C50_codewords {E : Ext} {unsjis : Nat → Option Nat} (hE : E.Ok unsjis) (hRS : E.rs = rsEncode)
    {c : AlignCache} (hc : CacheReachable c)
    {arrival : List Nat} (ha : Arrival arrival) {t : TextType} {text : Bytes} {opts : List EncodeOption} {q : QRCode}
    (h : newWith E c arrival t text opts = .ok q) {v : Nat} {lv : Level} {k : Nat} {bits : List Bool}
    (hr : readData q.mat.bitmap = some (v, lv, k, bits)) :
    1 ≤ v ∧ v ≤ 40 ∧ ∀ b < numBlocks v lv, IsCodeword (ecPerBlock v lv) (blockBytes v lv (codewordsOf q.mat.bitmap v k) b) := by
  obtain ⟨v', lv', k', bits', h1, h2, h3⟩ := C21_blocks hE hc ha h
  rw [hr] at h1
  cases h1
  rw [hRS] at h2
  obtain ⟨v'', k'', m, p, bits'', hd, g1, g40, _, hs, _⟩ := symbol_facts hE hc ha h
  have : v'' = v := by
    have e : readVersion q.mat.bitmap = some v := by
      unfold readData at hr
      cases e : readVersion q.mat.bitmap with
      | none => rw [e] at hr; simp at hr
      | some w =>
        rw [e] at hr
        simp only [Option.bind_eq_bind, Option.bind_some] at hr
        cases e2 : readFormat q.mat.bitmap with
        | none => rw [e2] at hr; simp at hr
        | some w2 =>
          rw [e2] at hr
          simp only [Option.bind_some, Option.some.injEq, Prod.mk.injEq] at hr
          rw [hr.1]
    unfold readVersion at e
    rw [hs.rows] at e
    have hv : side v'' = 17 + 4 * v'' := rfl
    simp only at e
    split at e <;> simp_all
  subst this
  exact ⟨g1, g40, fun b hb => stream_codeword h2 hb⟩

/-- Any two symbols of the same version and level: corresponding blocks are equal or differ in more codewords than
the number of error correction codewords per block. -/
theorem C50_distance {E : Ext} {unsjis : Nat → Option Nat} (hE : E.Ok unsjis) (hRS : E.rs = rsEncode)
    {c c' : AlignCache} (hc : CacheReachable c) (hc' : CacheReachable c')
    {arrival arrival' : List Nat} (ha : Arrival arrival) (ha' : Arrival arrival')
    {t t' : TextType} {text text' : Bytes} {opts opts' : List EncodeOption} {q q' : QRCode}
    (h : newWith E c arrival t text opts = .ok q) (h' : newWith E c' arrival' t' text' opts' = .ok q')
    {v : Nat} {lv : Level} {k k' : Nat} {bits bits' : List Bool}
    (hr : readData q.mat.bitmap = some (v, lv, k, bits)) (hr' : readData q'.mat.bitmap = some (v, lv, k', bits'))
    {b : Nat} (hb : b < numBlocks v lv)
    (hne : blockBytes v lv (codewordsOf q.mat.bitmap v k) b ≠ blockBytes v lv (codewordsOf q'.mat.bitmap v k') b) :
    ecPerBlock v lv < hamming (blockBytes v lv (codewordsOf q.mat.bitmap v k) b)
      (blockBytes v lv (codewordsOf q'.mat.bitmap v k') b) := by
  obtain ⟨h1, h40, hw⟩ := C50_codewords hE hRS hc ha h hr
  obtain ⟨_, _, hw'⟩ := C50_codewords hE hRS hc' ha' h' hr'
  refine codeword_distance ?_ ?_ (hw b hb) (hw' b hb) hne
  · rw [blockBytes_length, blockBytes_length]
  · rw [blockBytes_length]; exact block_short h1 h40 lv b

/-- So damage is correctable: if the codewords `r` read from a damaged symbol are, in every block, within half the
number of error correction codewords of two symbols' codewords, then both symbols carry the same data bits. -/
theorem C50_correctable {E : Ext} {unsjis : Nat → Option Nat} (hE : E.Ok unsjis) (hRS : E.rs = rsEncode)
    {c c' : AlignCache} (hc : CacheReachable c) (hc' : CacheReachable c')
    {arrival arrival' : List Nat} (ha : Arrival arrival) (ha' : Arrival arrival')
    {t t' : TextType} {text text' : Bytes} {opts opts' : List EncodeOption} {q q' : QRCode}
    (h : newWith E c arrival t text opts = .ok q) (h' : newWith E c' arrival' t' text' opts' = .ok q')
    {v : Nat} {lv : Level} {k k' : Nat} {bits bits' : List Bool}
    (hr : readData q.mat.bitmap = some (v, lv, k, bits)) (hr' : readData q'.mat.bitmap = some (v, lv, k', bits'))
    (r : List Nat)
    (d : ∀ b < numBlocks v lv, hamming (blockBytes v lv (codewordsOf q.mat.bitmap v k) b) (blockBytes v lv r b) ≤ ecPerBlock v lv / 2)
    (d' : ∀ b < numBlocks v lv, hamming (blockBytes v lv (codewordsOf q'.mat.bitmap v k') b) (blockBytes v lv r b) ≤ ecPerBlock v lv / 2) :
    bits = bits' := by
  obtain ⟨h1, h40, hw⟩ := C50_codewords hE hRS hc ha h hr
  obtain ⟨_, _, hw'⟩ := C50_codewords hE hRS hc' ha' h' hr'
  have heq : ∀ b < numBlocks v lv, blockBytes v lv (codewordsOf q.mat.bitmap v k) b = blockBytes v lv (codewordsOf q'.mat.bitmap v k') b := by
    intro b hb
    refine unique_correction (n := ecPerBlock v lv) (r := blockBytes v lv r b) ?_ ?_ ?_ (hw b hb) (hw' b hb) ?_ ?_
    · rw [blockBytes_length, blockBytes_length]
    · rw [blockBytes_length, blockBytes_length]
    · rw [blockBytes_length]; exact block_short h1 h40 lv b
    · have := d b hb; omega
    · have := d' b hb; omega
  obtain ⟨_, _, _, _, g1, g2, _⟩ := C21_blocks hE hc ha h
  rw [hr] at g1; cases g1
  obtain ⟨_, _, _, _, g1', g2', _⟩ := C21_blocks hE hc' ha' h'
  rw [hr'] at g1'; cases g1'
  rw [← g2.data, ← g2'.data]
  apply flatMap_congr'
  intro b hb
  have hb := List.mem_range.1 hb
  have e := heq b hb
  unfold blockBytes codewordsOf at e
  rw [List.map_append, List.map_append] at e
  have e := (List.append_inj e (by simp [dataBlock])).1
  rw [ofNat_map_inj (dataBlock_lt v lv (toCodewords_lt _ _) b) (dataBlock_lt v lv (toCodewords_lt _ _) b) e]

/-- The number of error correction codewords is positive in every symbol, so some damage can always be corrected
(at least three codewords per block). -/
theorem C50_nontrivial {v : Nat} (h1 : 1 ≤ v) (h40 : v ≤ 40) (lv : Level) : 3 ≤ ecPerBlock v lv / 2 := by
  have t : ∀ v ∈ List.range 41, 1 ≤ v → ∀ lv ∈ Level.all, 3 ≤ ecPerBlock v lv / 2 := by decide +kernel
  exact t v (List.mem_range.2 (by omega)) h1 lv (by cases lv <;> decide)

/-- The hypotheses about the coder can be met. -/
theorem demo_rs : demoExt.Ok demoUnsjis ∧ demoExt.rs = rsEncode := ⟨demo_ok, rfl⟩

end QR
