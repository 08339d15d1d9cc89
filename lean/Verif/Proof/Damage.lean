import Verif.Spec.Damage
import Verif.Props.ReedSolomon
/-!
# The correcting reader
-/
namespace QR
open Spec

theorem wrongAt_comm (a b : List (List Bool)) (cells) : wrongAt a b cells = wrongAt b a cells := by
  unfold wrongAt
  apply List.countP_congr
  intro p _
  cases pixel a p.1 p.2 <;> cases pixel b p.1 p.2 <;> simp

theorem bitDist_bitsAt (a b : List (List Bool)) : ∀ cells, bitDist (bitsAt a cells) (bitsAt b cells) = wrongAt a b cells := by
  intro cells
  unfold bitsAt wrongAt
  induction cells with
  | nil => rfl
  | cons p l ih =>
    rw [List.map_cons, List.map_cons, bitDist, ih, List.countP_cons]
    by_cases h : pixel a p.1 p.2 = pixel b p.1 p.2 <;> simp [h] <;> omega

theorem find_unique {α : Type} {p : α → Bool} {x : α} : ∀ {l : List α}, x ∈ l → p x = true → (∀ y ∈ l, p y = true → y = x) → l.find? p = some x
  | a :: l, hx, hp, hu => by
    rw [List.find?_cons]
    cases h : p a with
    | true => rw [hu a (by simp) h]
    | false =>
      refine find_unique ?_ hp (fun y hy => hu y (by simp [hy]))
      rcases List.mem_cons.1 hx with rfl | hx
      · rw [hp] at h; cases h
      · exact hx

theorem formats_apart : ∀ f ∈ formats, ∀ g ∈ formats, f ≠ g →
    7 ≤ bitDist (numBits 15 (formatWord f.1 f.2)) (numBits 15 (formatWord g.1 g.2)) := by
  decide +kernel

theorem mem_formats (lv : Level) {k : Nat} (hk : k < 8) : (lv, k) ∈ formats := by
  unfold formats
  rw [List.mem_flatMap]
  exact ⟨lv, by cases lv <;> decide, List.mem_map.2 ⟨k, List.mem_range.2 hk, rfl⟩⟩

theorem numBits_length (w n : Nat) : (numBits w n).length = w := by simp [numBits]

theorem bitsAt_length (bm cells) : (bitsAt bm cells).length = cells.length := by simp [bitsAt]

/-- Format information with at most 6 wrong modules is read correctly. -/
theorem nearFormat_eq {v k : Nat} {lv : Level} {a bm : List (List Bool)} (hk : k < 8)
    (h1 : bitsAt a formatCells1 = numBits 15 (formatWord lv k)) (h2 : bitsAt a (formatCells2 v) = numBits 15 (formatWord lv k))
    (hw : wrongAt a bm formatCells1 + wrongAt a bm (formatCells2 v) ≤ 6) : nearFormat v bm = some (lv, k) := by
  have e1 := bitDist_bitsAt a bm formatCells1
  have e2 := bitDist_bitsAt a bm (formatCells2 v)
  rw [h1] at e1; rw [h2] at e2
  have l1 : (bitsAt bm formatCells1).length = 15 := by rw [bitsAt_length]; rfl
  have l2 : (bitsAt bm (formatCells2 v)).length = 15 := by rw [bitsAt_length]; rfl
  refine find_unique (mem_formats lv hk) ?_ ?_
  · rw [decide_eq_true_eq]; simp only; omega
  · intro g hg hp
    rw [decide_eq_true_eq] at hp
    by_contra hne
    have hd := formats_apart g hg (lv, k) (mem_formats lv hk) hne
    have t1 := bitDist_triangle (numBits 15 (formatWord g.1 g.2)) (bitsAt bm formatCells1) (numBits 15 (formatWord lv k))
      (by rw [numBits_length, l1]) (by rw [numBits_length, l1])
    have t2 := bitDist_triangle (numBits 15 (formatWord g.1 g.2)) (bitsAt bm (formatCells2 v)) (numBits 15 (formatWord lv k))
      (by rw [numBits_length, l2]) (by rw [numBits_length, l2])
    rw [bitDist_comm (bitsAt bm formatCells1)] at t1
    rw [bitDist_comm (bitsAt bm (formatCells2 v))] at t2
    simp only at hd
    omega

theorem toCodewords_getD : ∀ (n i : Nat) (bs : List Bool), (toCodewords n bs).getD i 0 = if i < n then bitsToNat ((bs.drop (8 * i)).take 8) else 0
  | 0, i, bs => by simp [toCodewords]
  | n + 1, 0, bs => by simp [toCodewords]
  | n + 1, i + 1, bs => by
    rw [toCodewords, List.getD_cons_succ, toCodewords_getD n i, List.drop_drop]
    rw [show 8 + 8 * i = 8 * (i + 1) by omega]
    simp only [Nat.add_lt_add_iff_right]

theorem readStream_codeword (bm : List (List Bool)) (v k i : Nat) :
    ((readStream bm v k).drop (8 * i)).take 8 = (codewordCells v i).map fun p => pixel bm p.1 p.2 ^^ maskBit k p.1 p.2 := by
  unfold readStream codewordCells
  rw [← List.map_drop, ← List.map_take]

/-- A codeword without wrong modules is read correctly. -/
theorem codeword_same {a bm : List (List Bool)} {v i : Nat} (k n : Nat) (h : wrongAt a bm (codewordCells v i) = 0) :
    (toCodewords n (readStream a v k)).getD i 0 = (toCodewords n (readStream bm v k)).getD i 0 := by
  rw [toCodewords_getD, toCodewords_getD, readStream_codeword, readStream_codeword]
  have : ((codewordCells v i).map fun p => pixel a p.1 p.2 ^^ maskBit k p.1 p.2) =
      (codewordCells v i).map fun p => pixel bm p.1 p.2 ^^ maskBit k p.1 p.2 := by
    apply List.map_congr_left
    intro p hp
    have := (List.countP_eq_zero.1 h) p hp
    simp only [bne_iff_ne, ne_eq, Decidable.not_not] at this
    rw [this]
  rw [this]

theorem hamming_map {α : Type} (f g : α → GF) : ∀ l : List α, hamming (l.map f) (l.map g) = l.countP fun x => decide (f x ≠ g x) := by
  intro l
  unfold hamming
  induction l with
  | nil => rfl
  | cons x l ih => simp only [List.map_cons, List.zip_cons_cons, List.countP_cons, ih]

theorem blockBytes_indices (v lv) (cw : List Nat) (b : Nat) :
    blockBytes v lv cw b = (blockIndices v lv b).map fun i => GF.ofNat' (cw.getD i 0) := by
  unfold blockBytes blockIndices dataBlock ecBlock
  simp only [List.map_append, List.map_map]
  rfl

theorem mapM_some {α β : Type} (f : α → Option β) (g : α → β) : ∀ l : List α, (∀ x ∈ l, f x = some (g x)) → l.mapM f = some (l.map g) := by
  intro l
  induction l with
  | nil => intro _; rfl
  | cons x l ih =>
    intro h
    rw [List.mapM_cons, h x (by simp), ih (fun y hy => h y (by simp [hy]))]
    rfl

theorem correct_eq {n : Nat} {r c : List GF} (hl : r.length ≤ 255) (h : Corrects n r c) : correct n r = some c := by
  unfold correct
  have hex : ∃ c, Corrects n r c := ⟨_, h⟩
  rw [dif_pos hex]
  obtain ⟨g1, g2, g3⟩ := hex.choose_spec
  refine congrArg some (unique_correction g1 h.1 hl g2 h.2.1 ?_ ?_)
  · omega
  · have := h.2.2; omega

theorem take_block (v lv) {cw : List Nat} (hlt : ∀ x ∈ cw, x < 256) (b : Nat) :
    ((blockBytes v lv cw b).take (blockLen v lv b)).map GF.val = dataBlock v lv cw b := by
  have hd := dataBlock_lt v lv hlt b
  have hl : ((dataBlock v lv cw b).map GF.ofNat').length = blockLen v lv b := by simp [dataBlock]
  unfold blockBytes
  rw [List.map_append, List.take_left' hl, List.map_map]
  generalize dataBlock v lv cw b = D at hd
  conv => rhs; rw [← List.map_id D]
  apply List.map_congr_left
  intro x hx
  exact Nat.mod_eq_of_lt (hd x hx)

/-- The correcting reader reads what a reader reads in the undamaged symbol. -/
theorem damaged_decode {unsjis : Nat → Option Nat} {v k : Nat} {lv : Level} {stream : List Bool} {a bm : List (List Bool)}
    (hs : IsSymbol v lv k stream a)
    (hcode : ∀ b < numBlocks v lv, IsCodeword (ecPerBlock v lv) (blockBytes v lv (codewordsOf a v k) b))
    (hread : readFormat a = some (lv, k))
    (hlen : bm.length = a.length)
    (hfmt : wrongAt a bm formatCells1 + wrongAt a bm (formatCells2 v) ≤ 6)
    (hcw : ∀ b < numBlocks v lv, wrongCodewords v lv a bm b ≤ ecPerBlock v lv / 2) :
    decodeDamaged unsjis bm = decode unsjis a := by
  have h1 := hs.version.1
  have h40 := hs.version.2
  have hv : ∀ c : List (List Bool), c.length = side v → readVersion c = some v := by
    intro c hc
    have hn : side v = 17 + 4 * v := rfl
    unfold readVersion
    simp only [hc]
    rw [if_pos (by omega), show (side v - 17) / 4 = v by omega]
  have hnear := nearFormat_eq hs.mask hs.format1 hs.format2 hfmt
  have hblocks : ∀ b < numBlocks v lv, correctedBlock v lv (codewordsOf bm v k) b = some (dataBlock v lv (codewordsOf a v k) b) := by
    intro b hb
    have hham : hamming (blockBytes v lv (codewordsOf a v k) b) (blockBytes v lv (codewordsOf bm v k) b) ≤ ecPerBlock v lv / 2 := by
      rw [blockBytes_indices, blockBytes_indices, hamming_map]
      refine Nat.le_trans (List.countP_mono_left ?_) (hcw b hb)
      intro i _ hi
      rw [decide_eq_true_eq] at hi ⊢
      intro h0
      apply hi
      unfold codewordsOf
      rw [codeword_same k (totalCodewords v) h0]
    have hcor : Corrects (ecPerBlock v lv) (blockBytes v lv (codewordsOf bm v k) b) (blockBytes v lv (codewordsOf a v k) b) :=
      ⟨by rw [blockBytes_length, blockBytes_length], hcode b hb, hham⟩
    have hc := correct_eq (by rw [blockBytes_length]; exact block_short h1 h40 lv b) hcor
    unfold correctedBlock
    rw [← blockBytes_indices, hc, Option.map_some]
    exact congrArg some (take_block v lv (toCodewords_lt _ _) b)
  unfold codewordsOf at hblocks
  unfold decodeDamaged decode
  rw [hv bm (hlen.trans hs.rows), hv a hs.rows]
  simp only [Option.bind_eq_bind, Option.bind_some, hnear, hread]
  rw [mapM_some _ (dataBlock v lv (toCodewords (totalCodewords v) (readStream a v k))) _ (fun b hb => hblocks b (List.mem_range.1 hb))]
  simp only [Option.bind_some]
  have e : ((List.range (numBlocks v lv)).map (dataBlock v lv (toCodewords (totalCodewords v) (readStream a v k)))).flatten =
      deinterleave v lv (toCodewords (totalCodewords v) (readStream a v k)) := by
    unfold deinterleave
    rw [List.flatMap_def]
    rfl
  rw [e]

end QR
