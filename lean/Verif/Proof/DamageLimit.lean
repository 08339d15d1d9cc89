import Verif.Proof.BlockIndices
import Verif.Proof.Count
import Verif.Proof.Arrange
/-!
# The limit of the correcting reader
-/
namespace QR
open Spec

theorem bitsToNat_inj {a b : List Bool} (h : a.length = b.length) (hn : bitsToNat a = bitsToNat b) : a = b := by
  induction a generalizing b with
  | nil => cases b with
    | nil => rfl
    | cons _ _ => simp at h
  | cons x a ih =>
    cases b with
    | nil => simp at h
    | cons y b =>
      have hl : a.length = b.length := by simpa using h
      rw [bitsToNat_cons, bitsToNat_cons, hl] at hn
      have h1 := bitsToNat_lt a
      have h2 := bitsToNat_lt b
      rw [hl] at h1
      generalize 2 ^ b.length = P at *
      cases x <;> cases y <;> simp only [Bool.toNat_true, Bool.toNat_false, Nat.one_mul, Nat.zero_mul] at hn
      · rw [ih hl (by omega)]
      · omega
      · omega
      · rw [ih hl (by omega)]

/-- A codeword with a wrong module is read wrongly. -/
theorem codeword_differs {a bm : List (List Bool)} {v i n : Nat} (k : Nat) (hi : i < n) (h : wrongAt a bm (codewordCells v i) ≠ 0) :
    (toCodewords n (readStream a v k)).getD i 0 ≠ (toCodewords n (readStream bm v k)).getD i 0 := by
  rw [toCodewords_getD, toCodewords_getD, if_pos hi, if_pos hi, readStream_codeword, readStream_codeword]
  intro he
  have he := bitsToNat_inj (by simp) he
  apply h
  unfold wrongAt
  rw [List.countP_eq_zero]
  intro p hp
  have := List.map_eq_map_iff.1 he p hp
  simpa using this

theorem ofNat_ne {x y : Nat} (hx : x < 256) (hy : y < 256) (h : x ≠ y) : GF.ofNat' x ≠ GF.ofNat' y := by
  intro he
  have := congrArg GF.val he
  unfold GF.ofNat' at this
  simp only [Nat.mod_eq_of_lt hx, Nat.mod_eq_of_lt hy] at this
  exact h this

/-- The distance of what is read from what was written is the number of codewords with wrong modules. -/
theorem hamming_wrong {v : Nat} (h1 : 1 ≤ v) (h40 : v ≤ 40) (lv : Level) {b : Nat} (hb : b < numBlocks v lv) (k : Nat) (a bm : List (List Bool)) :
    hamming (blockBytes v lv (codewordsOf a v k) b) (blockBytes v lv (codewordsOf bm v k) b) = wrongCodewords v lv a bm b := by
  rw [blockBytes_indices, blockBytes_indices, hamming_map]
  unfold wrongCodewords
  refine List.countP_congr fun i hi => ?_
  rw [decide_eq_true_eq, decide_eq_true_eq]
  have hlt := (blockIndices_mem h1 h40 lv hb hi).2
  constructor
  · intro hne h0
    apply hne
    unfold codewordsOf
    rw [codeword_same k (totalCodewords v) h0]
  · intro hne
    refine ofNat_ne (getD_lt (toCodewords_lt _ _) i) (getD_lt (toCodewords_lt _ _) i) (codeword_differs k hlt hne)

theorem mapM_none {α β : Type} (f : α → Option β) : ∀ {l : List α} {x : α}, x ∈ l → f x = none → l.mapM f = none := by
  intro l
  induction l with
  | nil => intro x hx; cases hx
  | cons y l ih =>
    intro x hx h
    rw [List.mapM_cons]
    rcases List.mem_cons.1 hx with rfl | hx
    · rw [h]; rfl
    · rw [ih hx h]
      cases f y <;> rfl

/-- With one codeword too many wrong the reader gives up, if the number of error correction codewords is odd. -/
theorem damaged_none {unsjis : Nat → Option Nat} {v k : Nat} {lv : Level} {stream : List Bool} {a bm : List (List Bool)}
    (hs : IsSymbol v lv k stream a)
    (hcode : ∀ b < numBlocks v lv, IsCodeword (ecPerBlock v lv) (blockBytes v lv (codewordsOf a v k) b))
    (hlen : bm.length = a.length)
    (hfmt : wrongAt a bm formatCells1 + wrongAt a bm (formatCells2 v) ≤ 6)
    {b : Nat} (hb : b < numBlocks v lv) (hlo : ecPerBlock v lv / 2 < wrongCodewords v lv a bm b)
    (hhi : wrongCodewords v lv a bm b + ecPerBlock v lv / 2 ≤ ecPerBlock v lv) :
    decodeDamaged unsjis bm = none := by
  have h1 := hs.version.1
  have h40 := hs.version.2
  have hv : readVersion bm = some v := by
    have hc := hlen.trans hs.rows
    have hn : side v = 17 + 4 * v := rfl
    unfold readVersion
    simp only [hc]
    rw [if_pos (by omega), show (side v - 17) / 4 = v by omega]
  have hnear := nearFormat_eq hs.mask hs.format1 hs.format2 hfmt
  have hnone : correctedBlock v lv (codewordsOf bm v k) b = none := by
    unfold correctedBlock
    rw [← blockBytes_indices, Option.map_eq_none_iff]
    unfold correct
    rw [dif_neg]
    rintro ⟨c, c1, c2, c3⟩
    have hl := block_short h1 h40 lv b
    have l1 := blockBytes_length v lv (codewordsOf a v k) b
    have l2 := blockBytes_length v lv (codewordsOf bm v k) b
    have hh := hamming_wrong h1 h40 lv hb k a bm
    by_cases hne : c = blockBytes v lv (codewordsOf a v k) b
    · rw [hne] at c3; omega
    · have d := codeword_distance (by omega) (by omega) c2 (hcode b hb) hne
      have t := hamming_triangle c (blockBytes v lv (codewordsOf bm v k) b) (blockBytes v lv (codewordsOf a v k) b) c1 (by omega)
      rw [hamming_comm (blockBytes v lv (codewordsOf bm v k) b)] at t
      omega
  unfold codewordsOf at hnone
  unfold decodeDamaged
  rw [hv]
  simp only [Option.bind_eq_bind, Option.bind_some, hnear]
  rw [mapM_none _ (List.mem_range.2 hb) hnone]
  rfl

end QR
