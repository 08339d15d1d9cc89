import Verif.Proof.World
import Verif.Spec.Distance
/-!
# C24, C25: the version table, format words and version words
-/
namespace QR
open Spec QR.Matrix

/-! ## C24 -/

/-- The table has exactly one entry for each version 1..40 and level, in order, and looking a pair up gives that
entry. -/
theorem C24_entries : versions.length = 160 ∧ ∀ v ec : Nat, 1 ≤ v → v ≤ 40 → 1 ≤ ec → ec ≤ 4 →
    ∃ V, versions[4 * (v - 1) + (ec - 1)]? = some V ∧ loadVersion v ec = .ok V ∧ V.ver = v ∧ V.ecLevel = ec := by
  refine ⟨versions_length, fun v ec h1 h2 h3 h4 => ?_⟩
  obtain ⟨V, hV, hr⟩ := table_row h1 h2 h3 h4
  obtain ⟨W, hW, hw⟩ := loadVersion_ok h1 h2 h3 h4
  have : loadVersion v ec = .ok V := by
    unfold loadVersion
    rw [show ((v : Int) - 1) * 4 = (((v - 1) * 4 : Nat) : Int) by omega]
    refine loadVersionLoop_hit ec (ec - 1) 4 ((v - 1) * 4) (by omega) ?_ V hV hr.level
    intro t ht
    obtain ⟨W, hW, hw⟩ := table_row (ec := t + 1) h1 h2 (by omega) (by omega)
    exact ⟨W, by simpa using hW, by rw [hw.level]; omega⟩
  exact ⟨V, by rw [Nat.mul_comm]; exact hV, this, hr.ver, hr.level⟩

theorem table_loaded {v ec : Nat} {V : Version} (h1 : 1 ≤ v) (h2 : v ≤ 40) (h3 : 1 ≤ ec) (h4 : ec ≤ 4)
    (h : loadVersion v ec = .ok V) : RowOk v ec V := by
  obtain ⟨W, hW, hw⟩ := loadVersion_ok h1 h2 h3 h4
  rw [hW] at h
  cases h
  exact hw

/-- Block structure and remainder bits: with `C` the number of modules that are not part of a function pattern
divided by eight, the blocks in the entry are the `numBlocks` blocks of the standard, in one group if all have the same length, otherwise in two: their lengths (data plus
error correction) add up to `C`, differ by at most one, shorter ones first, each with the error correction
codewords of the standard's table; the remainder is what is left of the division by eight. -/
theorem C24_blocks {v ec : Nat} {V : Version} (h1 : 1 ≤ v) (h2 : v ≤ 40) (h3 : 1 ≤ ec) (h4 : ec ≤ 4)
    (h : loadVersion v ec = .ok V) :
    blockList V.groups = (List.range (numBlocks v (levelOf ec))).map
      (fun b => (blockLen v (levelOf ec) b, ecPerBlock v (levelOf ec))) ∧
    (((blockList V.groups).map fun p => p.1 + p.2).sum = (dataModules v).length / 8) ∧
    V.numTotalCodewords = ((blockList V.groups).map Prod.fst).sum ∧
    V.totalNumBlocks = numBlocks v (levelOf ec) ∧
    V.numGroups = (if numShort v (levelOf ec) = numBlocks v (levelOf ec) then 1 else 2) ∧
    V.remainderBits = (dataModules v).length % 8 ∧
    V.dimension = side v := by
  have hr := table_loaded h1 h2 h3 h4 h
  rw [dataModules_length h1 h2]
  have tot : ∀ v ∈ (List.range 40).map (· + 1), ∀ ec ∈ [1, 2, 3, 4],
      (((List.range (numBlocks v (levelOf ec))).map
        (fun b => blockLen v (levelOf ec) b + ecPerBlock v (levelOf ec))).sum = rawModules v / 8) ∧
      (((List.range (numBlocks v (levelOf ec))).map (blockLen v (levelOf ec))).sum = dataCodewords v (levelOf ec)) := by
    decide +kernel
  have t := tot v (List.mem_map.2 ⟨v - 1, List.mem_range.2 (by omega), by omega⟩) ec (by simp; omega)
  refine ⟨hr.blocks, ?_, ?_, ?_, hr.groups, hr.rem, ?_⟩
  · rw [hr.blocks, List.map_map]; exact t.1
  · rw [hr.blocks, List.map_map, hr.total]; exact t.2.symm
  · rw [totalNumBlocks_eq, hr.blocks, List.length_map, List.length_range]
  · unfold Version.dimension side; rw [hr.ver]; omega

/-- Capacities: in every mode the table's capacity is the exact limit: `n` characters fit (mode indicator,
character count and payload within the data codewords) exactly when `n` is at most the capacity; and the
character count field is wide enough for it. -/
theorem C24_capacities {v ec : Nat} {V : Version} (h1 : 1 ≤ v) (h2 : v ≤ 40) (h3 : 1 ≤ ec) (h4 : ec ≤ 4)
    (h : loadVersion v ec = .ok V) (m : Mode) (n : Nat) :
    (n ≤ capOf V.cap m ↔ fits v (levelOf ec) m n) ∧ capOf V.cap m < 2 ^ countWidth v m :=
  ⟨(table_loaded h1 h2 h3 h4 h).cap_iff m n, (table_loaded h1 h2 h3 h4 h).count m⟩

/-- Alignment positions: the table lists the standard's coordinates, and the positions computed from it are,
without repetition, the centres (x is the column) of the standard's alignment patterns. -/
theorem C24_alignment {v : Nat} (h2 : 2 ≤ v) (h40 : v ≤ 40) :
    alignPatternLocation.lookup v = some (alignCoords v) ∧
    ∃ locs, calcAlignPatternLocs v = .ok locs ∧ locs.Nodup ∧
      ∀ x y : Int, (x, y) ∈ locs ↔ ∃ j i : Nat, x = j ∧ y = i ∧ isAlignCentre v i j = true := by
  have hv := (mem_alignVersions v).2 ⟨h2, h40⟩
  refine ⟨alignTable_eq v hv, alignLocs v, calcAlign_eq h2 h40, ?_, ?_⟩
  · have : ∀ v ∈ alignVersions, (alignLocs v).Nodup := by decide +kernel
    exact this v hv
  · intro x y
    rw [mem_alignLocs hv]
    constructor
    · rintro ⟨a, ha, b, hb, hc, he⟩
      cases he
      exact ⟨a, b, rfl, rfl, hc⟩
    · rintro ⟨j, i, rfl, rfl, hc⟩
      have : j ∈ alignCoords v ∧ i ∈ alignCoords v := by
        unfold isAlignCentre at hc
        simp only [Bool.and_eq_true, List.contains_iff_mem] at hc
        exact ⟨hc.1.1.1.2, hc.1.1.1.1⟩
      exact ⟨j, this.1, i, this.2, hc, rfl⟩

/-- Version 1 has no alignment pattern. -/
theorem C24_alignment_1 : calcAlignPatternLocs 1 = .ok [] ∧ ∀ i j, isAlignCentre 1 i j = false :=
  ⟨rfl, fun i j => by unfold isAlignCentre; simp [alignCoords]⟩

/-- Format words: the word written for an entry and a mask is the BCH encoding of its level and that mask. -/
theorem C24_format_word {v ec k : Nat} {V : Version} (h1 : 1 ≤ v) (h2 : v ≤ 40) (h3 : 1 ≤ ec) (h4 : ec ≤ 4)
    (h : loadVersion v ec = .ok V) (hk : k < 8) :
    formatInfo V k = .ok (numBits 15 (formatWord (levelOf ec) k)) := by
  rw [numBits_eq]
  exact formatInfo_ok (table_loaded h1 h2 h3 h4 h).level h3 h4 hk

/-- Version words: from version 7 on the word is the Golay encoding of the version, below there is none. -/
theorem C24_version_word {v ec : Nat} {V : Version} (h1 : 1 ≤ v) (h2 : v ≤ 40) (h3 : 1 ≤ ec) (h4 : ec ≤ 4)
    (h : loadVersion v ec = .ok V) :
    verInfo V = .ok (if 7 ≤ v then some (numBits 18 (versionWord v)) else none) := by
  have hr := table_loaded h1 h2 h3 h4 h
  by_cases h7 : 7 ≤ v
  · rw [if_pos h7, numBits_eq]
    exact verInfo_ok hr.ver h7 h2
  · rw [if_neg h7]
    unfold verInfo
    rw [hr.ver, if_pos (by omega)]

/-! ## C25 -/

/-- Any two format words with different level or mask differ in at least 7 of 15 bits. -/
theorem C25_format_distance {v ec v' ec' k k' : Nat} {V V' : Version} {w w' : Bits}
    (h1 : 1 ≤ v) (h2 : v ≤ 40) (h3 : 1 ≤ ec) (h4 : ec ≤ 4) (hk : k < 8) (h : loadVersion v ec = .ok V)
    (g1 : 1 ≤ v') (g2 : v' ≤ 40) (g3 : 1 ≤ ec') (g4 : ec' ≤ 4) (gk : k' < 8) (g : loadVersion v' ec' = .ok V')
    (hw : formatInfo V k = .ok w) (gw : formatInfo V' k' = .ok w') (hne : (ec, k) ≠ (ec', k')) :
    7 ≤ bitDist w w' := by
  rw [C24_format_word h1 h2 h3 h4 h hk] at hw
  rw [C24_format_word g1 g2 g3 g4 g gk] at gw
  cases hw; cases gw
  have t : ∀ ec ∈ [1, 2, 3, 4], ∀ ec' ∈ [1, 2, 3, 4], ∀ k ∈ List.range 8, ∀ k' ∈ List.range 8, (ec, k) ≠ (ec', k') →
      7 ≤ bitDist (numBits 15 (formatWord (levelOf ec) k)) (numBits 15 (formatWord (levelOf ec') k')) := by
    decide +kernel
  exact t ec (by simp; omega) ec' (by simp; omega) k (List.mem_range.2 hk) k' (List.mem_range.2 gk) hne

/-- Any two version words of different versions differ in at least 8 of 18 bits. -/
theorem C25_version_distance {v ec v' ec' : Nat} {V V' : Version} {w w' : Bits}
    (h1 : 7 ≤ v) (h2 : v ≤ 40) (h3 : 1 ≤ ec) (h4 : ec ≤ 4) (h : loadVersion v ec = .ok V)
    (g1 : 7 ≤ v') (g2 : v' ≤ 40) (g3 : 1 ≤ ec') (g4 : ec' ≤ 4) (g : loadVersion v' ec' = .ok V')
    (hw : verInfo V = .ok (some w)) (gw : verInfo V' = .ok (some w')) (hne : v ≠ v') :
    8 ≤ bitDist w w' := by
  rw [C24_version_word (by omega) h2 h3 h4 h, if_pos h1] at hw
  rw [C24_version_word (by omega) g2 g3 g4 g, if_pos g1] at gw
  cases hw; cases gw
  have t : ∀ v ∈ (List.range 34).map (· + 7), ∀ v' ∈ (List.range 34).map (· + 7), v ≠ v' →
      8 ≤ bitDist (numBits 18 (versionWord v)) (numBits 18 (versionWord v')) := by
    decide +kernel
  exact t v (List.mem_map.2 ⟨v - 7, List.mem_range.2 (by omega), by omega⟩) v'
    (List.mem_map.2 ⟨v' - 7, List.mem_range.2 (by omega), by omega⟩) hne

theorem formatInfo_length {v ec k : Nat} {V : Version} {w : Bits} (h1 : 1 ≤ v) (h2 : v ≤ 40) (h3 : 1 ≤ ec) (h4 : ec ≤ 4) (hk : k < 8)
    (h : loadVersion v ec = .ok V) (hw : formatInfo V k = .ok w) : w.length = 15 := by
  rw [C24_format_word h1 h2 h3 h4 h hk] at hw
  cases hw
  simp [numBits]

/-- So up to three wrong bits in a format word can be corrected: no word read is within distance 3 of two
different format words. -/
theorem C25_format_correctable {v ec v' ec' k k' : Nat} {V V' : Version} {w w' r : Bits}
    (h1 : 1 ≤ v) (h2 : v ≤ 40) (h3 : 1 ≤ ec) (h4 : ec ≤ 4) (hk : k < 8) (h : loadVersion v ec = .ok V)
    (g1 : 1 ≤ v') (g2 : v' ≤ 40) (g3 : 1 ≤ ec') (g4 : ec' ≤ 4) (gk : k' < 8) (g : loadVersion v' ec' = .ok V')
    (hw : formatInfo V k = .ok w) (gw : formatInfo V' k' = .ok w') (hr : r.length = 15)
    (d : bitDist r w ≤ 3) (d' : bitDist r w' ≤ 3) : ec = ec' ∧ k = k' := by
  have l := formatInfo_length h1 h2 h3 h4 hk h hw
  have l' := formatInfo_length g1 g2 g3 g4 gk g gw
  refine Classical.byContradiction fun hc => ?_
  have := C25_format_distance h1 h2 h3 h4 hk h g1 g2 g3 g4 gk g hw gw (fun he => hc (by simpa using he))
  have t := bitDist_triangle w r w' (by omega) (by omega)
  rw [bitDist_comm w r] at t
  omega

/-- The same for version words. -/
theorem C25_version_correctable {v ec v' ec' : Nat} {V V' : Version} {w w' r : Bits}
    (h1 : 7 ≤ v) (h2 : v ≤ 40) (h3 : 1 ≤ ec) (h4 : ec ≤ 4) (h : loadVersion v ec = .ok V)
    (g1 : 7 ≤ v') (g2 : v' ≤ 40) (g3 : 1 ≤ ec') (g4 : ec' ≤ 4) (g : loadVersion v' ec' = .ok V')
    (hw : verInfo V = .ok (some w)) (gw : verInfo V' = .ok (some w')) (hr : r.length = 18)
    (d : bitDist r w ≤ 3) (d' : bitDist r w' ≤ 3) : v = v' := by
  have len : ∀ {v ec : Nat} {V : Version} {w : Bits}, 7 ≤ v → v ≤ 40 → 1 ≤ ec → ec ≤ 4 → loadVersion v ec = .ok V →
      verInfo V = .ok (some w) → w.length = 18 := by
    intro v ec V w h1 h2 h3 h4 h hw
    rw [C24_version_word (by omega) h2 h3 h4 h, if_pos h1] at hw
    cases hw
    simp [numBits]
  have l := len h1 h2 h3 h4 h hw
  have l' := len g1 g2 g3 g4 g gw
  refine Classical.byContradiction fun hc => ?_
  have := C25_version_distance h1 h2 h3 h4 h g1 g2 g3 g4 g hw gw hc
  have t := bitDist_triangle w r w' (by omega) (by omega)
  rw [bitDist_comm w r] at t
  omega

/-- Concrete entries: version 1-L and version 40-H. -/
theorem demo_tables : (∃ V, loadVersion 1 1 = .ok V ∧ V.cap = ⟨41, 25, 17, 10⟩ ∧ formatInfo V 4 = .ok (numBits 15 0x662f)) ∧
    (∃ V, loadVersion 40 4 = .ok V ∧ V.cap = ⟨3057, 1852, 1273, 784⟩ ∧ verInfo V = .ok (some (numBits 18 0x28c69))) := by
  refine ⟨⟨mkV 1 1 41 25 17 10 0 [(1, 19, 7)], ?_, ?_, ?_⟩, ⟨mkV 40 4 3057 1852 1273 784 0 [(20, 15, 30), (61, 16, 30)], ?_, ?_, ?_⟩⟩ <;>
    decide +kernel

end QR
