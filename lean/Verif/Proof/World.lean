import Verif.Proof.Repertoire
import Verif.Proof.ReedSolomon
import Verif.Spec.Symbol
/-!
# Calls of `NewWith`: the shape of every result
-/
namespace QR
open Spec QR.Matrix

/-- The alignment cache as the program can find it: filled at start-up (version.go:365 `init`), then changed only by
lookups of version numbers 0..40 (qrcode.go:376). -/
inductive CacheReachable : AlignCache → Prop
  | start {c} : initialCache = .ok c → CacheReachable c
  | lookup {c c' v locs} : CacheReachable c → v ≤ 40 → loadAlignmentPatternLocV2 c v = .ok (locs, c') → CacheReachable c'

theorem CacheReachable.ok {c : AlignCache} (h : CacheReachable c) : CacheOk c := by
  induction h with
  | start h =>
    obtain ⟨c, h1, h2, _⟩ := initialCache_ok
    rw [h1] at h; cases h; exact h2
  | lookup _ hv h ih =>
    obtain ⟨c', h1, h2⟩ := loadAlign_ok ih hv
    rw [h1] at h; cases h; exact h2

/-! ## Modes outside the supported set never give a code -/

theorem newEncoder_unsupported {mode : Nat} (h : ∀ m, mode ≠ modeNum m) : newEncoder mode = .panic .unsupportedMode := by
  unfold newEncoder
  have h1 := h .numeric
  have h2 := h .alnum
  have h3 := h .kanji
  have h4 := h .byte
  simp only [modeNum] at h1 h2 h3 h4
  simp [h1, h2, h3, h4]

theorem validate_unsupported {E : Ext} {mode : Nat} (h : ∀ m, mode ≠ modeNum m) (raw : Bytes) :
    validateEncodingMode E mode raw = none := by
  have h1 := h .numeric
  have h2 := h .alnum
  have h3 := h .kanji
  simp only [modeNum] at h1 h2 h3
  unfold validateEncodingMode
  simp [h1, h2, h3]

theorem init_supported {E : Ext} {c : AlignCache} {raw : Bytes} {opt : EncodingOption} {q : QRCode}
    (h : init E c raw opt = .ok q) : Supported opt.encMode := by
  by_cases h0 : opt.encMode = encAuto
  · exact Or.inl h0
  · by_cases hs : ∃ m, opt.encMode = modeNum m
    · exact Or.inr hs
    · exfalso
      have hs' : ∀ m, opt.encMode ≠ modeNum m := fun m hm => hs ⟨m, hm⟩
      unfold init at h
      have hc : chooseMode E raw opt = .ok opt.encMode := by
        unfold chooseMode
        rw [if_neg h0, validate_unsupported hs']
      rw [hc, Res.bind_ok] at h
      simp only at h
      cases hv : calcVersionNumber raw { opt with encMode := opt.encMode } with
      | err e => simp only [hv, Res.bind_err] at h; cases h
      | panic p => simp only [hv, Res.bind_panic] at h; cases h
      | ok n =>
        simp only [hv, Res.bind_ok] at h
        cases hl : loadVersion n opt.ecLevel with
        | err e => simp only [hl, Res.bind_err] at h; cases h
        | panic p => simp only [hl, Res.bind_panic] at h; cases h
        | ok V =>
          simp only [hl, Res.bind_ok, newEncoder_unsupported hs', Res.bind_panic] at h
          cases h

theorem newWith_ok {E : Ext} {c : AlignCache} {arrival : List Nat} {t : TextType} {text : Bytes} {opts : List EncodeOption} {q : QRCode}
    (h : newWith E c arrival t text opts = .ok q) :
    t ≠ .defined ∧ Supported (applyOptions opts).encMode ∧ build E c arrival text (applyOptions opts) = .ok q := by
  unfold newWith at h
  cases t with
  | defined => simp [toBytes] at h
  | string | bytes =>
    simp only [toBytes, Res.bind_ok] at h
    refine ⟨by simp, ?_, h⟩
    unfold build at h
    cases hi : init E c text (applyOptions opts) with
    | ok q' => exact init_supported hi
    | err e => rw [hi] at h; simp at h
    | panic p => rw [hi] at h; simp at h

theorem newWith_eq (E : Ext) (c : AlignCache) (arrival : List Nat) {t : TextType} (ht : t ≠ .defined) (text : Bytes) (opts : List EncodeOption) :
    newWith E c arrival t text opts = build E c arrival text (applyOptions opts) := by
  cases t
  · rfl
  · rfl
  · exact absurd rfl ht

/-! ## The symbol -/

theorem isSymbol_of {E : Ext} {v ec k : Nat} {bs : Bits} {raw : Bytes} {q : QRCode} (hE : E.Systematic)
    (h : Built E v ec k bs raw q) : IsSymbol v (levelOf ec) k (finalStream E v (levelOf ec) bs) q.mat.bitmap := by
  have s := h.sym.sq
  have hr := h.read hE
  have cell : ∀ (cells : List (Nat × Nat)) (bits : Bits), (∀ p ∈ cells, p.1 < side v ∧ p.2 < side v) →
      (cells.map fun p => (q.mat.at' (p.2 : Int) (p.1 : Int)).bit) = bits →
      (cells.map fun p => pixel q.mat.bitmap p.1 p.2) = bits := by
    intro cells bits hc e
    rw [← e]
    apply List.map_congr_left
    intro p hp
    rw [bitmap_at s (hc p hp).1 (hc p hp).2]
  constructor
  · exact ⟨h.v1, h.v40⟩
  · exact h.mask
  · exact bitmap_length s
  · have := (bitmap_spec q.mat).1.2
    rw [s.w] at this; exact this
  · intro i j c hi hj hc
    rw [bitmap_at s hi hj]
    exact h.sym.pattern i j c hi hj hc
  · rw [numBits_eq]
    exact cell _ _ (fun p hp => ⟨(formatCells1_area h.v1 (i := p.1) (j := p.2) hp).1, (formatCells1_area h.v1 (i := p.1) (j := p.2) hp).2.1⟩) h.sym.fmt1
  · rw [numBits_eq]
    exact cell _ _ (fun p hp => ⟨(formatCells2_area h.v1 (i := p.1) (j := p.2) hp).1, (formatCells2_area h.v1 (i := p.1) (j := p.2) hp).2.1⟩) h.sym.fmt2
  · intro h7
    rw [numBits_eq]
    exact cell _ _ (fun p hp => ⟨(versionCells1_area h7 (i := p.1) (j := p.2) hp).1, (versionCells1_area h7 (i := p.1) (j := p.2) hp).2.1⟩) (h.sym.ver1 h7)
  · intro h7
    rw [numBits_eq]
    exact cell _ _ (fun p hp => ⟨(versionCells2_area h7 (i := p.1) (j := p.2) hp).1, (versionCells2_area h7 (i := p.1) (j := p.2) hp).2.1⟩) (h.sym.ver2 h7)
  · exact hr.2.2.1

/-- Dimension of a built code. -/
theorem Built.dimension {E : Ext} {v ec k : Nat} {bs : Bits} {raw : Bytes} {q : QRCode} (h : Built E v ec k bs raw q) :
    q.dimension = side v := h.sym.sq.w

/-! ## A concrete world -/

/-- A small Shift-JIS table: ASCII, 漢 (8ABF) and 字 (8E9A). -/
def demoSjis (r : Nat) : Option Bytes :=
  if r < 128 then some [UInt8.ofNat r]
  else if r = 0x6F22 then some [0x8A, 0xBF]
  else if r = 0x5B57 then some [0x8E, 0x9A]
  else none

def demoUnsjis (c : Nat) : Option Nat :=
  if c = 0x8ABF then some 0x6F22 else if c = 0x8E9A then some 0x5B57 else none

/-- The standard's Reed-Solomon coder and the small table. -/
def demoExt : Ext := ⟨rsEncode, demoSjis⟩

theorem rsEncode_systematic (sj) : Ext.Systematic ⟨rsEncode, sj⟩ := by
  intro d n _
  refine ⟨_, rfl, ?_⟩
  have h8 : ∀ l : List GF, (l.flatMap (fun c => byteToBits c.val)).length = 8 * l.length := by
    intro l
    induction l with
    | nil => rfl
    | cons a l ih => rw [List.flatMap_cons, List.length_append, ih, List.length_cons]; simp [byteToBits]; omega
  rw [h8]
  by_cases hn : n = 0
  · subst hn
    have : ∀ l r, r = [] → List.foldl (rsStep (genPoly 0)) r l = [] := by
      intro l
      induction l with
      | nil => intro r h; exact h
      | cons a l ih => intro r h; subst h; exact ih _ (by simp [rsStep, genPoly])
    unfold rsParity
    rw [this _ _ (by simp)]
    rfl
  · rw [rsParity_length _ _ (by omega)]

theorem demo_ok : demoExt.Ok demoUnsjis := by
  refine ⟨rsEncode_systematic _, ⟨?_, ?_, ?_⟩, ?_⟩
  · intro r hi lo hc h
    rw [isCJK_iff] at hc
    unfold isIdeograph at hc
    simp only [demoExt, demoSjis] at h
    rw [if_neg (by omega)] at h
    split at h
    · cases h; decide
    · split at h
      · cases h; decide
      · cases h
  · intro r hi lo hc h
    rw [isCJK_iff] at hc
    unfold isIdeograph at hc
    simp only [demoExt, demoSjis] at h
    rw [if_neg (by omega)] at h
    split at h
    · cases h; decide
    · split at h
      · cases h; decide
      · cases h
  · intro r hi lo hc h
    rw [isCJK_iff] at hc
    unfold isIdeograph at hc
    simp only [demoExt, demoSjis] at h
    rw [if_neg (by omega)] at h
    split at h
    · rename_i e; cases h; rw [e]; decide
    · split at h
      · rename_i e; cases h; rw [e]; decide
      · cases h
  · intro r h
    have := alnum_lt h
    simp [demoExt, demoSjis, this]

/-- The order in which the goroutines were started. -/
def inOrder : List Nat := List.range 8

theorem inOrder_arrival : Arrival inOrder := List.Perm.refl _

end QR
