import Verif.Proof.TurnSmall
import Verif.Props.Symbol
import Verif.Props.Text
/-!
# C101: symbols are read in any direction, and in the mirror

`Spec/Turn.lean` has the turned and mirrored pictures, the test for "right way up" and the reader `decodeAnyWay`, which is
not told how the picture is turned.
-/
namespace QR
open Spec

section
variable {E : Ext} {unsjis : Nat → Option Nat} (hE : E.Ok unsjis) {c : AlignCache} (hc : CacheReachable c)
  {arrival : List Nat} (ha : Arrival arrival) {t : TextType} {text : Bytes} {opts : List EncodeOption} {q : QRCode}
include hE hc ha

theorem corner_of (h : newWith E c arrival t text opts = .ok q) : ∃ v k stream, q.dimension = side v ∧
    IsSymbol v (levelIn opts) k stream q.mat.bitmap ∧ finderAt q.mat.bitmap (side v - 7) (side v - 7) = false := by
  obtain ⟨m, v, k, p, bs, hm, hv, hp, hf, hb⟩ := ok_facts hE hc ha h
  have hs := isSymbol_of hE.rs hb
  rw [level_applied] at hs
  have hl := hb.len
  rw [level_applied] at hl
  have hst := isStream_of hE.rs hb.v1 hb.v40 (levelIn opts) hl
  refine ⟨v, k, _, hb.dimension, hs, ?_⟩
  by_cases h2 : 2 ≤ v
  · exact symbol_lower_right hs h2
  · have hv1 : v = 1 := by have := hb.v1; omega
    subst hv1
    refine Bool.eq_false_iff.2 fun hx => ?_
    have e1 := corner_stream (k := k) hx
    rw [hs.data] at e1
    refine no_corner_bits hb.mask hf ?_ ((small_stream hst).trans e1)
    rcases hp with ⟨_, h2, _⟩ | ⟨_, h2, h3⟩
    · exact Or.inl h2
    · exact Or.inr ⟨h2, h3⟩

/-- **C101.** No symbol has a fourth finder pattern: the lower right corner never shows one, whatever the text. -/
theorem C101_three_finders (h : newWith E c arrival t text opts = .ok q) :
    finderAt q.mat.bitmap 0 0 = true ∧ finderAt q.mat.bitmap 0 (q.dimension - 7) = true ∧
    finderAt q.mat.bitmap (q.dimension - 7) 0 = true ∧
    finderAt q.mat.bitmap (q.dimension - 7) (q.dimension - 7) = false := by
  obtain ⟨v, k, st, hd, hs, hf⟩ := corner_of hE hc ha h
  have hu := symbol_upright hs
  simp only [upright, Bool.and_eq_true, hs.rows] at hu
  rw [hd]
  exact ⟨hu.1.1.1, hu.1.1.2, hu.1.2, hf⟩

/-- **C101.** However often a symbol is turned and mirrored, the eight views of the picture are different, and exactly one of
them is right way up: the symbol that was returned. -/
theorem C101_one_way_up (h : newWith E c arrival t text opts = .ok q) {s : List (List Bool)} (hs : Seen q.mat.bitmap s) :
    (views s).Nodup ∧ q.mat.bitmap ∈ views s ∧ ∀ x ∈ views s, (upright x = true ↔ x = q.mat.bitmap) := by
  obtain ⟨v, k, st, _, hq, hf⟩ := corner_of hE hc ha h
  refine ⟨views_nodup hq hf hs, ?_, ?_⟩
  · obtain ⟨g, rfl⟩ := seen_view hq.rows hq.cols hs
    exact mem_views_view hq.rows hq.cols
  · obtain ⟨g, rfl⟩ := seen_view hq.rows hq.cols hs
    intro x hx
    rw [views_view, List.mem_map] at hx
    obtain ⟨g', _, rfl⟩ := hx
    constructor
    · intro hu; rw [symbol_only hq hf hu, view_id hq.rows hq.cols]
    · intro e; rw [e]; exact symbol_upright hq

/-- **C101.** A reader that is not told how the picture was turned or mirrored recovers exactly the text (with the exception
of C01). -/
theorem C101_any_way (h : newWith E c arrival t text opts = .ok q)
    (hx : ¬ (modeIn opts = encAuto ∧ AlnumThenKanji E.sjis (nats text))) {s : List (List Bool)} (hs : Seen q.mat.bitmap s) :
    decodeAnyWay unsjis s = some (nats text) := by
  obtain ⟨v, k, st, _, hq, hf⟩ := corner_of hE hc ha h
  unfold decodeAnyWay
  rw [find_view hq hf hs]
  exact C01_roundtrip_partial hE hc ha h hx

end

/-- **C101.** Symbols of two calls that look the same after turning and mirroring are the same and carry the same text. -/
theorem C101_same_view {E : Ext} {unsjis : Nat → Option Nat} (hE : E.Ok unsjis) {c c' : AlignCache} (hc : CacheReachable c)
    (hc' : CacheReachable c') {arrival arrival' : List Nat} (ha : Arrival arrival) (ha' : Arrival arrival') {t t' : TextType}
    {text text' : Bytes} {opts opts' : List EncodeOption} {q q' : QRCode}
    (h : newWith E c arrival t text opts = .ok q) (h' : newWith E c' arrival' t' text' opts' = .ok q')
    {s : List (List Bool)} (hs : Seen q.mat.bitmap s) (hs' : Seen q'.mat.bitmap s) :
    q.mat.bitmap = q'.mat.bitmap ∧
    (¬ (modeIn opts = encAuto ∧ AlnumThenKanji E.sjis (nats text)) →
      ¬ (modeIn opts' = encAuto ∧ AlnumThenKanji E.sjis (nats text')) → nats text = nats text') := by
  obtain ⟨_, h1, h2⟩ := C101_one_way_up hE hc ha h hs
  obtain ⟨_, _, h4⟩ := C101_one_way_up hE hc' ha' h' hs'
  refine ⟨(h4 _ h1).1 ((h2 _ h1).2 rfl), fun hx hx' => ?_⟩
  have e1 := C101_any_way hE hc ha h hx hs
  rw [C101_any_way hE hc' ha' h' hx' hs'] at e1
  exact (Option.some.inj e1).symm

end QR
