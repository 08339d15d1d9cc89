import Verif.Proof.World
/-!
# C10: encode options

The effective options are determined field by field by the last valid option of the kind.
-/
namespace QR
open Spec

/-- The last element of a list, or a default. -/
def lastOr {α : Type} (d : α) (l : List α) : α := l.getLast?.getD d

/-- The modes asked for, in order. -/
def modesIn (opts : List EncodeOption) : List Nat :=
  opts.filterMap fun o => match o with | .withEncodingMode m => some m | _ => none

/-- The valid levels (1 to 4) asked for, in order. -/
def levelsIn (opts : List EncodeOption) : List Int :=
  opts.filterMap fun o => match o with | .withErrorCorrectionLevel l => if 1 ≤ l ∧ l ≤ 4 then some l else none | _ => none

/-- The valid versions (1 to 40) asked for, in order. -/
def versionsIn (opts : List EncodeOption) : List Int :=
  opts.filterMap fun o => match o with | .withVersion v => if 1 ≤ v ∧ v ≤ 40 then some v else none | _ => none

/-- The valid minimum versions (1 to 40) asked for, in order. -/
def minimumsIn (opts : List EncodeOption) : List Int :=
  opts.filterMap fun o => match o with | .withMinimumVersion v => if 1 ≤ v ∧ v ≤ 40 then some v else none | _ => none

theorem lastOr_snoc {α : Type} (d a : α) (l : List α) : lastOr d (l ++ [a]) = a := by simp [lastOr]

theorem getEncModeName_ne (mode : Nat) : getEncModeName mode ≠ "" := by
  unfold getEncModeName
  split
  · decide
  · split
    · decide
    · split
      · decide
      · split
        · decide
        · split
          · decide
          · intro h
            have := congrArg String.toList h
            simp only [String.toList_append] at this
            have h2 := (List.append_eq_nil_iff.1 this).1
            have h3 := (List.append_eq_nil_iff.1 h2).1
            exact absurd h3 (by decide)

/-- **C10.** Field by field, the last valid option wins; invalid versions, minimum versions and levels have no effect. -/
theorem C10_options (opts : List EncodeOption) : applyOptions opts =
    { version := lastOr 0 (versionsIn opts), minimumVersion := lastOr 0 (minimumsIn opts),
      encMode := lastOr encAuto (modesIn opts), ecLevel := lastOr ecQuart (levelsIn opts) } := by
  unfold applyOptions
  induction opts using List.reverseRecOn with
  | nil => rfl
  | append_singleton opts o ih =>
    rw [List.foldl_append, List.foldl_cons, List.foldl_nil, ih]
    simp only [versionsIn, minimumsIn, modesIn, levelsIn, List.filterMap_append]
    cases o with
    | withEncodingMode m =>
      simp only [EncodeOption.apply, List.filterMap_cons, List.filterMap_nil, List.append_nil, lastOr_snoc]
      rw [if_neg (getEncModeName_ne m)]
    | withErrorCorrectionLevel l =>
      simp only [EncodeOption.apply, List.filterMap_cons, List.filterMap_nil, List.append_nil]
      by_cases h : 1 ≤ l ∧ l ≤ 4
      · rw [if_pos h, if_neg (by unfold ecLow ecHighest; omega)]
        simp only [lastOr_snoc]
      · rw [if_neg h, if_pos (by unfold ecLow ecHighest; omega)]
        simp only [List.append_nil]
    | withVersion v =>
      simp only [EncodeOption.apply, List.filterMap_cons, List.filterMap_nil, List.append_nil]
      by_cases h : 1 ≤ v ∧ v ≤ 40
      · rw [if_pos h, if_neg (by omega)]
        simp only [lastOr_snoc]
      · rw [if_neg h, if_pos (by omega)]
        simp only [List.append_nil]
    | withMinimumVersion v =>
      simp only [EncodeOption.apply, List.filterMap_cons, List.filterMap_nil, List.append_nil]
      by_cases h : 1 ≤ v ∧ v ≤ 40
      · rw [if_pos h, if_neg (by omega)]
        simp only [lastOr_snoc]
      · rw [if_neg h, if_pos (by omega)]
        simp only [List.append_nil]

/-- **C10.** Option lists that agree kind by kind (same valid options of each kind, in the same order; options of
different kinds interleaved in any way) give the same result for every text. -/
theorem C10_order_irrelevant (a b : List EncodeOption) (hm : modesIn a = modesIn b) (hl : levelsIn a = levelsIn b)
    (hv : versionsIn a = versionsIn b) (hn : minimumsIn a = minimumsIn b) (E : Ext) (c : AlignCache)
    (arrival : List Nat) (t : TextType) (text : Bytes) :
    newWith E c arrival t text a = newWith E c arrival t text b := by
  unfold newWith
  rw [C10_options a, C10_options b, hm, hl, hv, hn]

/-- Two options of different kinds. -/
def sameKind : EncodeOption → EncodeOption → Bool
  | .withEncodingMode _, .withEncodingMode _ => true
  | .withErrorCorrectionLevel _, .withErrorCorrectionLevel _ => true
  | .withVersion _, .withVersion _ => true
  | .withMinimumVersion _, .withMinimumVersion _ => true
  | _, _ => false

/-- **C10.** Adjacent options of different kinds commute, anywhere in the list. -/
theorem C10_commute (x y : EncodeOption) (h : sameKind x y = false) (a b : List EncodeOption) :
    applyOptions (a ++ x :: y :: b) = applyOptions (a ++ y :: x :: b) := by
  rw [C10_options, C10_options]
  simp only [versionsIn, minimumsIn, modesIn, levelsIn, List.filterMap_append, List.filterMap_cons]
  cases x <;> cases y <;> first | (simp [sameKind] at h; done) | rfl

/-- **C10.** An out-of-range option has no effect, anywhere in the list. -/
theorem C10_invalid_ignored (a b : List EncodeOption) (x : EncodeOption)
    (h : (∃ l, x = .withErrorCorrectionLevel l ∧ ¬ (1 ≤ l ∧ l ≤ 4)) ∨ (∃ v, x = .withVersion v ∧ ¬ (1 ≤ v ∧ v ≤ 40)) ∨
      (∃ v, x = .withMinimumVersion v ∧ ¬ (1 ≤ v ∧ v ≤ 40))) :
    applyOptions (a ++ x :: b) = applyOptions (a ++ b) := by
  rw [C10_options, C10_options]
  simp only [versionsIn, minimumsIn, modesIn, levelsIn, List.filterMap_append, List.filterMap_cons]
  rcases h with ⟨l, rfl, h⟩ | ⟨v, rfl, h⟩ | ⟨v, rfl, h⟩ <;> simp only [if_neg h]

/-- The hypotheses are met, and the option fields are really set: level H, then an invalid version 41, then version 5,
then level L. -/
example : applyOptions [.withErrorCorrectionLevel 4, .withVersion 41, .withVersion 5, .withErrorCorrectionLevel 1] =
    { version := 5, minimumVersion := 0, encMode := encAuto, ecLevel := 1 } := by decide

/-- The mode that takes effect. -/
def modeIn (opts : List EncodeOption) : Nat := lastOr encAuto (modesIn opts)
/-- The level that takes effect. -/
def levelIn (opts : List EncodeOption) : Level := levelOf (lastOr ecQuart (levelsIn opts)).toNat
/-- The explicit version, if any. -/
def versionIn (opts : List EncodeOption) : Option Nat := (versionsIn opts).getLast?.map Int.toNat
/-- The minimum version (0 if none is given). -/
def minimumIn (opts : List EncodeOption) : Nat := (lastOr 0 (minimumsIn opts)).toNat

theorem mode_applied (opts : List EncodeOption) : (applyOptions opts).encMode = modeIn opts := by rw [C10_options]; rfl
theorem level_applied (opts : List EncodeOption) : levelOf (applyOptions opts).ecLevel.toNat = levelIn opts := by rw [C10_options]; rfl

theorem version_applied (opts : List EncodeOption) :
    ((applyOptions opts).version = 0 ∧ versionIn opts = none) ∨
    ∃ v : Nat, 1 ≤ v ∧ v ≤ 40 ∧ (applyOptions opts).version = v ∧ versionIn opts = some v := by
  rw [C10_options]
  simp only [versionIn, lastOr]
  cases h : (versionsIn opts).getLast? with
  | none => left; exact ⟨rfl, rfl⟩
  | some v =>
    right
    have hv := List.mem_of_getLast? h
    simp only [versionsIn, List.mem_filterMap] at hv
    obtain ⟨o, _, ho⟩ := hv
    cases o with
    | withVersion w =>
      simp only at ho
      split at ho
      · rename_i hw
        cases ho
        exact ⟨v.toNat, by omega, by omega, by simp; omega, rfl⟩
      · cases ho
    | withEncodingMode m => simp at ho
    | withErrorCorrectionLevel m => simp at ho
    | withMinimumVersion m => simp at ho

theorem minimum_applied (opts : List EncodeOption) :
    (applyOptions opts).minimumVersion = minimumIn opts ∧ minimumIn opts ≤ 40 := by
  have := (optOk_applyOptions opts).minimum
  rw [C10_options] at *
  simp only [minimumIn] at *
  omega

end QR
