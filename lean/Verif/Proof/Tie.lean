import Verif.Proof.World
/-!
# Two masks can tie

Evaluated by the kernel (about a minute): the whole of `NewWith` for the text `19` in two schedules.
-/
namespace QR
set_option maxRecDepth 1000000

/-- Both calls succeed and the bitmaps differ. -/
def differ (r : Res AlignCache) (f g : AlignCache → Res QRCode) : Bool := match r with
  | .ok c => match f c, g c with
    | .ok q, .ok q' => q.mat.bitmap != q'.mat.bitmap
    | _, _ => false
  | _ => false

theorem differ_iff {r : Res AlignCache} {f g : AlignCache → Res QRCode} (h : differ r f g = true) :
    ∃ c q q', r = .ok c ∧ f c = .ok q ∧ g c = .ok q' ∧ q.mat.bitmap ≠ q'.mat.bitmap := by
  unfold differ at h
  split at h
  · rename_i c
    split at h
    · rename_i q q' h1 h2
      exact ⟨c, q, q', rfl, h1, h2, by simpa using h⟩
    · cases h
  · cases h

/-- Two schedules of `New("19")`: masks 0 and 4 tie with the lowest score (254). -/
def tieCheck : Bool := differ initialCache
  (fun c => newWith demoExt c [0, 1, 2, 3, 4, 5, 6, 7] .string [49, 57] [])
  (fun c => newWith demoExt c [4, 0, 1, 2, 3, 5, 6, 7] .string [49, 57] [])

/-- The eight scores of a call. -/
def scoresOf (E : Ext) (c : AlignCache) (text : Bytes) (opts : List EncodeOption) : Option (List Nat) :=
  match init E c text (applyOptions opts) with
  | .ok q0 => match fillDataBinary q0.mat.copy q0.v.dimension q0.dataBSet with
    | some F => match Res.mapM' (maskWorker q0 F) (List.range 8) with
      | .ok l => some (l.map (·.2))
      | _ => none
    | none => none
  | _ => none

/-- The scores computed in the start-up state are `l`. -/
def scoresAre (r : Res AlignCache) (f : AlignCache → Option (List Nat)) (l : List Nat) : Bool := match r with
  | .ok c => f c == some l
  | _ => false

theorem scoresAre_iff {r : Res AlignCache} {f : AlignCache → Option (List Nat)} {l : List Nat} (h : scoresAre r f l = true) :
    ∃ c, r = .ok c ∧ f c = some l := by
  unfold scoresAre at h
  split at h
  · exact ⟨_, rfl, by simpa using h⟩
  · cases h

theorem scores_check : scoresAre initialCache (fun c => scoresOf demoExt c [50, 57] [])
  [239, 257, 298, 276, 291, 276, 241, 290] = true := by decide +kernel

theorem tie_check : tieCheck = true := by decide +kernel

end QR
