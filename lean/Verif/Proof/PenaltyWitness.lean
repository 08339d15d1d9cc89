import Verif.Proof.Tie
import Verif.Proof.World
import Verif.Spec.Penalty
/-!
# A symbol on which three penalty rules differ from the standard

Evaluated by the kernel (about a minute): the symbol of the text `0;`.  (`Verif.Proof.Tie` is imported only so that the two
memory-hungry files are not built at the same time.)
-/
namespace QR
set_option maxRecDepth 1000000

/-- The call succeeds with dimension `d`, rules 2, 3, 4 of the code score `a`, `b`, `c`, and by colour the symbol has rule 2
score `a'`, rule 3 score `b'` and `dark` dark modules. -/
def penaltiesAre (r : Res AlignCache) (f : AlignCache → Res QRCode) (d a b c a' b' dark : Nat) : Bool := match r with
  | .ok ch => match f ch with
    | .ok q => q.dimension == d && rule2 q.mat == a && decide (rule3 q.mat = .ok b) && decide (rule4 q.mat = .ok c) &&
      Spec.rule2 d (Spec.pixel q.mat.bitmap) == a' && Spec.rule3 d (Spec.pixel q.mat.bitmap) == b' &&
      Spec.darkCount d (Spec.pixel q.mat.bitmap) == dark
    | _ => false
  | _ => false

theorem penaltiesAre_iff {r : Res AlignCache} {f : AlignCache → Res QRCode} {d a b c a' b' dark : Nat}
    (h : penaltiesAre r f d a b c a' b' dark = true) :
    ∃ ch q, r = .ok ch ∧ f ch = .ok q ∧ q.dimension = d ∧ rule2 q.mat = a ∧ rule3 q.mat = .ok b ∧ rule4 q.mat = .ok c ∧
      Spec.rule2 d (Spec.pixel q.mat.bitmap) = a' ∧ Spec.rule3 d (Spec.pixel q.mat.bitmap) = b' ∧
      Spec.darkCount d (Spec.pixel q.mat.bitmap) = dark := by
  unfold penaltiesAre at h
  split at h
  · rename_i ch
    split at h
    · rename_i q hq
      simp only [Bool.and_eq_true, beq_iff_eq, decide_eq_true_eq] at h
      obtain ⟨⟨⟨⟨⟨⟨h1, h2⟩, h3⟩, h4⟩, h5⟩, h6⟩, h7⟩ := h
      exact ⟨ch, q, rfl, hq, h1, h2, h3, h4, h5, h6, h7⟩
    · cases h
  · cases h

theorem penalty_check : penaltiesAre initialCache (fun c => newWith demoExt c [0, 1, 2, 3, 4, 5, 6, 7] .string [48, 59] [])
  21 66 0 0 81 80 246 = true := by decide +kernel

end QR
