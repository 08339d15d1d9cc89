/-!
# Occurrences of a word in a word
-/
namespace Spec

/-- `p` occurs in `s` at position `u`. -/
def occursAt {α : Type} [DecidableEq α] (p s : List α) (u : Nat) : Bool :=
  decide ((s.drop u).take p.length = p)

/-- Number of positions of `s` at which `p` occurs (overlapping occurrences all count). -/
def occurrences {α : Type} [DecidableEq α] (p s : List α) : Nat :=
  (List.range s.length).countP (occursAt p s)

end Spec
