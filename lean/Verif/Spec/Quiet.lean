/-!
# The quiet zone (ISO/IEC 18004, 6.3.8)

"This is a region 4X wide which shall be free of all other markings, surrounding the symbol on all four sides."
-/
namespace Spec

/-- The number of modules ISO/IEC 18004 asks for. -/
def quietModules : Nat := 4

/-- The picture of `w` by `h` pixels has a quiet zone of `k` modules around the symbol: the symbol has `dim` by `dim` modules of `mw` by `mh` pixels each and its upper left
corner is at `(left, top)`; all pixels that are at most `k` modules away from the symbol and not in it belong to the picture and are light. -/
def QuietZone (k : Nat) (w h mw mh left top : Int) (dim : Nat) (light : Int → Int → Prop) : Prop :=
  ∀ px py : Int, left - k * mw ≤ px → px < left + (dim + k) * mw → top - k * mh ≤ py → py < top + (dim + k) * mh →
    ¬ (left ≤ px ∧ px < left + dim * mw ∧ top ≤ py ∧ py < top + dim * mh) →
    0 ≤ px ∧ px < w ∧ 0 ≤ py ∧ py < h ∧ light px py

end Spec
