import Verif.Model.Matrix
import Verif.Model.Kmp
/-!
# Mask evaluation (mask_evaluation.go)
-/
namespace QR

/-- math.MaxInt32 -/
def maxInt32 : Nat := 2147483647

/-- Sum of the results of a loop that may panic. -/
def sumRes {α : Type} (f : α → Res Nat) : List α → Res Nat
  | [] => .ok 0
  | a :: l => do
    let x ← f a
    let y ← sumRes f l
    .ok (x + y)

/-- mask_evaluation.go:37-55 `scoreLine`: state `(lScore, cnt, cur)`. -/
def scoreLineStep (s : Nat × Nat × QRValue) (v : QRValue) : Nat × Nat × QRValue :=
  if !samestate v s.2.2 then (s.1, 1, v)
  else
    let cnt := s.2.1 + 1
    if cnt = 5 then (s.1 + 3, cnt, s.2.2)
    else if cnt > 5 then (s.1 + 1, cnt, s.2.2)
    else (s.1, cnt, s.2.2)

def scoreLine (arr : List QRValue) : Nat := (arr.foldl scoreLineStep (0, 0, INIT_V0)).1

/-- A `nil` slice behaves as the empty one. -/
def nilSlice (o : Option (List QRValue)) : List QRValue := o.getD []

/-- mask_evaluation.go:28 `rule1` -/
def rule1 (m : Matrix) : Res Nat :=
  if m.width ≠ m.height then .ok maxInt32
  else sumRes (fun cur => do
    let row ← m.row (cur : Nat)
    .ok (scoreLine (nilSlice row) + scoreLine (nilSlice (m.col (cur : Nat))))) (List.range m.width)

/-- mask_evaluation.go:71 `rule2`: `==` compares whole values (type and bit). -/
def rule2 (m : Matrix) : Nat :=
  ((List.range (m.width - 1)).map fun (x : Nat) =>
    ((List.range (m.height - 1)).map fun (y : Nat) =>
      let s0 := m.at' (x : Int) (y : Int)
      let s1 := m.at' ((x : Int) + 1) (y : Int)
      let s2 := m.at' (x : Int) ((y : Int) + 1)
      let s3 := m.at' ((x : Int) + 1) ((y : Int) + 1)
      if s0 = s1 ∧ s2 = s3 ∧ s1 = s2 then 3 else 0).sum).sum

/-- mask_evaluation.go:100-101 -/
def pattern1 : List QRValue := binaryToQRValueSlice "1011101 0000".toList
def pattern2 : List QRValue := binaryToQRValueSlice "0000 1011101".toList

/-- The result of `kmp`; running out of fuel is a panic of the model (proved unreachable). -/
def kmpRes (src pattern : List QRValue) (next : Option (List Int)) : Res Nat :=
  match kmp src pattern next with
  | some n => .ok n
  | none => .panic .fuel

/-- mask_evaluation.go:98 `rule3` -/
def rule3 (m : Matrix) : Res Nat :=
  let next1 := kmpGetNext pattern1
  let next2 := kmpGetNext pattern2
  if m.width ≠ m.height then .ok maxInt32
  else sumRes (fun i => do
    let col := nilSlice (m.col (i : Nat))
    let row ← m.row (i : Nat)
    let row := nilSlice row
    let a ← kmpRes col pattern1 next1
    let b ← kmpRes col pattern2 next2
    let c ← kmpRes row pattern1 next1
    let d ← kmpRes row pattern2 next2
    .ok (40 * a + 40 * b + 40 * c + 40 * d)) (List.range m.width)

/-- mask_evaluation.go:139 `rule4`.  `dark` counts, over all columns, the elements that are set. -/
def rule4 (m : Matrix) : Res Nat :=
  if m.width ≠ m.height then .ok maxInt32
  else if m.width = 0 then .panic .divZero
  else
    let dark := ((List.range m.width).map fun i =>
      ((List.range m.width).map fun j =>
        if samestate ((nilSlice (m.col (i : Nat))).getD j INIT_V0) DATA_V1 then 1 else 0).sum).sum
    let ratio := (dark * 100) / (m.width * m.width)
    let step : Int := if ratio % 5 = 0 then 1 else 0
    let previous := (((ratio / 5 : Nat) - step) * 5 - 50 : Int).natAbs
    let next := (((ratio / 5 : Nat) + 1 - step) * 5 - 50 : Int).natAbs
    .ok ((if previous < next then previous else next) / 5 * 10)

/-- mask_evaluation.go:11 `evaluation` -/
def evaluation (m : Matrix) : Res Nat := do
  let s1 ← rule1 m
  let s3 ← rule3 m
  let s4 ← rule4 m
  .ok (s1 + rule2 m + s3 + s4)

end QR
