import Verif.Model.Matrix
/-!
# Mask patterns (mask.go)
-/
namespace QR

/-- mask.go:94-138 `modulo0Func` .. `modulo7Func` selected by `getModuloFunc` (mask.go:47); `none` is nil.
The arguments are matrix coordinates and never negative. -/
def getModuloFunc (mode : Nat) : Option (Nat → Nat → Bool) :=
  match mode with
  | 0 => some fun x y => (x + y) % 2 == 0
  | 1 => some fun _ y => y % 2 == 0
  | 2 => some fun x _ => x % 3 == 0
  | 3 => some fun x y => (x + y) % 3 == 0
  | 4 => some fun x y => (x / 3 + y / 2) % 2 == 0
  | 5 => some fun x y => (x * y) % 2 + (x * y) % 3 == 0
  | 6 => some fun x y => ((x * y) % 2 + (x * y) % 3) % 2 == 0
  | 7 => some fun x y => ((x + y) % 2 + (x * y) % 3) % 2 == 0
  | _ => none

/-- mask.go:78-89 the callback of `masking`. -/
def maskStep (f : Nat → Nat → Bool) (m : Matrix) (p : Nat × Nat) : Matrix :=
  if (m.at' p.1 p.2).qrtype ≠ .init then m.set p.1 p.2 INIT_V0
  else if f p.1 p.2 then m.set p.1 p.2 DATA_V1
  else m.set p.1 p.2 DATA_V0

/-- mask.go:33 `newMask`: the mask matrix (column-major iteration over a copy). -/
def newMask (mat : Matrix) (mode : Nat) : Res Matrix :=
  match getModuloFunc mode with
  | none => .panic .nilModulo
  | some f => .ok ((Matrix.coords mat.width mat.height .column).foldl (maskStep f) mat.copy)

/-- qrcode.go:720 `xorMask`: the callback; `v` is read from the mask matrix, which is not modified. -/
def xorStep (mask : Matrix) (m : Matrix) (p : Nat × Nat) : Matrix :=
  let v := mask.raw p.1 p.2
  if v.qrtype = .init then m
  else m.set p.1 p.2 ((m.at' p.1 p.2).xor v)

/-- qrcode.go:720 `xorMask` -/
def xorMask (m mask : Matrix) : Matrix :=
  (Matrix.coords mask.width mask.height .column).foldl (xorStep mask) m

end QR
