/-!
# Version records (version.go)
-/
namespace QR

/-- version.go:93 `capacity` -/
structure Capacity where
  numeric : Nat
  alphaNumeric : Nat
  byte : Nat
  jp : Nat
  deriving DecidableEq, Repr

/-- version.go:102 `group` -/
structure Group where
  numBlocks : Nat
  numDataCodewords : Nat
  ecPerBlock : Nat
  deriving DecidableEq, Repr

/-- version.go:114 `version`.  `Ver` and `ECLevel` are Go ints; all table entries are positive. -/
structure Version where
  ver : Nat
  ecLevel : Nat
  cap : Capacity
  remainderBits : Nat
  groups : List Group
  deriving DecidableEq, Repr

/-- Constructor used by the generated table. -/
def mkV (ver ec num alnum byte jp rem : Nat) (gs : List (Nat × Nat × Nat)) : Version :=
  { ver := ver, ecLevel := ec, cap := ⟨num, alnum, byte, jp⟩, remainderBits := rem,
    groups := gs.map fun (a, b, c) => ⟨a, b, c⟩ }

namespace Version

/-- version.go:135 `Dimension` -/
def dimension (v : Version) : Nat := v.ver * 4 + 17

/-- version.go:140 `NumTotalCodewords` (data codewords) -/
def numTotalCodewords (v : Version) : Nat :=
  v.groups.foldl (fun t g => t + g.numBlocks * g.numDataCodewords) 0

/-- version.go:149 `NumGroups` -/
def numGroups (v : Version) : Nat := v.groups.length

/-- version.go:154 `TotalNumBlocks` -/
def totalNumBlocks (v : Version) : Nat := v.groups.foldl (fun t g => t + g.numBlocks) 0

end Version
end QR
