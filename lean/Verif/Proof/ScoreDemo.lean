import Verif.Proof.Score
import Verif.Spec.Encoder
/-!
# The eight candidates of the text `0;` and their scores
-/
namespace QR
open _root_.Spec

/-- The eight symbols of the text `0;` in version 1-Q, rows as numbers. -/
def demoRows : Nat → List Nat
  | 0 => [2088831, 1069377, 1529181, 1531229, 1530717, 1068609, 2086271, 5120, 879967, 1541549, 548073, 1841082, 2087141, 7493, 2088465, 1066567, 1528149, 1527466, 1531629, 1072058, 2081519]
  | 1 => [2082175, 1067841, 1527645, 1529693, 1524061, 1070145, 2086271, 7680, 804712, 1912583, 194115, 1490192, 1405519, 6127, 2081979, 1068269, 1526783, 1524736, 1528903, 1069328, 2082885]
  | 2 => [2085759, 1065537, 1526109, 1527389, 1529693, 1072449, 2086271, 1792, 1040689, 992803, 999576, 308276, 1623188, 7883, 2085472, 1070537, 1531172, 1531172, 1528476, 1071156, 2084510]
  | 3 => [2081663, 1071425, 1528925, 1527389, 1526877, 1065025, 2086271, 3072, 969734, 992803, 1694709, 2070914, 1623188, 5542, 2084822, 1070537, 1525321, 1527954, 1528476, 1069913, 2081576]
  | 4 => [2083711, 1067585, 1531485, 1526109, 1531741, 1070401, 2086271, 0, 612788, 73408, 2017156, 1389352, 1506423, 5672, 2082172, 1065685, 1529287, 1525191, 1525120, 1072936, 2082429]
  | 5 => [2086271, 1071681, 1526109, 1524317, 1525597, 1066305, 2086271, 3840, 553347, 539218, 999576, 441364, 1405519, 5867, 2085472, 1067448, 1527076, 1524996, 1524807, 1069076, 2084510]
  | 6 => [2082175, 1071681, 1527133, 1528413, 1529181, 1065793, 2086271, 7936, 775642, 539218, 774865, 473612, 1405519, 5672, 2082546, 1071544, 1531757, 1528604, 1524807, 1069271, 2083340]
  | 7 => [2088831, 1066305, 1529693, 1531229, 1527645, 1072193, 2086271, 4096, 720877, 1541549, 96379, 1607155, 2087141, 6615, 2088024, 1070663, 1525191, 1531107, 1527533, 1072936, 2080934]
  | _ => []

def demoSymbol (k : Nat) : List (List Bool) := (demoRows k).map (numBits 21)

def demoScores : List Nat := [242, 293, 285, 298, 288, 270, 253, 307]

theorem demoSymbol_0 : encodeSymbol 1 .Q 0 .byte 2 (writeBytes [48, 59]) = demoSymbol 0 := by decide +kernel
theorem demoScore_0 : score 1 (pixel (demoSymbol 0)) = 242 := by decide +kernel
theorem demoSymbol_1 : encodeSymbol 1 .Q 1 .byte 2 (writeBytes [48, 59]) = demoSymbol 1 := by decide +kernel
theorem demoScore_1 : score 1 (pixel (demoSymbol 1)) = 293 := by decide +kernel
theorem demoSymbol_2 : encodeSymbol 1 .Q 2 .byte 2 (writeBytes [48, 59]) = demoSymbol 2 := by decide +kernel
theorem demoScore_2 : score 1 (pixel (demoSymbol 2)) = 285 := by decide +kernel
theorem demoSymbol_3 : encodeSymbol 1 .Q 3 .byte 2 (writeBytes [48, 59]) = demoSymbol 3 := by decide +kernel
theorem demoScore_3 : score 1 (pixel (demoSymbol 3)) = 298 := by decide +kernel
theorem demoSymbol_4 : encodeSymbol 1 .Q 4 .byte 2 (writeBytes [48, 59]) = demoSymbol 4 := by decide +kernel
theorem demoScore_4 : score 1 (pixel (demoSymbol 4)) = 288 := by decide +kernel
theorem demoSymbol_5 : encodeSymbol 1 .Q 5 .byte 2 (writeBytes [48, 59]) = demoSymbol 5 := by decide +kernel
theorem demoScore_5 : score 1 (pixel (demoSymbol 5)) = 270 := by decide +kernel
theorem demoSymbol_6 : encodeSymbol 1 .Q 6 .byte 2 (writeBytes [48, 59]) = demoSymbol 6 := by decide +kernel
theorem demoScore_6 : score 1 (pixel (demoSymbol 6)) = 253 := by decide +kernel
theorem demoSymbol_7 : encodeSymbol 1 .Q 7 .byte 2 (writeBytes [48, 59]) = demoSymbol 7 := by decide +kernel
theorem demoScore_7 : score 1 (pixel (demoSymbol 7)) = 307 := by decide +kernel

end QR
