import Verif.Model.QRCode
import Verif.Model.Standard
/-!
# The unit tests of the repository, on the model

Generated by `tools/unittests.py`.  Each example below is an assertion of a test of /repo, evaluated on the model by the kernel.  They prove nothing about other inputs: they check that the
definitions of the model behave as the tests say the program does.  Left out: the tests that only look whether a file appears, and the symbols themselves (`Reference.lean` has one of these).
The values of the Shift JIS encoder (golang.org/x/text) for the characters of the tests are those of Python's codec cp932.
-/
namespace QR.Instances.UnitTests
open QR QR.Standard

set_option maxRecDepth 100000

/-- The Shift JIS codes of the characters that occur in the tests; ASCII is itself. -/
def sjisTable : Nat → Option Bytes := fun r =>
  if r < 128 then some [UInt8.ofNat r] else
  match r with
  | 12364 => some [130, 170]  -- が
  | 12371 => some [130, 177]  -- こ
  | 12377 => some [130, 183]  -- す
  | 12385 => some [130, 191]  -- ち
  | 12391 => some [130, 197]  -- で
  | 12394 => some [130, 200]  -- な
  | 12395 => some [130, 201]  -- に
  | 12399 => some [130, 205]  -- は
  | 12402 => some [130, 208]  -- ひ
  | 12425 => some [130, 231]  -- ら
  | 12428 => some [130, 234]  -- れ
  | 12435 => some [130, 241]  -- ん
  | 12467 => some [131, 82]  -- コ
  | 12481 => some [131, 96]  -- チ
  | 12489 => some [131, 104]  -- ド
  | 12491 => some [131, 106]  -- ニ
  | 12495 => some [131, 110]  -- ハ
  | 12531 => some [131, 147]  -- ン
  | 12540 => some [129, 91]  -- ー
  | 13312 => none  -- 㐀
  | 19990 => some [144, 162]  -- 世
  | 20140 => some [139, 158]  -- 京
  | 20816 => some [142, 153]  -- 児
  | 21271 => some [150, 107]  -- 北
  | 22303 => some [147, 121]  -- 土
  | 22823 => some [145, 229]  -- 大
  | 23383 => some [142, 154]  -- 字
  | 23798 => some [147, 135]  -- 島
  | 23883 => some [155, 201]  -- 嵋
  | 23940 => some [155, 206]  -- 嶄
  | 25991 => some [149, 182]  -- 文
  | 26085 => some [147, 250]  -- 日
  | 26143 => some [144, 175]  -- 星
  | 26376 => some [140, 142]  -- 月
  | 26408 => some [150, 216]  -- 木
  | 26412 => some [150, 123]  -- 本
  | 26438 => some [158, 87]  -- 杆
  | 26457 => some [158, 90]  -- 杙
  | 26464 => some [158, 89]  -- 杠
  | 26467 => some [158, 91]  -- 杣
  | 26481 => some [147, 140]  -- 東
  | 27700 => some [144, 133]  -- 水
  | 27798 => some [137, 171]  -- 沖
  | 28023 => some [138, 67]  -- 海
  | 28450 => some [138, 191]  -- 漢
  | 28779 => some [137, 206]  -- 火
  | 30028 => some [138, 69]  -- 界
  | 32260 => some [147, 234]  -- 縄
  | 33559 => some [228, 170]  -- 茗
  | 33655 => some [137, 215]  -- 荷
  | 35430 => some [142, 142]  -- 試
  | 35486 => some [140, 234]  -- 語
  | 36947 => some [147, 185]  -- 道
  | 37117 => some [147, 115]  -- 都
  | 37329 => some [139, 224]  -- 金
  | 38442 => some [141, 227]  -- 阪
  | 39443 => some [140, 177]  -- 験
  | 40575 => some [142, 173]  -- 鹿
  | 63744 => none  -- 豈
  | _ => none

def E : Ext := ⟨fun _ _ => [], sjisTable⟩

/-! ## kmp_variant_test.go -/
example : kmp (binaryToQRValueSlice "11001010010111001010010101011100".toList) (binaryToQRValueSlice "0101".toList) none = some 6 := by decide +kernel
example : kmp (binaryToQRValueSlice "11001010010111001010010101011100".toList) (binaryToQRValueSlice "1001010".toList) none = some 3 := by decide +kernel

/-! ## utilities_test.go -/
example : samestate DATA_V1 DATA_V1 = true := by decide +kernel
example : samestate DATA_V0 DATA_V0 = true := by decide +kernel
example : samestate DATA_V1 DATA_V0 = false := by decide +kernel
example : samestate DATA_V0 DATA_V1 = false := by decide +kernel
example : samestate FINDER_V1 FINDER_V1 = true := by decide +kernel
example : samestate FINDER_V1 DATA_V0 = false := by decide +kernel
example : samestate DATA_V1 FINDER_V1 = true := by decide +kernel
example : binaryToQRValueSlice "1010 0001 101a".toList = [DATA_V1, DATA_V0, DATA_V1, DATA_V0, DATA_V0, DATA_V0, DATA_V0, DATA_V1, DATA_V1, DATA_V0, DATA_V1] := by decide +kernel
example : binaryToQRValueSlice "0000 11a1 11x2 x".toList = [DATA_V0, DATA_V0, DATA_V0, DATA_V0, DATA_V1, DATA_V1, DATA_V1, DATA_V1, DATA_V1] := by decide +kernel

/-! ## matrix_type_test.go -/
example : QRType.toByte .init = 2 := by decide +kernel
example : QRType.toByte .data = 4 := by decide +kernel
example : QRType.toByte .version = 6 := by decide +kernel
example : QRType.toByte .format = 8 := by decide +kernel
example : QRType.toByte .finder = 10 := by decide +kernel
example : QRType.toByte .dark = 12 := by decide +kernel
example : QRType.toByte .splitter = 14 := by decide +kernel
example : QRType.toByte .timing = 16 := by decide +kernel
example : INIT_V0.qrtype = .init ∧ INIT_V0.qrbool = false := by decide +kernel
example : DATA_V1.qrtype = .data ∧ DATA_V1.qrbool = true := by decide +kernel
example : DATA_V0.qrtype = .data ∧ DATA_V0.qrbool = false := by decide +kernel
example : VERSION_V0.qrtype = .version ∧ VERSION_V0.qrbool = false := by decide +kernel
example : VERSION_V1.qrtype = .version ∧ VERSION_V1.qrbool = true := by decide +kernel
example : FORMAT_V0.qrtype = .format ∧ FORMAT_V0.qrbool = false := by decide +kernel
example : FORMAT_V1.qrtype = .format ∧ FORMAT_V1.qrbool = true := by decide +kernel
example : FINDER_V0.qrtype = .finder ∧ FINDER_V0.qrbool = false := by decide +kernel
example : FINDER_V1.qrtype = .finder ∧ FINDER_V1.qrbool = true := by decide +kernel
example : DARK_V1.qrtype = .dark ∧ DARK_V1.qrbool = true := by decide +kernel
example : SPLITTER_V0.qrtype = .splitter ∧ SPLITTER_V0.qrbool = false := by decide +kernel
example : TIMING_V0.qrtype = .timing ∧ TIMING_V0.qrbool = false := by decide +kernel
example : TIMING_V1.qrtype = .timing ∧ TIMING_V1.qrbool = true := by decide +kernel
example : QRValue.xor DATA_V0 DATA_V0 = DATA_V0 := by decide +kernel
example : QRValue.xor DATA_V1 DATA_V0 = DATA_V1 := by decide +kernel
example : QRType.string .init = "I" := by decide +kernel
example : QRType.string .data = "d" := by decide +kernel
example : QRType.string .version = "V" := by decide +kernel
example : QRType.string .format = "f" := by decide +kernel
example : QRType.string .finder = "F" := by decide +kernel
example : QRType.string .dark = "D" := by decide +kernel
example : DATA_V0.string = "d0" := by decide +kernel
example : DATA_V1.string = "d1" := by decide +kernel
example : VERSION_V0.string = "V0" := by decide +kernel
example : VERSION_V1.string = "V1" := by decide +kernel

/-! ## matrix_test.go -/
example : ((newMatrix 3 3).setE 2 4 DATA_V1).2.isSome = true := by decide +kernel
example : ((newMatrix 3 3).setE 2 2 DATA_V1).2 = none ∧ ((newMatrix 3 3).set 2 2 DATA_V1).atE 2 2 = (DATA_V1, none) := by decide +kernel
def m1 : Matrix := ((newMatrix 3 3).set 1 1 DATA_V0).set 0 0 DATA_V0
def m3 : Matrix := (((((newMatrix 3 3).set 0 0 DATA_V1).set 1 0 DATA_V1).set 1 1 DATA_V1).set 2 0 DATA_V1).set 2 2 DATA_V1
example : m1.copy = m1 := by decide +kernel
example : (m1.set 2 2 DATA_V1).atE 2 2 = (DATA_V1, none) := by decide +kernel
example : m1.copy.atE 2 2 = (INIT_V0, none) := by decide +kernel
example : m3.row 1 = .ok (some [INIT_V0, DATA_V1, INIT_V0]) := by decide +kernel
example : m3.col 2 = some [DATA_V1, INIT_V0, DATA_V1] := by decide +kernel
example : m3.row 4 = .ok none := by decide +kernel
example : m3.col 4 = none := by decide +kernel

/-! ## version_test.go -/
example : loadVersion 1 ecHighest = .ok ⟨1, 4, ⟨17, 10, 7, 4⟩, 0, [⟨1, 9, 17⟩]⟩ := by decide +kernel
example : analyzeVersion ((List.replicate 1 [84, 69, 88, 84]).flatten) ecMedium encAlphanumeric = loadVersion 1 ecMedium := by decide +kernel  -- "TEXT" 1 times
example : analyzeVersion ((List.replicate 30 [84, 69, 88, 84]).flatten) ecMedium encAlphanumeric = loadVersion 5 ecMedium := by decide +kernel  -- "TEXT" 30 times
example : analyzeVersion ((List.replicate 300 [84, 69, 88, 84]).flatten) ecMedium encAlphanumeric = loadVersion 23 ecMedium := by decide +kernel  -- "TEXT" 300 times
example : binarySearchVersion 0 160 (defaultBinaryCompare 1 ecLow) 20 = (match versions[0]? with | some v => .hit v | none => .indexPanic) := by decide +kernel
example : binarySearchVersion 0 160 (defaultBinaryCompare 40 ecHighest) 20 = (match versions[159]? with | some v => .hit v | none => .indexPanic) := by decide +kernel
example : binarySearchVersion (-1) 200 (defaultBinaryCompare 40 ecHighest) 20 = (match versions[159]? with | some v => .hit v | none => .indexPanic) := by decide +kernel
example : binarySearchVersion 180 0 (defaultBinaryCompare 40 ecHighest) 20 = .notFound := by decide +kernel
example : binarySearchVersion 0 160 (defaultBinaryCompare 3 ecLow) 20 = (match versions[8]? with | some v => .hit v | none => .indexPanic) := by decide +kernel
example : (versions.all fun v => binarySearchVersion 0 160 (defaultBinaryCompare v.ver v.ecLevel) 20 == .hit v) = true := by decide +kernel  -- Test_binarySearchVersion_all
example : (versions.all fun v => v.dimension == v.ver * 4 + 17) = true := by decide +kernel
example : ((List.range 39).all fun n => match loadAlignmentPatternLocV2 [] (n + 2) with | .ok (_ :: _, _) => true | _ => false) = true := by decide +kernel  -- every version from 2 has a pattern

/-! ## encoder_test.go -/
example : (do let v ← loadVersion 1 ecLow; encode E v encNumeric [49, 50, 51, 49, 50, 51, 49, 50]).isOk = true := by decide +kernel  -- 12312312
example : (do let v ← loadVersion 1 ecLow; encode E v encAlphanumeric [65, 75, 74, 65, 42, 58, 47]).isOk = true := by decide +kernel  -- AKJA*:/
example : (do let v ← loadVersion 5 ecQuart; encode E v encByte [104, 116, 116, 112, 58, 47, 47, 98, 97, 105, 100, 117, 46, 99, 111, 109, 63, 107, 101, 121, 119, 111, 114, 100, 61, 49, 50, 51, 49, 50, 51]).isOk = true := by decide +kernel  -- http://baidu.com?keyword=123123
example : (do let v ← loadVersion 1 ecLow; encode E v encKanji [228, 184, 150]).isOk = true := by decide +kernel  -- 世
example : (do let v ← loadVersion 1 ecLow; encode E v encKanji [228, 184, 150, 231, 149, 140]).isOk = true := by decide +kernel  -- 世界
example : (do let v ← loadVersion 1 ecLow; encode E v encKanji [230, 151, 165, 230, 156, 172, 232, 170, 158]).isOk = true := by decide +kernel  -- 日本語
example : (do let v ← loadVersion 1 ecLow; encode E v encKanji [230, 188, 162, 229, 173, 151]).isOk = true := by decide +kernel  -- 漢字
example : (do let v ← loadVersion 10 ecLow; encode E v encKanji [230, 188, 162, 229, 173, 151]).isOk = true := by decide +kernel  -- 漢字
example : (do let v ← loadVersion 27 ecLow; encode E v encKanji [230, 188, 162, 229, 173, 151]).isOk = true := by decide +kernel  -- 漢字
example : toShiftJIS E [232, 140, 151, 232, 141, 183] = [26, 170, 6, 151] := by decide +kernel  -- 茗荷
example : toShiftJIS E [228, 184, 150] = [11, 162] := by decide +kernel  -- 世
example : toShiftJIS E [228, 184, 150, 231, 149, 140] = [11, 162, 6, 197] := by decide +kernel  -- 世界
example : toShiftJIS E [230, 151, 165, 230, 156, 172, 232, 170, 158] = [14, 58, 15, 251, 8, 234] := by decide +kernel  -- 日本語
example : toShiftJIS E [230, 188, 162, 229, 173, 151] = [7, 63, 10, 26] := by decide +kernel  -- 漢字
example : encodeShiftJIS 129 64 = (0, 0) := by decide +kernel
example : encodeShiftJIS 144 162 = (11, 162) := by decide +kernel
example : encodeShiftJIS 159 252 = (23, 60) := by decide +kernel
example : encodeShiftJIS 224 64 = (23, 64) := by decide +kernel
example : encodeShiftJIS 228 170 = (26, 170) := by decide +kernel
example : encodeShiftJIS 235 191 = (31, 255) := by decide +kernel
example : encodeShiftJIS 128 0 = (0, 0) := by decide +kernel
example : encodeShiftJIS 159 253 = (0, 0) := by decide +kernel
example : encodeShiftJIS 236 0 = (0, 0) := by decide +kernel
example : charCountBits 1 encKanji = 8 := by decide +kernel
example : charCountBits 10 encKanji = 10 := by decide +kernel
example : charCountBits 27 encKanji = 12 := by decide +kernel
example : (encodeKanji (toShiftJIS E [228, 184, 150])).length = 13 := by decide +kernel  -- 世
example : (encodeKanji (toShiftJIS E [228, 184, 150, 231, 149, 140])).length = 26 := by decide +kernel  -- 世界
example : (encodeKanji (toShiftJIS E [230, 151, 165, 230, 156, 172, 232, 170, 158])).length = 39 := by decide +kernel  -- 日本語

/-! ## chardet_test.go -/
example : analyzeNum 48 = true := by decide +kernel  -- 0
example : analyzeNum 97 = false := by decide +kernel  -- a
example : analyzeNum 65 = false := by decide +kernel  -- A
example : analyzeNum 57 = true := by decide +kernel  -- 9
example : analyzeNum 42 = false := by decide +kernel  -- *
example : analyzeAlphaNum 48 = true := by decide +kernel  -- 0
example : analyzeAlphaNum 97 = false := by decide +kernel  -- a
example : analyzeAlphaNum 65 = true := by decide +kernel  -- A
example : analyzeAlphaNum 57 = true := by decide +kernel  -- 9
example : analyzeAlphaNum 42 = true := by decide +kernel  -- *
example : analyzeAlphaNum 63 = false := by decide +kernel  -- ?
example : analyzeAlphaNum 38 = false := by decide +kernel  -- &
example : analyzeByte 48 = true := by decide +kernel  -- 0
example : analyzeByte 97 = true := by decide +kernel  -- a
example : analyzeByte 65 = true := by decide +kernel  -- A
example : analyzeByte 57 = true := by decide +kernel  -- 9
example : analyzeByte 42 = true := by decide +kernel  -- *
example : analyzeByte 63 = true := by decide +kernel  -- ?
example : analyzeByte 38 = true := by decide +kernel  -- &
example : analyzeByte 214 = true := by decide +kernel  -- Ö
example : analyzeByte 12395 = true := by decide +kernel  -- に
example : analyzeJP E 48 = false := by decide +kernel  -- 0
example : analyzeJP E 97 = false := by decide +kernel  -- a
example : analyzeJP E 65 = false := by decide +kernel  -- A
example : analyzeJP E 57 = false := by decide +kernel  -- 9
example : analyzeJP E 42 = false := by decide +kernel  -- *
example : analyzeJP E 63 = false := by decide +kernel  -- ?
example : analyzeJP E 38 = false := by decide +kernel  -- &
example : analyzeJP E 214 = false := by decide +kernel  -- Ö
example : analyzeJP E 12395 = false := by decide +kernel  -- に
example : analyzeJP E 33559 = true := by decide +kernel  -- 茗
example : analyzeJP E 26438 = true := by decide +kernel  -- 杆
example : analyzeJP E 33655 = true := by decide +kernel  -- 荷
example : analyzeJP E 26464 = true := by decide +kernel  -- 杠
example : analyzeJP E 26457 = true := by decide +kernel  -- 杙
example : analyzeJP E 26467 = true := by decide +kernel  -- 杣
example : analyzeEncodeModeFromRaw E [49, 50, 51, 49, 50, 48, 56, 57, 57, 50, 51, 49] = .ok encNumeric := by decide +kernel  -- 123120899231
example : analyzeEncodeModeFromRaw E [58, 47, 49, 50, 51, 49, 72, 50, 48, 56, 42, 57, 57, 50, 51, 49, 70, 66, 74, 79] = .ok encAlphanumeric := by decide +kernel  -- :/1231H208*99231FBJO
example : analyzeEncodeModeFromRaw E [104, 97, 104, 97, 104, 49, 50, 57, 56, 51, 49, 50, 104, 71, 38, 94, 70, 66, 74, 79, 64, 106, 104, 103, 71, 42] = .ok encByte := by decide +kernel  -- hahah1298312hG&^FBJO@jhgG*
example : analyzeEncodeModeFromRaw E [74, 75, 65, 72, 68, 79, 73, 65, 78, 75, 81, 79, 73, 72, 67, 77, 74, 75, 65, 83, 74] = .ok encAlphanumeric := by decide +kernel  -- JKAHDOIANKQOIHCMJKASJ
example : analyzeEncodeModeFromRaw E [104, 116, 116, 112, 115, 58, 47, 47, 98, 97, 105, 100, 117, 46, 99, 111, 109, 63, 107, 101, 121, 119, 111, 114, 100, 61, 95, 74, 83, 79, 61, 61, 71, 65] = .ok encByte := by decide +kernel  -- https://baidu.com?keyword=_JSO==GA
example : analyzeEncodeModeFromRaw E [232, 140, 151, 232, 141, 183] = .ok encKanji := by decide +kernel  -- 茗荷
example : analyzeEncodeModeFromRaw E [195, 150, 118, 114, 105, 103, 116, 32, 97, 107, 115, 108, 100, 106, 108, 107, 32, 195, 150, 118, 114, 105, 103, 116, 32, 115, 104, 111, 117, 108, 100, 32, 74, 80, 32, 101, 110, 99, 77, 111, 100, 101, 63] = .ok encByte := by decide +kernel  -- Övrigt aksldjlk Övrigt should JP encMode?
example : analyzeEncodeModeFromRaw E [229, 181, 139, 229, 182, 132] = .ok encKanji := by decide +kernel  -- 嵋嶄
example : analyzeEncodeModeFromRaw E [97] = .ok encByte := by decide +kernel  -- a
example : analyzeEncodeModeFromRaw E [227, 129, 147, 227, 130, 140, 227, 129, 175, 227, 129, 178, 227, 130, 137, 227, 129, 140, 227, 129, 170, 227, 129, 167, 227, 129, 153] = .ok encByte := by decide +kernel  -- これはひらがなです
example : analyzeEncodeModeFromRaw E [227, 130, 179, 227, 131, 179, 227, 131, 139, 227, 131, 129, 227, 131, 143] = .ok encByte := by decide +kernel  -- コンニチハ
example : analyzeEncodeModeFromRaw E [230, 188, 162, 229, 173, 151, 227, 129, 178, 227, 130, 137, 227, 129, 140, 227, 129, 170] = .ok encByte := by decide +kernel  -- 漢字ひらがな
example : analyzeEncodeModeFromRaw E [230, 188, 162] = .ok encKanji := by decide +kernel  -- 漢
example : analyzeEncodeModeFromRaw E [230, 151, 165, 230, 156, 172, 232, 170, 158] = .ok encKanji := by decide +kernel  -- 日本語
example : analyzeEncodeModeFromRaw E [228, 184, 150, 231, 149, 140] = .ok encKanji := by decide +kernel  -- 世界
example : analyzeEncodeModeFromRaw E [230, 157, 177, 228, 186, 172, 228, 186, 172, 233, 131, 189, 229, 164, 167, 233, 152, 170, 229, 140, 151, 230, 181, 183, 233, 129, 147, 230, 178, 150, 231, 184, 132, 233, 185, 191, 229, 133, 144, 229, 179, 182] = .ok encKanji := by decide +kernel  -- 東京京都大阪北海道沖縄鹿児島
example : analyzeEncodeModeFromRaw E [230, 188, 162, 229, 173, 151, 65, 66, 67, 49, 50, 51] = .ok encByte := by decide +kernel  -- 漢字ABC123
example : analyzeEncodeModeFromRaw E [227, 144, 128] = .ok encByte := by decide +kernel  -- 㐀
example : analyzeEncodeModeFromRaw E [239, 164, 128] = .ok encByte := by decide +kernel  -- 豈

/-! ## qrcode_test.go: the mode, the version and the level (the first half of `init`) -/
/-- The mode and the version `NewWith` settles on. -/
def settled (raw : Bytes) (opts : List EncodeOption) : Res (Nat × Int) := do
  let o := applyOptions opts
  let mode ← chooseMode E raw o
  let n ← calcVersionNumber raw { o with encMode := mode }
  .ok (mode, n)
/-- `settled` fails with the message "character … cannot be encoded in … mode". -/
def refused (raw : Bytes) (opts : List EncodeOption) (mode : Nat) : Bool :=
  match settled raw opts with | .err (.cannotEncode _ m) => m == mode | _ => false
def atLeast (n : Int) : Res (Nat × Int) → Bool | .ok (_, v) => decide (n ≤ v) && decide (v ≤ 40) | _ => false
example : settled [49, 50, 51, 52, 53, 54, 55] [.withEncodingMode encNumeric, .withErrorCorrectionLevel ecLow, .withVersion 7] = .ok (encNumeric, 7) := by decide +kernel  -- Test_NewWith
example : refused [97, 98, 99, 115] [.withEncodingMode encAlphanumeric] encAlphanumeric = true := by decide +kernel  -- abcs
example : atLeast 9 (settled [49, 50, 51] [.withMinimumVersion 9, .withErrorCorrectionLevel ecQuart]) = true := by decide +kernel  -- 123
example : atLeast 15 (settled [72, 69, 76, 76, 79] [.withMinimumVersion 15, .withErrorCorrectionLevel ecQuart]) = true := by decide +kernel  -- HELLO
example : atLeast 9 (settled (List.replicate 100 65) [.withMinimumVersion 9, .withErrorCorrectionLevel ecQuart]) = true := by decide +kernel
example : atLeast 9 (settled (List.replicate 500 65) [.withMinimumVersion 9, .withErrorCorrectionLevel ecQuart]) = true := by decide +kernel
example : atLeast 1 (settled [49, 50, 51] [.withMinimumVersion 0, .withErrorCorrectionLevel ecLow]) = true := by decide +kernel
example : atLeast 1 (settled [49, 50, 51] [.withMinimumVersion 41, .withErrorCorrectionLevel ecLow]) = true := by decide +kernel
example : atLeast 1 (settled [49, 50, 51] [.withMinimumVersion (-1), .withErrorCorrectionLevel ecLow]) = true := by decide +kernel
example : settled [49, 50, 51] [.withVersion 10, .withMinimumVersion 15, .withErrorCorrectionLevel ecLow] = .ok (encNumeric, 10) := by decide +kernel
example : settled [230, 188, 162] [.withEncodingMode encKanji, .withErrorCorrectionLevel ecLow] = .ok (encKanji, 1) := by decide +kernel  -- 漢
example : settled [230, 188, 162, 229, 173, 151] [.withEncodingMode encKanji, .withErrorCorrectionLevel ecLow] = .ok (encKanji, 1) := by decide +kernel  -- 漢字
example : settled [230, 151, 165, 230, 156, 172, 232, 170, 158] [.withEncodingMode encKanji, .withErrorCorrectionLevel ecLow] = .ok (encKanji, 1) := by decide +kernel  -- 日本語
example : settled [228, 184, 150, 231, 149, 140] [.withEncodingMode encKanji, .withErrorCorrectionLevel ecLow] = .ok (encKanji, 1) := by decide +kernel  -- 世界
example : refused [104, 116, 116, 112, 115, 58, 47, 47, 103, 111, 111, 103, 108, 101, 46, 99, 111, 109] [.withEncodingMode encKanji, .withErrorCorrectionLevel ecLow] encKanji = true := by decide +kernel  -- https://google.com
example : refused [230, 188, 162, 229, 173, 151, 49, 50, 51] [.withEncodingMode encKanji, .withErrorCorrectionLevel ecLow] encKanji = true := by decide +kernel  -- 漢字123
example : refused [227, 129, 147, 227, 130, 147, 227, 129, 171, 227, 129, 161, 227, 129, 175] [.withEncodingMode encKanji, .withErrorCorrectionLevel ecLow] encKanji = true := by decide +kernel  -- こんにちは
example : refused [227, 130, 179, 227, 131, 179, 227, 131, 139, 227, 131, 129, 227, 131, 143] [.withEncodingMode encKanji, .withErrorCorrectionLevel ecLow] encKanji = true := by decide +kernel  -- コンニチハ
example : refused [230, 188, 162, 229, 173, 151, 116, 101, 115, 116] [.withEncodingMode encKanji, .withErrorCorrectionLevel ecLow] encKanji = true := by decide +kernel  -- 漢字test
example : refused [227, 144, 128] [.withEncodingMode encKanji, .withErrorCorrectionLevel ecLow] encKanji = true := by decide +kernel  -- 㐀
example : (match settled [230, 188, 162, 229, 173, 151] [.withEncodingMode encAuto, .withErrorCorrectionLevel ecLow] with | .ok (m, _) => m == encKanji | _ => false) = true := by decide +kernel  -- 漢字
example : (match settled [228, 184, 150, 231, 149, 140] [.withEncodingMode encAuto, .withErrorCorrectionLevel ecLow] with | .ok (m, _) => m == encKanji | _ => false) = true := by decide +kernel  -- 世界
example : (match settled [81, 82, 227, 130, 179, 227, 131, 188, 227, 131, 137, 49, 50, 51] [.withEncodingMode encAuto, .withErrorCorrectionLevel ecLow] with | .ok (m, _) => m == encByte | _ => false) = true := by decide +kernel  -- QRコード123
example : (match settled [233, 135, 145, 230, 156, 168, 230, 176, 180, 231, 129, 171, 229, 156, 159, 230, 151, 165, 230, 156, 136, 230, 152, 159] [.withEncodingMode encAuto, .withErrorCorrectionLevel ecLow] with | .ok (m, _) => m == encKanji | _ => false) = true := by decide +kernel  -- 金木水火土日月星
example : (match settled [230, 157, 177, 228, 186, 172, 228, 186, 172, 233, 131, 189, 229, 164, 167, 233, 152, 170, 229, 140, 151, 230, 181, 183, 233, 129, 147, 230, 178, 150, 231, 184, 132, 233, 185, 191, 229, 133, 144, 229, 179, 182] [.withEncodingMode encAuto, .withErrorCorrectionLevel ecLow] with | .ok (m, _) => m == encKanji | _ => false) = true := by decide +kernel  -- 東京京都大阪北海道沖縄鹿児島
example : (match settled [227, 129, 147, 227, 130, 140, 227, 129, 175, 227, 129, 178, 227, 130, 137, 227, 129, 140, 227, 129, 170, 227, 129, 167, 227, 129, 153] [.withEncodingMode encAuto, .withErrorCorrectionLevel ecLow] with | .ok (m, _) => m == encByte | _ => false) = true := by decide +kernel  -- これはひらがなです
example : settled [230, 188, 162, 229, 173, 151, 230, 150, 135, 229, 173, 151, 232, 169, 166, 233, 168, 147] [.withEncodingMode encKanji, .withVersion 10, .withErrorCorrectionLevel ecLow] = .ok (encKanji, 10) := by decide +kernel  -- 漢字文字試験

/-! ## writer/standard: image_option_test.go, image_option_api_test.go -/
example : (defaultOpts.translateToRGBA DATA_V0).1 = color_WHITE := rfl
example : (defaultOpts.translateToRGBA INIT_V0).1 = color_WHITE := rfl
example : (defaultOpts.translateToRGBA DATA_V1).1 = color_BLACK := rfl
example : (defaultOpts.translateToRGBA FORMAT_V1).1 = color_BLACK := rfl
example : (defaultOpts.translateToRGBA VERSION_V1).1 = color_BLACK := rfl
example : (defaultOpts.translateToRGBA ⟨.splitter, true⟩).1 = color_BLACK := rfl
example : (defaultOpts.translateToRGBA FINDER_V1).1 = color_BLACK := rfl
example : parseFromHex [35, 49, 49, 50, 50, 51, 51] = some ⟨17, 34, 51, 255⟩ := by decide +kernel
example : parseFromHex [35, 49, 49, 50] = some ⟨17, 17, 34, 255⟩ := by decide +kernel
example : parseFromColor (.rgba ⟨17, 34, 51, 255⟩) = ⟨17, 34, 51, 255⟩ := by decide +kernel
example : parseFromColor (.other 17 17 17 0xffff) = ⟨17, 17, 17, 255⟩ := by decide +kernel  -- color.Gray16{17}
example : (newWithWriter false []).map (·.imageEncoder) = some .jpeg := rfl
example : (newWithWriter false [.builtinEncoder 0]).map (·.imageEncoder) = some .jpeg := rfl
example : (newWithWriter false [.builtinEncoder 0, .builtinEncoder 1]).map (·.imageEncoder) = some .png := rfl
example : (newWithWriter false [.customEncoder none]).map (·.imageEncoder) = some .jpeg := rfl
example : (newWithWriter false []).map (fun o => (o.bgColor, o.qrColor)) = some (color_WHITE, color_BLACK) := rfl
example : (newWithWriter false [.bgColor (some (.rgba color_BLACK))]).map (fun o => (o.bgColor, o.qrColor)) = some (color_BLACK, color_BLACK) := rfl
example : (newWithWriter false [.bgColor (some (.rgba color_BLACK)), .bgColor (some (.rgba color_WHITE)), .fgColor (some (.rgba color_WHITE))]).map (fun o => (o.bgColor, o.qrColor)) = some (color_WHITE, color_WHITE) := rfl
example : (newWithWriter false [.bgColor (some (.rgba color_BLACK)), .bgColor (some (.rgba color_WHITE)), .fgColor (some (.rgba color_WHITE)), .fgColor (some (.rgba color_BLACK))]).map (fun o => (o.bgColor, o.qrColor)) = some (color_WHITE, color_BLACK) := rfl
example : (newWithWriter false [.bgColor (some (.rgba ⟨123, 123, 123, 123⟩))]).map (·.bgColor) = some ⟨123, 123, 123, 123⟩ := rfl
example : (newWithWriter false [.borderWidth []]).map (·.borders) = some ⟨40, 40, 40, 40⟩ := rfl
example : (newWithWriter false [.borderWidth [1]]).map (·.borders) = some ⟨1, 1, 1, 1⟩ := rfl
example : (newWithWriter false [.borderWidth [1, 2]]).map (·.borders) = some ⟨1, 2, 1, 2⟩ := rfl
example : (newWithWriter false [.borderWidth [1, 2, 3]]).map (·.borders) = some ⟨1, 2, 1, 2⟩ := rfl
example : (newWithWriter false [.borderWidth [1, 2, 3, 4]]).map (·.borders) = some ⟨1, 2, 3, 4⟩ := rfl
example : defaultOpts.bgTransparent = false ∧ (newWithWriter false [.bgTransparent]).map (·.bgTransparent) = some true := ⟨rfl, rfl⟩
example : defaultOpts.logoSizeMultiplier = 5 ∧ (newWithWriter false [.logoSizeMultiplier 2]).map (·.logoSizeMultiplier) = some 2 := ⟨rfl, rfl⟩

end QR.Instances.UnitTests
