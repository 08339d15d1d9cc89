#!/usr/bin/env python3
"""Writes lean/Verif/Instances/UnitTests.lean: the unit tests of /repo, run on the model by the kernel."""
out=[]
def p(s=''): out.append(s)
def B(s): return '['+', '.join(str(b) for b in s.encode())+']'
def ex(s,comment=None):
    p(f'example : {s} := by decide +kernel'+(f'  -- {comment}' if comment else ''))
TEXTS="茗杆荷杠杙杣嵋嶄漢字日本語世界東京京都大阪北海道沖縄鹿児島金木水火土日月星文字試験にこれはひらがなですコンニチハードんちは㐀\uf900"
tab={}
for c in TEXTS:
    try: b=c.encode('cp932')
    except UnicodeEncodeError: b=None
    tab[ord(c)]=b
p('''import Verif.Model.QRCode
import Verif.Model.Standard
/-!
# The unit tests of the repository, on the model

Generated by `tools/unittests.py`.  Each example below is an assertion of a test of /repo, evaluated on the model by the kernel.  They prove nothing about other inputs: they check that the
definitions of the model behave as the tests say the program does.  Left out: the tests that only look whether a file appears, and the symbols themselves (`Reference.lean` has one of these).
The values of the Shift JIS encoder (golang.org/x/text) for the characters of the tests are those of Python's codec cp932.
-/
namespace QR.Instances.UnitTests
open QR QR.Standard

set_option maxRecDepth 100000

/-- The Shift JIS codes of the characters that occur in the tests; ASCII is itself. -/
def sjisTable : Nat → Option Bytes := fun r =>
  if r < 128 then some [UInt8.ofNat r] else
  match r with''')
for k in sorted(tab):
    b=tab[k]
    p(f'  | {k} => '+('none' if b is None else 'some ['+', '.join(str(x) for x in b)+']')+f'  -- {chr(k)}')
p('  | _ => none\n')
p('def E : Ext := ⟨fun _ _ => [], sjisTable⟩\n')
p('/-! ## kmp_variant_test.go -/')
src='binaryToQRValueSlice "11001010010111001010010101011100".toList'
ex(f'kmp ({src}) (binaryToQRValueSlice "0101".toList) none = some 6')
ex(f'kmp ({src}) (binaryToQRValueSlice "1001010".toList) none = some 3')
p('\n/-! ## utilities_test.go -/')
for a,b,w in [('DATA_V1','DATA_V1',1),('DATA_V0','DATA_V0',1),('DATA_V1','DATA_V0',0),('DATA_V0','DATA_V1',0),('FINDER_V1','FINDER_V1',1),('FINDER_V1','DATA_V0',0),('DATA_V1','FINDER_V1',1)]:
    ex(f'samestate {a} {b} = {"true" if w else "false"}')
def vals(s): return '['+', '.join('DATA_V'+c for c in s)+']'
ex(f'binaryToQRValueSlice "1010 0001 101a".toList = {vals("10100001101")}')
ex(f'binaryToQRValueSlice "0000 11a1 11x2 x".toList = {vals("000011111")}')
p('\n/-! ## matrix_type_test.go -/')
for i,t in enumerate('init data version format finder dark splitter timing'.split()):
    ex(f'QRType.toByte .{t} = {(i+1)*2}')
for n,t,b in [('INIT_V0','init',0),('DATA_V1','data',1),('DATA_V0','data',0),('VERSION_V0','version',0),('VERSION_V1','version',1),('FORMAT_V0','format',0),('FORMAT_V1','format',1),('FINDER_V0','finder',0),('FINDER_V1','finder',1),('DARK_V1','dark',1),('SPLITTER_V0','splitter',0),('TIMING_V0','timing',0),('TIMING_V1','timing',1)]:
    ex(f'{n}.qrtype = .{t} ∧ {n}.qrbool = {"true" if b else "false"}')
ex('QRValue.xor DATA_V0 DATA_V0 = DATA_V0'); ex('QRValue.xor DATA_V1 DATA_V0 = DATA_V1')
for t,s in [('init','I'),('data','d'),('version','V'),('format','f'),('finder','F'),('dark','D')]: ex(f'QRType.string .{t} = "{s}"')
for t,s in [('DATA_V0','d0'),('DATA_V1','d1'),('VERSION_V0','V0'),('VERSION_V1','V1')]: ex(f'{t}.string = "{s}"')
p('\n/-! ## matrix_test.go -/')
ex('((newMatrix 3 3).setE 2 4 DATA_V1).2.isSome = true')
ex('((newMatrix 3 3).setE 2 2 DATA_V1).2 = none ∧ ((newMatrix 3 3).set 2 2 DATA_V1).atE 2 2 = (DATA_V1, none)')
p('''def m1 : Matrix := ((newMatrix 3 3).set 1 1 DATA_V0).set 0 0 DATA_V0
def m3 : Matrix := (((((newMatrix 3 3).set 0 0 DATA_V1).set 1 0 DATA_V1).set 1 1 DATA_V1).set 2 0 DATA_V1).set 2 2 DATA_V1''')
ex('m1.copy = m1'); ex('(m1.set 2 2 DATA_V1).atE 2 2 = (DATA_V1, none)'); ex('m1.copy.atE 2 2 = (INIT_V0, none)')
ex('m3.row 1 = .ok (some [INIT_V0, DATA_V1, INIT_V0])'); ex('m3.col 2 = some [DATA_V1, INIT_V0, DATA_V1]')
ex('m3.row 4 = .ok none'); ex('m3.col 4 = none')
p('\n/-! ## version_test.go -/')
ex('loadVersion 1 ecHighest = .ok ⟨1, 4, ⟨17, 10, 7, 4⟩, 0, [⟨1, 9, 17⟩]⟩')
for n,v in [(1,1),(30,5),(300,23)]:
    ex(f'analyzeVersion ((List.replicate {n} [84, 69, 88, 84]).flatten) ecMedium encAlphanumeric = loadVersion {v} ecMedium', f'"TEXT" {n} times')
for lo,hi,v,ec,w in [(0,160,1,'ecLow',0),(0,160,40,'ecHighest',159),(-1,200,40,'ecHighest',159),(180,0,40,'ecHighest',-1),(0,160,3,'ecLow',8)]:
    r='.notFound' if w<0 else f'(match versions[{w}]? with | some v => .hit v | none => .indexPanic)'
    lo_=f'({lo})' if lo<0 else lo
    ex(f'binarySearchVersion {lo_} {hi} (defaultBinaryCompare {v} {ec}) 20 = {r}')
ex('(versions.all fun v => binarySearchVersion 0 160 (defaultBinaryCompare v.ver v.ecLevel) 20 == .hit v) = true','Test_binarySearchVersion_all')
ex('(versions.all fun v => v.dimension == v.ver * 4 + 17) = true')
ex('((List.range 39).all fun n => match loadAlignmentPatternLocV2 [] (n + 2) with | .ok (_ :: _, _) => true | _ => false) = true','every version from 2 has a pattern')
p('\n/-! ## encoder_test.go -/')
for v,ec,mode,s in [(1,'ecLow','encNumeric','12312312'),(1,'ecLow','encAlphanumeric','AKJA*:/'),(5,'ecQuart','encByte','http://baidu.com?keyword=123123')]+[(1,'ecLow','encKanji',s) for s in ['世','世界','日本語']]+[(v,'ecLow','encKanji','漢字') for v in (1,10,27)]:
    ex(f'(do let v ← loadVersion {v} {ec}; encode E v {mode} {B(s)}).isOk = true', s)
for s,w in [('茗荷','1AAA0697'),('世','0BA2'),('世界','0BA206C5'),('日本語','0E3A0FFB08EA'),('漢字','073F0A1A')]:
    ex(f'toShiftJIS E {B(s)} = [{", ".join(str(x) for x in bytes.fromhex(w))}]', s)
for h,l,a,b in [(0x81,0x40,0,0),(0x90,0xA2,0x0B,0xA2),(0x9F,0xFC,0x17,0x3C),(0xE0,0x40,0x17,0x40),(0xE4,0xAA,0x1A,0xAA),(0xEB,0xBF,0x1F,0xFF),(0x80,0,0,0),(0x9F,0xFD,0,0),(0xEC,0,0,0)]:
    ex(f'encodeShiftJIS {h} {l} = ({a}, {b})')
for v,w in [(1,8),(10,10),(27,12)]: ex(f'charCountBits {v} encKanji = {w}')
for s,w in [('世',13),('世界',26),('日本語',39)]: ex(f'(encodeKanji (toShiftJIS E {B(s)})).length = {w}', s)
p('\n/-! ## chardet_test.go -/')
def cls(f,ss):
    for c,w in ss: ex(f'{f} {ord(c)} = {"true" if w else "false"}', c)
cls('analyzeNum',zip('0aA9*',[1,0,0,1,0]))
cls('analyzeAlphaNum',zip('0aA9*?&',[1,0,1,1,1,0,0]))
cls('analyzeByte',[(c,1) for c in '0aA9*?&Öに'])
cls('analyzeJP E',list(zip('0aA9*?&Öに',[0]*9))+[(c,1) for c in '茗杆荷杠杙杣'])
N,A,K,Y='encNumeric encAlphanumeric encKanji encByte'.split()
auto=[('123120899231',N),(':/1231H208*99231FBJO',A),('hahah1298312hG&^FBJO@jhgG*',Y),('JKAHDOIANKQOIHCMJKASJ',A),('https://baidu.com?keyword=_JSO==GA',Y),('茗荷',K),('Övrigt aksldjlk Övrigt should JP encMode?',Y),('嵋嶄',K),('a',Y),('これはひらがなです',Y),('コンニチハ',Y),('漢字ひらがな',Y),('漢',K),('日本語',K),('世界',K),('東京京都大阪北海道沖縄鹿児島',K),('漢字ABC123',Y),('㐀',Y),('\uf900',Y)]
for s,m in auto: ex(f'analyzeEncodeModeFromRaw E {B(s)} = .ok {m}', s)
p('\n/-! ## qrcode_test.go: the mode, the version and the level (the first half of `init`) -/')
p('''/-- The mode and the version `NewWith` settles on. -/
def settled (raw : Bytes) (opts : List EncodeOption) : Res (Nat × Int) := do
  let o := applyOptions opts
  let mode ← chooseMode E raw o
  let n ← calcVersionNumber raw { o with encMode := mode }
  .ok (mode, n)
/-- `settled` fails with the message "character … cannot be encoded in … mode". -/
def refused (raw : Bytes) (opts : List EncodeOption) (mode : Nat) : Bool :=
  match settled raw opts with | .err (.cannotEncode _ m) => m == mode | _ => false
def atLeast (n : Int) : Res (Nat × Int) → Bool | .ok (_, v) => decide (n ≤ v) && decide (v ≤ 40) | _ => false''')
ex(f'settled {B("1234567")} [.withEncodingMode encNumeric, .withErrorCorrectionLevel ecLow, .withVersion 7] = .ok (encNumeric, 7)','Test_NewWith')
ex(f'refused {B("abcs")} [.withEncodingMode encAlphanumeric] encAlphanumeric = true','abcs')
for s,n in [('123',9),('HELLO',15)]: ex(f'atLeast {n} (settled {B(s)} [.withMinimumVersion {n}, .withErrorCorrectionLevel ecQuart]) = true', s)
for k in (100,500): ex(f'atLeast 9 (settled (List.replicate {k} 65) [.withMinimumVersion 9, .withErrorCorrectionLevel ecQuart]) = true')
for n in ('0','41','(-1)'): ex(f'atLeast 1 (settled {B("123")} [.withMinimumVersion {n}, .withErrorCorrectionLevel ecLow]) = true')
ex(f'settled {B("123")} [.withVersion 10, .withMinimumVersion 15, .withErrorCorrectionLevel ecLow] = .ok (encNumeric, 10)')
for s in ['漢','漢字','日本語','世界']: ex(f'settled {B(s)} [.withEncodingMode encKanji, .withErrorCorrectionLevel ecLow] = .ok (encKanji, 1)', s)
for s in ['https://google.com','漢字123','こんにちは','コンニチハ','漢字test','㐀']: ex(f'refused {B(s)} [.withEncodingMode encKanji, .withErrorCorrectionLevel ecLow] encKanji = true', s)
for s,m in [('漢字',K),('世界',K),('QRコード123',Y),('金木水火土日月星',K),('東京京都大阪北海道沖縄鹿児島',K),('これはひらがなです',Y)]:
    ex(f'(match settled {B(s)} [.withEncodingMode encAuto, .withErrorCorrectionLevel ecLow] with | .ok (m, _) => m == {m} | _ => false) = true', s)
ex(f'settled {B("漢字文字試験")} [.withEncodingMode encKanji, .withVersion 10, .withErrorCorrectionLevel ecLow] = .ok (encKanji, 10)','漢字文字試験')
p('\n/-! ## writer/standard: image_option_test.go, image_option_api_test.go -/')
for v,w in [('DATA_V0','color_WHITE'),('INIT_V0','color_WHITE'),('DATA_V1','color_BLACK'),('FORMAT_V1','color_BLACK'),('VERSION_V1','color_BLACK'),('⟨.splitter, true⟩','color_BLACK'),('FINDER_V1','color_BLACK')]:
    p(f'example : (defaultOpts.translateToRGBA {v}).1 = {w} := rfl')
ex(f'parseFromHex {B("#112233")} = some ⟨17, 34, 51, 255⟩'); ex(f'parseFromHex {B("#112")} = some ⟨17, 17, 34, 255⟩')
ex('parseFromColor (.rgba ⟨17, 34, 51, 255⟩) = ⟨17, 34, 51, 255⟩')
ex('parseFromColor (.other 17 17 17 0xffff) = ⟨17, 17, 17, 255⟩','color.Gray16{17}')
for a,e in [('[]','.jpeg'),('[.builtinEncoder 0]','.jpeg'),('[.builtinEncoder 0, .builtinEncoder 1]','.png'),('[.customEncoder none]','.jpeg')]:
    p(f'example : (newWithWriter false {a}).map (·.imageEncoder) = some {e} := rfl')
for l,a,b in [([], 'WHITE','BLACK'),(['bg BLACK'],'BLACK','BLACK'),(['bg BLACK','bg WHITE','fg WHITE'],'WHITE','WHITE'),(['bg BLACK','bg WHITE','fg WHITE','fg BLACK'],'WHITE','BLACK')]:
    os='['+', '.join(f".{x[:2]}Color (some (.rgba color_{x[3:]}))" for x in l)+']'
    p(f'example : (newWithWriter false {os}).map (fun o => (o.bgColor, o.qrColor)) = some (color_{a}, color_{b}) := rfl')
p('example : (newWithWriter false [.bgColor (some (.rgba ⟨123, 123, 123, 123⟩))]).map (·.bgColor) = some ⟨123, 123, 123, 123⟩ := rfl')
for a,b in [('','40 40 40 40'),('1','1 1 1 1'),('1, 2','1 2 1 2'),('1, 2, 3','1 2 1 2'),('1, 2, 3, 4','1 2 3 4')]:
    p(f'example : (newWithWriter false [.borderWidth [{a}]]).map (·.borders) = some ⟨{b.replace(" ",", ")}⟩ := rfl')
p('example : defaultOpts.bgTransparent = false ∧ (newWithWriter false [.bgTransparent]).map (·.bgTransparent) = some true := ⟨rfl, rfl⟩')
p('example : defaultOpts.logoSizeMultiplier = 5 ∧ (newWithWriter false [.logoSizeMultiplier 2]).map (·.logoSizeMultiplier) = some 2 := ⟨rfl, rfl⟩')
p('\nend QR.Instances.UnitTests')
open('/verif/lean/Verif/Instances/UnitTests.lean','w').write('\n'.join(out)+'\n')
