import Verif.Model.Version
/-!
# Character-set detection (chardet.go) and the external libraries as parameters
-/
namespace QR

/-- The two external libraries the encoder calls, as parameters of the model.

* `rs data n` is `reedsolomon.Encode(data, n)` (qrcode.go:269);
* `sjis r` is the byte string `transform.String(japanese.ShiftJIS.NewEncoder(), string(r))` yields for one
  rune, `none` if it reports an error (chardet.go:131, encoder.go:234).  The encoder is stateless, so the
  conversion of a string is the concatenation of the conversions of its runes, and fails if one fails. -/
structure Ext where
  rs : Bits → Nat → Bits
  sjis : Nat → Option Bytes

/-- chardet.go:87 `analyzeNum` -/
def analyzeNum (r : Nat) : Bool := decide (48 ≤ r) && decide (r ≤ 57)

/-- chardet.go:92 `analyzeAlphaNum`: `0-9`, `A-Z` and ` $%*+-./:` -/
def analyzeAlphaNum (r : Nat) : Bool :=
  (decide (48 ≤ r) && decide (r ≤ 57)) || (decide (65 ≤ r) && decide (r ≤ 90)) ||
  r == 32 || r == 36 || r == 37 || r == 42 || r == 43 || r == 45 || r == 46 || r == 47 || r == 58

/-- chardet.go:104 `analyzeByte` -/
def analyzeByte (_ : Nat) : Bool := true

/-- chardet.go:121-123 `isCJK` -/
def isCJK (r : Nat) : Bool :=
  (decide (0x4E00 ≤ r) && decide (r ≤ 0x9FFF)) || (decide (0x3400 ≤ r) && decide (r ≤ 0x4DBF)) ||
  (decide (0xF900 ≤ r) && decide (r ≤ 0xFAFF))

/-- chardet.go:145 -/
def inKanjiRange (code : Nat) : Bool :=
  (decide (0x8140 ≤ code) && decide (code ≤ 0x9FFC)) ||
  (decide (0xE040 ≤ code) && decide (code ≤ 0xEBBF))

/-- chardet.go:115 `analyzeJP` -/
def analyzeJP (E : Ext) (r : Nat) : Bool :=
  if !isCJK r then false
  else match E.sjis r with
    | some [hi, lo] => inKanjiRange (hi.toNat * 256 + lo.toNat)
    | _ => false

/-- chardet.go:35 `getNextAnalyzeFn` -/
def getNextAnalyzeFn (E : Ext) (mode : Nat) : Option (Nat → Bool) :=
  if mode = encNumeric then some analyzeNum
  else if mode = encAlphanumeric then some analyzeAlphaNum
  else if mode = encKanji then some (analyzeJP E)
  else if mode = encByte then some analyzeByte
  else none

/-- chardet.go:63-75 `reAnalyze`: advance the mode (`mode <<= 1`) until the rune passes.  The result is
the mode and whether the loop was left by `break` (no more function).  `mode` doubles from 4 past 32, so
five rounds are enough (`fuel`; the mode is at least 4 on entry). -/
def reAnalyze (E : Ext) (r : Nat) : Nat → Nat → Nat × Bool
  | 0, mode => (mode, true)
  | fuel + 1, mode => match getNextAnalyzeFn E mode with
    | none => (mode, true)
    | some f => if f r then (mode, false) else reAnalyze E r fuel (mode * 2)

/-- chardet.go:62 the `range raw` loop -/
def analyzeLoop (E : Ext) : List Nat → Nat → Nat
  | [], mode => mode
  | r :: rs, mode => match reAnalyze E r 5 mode with
    | (mode', true) => mode'
    | (mode', false) => analyzeLoop E rs mode'

/-- chardet.go:29 `analyzeEncodeModeFromRaw`: start with `EncModeNone << 1`. -/
def analyzeEncodeModeFromRaw (E : Ext) (raw : Bytes) : Res Nat :=
  let mode := analyzeLoop E (runes raw) (encNone * 2)
  if mode > encByte then .err .notSupportCharacter else .ok mode

end QR
