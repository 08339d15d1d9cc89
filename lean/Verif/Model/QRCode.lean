import Verif.Model.Encoder
import Verif.Model.Fill
import Verif.Model.Mask
import Verif.Model.Evaluation
/-!
# Building a symbol (qrcode.go)
-/
namespace QR

/-- qrcode.go:92 `QRCode` after `build` (the encoder field is only used during `init`). -/
structure QRCode where
  sourceText : Bytes
  dataBSet : Bits
  ecBSet : Bits
  mat : Matrix
  opt : EncodingOption
  v : Version
  deriving DecidableEq, Repr

/-- qrcode.go:43 `validateEncodingMode`: first offending rune, if any. -/
def validateEncodingMode (E : Ext) (mode : Nat) (text : Bytes) : Option Err :=
  let check (f : Nat → Bool) : Option Err :=
    match (runes text).find? (fun r => !f r) with
    | some r => some (.cannotEncode r mode)
    | none => none
  if mode = encNumeric then check analyzeNum
  else if mode = encAlphanumeric then check analyzeAlphaNum
  else if mode = encKanji then check (analyzeJP E)
  else none

/-- qrcode.go:129-139 the mode used. -/
def chooseMode (E : Ext) (raw : Bytes) (opt : EncodingOption) : Res Nat :=
  if opt.encMode = encAuto then analyzeEncodeModeFromRaw E raw
  else match validateEncodingMode E opt.encMode raw with
    | some e => .err e
    | none => .ok opt.encMode

/-- qrcode.go:176 `calcVersion`: the version number put into `opt.Version`. -/
def calcVersionNumber (raw : Bytes) (opt : EncodingOption) : Res Int :=
  if 1 ≤ opt.version ∧ opt.version ≤ 40 ∧ ecLow ≤ opt.ecLevel ∧ opt.ecLevel ≤ ecHighest then
    .ok opt.version
  else do
    let analyzed ← analyzeVersion raw opt.ecLevel opt.encMode
    if opt.minimumVersion > 0 ∧ (analyzed.ver : Int) < opt.minimumVersion then .ok opt.minimumVersion
    else .ok analyzed.ver

/-- qrcode.go:250 `dataBlock` (`StartOffset` is the number of data bits). -/
structure DataBlock where
  data : Bits
  startOffset : Nat
  numEC : Nat
  deriving DecidableEq, Repr

/-- qrcode.go:231-243 the inner loop for one group: `n` blocks left, `blockID` the index of the next one in a slice of `total` blocks, `start` = current `end`.
`blocks[blockID]` is out of range when all of them are used up. -/
def splitGroup (bset : Bits) (total ndc ec : Nat) : Nat → Nat → Nat → Res (List DataBlock)
  | 0, _, _ => .ok []
  | n + 1, blockID, start =>
    if total ≤ blockID then .panic .index
    else match subset bset start (start + ndc * 8) with
    | none => .panic .subset
    | some d => do
      let rest ← splitGroup bset total ndc ec n (blockID + 1) (start + ndc * 8)
      .ok (⟨d, ndc * 8, ec⟩ :: rest)

/-- qrcode.go:229-244 the loop over the groups: the blocks it fills, in order. -/
def splitBlocks (bset : Bits) (total : Nat) : List Group → Nat → Nat → Res (List DataBlock)
  | [], _, _ => .ok []
  | g :: gs, blockID, start => do
    let a ← splitGroup bset total g.numDataCodewords g.ecPerBlock g.numBlocks blockID start
    let b ← splitBlocks bset total gs (blockID + g.numBlocks) (start + g.numBlocks * (g.numDataCodewords * 8))
    .ok (a ++ b)

/-- qrcode.go:226, 266 `make([]block, total)` after the first blocks have been filled: the others still are zero values, whose `Data` is nil. -/
def madeSlice {α : Type} (total : Nat) (filled : List α) : List (Option α) := filled.map some ++ List.replicate (total - filled.length) none

/-- qrcode.go:306, 335: the first round over the blocks calls `block.Data.Len()` for every one of them, which panics if `Data` is nil. -/
def derefAll {α : Type} : List (Option α) → Res (List α)
  | [] => .ok []
  | none :: _ => .panic .nilBlock
  | some a :: l => do
    let rest ← derefAll l
    .ok (a :: rest)

/-- qrcode.go:216 `dataEncoding` -/
def dataEncoding (E : Ext) (v : Version) (mode : Nat) (raw : Bytes) : Res (List (Option DataBlock)) := do
  let bset ← encode E v mode raw
  let bs ← splitBlocks bset v.totalNumBlocks v.groups 0 0
  .ok (madeSlice v.totalNumBlocks bs)

/-- qrcode.go:267-275 the loop of `errorCorrectionEncoding`: `idx` is the index of the first of the blocks given. `reedsolomon.Encode` reads the bits of the block, so
it panics if `Data` is nil. -/
def ecLoop (E : Ext) (total : Nat) : Nat → List (Option DataBlock) → Res (List Bits)
  | _, [] => .ok []
  | _, none :: _ => .panic .nilBlock
  | idx, some b :: bs =>
    let bset := E.rs b.data b.numEC
    if total ≤ idx then .panic .index
    else match subset bset b.startOffset bset.length with
    | none => .panic .subset
    | some d => do
      let rest ← ecLoop E total (idx + 1) bs
      .ok (d :: rest)

/-- qrcode.go:264 `errorCorrectionEncoding` -/
def errorCorrectionEncoding (E : Ext) (v : Version) (dataBlocks : List (Option DataBlock)) : Res (List (Option Bits)) := do
  let bs ← ecLoop E v.totalNumBlocks 0 dataBlocks
  .ok (madeSlice v.totalNumBlocks bs)

/-- qrcode.go:307-322 / 336-349 one round over the blocks at `curIdx`: overflow count and appended bits. -/
def arrangeRound (curIdx : Nat) : List Bits → Nat × Bits → Res (Nat × Bits)
  | [], s => .ok s
  | blk :: blks, (ovf, acc) =>
    if curIdx * 8 ≥ blk.length then arrangeRound curIdx blks (ovf + 1, acc)
    else match subset blk (curIdx * 8) (curIdx * 8 + 8) with
      | none => .panic .subset
      | some sub => arrangeRound curIdx blks (ovf, acc ++ sub)

/-- qrcode.go:306-328 / 335-355 the outer loop; `overflowCnt` is never reset between rounds. -/
def arrangeLoop (blocks : List Bits) : Nat → Nat → Nat → Bits → Res Bits
  | 0, _, _, _ => .panic .fuel
  | fuel + 1, curIdx, ovf, acc => do
    let (ovf', acc') ← arrangeRound curIdx blocks (ovf, acc)
    if ovf' ≥ blocks.length then .ok acc' else arrangeLoop blocks fuel (curIdx + 1) ovf' acc'

/-- Fuel for the arrange loop: more rounds than bits in the longest block. -/
def arrangeFuel (blocks : List Bits) : Nat := (blocks.map List.length).foldl max 0 + 2

/-- qrcode.go:280 `arrangeBits` for one kind of block. -/
def arrange (blocks : List Bits) : Res Bits := arrangeLoop blocks (arrangeFuel blocks) 0 0 []

/-- qrcode.go:280 `arrangeBits` for one kind of block, some of which may have no `Data`. -/
def arrangeBits (blocks : List (Option Bits)) : Res Bits := do
  let bs ← derefAll blocks
  arrange bs

/-- qrcode.go:127 `init` -/
def init (E : Ext) (cache : AlignCache) (raw : Bytes) (opt : EncodingOption) : Res QRCode := do
  let mode ← chooseMode E raw opt
  let opt := { opt with encMode := mode }
  let n ← calcVersionNumber raw opt
  let opt := { opt with version := n }
  let v ← loadVersion n opt.ecLevel
  let mat := newMatrix v.dimension v.dimension
  let _ ← newEncoder mode
  let dataBlocks ← dataEncoding E v mode raw
  let ecBlocks ← errorCorrectionEncoding E v dataBlocks
  let dataBits ← arrangeBits (dataBlocks.map (Option.map (·.data)))
  let ecBits ← arrangeBits ecBlocks
  let bset := dataBits ++ ecBits ++ zeroBits v.remainderBits
  let locs ← (if v.ver > 1 then (do let r ← loadAlignmentPatternLocV2 cache v.ver; .ok r.1) else .ok [])
  let mat := prefill mat v.ver locs
  .ok { sourceText := raw, dataBSet := bset, ecBSet := ecBits, mat, opt, v }

/-- qrcode.go:672-689 the work of goroutine `i`: its final matrix and score. -/
def maskWorker (q : QRCode) (cpy : Matrix) (i : Nat) : Res (Matrix × Nat) := do
  let mask ← newMask q.mat i
  let m := xorMask cpy.copy mask
  let fmt ← formatInfo q.v i
  let m := fillFormatInfo m fmt q.v.dimension
  let m ← (if q.v.ver ≥ 7 then (do
      match ← verInfo q.v with
      | some vb => .ok (fillVersionInfo m vb q.v.dimension)
      | none => .panic .index) else .ok m)
  let s ← evaluation m
  .ok (m, s)

/-- qrcode.go:709-714 the selection loop over the scores in the order they arrived. -/
def selectMask (scores : List (Nat × Nat)) : Nat :=
  (scores.foldl (fun (low, mark) (score, idx) => if score < low then (score, idx) else (low, mark))
    (maxInt32, 0)).2

/-- qrcode.go:642 `masking`; `arrival` is the order in which the eight workers sent their score. -/
def masking (arrival : List Nat) (q : QRCode) : Res QRCode := do
  let cpy ← (match fillDataBinary q.mat.copy q.v.dimension q.dataBSet with
    | some m => .ok m
    | none => .panic .fuel : Res Matrix)
  let results ← Res.mapM' (maskWorker q cpy) (List.range 8)
  let scores := arrival.filterMap fun i => match results[i]? with
    | some r => some (r.2, i)
    | none => none
  match results[selectMask scores]? with
  | some r => .ok { q with mat := r.1 }
  | none => .panic .index

/-- qrcode.go:70 `build` -/
def build (E : Ext) (cache : AlignCache) (arrival : List Nat) (raw : Bytes) (opt : EncodingOption) :
    Res QRCode := do
  let q ← init E cache raw opt
  masking arrival q

/-- The type argument of `New`/`NewWith`: `string`, `[]byte`, or a defined type with such an underlying
type (the constraint is `~string | ~[]byte`). -/
inductive TextType | string | bytes | defined
  deriving DecidableEq, Repr

/-- qrcode.go:30 `toBytes`: the type switch matches the dynamic type, not the underlying type. -/
def toBytes (t : TextType) (raw : Bytes) : Res Bytes :=
  match t with
  | .string => .ok raw
  | .bytes => .ok raw
  | .defined => .panic .unreachableType

/-- qrcode.go:21 `NewWith` -/
def newWith (E : Ext) (cache : AlignCache) (arrival : List Nat) (t : TextType) (text : Bytes)
    (opts : List EncodeOption) : Res QRCode := do
  let opt := applyOptions opts
  let raw ← toBytes t text
  build E cache arrival raw opt

/-- qrcode.go:14 `New` -/
def new (E : Ext) (cache : AlignCache) (arrival : List Nat) (t : TextType) (text : Bytes) : Res QRCode := do
  let raw ← toBytes t text
  build E cache arrival raw defaultEncodingOption

/-- qrcode.go:118 `Dimension` for a built code. -/
def QRCode.dimension (q : QRCode) : Nat := q.mat.width

end QR
