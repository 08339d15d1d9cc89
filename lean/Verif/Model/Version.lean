import Verif.Model.VersionCfg
import Verif.Model.Binary
import Verif.Model.Res
import Verif.Model.Utf8
/-!
# Version selection and tables (version.go)
-/
namespace QR

/-- version.go:61-73 `formatBitSequence`, column `regular` (the `micro` column is never read). -/
def formatBitSequence : List Nat := [
  0x5412, 0x5125, 0x5e7c, 0x5b4b, 0x45f9, 0x40ce, 0x4f97, 0x4aa0,
  0x77c4, 0x72f3, 0x7daa, 0x789d, 0x662f, 0x6318, 0x6c41, 0x6976,
  0x1689, 0x13be, 0x1ce7, 0x19d0, 0x0762, 0x0255, 0x0d0c, 0x083b,
  0x355f, 0x3068, 0x3f31, 0x3a06, 0x24b4, 0x2183, 0x2eda, 0x2bed]

/-- version.go:83-89 `versionBitSequence` -/
def versionBitSequence : List Nat := [
  0x00000, 0x00000, 0x00000, 0x00000, 0x00000, 0x00000, 0x00000, 0x07c94,
  0x085bc, 0x09a99, 0x0a4d3, 0x0bbf6, 0x0c762, 0x0d847, 0x0e60d, 0x0f928,
  0x10b78, 0x1145d, 0x12a17, 0x13532, 0x149a6, 0x15683, 0x168c9, 0x177ec,
  0x18ec4, 0x191e1, 0x1afab, 0x1b08e, 0x1cc1a, 0x1d33f, 0x1ed75, 0x1f250,
  0x209d5, 0x216f0, 0x228ba, 0x2379f, 0x24b0b, 0x2542e, 0x26a64, 0x27541, 0x28c69]

/-- version.go:330-370 `alignPatternLocation`; the Go map as an association list. -/
def alignPatternLocation : List (Nat × List Nat) := [
  (2, [6, 18]), (3, [6, 22]), (4, [6, 26]), (5, [6, 30]), (6, [6, 34]),
  (7, [6, 22, 38]), (8, [6, 24, 42]), (9, [6, 26, 46]), (10, [6, 28, 50]),
  (11, [6, 30, 54]), (12, [6, 32, 58]), (13, [6, 34, 62]),
  (14, [6, 26, 46, 66]), (15, [6, 26, 48, 70]), (16, [6, 26, 50, 74]),
  (17, [6, 30, 54, 78]), (18, [6, 30, 56, 82]), (19, [6, 30, 58, 86]), (20, [6, 34, 62, 90]),
  (21, [6, 28, 50, 72, 94]), (22, [6, 26, 50, 74, 98]), (23, [6, 30, 54, 78, 102]),
  (24, [6, 28, 54, 80, 106]), (25, [6, 32, 58, 84, 110]), (26, [6, 30, 58, 86, 114]),
  (27, [6, 34, 62, 90, 118]),
  (28, [6, 26, 50, 74, 98, 122]), (29, [6, 30, 54, 78, 102, 126]),
  (30, [6, 26, 52, 78, 104, 130]), (31, [6, 30, 56, 82, 108, 134]),
  (32, [6, 34, 60, 86, 112, 138]), (33, [6, 30, 58, 86, 114, 142]),
  (34, [6, 34, 62, 90, 118, 146]),
  (35, [6, 30, 54, 78, 102, 126, 150]), (36, [6, 24, 50, 76, 102, 128, 154]),
  (37, [6, 28, 54, 80, 106, 132, 158]), (38, [6, 32, 58, 84, 110, 136, 162]),
  (39, [6, 26, 54, 82, 110, 138, 166]), (40, [6, 30, 58, 86, 114, 142, 170])]

/-- encoder.go:33-55 the encoding modes (`encMode` is a `uint`). -/
def encAuto : Nat := 0
def encNone : Nat := 2
def encNumeric : Nat := 4
def encAlphanumeric : Nat := 8
def encKanji : Nat := 16
def encByte : Nat := 32

/-- version.go:24-33 the error-correction levels (Go `int`). -/
def ecLow : Int := 1
def ecMedium : Int := 2
def ecQuart : Int := 3
def ecHighest : Int := 4

/-- version.go:163 `verInfo`; `none` is the nil result below version 7, an index beyond the table panics. -/
def verInfo (v : Version) : Res (Option Bits) :=
  if v.ver < 7 then .ok none
  else match versionBitSequence[v.ver]? with
    | some w => .ok (some (natBits 18 w))
    | none => .panic .index

/-- version.go:176 `formatInfo` -/
def formatInfo (v : Version) (maskPattern : Nat) : Res Bits :=
  let go (formatID : Nat) : Res Bits :=
    if maskPattern > 7 then .panic .invalidMask
    else match formatBitSequence[formatID ||| (maskPattern &&& 7)]? with
      | some w => .ok (natBits 15 w)
      | none => .panic .index
  if v.ecLevel = 1 then go 0x08
  else if v.ecLevel = 2 then go 0x00
  else if v.ecLevel = 3 then go 0x18
  else if v.ecLevel = 4 then go 0x10
  else .panic .invalidLevel

/-- version.go:243 `defaultBinaryCompare` -/
def defaultBinaryCompare (ver ec : Int) (cursor : Version) : Int :=
  let r := ver - cursor.ver
  if r = 0 then ec - cursor.ecLevel else r

/-- Outcome of the search loop: hit, not found, or still running. -/
inductive Search
  | hit (v : Version) | notFound | running | indexPanic
  deriving DecidableEq, Repr

/-- version.go:221-237, the loop of `binarySearchVersion`, at most `fuel` rounds. -/
def binarySearchLoop (vs : List Version) (compare : Version → Int) : Nat → Int → Int → Search
  | 0, _, _ => .running
  | fuel + 1, low, high =>
    if low ≤ high then
      let mid := (low + high) / 2
      match vs[mid.toNat]? with
      | none => .indexPanic
      | some v =>
        let r := compare v
        if r = 0 then .hit v
        else if r > 0 then binarySearchLoop vs compare fuel (mid + 1) high
        else binarySearchLoop vs compare fuel low mid
    else .notFound

/-- version.go:208 `binarySearchVersion` over the table, at most `fuel` rounds of the loop. -/
def binarySearchVersion (low high : Int) (compare : Version → Int) (fuel : Nat) : Search :=
  if low > high ∨ low > 160 ∨ high < 0 then .notFound
  else
    let low := if low < 0 then 0 else low
    let high := if high ≥ 160 then (versions.length : Int) - 1 else high
    binarySearchLoop versions compare fuel low high

/-- version.go:264-268 the loop of `loadVersion`: `n` further indices starting at `i`. -/
def loadVersionLoop (ec : Int) : Nat → Int → Res Version
  | 0, _ => .panic .missMatchedVersion
  | n + 1, i =>
    if i < 0 then .panic .index
    else match versions[i.toNat]? with
      | none => .panic .index
      | some v => if (v.ecLevel : Int) = ec then .ok v else loadVersionLoop ec n (i + 1)

/-- version.go:258 `loadVersion`: indices `(lv-1)*4 .. lv*4-1`. -/
def loadVersion (lv ec : Int) : Res Version := loadVersionLoop ec 4 ((lv - 1) * 4)

/-- version.go:305-316 the capacity consulted for a mode. -/
def capMark (c : Capacity) (mode : Nat) : Option Nat :=
  if mode = encNumeric then some c.numeric
  else if mode = encAlphanumeric then some c.alphaNumeric
  else if mode = encByte then some c.byte
  else if mode = encKanji then some c.jp
  else none

/-- version.go:303-321 the loop of `analyzeVersion`: `n` further rounds, `step` the current index. -/
def analyzeVersionLoop (mode want : Nat) : Nat → Nat → Res Version
  | 0, _ => .err .analyzeVersionFailed
  | n + 1, step =>
    match versions[step]? with
    | none => .panic .index
    | some v => match capMark v.cap mode with
      | none => .err .missMatchedEncodeType
      | some mark => if mark ≥ want then .ok v else analyzeVersionLoop mode want n (step + 4)

/-- version.go:278 `analyzeVersion`; from each of the starting steps 0..3 the loop `step < 160,
step += 4` makes at most 40 rounds. -/
def analyzeVersion (raw : Bytes) (ec : Int) (mode : Nat) : Res Version :=
  let want := if mode = encByte then raw.length else runeCount raw
  if ec = ecLow then analyzeVersionLoop mode want 40 0
  else if ec = ecMedium then analyzeVersionLoop mode want 40 1
  else if ec = ecQuart then analyzeVersionLoop mode want 40 2
  else if ec = ecHighest then analyzeVersionLoop mode want 40 3
  else .err .invalidECLevel

/-- version.go:379 `loc` -/
abbrev Loc := Int × Int

/-- version.go:471 `valid` -/
def validLoc (x y dimension : Int) : Bool :=
  if x - 2 < 7 ∧ y - 2 < 7 then false
  else if x + 2 > dimension - 7 ∧ y - 2 < 7 then false
  else if x - 2 < 7 ∧ y + 2 > dimension - 7 then false
  else true

/-- version.go:445 `calcAlignPatternLocs` -/
def calcAlignPatternLocs (ver : Nat) : Res (List Loc) :=
  if ver < 2 then .ok []
  else match alignPatternLocation.lookup ver with
    | none => .panic .noAlign
    | some positions =>
      .ok (positions.flatMap fun (p1 : Nat) => positions.filterMap fun (p2 : Nat) =>
        if validLoc p1 p2 (ver * 4 + 17) then some ((p1 : Int), (p2 : Int)) else none)

/-- version.go:372 `alignPatternCache`: the cache as an association list, newest first. -/
abbrev AlignCache := List (Nat × List Loc)

/-- version.go:438-442 body of `precalculateAlignPatternLocs`. -/
def precalcLoop : List Nat → AlignCache → Res AlignCache
  | [], c => .ok c
  | ver :: vs, c => match calcAlignPatternLocs ver with
    | .ok locs => precalcLoop vs ((ver, locs) :: c)
    | .err e => .err e
    | .panic p => .panic p

/-- version.go:15, 437 package initialisation: versions 2..40. -/
def initialCache : Res AlignCache := precalcLoop ((List.range 39).map (· + 2)) []

/-- version.go:417 `loadAlignmentPatternLocV2`: locations, the cache afterwards, and whether it wrote. -/
def loadAlignmentPatternLocV2 (c : AlignCache) (ver : Nat) : Res (List Loc × AlignCache) :=
  if ver < 2 then .ok ([], c)
  else match c.lookup ver with
    | some locs => .ok (locs, c)
    | none => match calcAlignPatternLocs ver with
      | .ok locs => .ok (locs, (ver, locs) :: c)
      | .err e => .err e
      | .panic p => .panic p

/-- version.go:386 `loadAlignmentPatternLoc` (deprecated, same computation under the lock). -/
def loadAlignmentPatternLoc (c : AlignCache) (ver : Nat) : Res (List Loc × AlignCache) :=
  if ver < 2 then .ok ([], c)
  else match c.lookup ver with
    | some locs => .ok (locs, c)
    | none => match alignPatternLocation.lookup ver with
      | none => .panic .noAlign
      | some positions =>
        let locs := positions.flatMap fun (p1 : Nat) => positions.filterMap fun (p2 : Nat) =>
          if validLoc p1 p2 (ver * 4 + 17) then some ((p1 : Int), (p2 : Int)) else none
        .ok (locs, (ver, locs) :: c)

end QR
