import Verif.Model.Matrix
import Verif.Model.Version
/-!
# Function patterns and data placement (qrcode.go:362-638, 731-792)
-/
namespace QR

/-- The walk used by `addFinder` and `addAlignment`: `n` modules per side, `4 n` steps, starting at
`(x, y)`, going right, down, left, up (qrcode.go:409-420, 424-435, 481-492, 495-506). -/
def ringWalk (side : Nat) (v : QRValue) : Nat → Nat → Int → Int → Matrix → Matrix
  | 0, _, _, _, m => m
  | n + 1, i, x, y, m =>
    let m := m.set x y v
    if i < side then ringWalk side v n (i + 1) (x + 1) y m
    else if i < 2 * side then ringWalk side v n (i + 1) x (y + 1) m
    else if i < 3 * side then ringWalk side v n (i + 1) (x - 1) y m
    else ringWalk side v n (i + 1) x (y - 1) m

/-- qrcode.go:438-442: `x` over `left+2..left+4`, `y` over `top+2..top+4`. -/
def finderCore (m : Matrix) (top left : Int) : Matrix :=
  [0, 1, 2].foldl (fun m (i : Int) => [0, 1, 2].foldl
    (fun m (j : Int) => m.set (left + 2 + i) (top + 2 + j) FINDER_V1) m) m

/-- qrcode.go:406 `addFinder` -/
def addFinder (m : Matrix) (top left : Int) : Matrix :=
  let m := ringWalk 6 FINDER_V1 24 0 top left m
  let m := ringWalk 4 FINDER_V0 16 0 (top + 1) (left + 1) m
  finderCore m top left

/-- qrcode.go:446 `addSplitter` -/
def addSplitter (m : Matrix) (x y dimension : Int) : Matrix :=
  let ps : List Int := [0, 1, 2, 3, 4, 5, 6, 7]
  if x = 7 ∧ y = 7 then
    ps.foldl (fun m pos => (m.set x pos SPLITTER_V0).set pos y SPLITTER_V0) m
  else if x = dimension - 8 ∧ y = 7 then
    ps.foldl (fun m pos => (m.set x (y - pos) SPLITTER_V0).set (x + pos) y SPLITTER_V0) m
  else if x = 7 ∧ y = dimension - 8 then
    ps.foldl (fun m pos => (m.set x (y + pos) SPLITTER_V0).set (x - pos) y SPLITTER_V0) m
  else m

/-- qrcode.go:477 `addAlignment` -/
def addAlignment (m : Matrix) (cx cy : Int) : Matrix :=
  let m := m.set cx cy DATA_V1
  let m := ringWalk 4 DATA_V1 16 0 (cx - 2) (cy - 2) m
  ringWalk 2 DATA_V0 8 0 (cx - 1) (cy - 1) m

/-- qrcode.go:511-519 the loop of `addTimingLine`, `n` positions from `pos`. -/
def timingLoop : Nat → Nat → Matrix → Matrix
  | 0, _, m => m
  | n + 1, pos, m =>
    let v := if pos % 2 = 0 then TIMING_V1 else TIMING_V0
    timingLoop n (pos + 1) ((m.set 6 (pos : Nat) v).set (pos : Nat) 6 v)

/-- qrcode.go:510 `addTimingLine`: positions `8 .. dimension-9`. -/
def addTimingLine (m : Matrix) (dimension : Nat) : Matrix := timingLoop (dimension - 16) 8 m

/-- qrcode.go:523 `addDarkBlock` -/
def addDarkBlock (m : Matrix) (x y : Int) : Matrix := m.set x y DARK_V1

/-- qrcode.go:528 `reserveFormatBlock` -/
def reserveFormatBlock (m : Matrix) (dimension : Int) : Matrix :=
  let m := ([1, 2, 3, 4, 5, 6, 7, 8] : List Int).foldl (fun m pos =>
    if pos = 6 then
      (m.set 8 (dimension - pos) FORMAT_V0).set (dimension - pos) 8 FORMAT_V0
    else if pos = 8 then
      ((m.set 8 pos FORMAT_V0).set pos 8 FORMAT_V0).set (dimension - pos) 8 FORMAT_V0
    else
      (((m.set 8 pos FORMAT_V0).set pos 8 FORMAT_V0).set (dimension - pos) 8 FORMAT_V0).set
        8 (dimension - pos) FORMAT_V0) m
  (m.set 0 8 FORMAT_V0).set 8 0 FORMAT_V0

/-- qrcode.go:555 `reserveVersionBlock` -/
def reserveVersionBlock (m : Matrix) (dimension : Int) : Matrix :=
  ([1, 2, 3] : List Int).foldl (fun m i => ([0, 1, 2, 3, 4, 5] : List Int).foldl (fun m pos =>
    (m.set (dimension - 8 - i) pos VERSION_V0).set pos (dimension - 8 - i) VERSION_V0) m) m

/-- qrcode.go:364 `prefillMatrix`; `locs` is the result of `loadAlignmentPatternLocV2`. -/
def prefill (m : Matrix) (ver : Nat) (locs : List Loc) : Matrix :=
  let dim := ver * 4 + 17
  let d : Int := (dim : Nat)
  let m := addFinder m 0 0
  let m := addSplitter m 7 7 d
  let m := addFinder m (d - 7) 0
  let m := addSplitter m (d - 8) 7 d
  let m := addFinder m 0 (d - 7)
  let m := addSplitter m 7 (d - 8) d
  let m := if ver > 1 then locs.foldl (fun m l => addAlignment m l.1 l.2) m else m
  let m := addTimingLine m dim
  let m := addDarkBlock m 8 ((4 * ver + 9 : Nat) : Int)
  let m := reserveFormatBlock m d
  if ver ≥ 7 then reserveVersionBlock m d else m

/-- qrcode.go:577-635 the loop of `fillDataBinary`.  `bits` is the stream from `pos` on, so the condition
`pos < l` is `bits ≠ []`; `i` is the loop counter.  `none` = out of fuel (proved unreachable). -/
def fillLoop : Nat → Matrix → Bits → Int → Int → Bool → Nat → Option Matrix
  | _, m, [], _, _, _, _ => some m
  | 0, _, _ :: _, _, _, _, _ => none
  | fuel + 1, m, b :: rest, x, y, up, i =>
    let set := if b then DATA_V1 else DATA_V0
    let r := m.atE x y
    if r.2 = some .outRangeOfW then some m          -- break
    else
      -- turn around
      let turn := r.2 = some .outRangeOfH
      let x1 := if turn then (let x' := x - 2; if x' = 7 ∨ x' = 6 then x' - 1 else x') else x
      let y1 := if turn then (if up then y + 1 else y - 1) else y
      let up1 := if turn then !up else up
      let state := if turn then m.at' x1 y1 else r.1
      let isInit := state.qrtype = .init
      let m' := if isInit then m.set x1 y1 set else m
      let bits' := if isInit then rest else b :: rest
      let x2 := if i % 2 = 0 then x1 - 1 else x1 + 1
      let y2 := if i % 2 = 0 then y1 else if up1 then y1 - 1 else y1 + 1
      fillLoop fuel m' bits' x2 y2 up1 (i + 1)

/-- qrcode.go:568 `fillDataBinary` -/
def fillDataBinary (m : Matrix) (dimension : Nat) (bits : Bits) : Option Matrix :=
  fillLoop (dimension * dimension + 1) m bits ((dimension : Int) - 1) ((dimension : Int) - 1) true 0

/-- qrcode.go:762-791 the loop of `fillFormatInfo`. -/
def formatLoop (dimension : Int) : Bits → Int → Int → Matrix → Matrix
  | [], _, _, m => m
  | b :: bs, x, y, m =>
    let v := if b then FORMAT_V1 else FORMAT_V0
    let m := (m.set x 8 v).set 8 y v
    let x := x + 1
    let y := y - 1
    let x' := if x = 6 then 7 else if x = 8 then dimension - 8 else x
    let y' := if y = dimension - 8 then 8 else if y = 6 then 5 else y
    formatLoop dimension bs x' y' m

/-- qrcode.go:755 `fillFormatInfo` with the 15 format bits (the loop runs `pos` over 0..14). -/
def fillFormatInfo (m : Matrix) (bits : Bits) (dimension : Nat) : Matrix :=
  formatLoop dimension ((List.range 15).map (bitAt bits)) 0 ((dimension : Int) - 1) m

/-- qrcode.go:738-749: the cells `(i, j)` in the order visited: `j = 5..0`, `i = 1..3`. -/
def versionCells : List (Int × Int) :=
  ([5, 4, 3, 2, 1, 0] : List Int).flatMap fun j => ([1, 2, 3] : List Int).map fun i => (i, j)

/-- qrcode.go:733 `fillVersionInfo` with the 18 version bits. -/
def fillVersionInfo (m : Matrix) (bits : Bits) (dimension : Nat) : Matrix :=
  (versionCells.zip ((List.range 18).map (bitAt bits))).foldl (fun m (c, b) =>
    let v := if b then VERSION_V1 else VERSION_V0
    (m.set ((dimension : Int) - 8 - c.1) c.2 v).set c.2 ((dimension : Int) - 8 - c.1) v) m

end QR
