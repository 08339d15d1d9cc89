import Verif.Model.Matrix
/-!
# The terminal writer (writer/terminal/writer.go)

The termbox library is modelled by its cell buffer: `SetCell` outside the terminal is ignored (as in termbox-go), `Flush`
shows the buffer, `PollEvent` delivers an event.
-/
namespace QR.Terminal
open QR

/-- A termbox cell: character and colours (`termbox.Attribute`). -/
structure Cell where
  ch : Nat
  fg : Nat
  bg : Nat
  deriving DecidableEq, Repr

/-- termbox-go's colours: ColorDefault 0, ColorBlack 1, ..., ColorWhite 8. -/
def colorDefault : Nat := 0
def colorBlack : Nat := 1
def colorWhite : Nat := 8

/-- '█' U+2588 -/
def fullBlock : Nat := 0x2588

/-- The cell buffer of a terminal of `cols` × `rows` cells. -/
structure Screen where
  cols : Nat
  rows : Nat
  cells : Int × Int → Option Cell

/-- termbox-go's `SetCell`: cells outside the buffer are ignored. -/
def Screen.setCell (s : Screen) (x y : Int) (c : Cell) : Screen :=
  if x < 0 ∨ x ≥ s.cols then s
  else if y < 0 ∨ y ≥ s.rows then s
  else { s with cells := fun p => if p = (x, y) then some c else s.cells p }

/-- writer/terminal/writer.go:41-47 `drawBlock` -/
def drawBlock (s : Screen) (x y padding : Int) (fg bg : Nat) : Screen :=
  let x1 := x * 2 + 2 * padding
  let y1 := y + padding
  let x2 := x1 + 1
  let y2 := y1
  (s.setCell x1 y1 ⟨fullBlock, fg, bg⟩).setCell x2 y2 ⟨fullBlock, fg, bg⟩

/-- writer/terminal/writer.go:31-37 `preDraw` -/
def preDraw (s : Screen) (width height padding : Nat) (bg : Nat) : Screen :=
  (List.range (width + 2 * padding)).foldl (fun (s : Screen) (i : Nat) =>
    (List.range (height + 2 * padding)).foldl (fun (s : Screen) (j : Nat) => drawBlock s i j 0 bg bg) s) s

/-- writer/terminal/writer.go:79-80: the characters of "Press any key to quit.". -/
def tip : List Nat := "Press any key to quit.".toList.map fun c => c.toNat

/-- writer/terminal/writer.go:78-89 `printTip`; `runeWidth` and `ambiguous` are the functions of the go-runewidth library
(arbitrary here). -/
def printTip (runeWidth : Nat → Nat) (ambiguous : Nat → Bool) (s : Screen) (y : Int) : Screen :=
  (tip.foldl (fun (st : Screen × Int) r =>
    let w := runeWidth r
    let w := if w = 0 ∨ (w = 2 ∧ ambiguous r = true) then 1 else w
    (st.1.setCell st.2 y ⟨r, colorDefault, colorDefault⟩, st.2 + (w : Int))) (s, 0)).1

/-- writer/terminal/writer.go:58-72 the buffer `Write` has made when it calls `hold`. -/
def render (runeWidth : Nat → Nat) (ambiguous : Nat → Bool) (s : Screen) (m : Matrix) : Screen :=
  let bg := colorWhite
  let padding := 1
  let s := preDraw s m.width m.height padding bg
  let (s, curRow) := (m.iterate .row).foldl (fun (st : Screen × Nat) (x, y, state) =>
    let fg := if state.qrbool then colorBlack else colorWhite
    (drawBlock st.1 x y padding fg bg, y)) (s, 0)
  printTip runeWidth ambiguous s ((curRow + 2 * padding + 1 + 1 : Nat) : Int)

/-- An event of `termbox.PollEvent`. -/
inductive Event | key | resize | mouse | error | interrupt | raw | none
  deriving DecidableEq, Repr

/-- How `hold` ends. -/
inductive HoldOut
  /-- the error of `Flush` -/
  | flushError (e : Nat)
  | ok
  /-- it is still waiting after the given events -/
  | waiting
  deriving DecidableEq, Repr

/-- writer/terminal/writer.go:91-105 `hold`, on the events that arrive; result and number of events consumed. -/
def hold (flush : Option Nat) (events : List Event) : HoldOut × Nat :=
  match flush with
  | some e => (.flushError e, 0)
  | none => wait events 0
where
  wait : List Event → Nat → HoldOut × Nat
    | [], n => (.waiting, n)
    | .key :: _, n => (.ok, n + 1)
    | _ :: es, n => wait es (n + 1)

end QR.Terminal
