import Verif.Model.Matrix
import Verif.Model.Compressed
/-!
# Debugging (debug.go)

The log lines are not modelled.  `_debugOnce.Do` runs its function at the first call; the switch is read and written without
synchronisation, so the model is for calls that do not overlap.
-/
namespace QR.Debug
open QR
open QR.Compressed (intRange)

/-- debug.go:14-18 `_debug`, and whether `_debugOnce` has run. -/
structure Switch where
  debug : Bool
  once : Bool
  deriving DecidableEq, Repr

/-- The state at the start of the program. -/
def Switch.init : Switch := ⟨false, false⟩

/-- debug.go:23-26 the values of `QRCODE_DEBUG` that enable debugging. -/
def enabling (v : String) : Bool :=
  v = "1" ∨ v = "true" ∨ v = "TRUE" ∨ v = "enabled" ∨ v = "ENABLED"

/-- debug.go:20 `debugEnabled`; `env` is `os.Getenv("QRCODE_DEBUG")` at the time of the call. -/
def debugEnabled (s : Switch) (env : String) : Bool × Switch :=
  let s := if s.once then s else { debug := if enabling env then true else s.debug, once := true }
  (s.debug, s)

/-- debug.go:34 `SetDebugMode` -/
def setDebugMode (s : Switch) : Switch := { s with debug := true }

/-- Go's `image.Gray16` of `image.Rect(0, 0, width, height)` with `width, height ≥ 0`. -/
structure Gray16 where
  width : Int
  height : Int
  pix : Int → Int → UInt16

/-- Go's `(*Gray16).SetGray16` -/
def Gray16.set (g : Gray16) (x y : Int) (c : UInt16) : Gray16 :=
  if 0 ≤ x ∧ x < g.width ∧ 0 ≤ y ∧ y < g.height then { g with pix := fun a b => if a = x ∧ b = y then c else g.pix a b } else g

/-- debug.go:74-80 the local function `rectangle` -/
def rectangle (x1 y1 x2 y2 : Int) (img : Gray16) (c : UInt16) : Gray16 :=
  (intRange x1 x2).foldl (fun img x => (intRange y1 y2).foldl (fun img y => img.set x y c) img) img

/-- debug.go:62-104 `debugDrawTo`: the image handed to the JPEG encoder (if debugging is enabled). -/
def debugPicture (m : Matrix) : Gray16 :=
  let padding : Int := 10
  let blockWidth : Int := 10
  let width := (m.width : Int) * blockWidth + 2 * padding
  let height := width
  let img : Gray16 := ⟨width, height, fun _ _ => 0⟩
  let img := rectangle 0 0 width height img 0xff12
  (m.iterate .column).foldl (fun img a =>
    rectangle (a.1 * blockWidth + padding) (a.2.1 * blockWidth + padding) ((a.1 + 1) * blockWidth + padding) ((a.2.1 + 1) * blockWidth + padding) img
      (if a.2.2.bit then 0x0000 else 0xffff)) img

end QR.Debug
