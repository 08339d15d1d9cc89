import Verif.Model.Examples
import Verif.Props.Ascii
import Verif.Props.ScanHalftonePixels
import Verif.Props.ScanWriters
import Verif.Props.ScanCustom
/-!
# C86: the programs under example/ produce pictures that can be read
-/
namespace QR.Examples
open QR QR.Matrix QR.Standard Spec

/-- What the theorems below say of a program: for every ASCII text of at most 1273 characters `New` succeeds, the image options are accepted, the picture is drawn, and it can be read. -/
def Reads (E : Ext) (c : AlignCache) (arrival : List Nat) (r : Run) (readable : Opts → QRCode → List DrawOp → Bytes → Prop) (scale : Scaler) : Prop :=
  ∃ o, newWithWriter false r.image = some o ∧ ∀ text, AllAscii text → text.length ≤ 1273 →
    ∃ q ops o', newWith E c arrival .string text r.encode = .ok q ∧ draw scale o q.mat = some (ops, o') ∧ readable o q ops text

/-- The pixels at the centres of the blocks give the text: dark are the opaque ones that do not have the background colour (`seenInk`). -/
def CentresGive (unsjis : Nat → Option Nat) (cov : Coverage) (assembled : Nat → DrawFn × DrawFn) (blend : Blend) (put : Put) (direction : Rat → Rat × Rat)
    (o : Opts) (q : QRCode) (ops : List DrawOp) (text : Bytes) : Prop :=
  ∃ cv, paintAllShapes cov (meaning assembled) blend put direction ops = some cv ∧
    ∀ pt, AtCentres o q.dimension pt → decode unsjis (seenInk o q.dimension cv pt) = some (nats text)

/-- The programs without a logo whose blocks have at least 10 pixels, `halftoneImage` being what was read from the file. -/
def programs (halftoneImage : Option Image) : List Run :=
  [circleShape, borderWidth, bgTransparent, bgFgColor, fgGradient, halftone halftoneImage, halftoneTransparent halftoneImage, simple, minimumVersion, automaticVersion, gradientLow, assembleShape, migrating]

theorem reads_of {E : Ext} {unsjis : Nat → Option Nat} (hE : E.Ok unsjis) {c : AlignCache} (hc : CacheReachable c) {arrival : List Nat} (ha : Arrival arrival) {r : Run}
    (hv : versionIn r.encode = none) (hm : modeIn r.encode = encAuto ∨ modeIn r.encode = encByte) {o : Opts} (ho : newWithWriter false r.image = some o)
    (scale : Scaler) {cov : Coverage} (hcov : Rasters cov) (blend : Blend) {put : Put} (hput : PutsOver put) (direction : Rat → Rat × Rat) (assembled : Nat → DrawFn × DrawFn)
    (hw : 12 ≤ o.qrBlockWidth) (hbold : (meaning assembled o.getShape).bold) (hht : o.halftone = none ∨ o.getShape = .rectangle)
    (hcol : Contrast o) (hg : ∀ g, o.qrGradient = some g → GradientContrast o g)
    (hb : 0 ≤ o.borders.top ∧ 0 ≤ o.borders.right ∧ 0 ≤ o.borders.bottom ∧ 0 ≤ o.borders.left) (hl : o.logo = none) :
    Reads E c arrival r (CentresGive unsjis cov assembled blend put direction) scale := by
  refine ⟨o, ho, fun text h1 h2 => ?_⟩
  obtain ⟨q, hq⟩ := C04_ascii hE hc ha hv hm h1 h2
  have hx : ¬ (modeIn r.encode = encAuto ∧ AlnumThenKanji E.sjis (nats text)) := fun h => ascii_not_mixed h1 h.2
  cases hh : o.halftone with
  | none =>
    obtain ⟨ops, o', cv, d1, d2, d3⟩ := C83_shapes hE hc ha hq hx scale hcov blend hput direction assembled (by omega) hbold hh hcol hg hb (fun img hi => by rw [hl] at hi; cases hi)
    exact ⟨q, ops, o', hq, d1, cv, d2, d3⟩
  | some himg =>
    have hrect : o.getShape = .rectangle := by
      rcases hht with h | h
      · rw [hh] at h; cases h
      · exact h
    obtain ⟨ops, o', cv, d1, d2, d3⟩ := C84_halftone hE hc ha hq hx scale hcov blend hput direction assembled hh ⟨hw, .inl hrect⟩ hbold hcol hg hb (fun img hi => by rw [hl] at hi; cases hi)
    exact ⟨q, ops, o', hq, d1, cv, d2, d3⟩

/-- **C86.**  Each of these programs, given any ASCII text of at most 1273 characters instead of its own, draws a picture that a scanner which looks at the pixels at the centres of the blocks reads
as exactly this text - whatever the halftone image shows, in every schedule of the mask computation. -/
theorem C86_programs {E : Ext} {unsjis : Nat → Option Nat} (hE : E.Ok unsjis) {c : AlignCache} (hc : CacheReachable c) {arrival : List Nat} (ha : Arrival arrival)
    (scale : Scaler) {cov : Coverage} (hcov : Rasters cov) (blend : Blend) {put : Put} (hput : PutsOver put) (direction : Rat → Rat × Rat) (halftoneImage : Option Image) :
    ∀ r ∈ programs halftoneImage, Reads E c arrival r (CentresGive unsjis cov (fun _ => (.roundedFinder, .liquidBlock)) blend put direction) scale := by
  have dc : Contrast defaultOpts := ⟨by decide, by decide⟩
  have db : (0 : Int) ≤ defaultOpts.borders.top ∧ 0 ≤ defaultOpts.borders.right ∧ 0 ≤ defaultOpts.borders.bottom ∧ 0 ≤ defaultOpts.borders.left := by decide
  have dw : (12 : Int) ≤ defaultOpts.qrBlockWidth := by decide
  have d21 : (12 : Int) ≤ (if (21 : Int) ≤ 0 ∨ (21 : Int) > 255 then 20 else 21) := by decide
  have dg : gradient.stops ≠ [] := by
    unfold gradient
    rw [newGradient_sorted (by simp; norm_num)]
    simp
  intro r hr
  simp only [programs, List.mem_cons, List.not_mem_nil, or_false] at hr
  rcases hr with rfl | rfl | rfl | rfl | rfl | rfl | rfl | rfl | rfl | rfl | rfl | rfl | rfl
  · exact reads_of hE hc ha (r := circleShape) (by decide) (by decide) (o := { defaultOpts with shape := some .circle }) rfl scale hcov blend hput direction _ dw trivial
      (.inl rfl) ⟨dc.fg, dc.bg⟩ (fun g hg => by cases hg) db rfl
  · exact reads_of hE hc ha (r := borderWidth) (by decide) (by decide) (o := { defaultOpts with borders := ⟨10, 10, 10, 10⟩ }) rfl scale hcov blend hput direction _ dw trivial
      (.inl rfl) ⟨dc.fg, dc.bg⟩ (fun g hg => by cases hg) (by decide) rfl
  · exact reads_of hE hc ha (r := bgTransparent) (by decide) (by decide) (o := { defaultOpts with imageEncoder := .png, bgTransparent := true }) rfl scale hcov blend hput direction _ dw trivial
      (.inl rfl) ⟨dc.fg, .inl rfl⟩ (fun g hg => by cases hg) db rfl
  · exact reads_of hE hc ha (r := bgFgColor) (by decide) (by decide) (o := { defaultOpts with qrColor := ⟨135, 206, 235, 255⟩, bgColor := ⟨124, 252, 0, 255⟩ }) rfl scale hcov blend hput
      direction _ dw trivial (.inl rfl) ⟨rfl, .inr ⟨rfl, by decide⟩⟩ (fun g hg => by cases hg) db rfl
  · exact reads_of hE hc ha (r := fgGradient) (by decide) (by decide) (o := { defaultOpts with qrGradient := some gradient }) (by
        simp only [fgGradient, newWithWriter, List.foldlM_cons, List.foldlM_nil, apply, if_neg dg]; rfl) scale hcov blend hput direction _ dw trivial
      (.inl rfl) ⟨dc.fg, dc.bg⟩ (fun g hg => by cases hg; exact rgb_contrast rfl rfl) db rfl
  · cases halftoneImage with
    | none =>
      exact reads_of hE hc ha (r := halftone none) (by decide) (by decide) (o := { defaultOpts with qrWidth := 21 }) rfl scale hcov blend hput direction _ d21 trivial
        (.inl rfl) ⟨dc.fg, dc.bg⟩ (fun g hg => by cases hg) db rfl
    | some img =>
      exact reads_of hE hc ha (r := halftone (some img)) rfl (.inl rfl) (o := { defaultOpts with qrWidth := 21, halftone := some img }) rfl scale hcov blend hput direction _ d21 trivial
        (.inr rfl) ⟨dc.fg, dc.bg⟩ (fun g hg => by cases hg) db rfl
  · cases halftoneImage with
    | none =>
      exact reads_of hE hc ha (r := halftoneTransparent none) (by decide) (by decide) (o := { defaultOpts with qrWidth := 21, imageEncoder := .png, bgTransparent := true }) rfl scale hcov
        blend hput direction _ d21 trivial (.inl rfl) ⟨dc.fg, .inl rfl⟩ (fun g hg => by cases hg) db rfl
    | some img =>
      exact reads_of hE hc ha (r := halftoneTransparent (some img)) rfl (.inl rfl)
        (o := { defaultOpts with qrWidth := 21, halftone := some img, imageEncoder := .png, bgTransparent := true }) rfl scale hcov blend hput direction _ d21 trivial
        (.inr rfl) ⟨dc.fg, .inl rfl⟩ (fun g hg => by cases hg) db rfl
  · exact reads_of hE hc ha (r := simple) (by decide) (by decide) (o := { defaultOpts with qrWidth := 40 }) rfl scale hcov blend hput direction _ (by decide) trivial
      (.inl rfl) ⟨dc.fg, dc.bg⟩ (fun g hg => by cases hg) db rfl
  · exact reads_of hE hc ha (r := minimumVersion) (by decide) (by decide) (o := { defaultOpts with qrWidth := 20 }) rfl scale hcov blend hput direction _ (by decide) trivial
      (.inl rfl) ⟨dc.fg, dc.bg⟩ (fun g hg => by cases hg) db rfl
  · exact reads_of hE hc ha (r := automaticVersion) (by decide) (by decide) (o := { defaultOpts with qrWidth := 20 }) rfl scale hcov blend hput direction _ (by decide) trivial
      (.inl rfl) ⟨dc.fg, dc.bg⟩ (fun g hg => by cases hg) db rfl
  · exact reads_of hE hc ha (r := gradientLow) (by decide) (by decide) (o := { defaultOpts with qrGradient := some gradient }) (by
        simp only [gradientLow, newWithWriter, List.foldlM_cons, List.foldlM_nil, apply, if_neg dg]; rfl) scale hcov blend hput direction _ dw trivial
      (.inl rfl) ⟨dc.fg, dc.bg⟩ (fun g hg => by cases hg; exact rgb_contrast rfl rfl) db rfl
  · exact reads_of hE hc ha (r := assembleShape) (by decide) (by decide) (o := { defaultOpts with shape := some (.custom 0) }) rfl scale hcov blend hput direction _ dw ⟨trivial, trivial⟩
      (.inl rfl) ⟨dc.fg, dc.bg⟩ (fun g hg => by cases hg) db rfl
  · have h1 : parseFromHex (ascii "#0000ff") = some ⟨0, 0, 255, 255⟩ := by decide +kernel
    have h2 : parseFromHex (ascii "#ffffff") = some ⟨255, 255, 255, 255⟩ := by decide +kernel
    have h3 : ascii "#ffffff" ≠ [] := by decide +kernel
    exact reads_of hE hc ha (r := migrating) (by decide +kernel) (by decide +kernel)
      (o := { defaultOpts with shape := some .circle, qrColor := ⟨0, 0, 255, 255⟩, bgColor := ⟨255, 255, 255, 255⟩, qrWidth := 20, borders := ⟨20, 20, 20, 20⟩ }) (by
        simp only [migrating, newWithWriter, List.foldlM_cons, List.foldlM_nil, apply, if_neg h3, h1, h2]; rfl) scale hcov blend hput direction _ (by decide) trivial
      (.inl rfl) ⟨rfl, .inr ⟨rfl, by decide⟩⟩ (fun g hg => by cases hg) (by decide) rfl

/-- **C86, the smallest version** (`with-minimum-version`): the version a reader finds is at least the version 9 asked for, and exactly 9 if the text has at most 130 characters. -/
theorem C86_minimumVersion {E : Ext} {unsjis : Nat → Option Nat} (hE : E.Ok unsjis) {c : AlignCache} (hc : CacheReachable c) {arrival : List Nat} (ha : Arrival arrival)
    {text : Bytes} (h1 : AllAscii text) (h2 : text.length ≤ 1273) :
    ∃ q v, newWith E c arrival .string text minimumVersion.encode = .ok q ∧ readVersion q.mat.bitmap = some v ∧ 9 ≤ v ∧ (text.length ≤ 130 → v = 9) := by
  obtain ⟨q, hq⟩ := C04_ascii hE hc ha (opts := minimumVersion.encode) (by decide) (by decide) h1 h2
  obtain ⟨m, u, hu, _, ⟨⟨u1, u40, _⟩, hleast⟩, hr⟩ := C04_smallest_version hE hc ha hq (by decide)
  have hmin : minimumIn minimumVersion.encode = 9 := by decide
  rw [hmin] at hr
  refine ⟨q, _, hq, hr, by omega, fun hlen => ?_⟩
  have hk : m ≠ .kanji := by
    rintro rfl
    rcases hu with ⟨h, _⟩ | ⟨_, _, hf⟩ | ⟨_, h, _⟩
    · exact absurd h (by decide)
    · obtain ⟨k1, k2, _⟩ := hf
      obtain ⟨x, hx, h128⟩ := kanji_not_ascii k1 (fun e => k2 (by rw [e]; intro b hb; cases hb))
      have := h1 x hx
      omega
    · exact ascii_not_mixed h1 h
  have hfit : fits 9 (levelIn minimumVersion.encode) m (Spec.charCount m (nats text)) := by
    have hn : Spec.charCount m (nats text) ≤ 130 := by
      have hlen' : (nats text).length = text.length := by simp [nats]
      cases m <;> simp only [Spec.charCount]
      all_goals first | exact (List.countP_le_length).trans (by omega) | omega
    have := payloadBits_mono m hn
    unfold fits
    have hmax : 4 + countWidth 9 m + payloadBits m 130 ≤ 8 * dataCodewords 9 (levelIn minimumVersion.encode) := by
      cases m <;> first | decide +kernel | exact absurd rfl hk
    omega
  have : u ≤ 9 := Nat.le_of_not_lt fun h => hleast 9 (by decide) h hfit
  omega

/-- **C86, blocks of 8 pixels** (`createQRWithQRWidth`): any one pixel of every block gives the text; dark are the black ones. -/
theorem C86_qrWidth {E : Ext} {unsjis : Nat → Option Nat} (hE : E.Ok unsjis) {c : AlignCache} (hc : CacheReachable c) {arrival : List Nat} (ha : Arrival arrival)
    (scale : Scaler) (blend : Blend) :
    Reads E c arrival qrWidth (fun o q ops text => ∃ cv, paintAllImg blend ops = some cv ∧ ∀ pt, InBlocks o q.dimension pt → decode unsjis (seen o q.dimension cv pt) = some (nats text)) scale := by
  have dc : Contrast defaultOpts := ⟨by decide, by decide⟩
  have db : (0 : Int) ≤ defaultOpts.borders.top ∧ 0 ≤ defaultOpts.borders.right ∧ 0 ≤ defaultOpts.borders.bottom ∧ 0 ≤ defaultOpts.borders.left := by decide
  refine ⟨{ defaultOpts with qrWidth := 8 }, rfl, fun text h1 h2 => ?_⟩
  obtain ⟨q, hq⟩ := C04_ascii hE hc ha (opts := []) (by decide) (by decide) h1 h2
  obtain ⟨ops, o', cv, d1, d2, d3⟩ := C70_picture hE hc ha hq (fun h => ascii_not_mixed h1 h.2) scale blend (o := { defaultOpts with qrWidth := 8 }) ⟨.inr rfl, rfl, rfl⟩ ⟨dc.fg, dc.bg⟩ db
    (fun img hi => by cases hi)
  exact ⟨q, ops, o', hq, d1, cv, d2, d3⟩

/-- **C86, with a logo** (`createQRWithLogo`): whatever the logo shows and whatever its size, a scanner that corrects errors reads the text from any one pixel of every block. -/
theorem C86_logo {E : Ext} {unsjis : Nat → Option Nat} (hE : E.Ok unsjis) (hRS : E.rs = rsEncode) {c : AlignCache} (hc : CacheReachable c) {arrival : List Nat} (ha : Arrival arrival)
    (scale : Scaler) (blend : Blend) {img : Image} (hmin : img.minX = 0 ∧ img.minY = 0) (hmax : 0 ≤ img.maxX ∧ 0 ≤ img.maxY) :
    Reads E c arrival (logo (some img)) (fun o q ops text => ∃ cv, paintAllImg blend ops = some cv ∧
      ∀ pt, InBlocks o q.dimension pt → decodeDamaged unsjis (seen o q.dimension cv pt) = some (nats text)) scale := by
  have dc : Contrast defaultOpts := ⟨by decide, by decide⟩
  have d2 : 0 ≤ defaultOpts.borders.left ∧ defaultOpts.borders.left ≤ 2 * defaultOpts.qrBlockWidth ∧ defaultOpts.borders.right = defaultOpts.borders.left := by decide
  have d3 : 0 ≤ defaultOpts.borders.top ∧ defaultOpts.borders.top ≤ 2 * defaultOpts.qrBlockWidth ∧ defaultOpts.borders.bottom = defaultOpts.borders.top := by decide
  have d4 : (5 : Int) ≤ defaultOpts.logoSizeMultiplier := by decide
  refine ⟨{ defaultOpts with logo := some img }, rfl, fun text h1 h2 => ?_⟩
  obtain ⟨q, hq⟩ := C04_ascii hE hc ha (opts := []) (by decide) (by decide) h1 h2
  obtain ⟨v, _, hd, _⟩ := C11_dimension hE hc ha hq
  obtain ⟨ops, o', cv, e1, e2, e3⟩ := C69_logo hE hRS hc ha hq (fun h => ascii_not_mixed h1 h.2) (v := v) (by omega) (fun h => by
      rcases h with ⟨h, _⟩ | ⟨h, _⟩ <;> exact absurd h (by decide)) scale blend (o := { defaultOpts with logo := some img }) ⟨.inr rfl, rfl, rfl⟩ ⟨dc.fg, dc.bg⟩ d2 d3 rfl hmin hmax d4
  exact ⟨q, ops, o', hq, e1, cv, e2, e3⟩

/-- **C86, the shape of the user's** (example/with-custom-shape): the pixels in the middle of the blocks give the text. -/
theorem C86_customShape {E : Ext} {unsjis : Nat → Option Nat} (hE : E.Ok unsjis) {c : AlignCache} (hc : CacheReachable c) {arrival : List Nat} (ha : Arrival arrival)
    (scale : Scaler) {cov : Coverage} (hcov : Rasters cov) (blend : Blend) {put : Put} (hput : PutsOver put) (direction : Rat → Rat × Rat) :
    Reads E c arrival ⟨[], [.customShape (some (.custom 0))]⟩ (fun o q ops text => ∃ cv, paintAllUser (smallerCircle cov) (float64Round (7 / 10), []) blend put direction ops = some cv ∧
      decode unsjis (seenInk o q.dimension cv fun x y => (40 + x * 20 + 10, 40 + y * 20 + 10)) = some (nats text)) scale := by
  refine ⟨{ defaultOpts with shape := some (.custom 0) }, rfl, fun text h1 h2 => ?_⟩
  obtain ⟨q, hq⟩ := C04_ascii hE hc ha (opts := []) (by decide) (by decide) h1 h2
  obtain ⟨ops, o', cv, d1, d2, d3⟩ := C85_example hE hc ha hq (fun h => ascii_not_mixed h1 h.2) scale hcov blend hput direction 0
  exact ⟨q, ops, o', hq, d1, cv, d2, d3⟩

/-- **C86, the other writers** (example/use-file-writer, example/use-terminal-writer): what is written to a sink that accepts everything can be read, and so can a terminal that is large enough. -/
theorem C86_writers {E : Ext} {unsjis : Nat → Option Nat} (hE : E.Ok unsjis) {c : AlignCache} (hc : CacheReachable c) {arrival : List Nat} (ha : Arrival arrival)
    {text : Bytes} (h1 : AllAscii text) (h2 : text.length ≤ 1273) :
    ∃ q, newWith E c arrival .string text [] = .ok q ∧
      (∀ sink : FileWriter.Sink, (∀ i, sink i = none) →
        ∃ out lines, FileWriter.write (some sink) q.mat = some (out, none) ∧ runes out = lines.flatMap (fun l => l ++ [10]) ∧
          decode unsjis ((List.range q.dimension).map fun y => (List.range q.dimension).map fun x => decide (inkAt lines x y = some true)) = some (nats text)) ∧
      (∀ (s : Terminal.Screen) (runeWidth : Nat → Nat) (ambiguous : Nat → Bool) (half : Nat → Nat → Bool), 2 * (q.dimension + 2) ≤ s.cols → q.dimension + 2 ≤ s.rows →
        decode unsjis ((List.range q.dimension).map fun y => (List.range q.dimension).map fun x =>
          decide (((Terminal.render runeWidth ambiguous s q.mat).cells ((2 * x + 2 + (half x y).toNat : Nat), (y + 1 : Nat))).map (·.fg) = some Terminal.colorBlack)) = some (nats text)) := by
  obtain ⟨q, hq⟩ := C04_ascii hE hc ha (opts := []) (by decide) (by decide) h1 h2
  refine ⟨q, hq, fun sink hs => ?_, fun s rw am half g1 g2 => C71_terminal hE hc ha hq (fun h => ascii_not_mixed h1 h.2) s rw am g1 g2 half⟩
  obtain ⟨out, lines, e1, e2, _, e3⟩ := C71_file hE hc ha hq (fun h => ascii_not_mixed h1 h.2) hs
  exact ⟨out, lines, e1, e2, e3⟩

/-- The texts of the programs themselves are meant. -/
example : ∀ s ∈ ["https://github.com/yeqown/go-qrcode", "github.com/yeqown/go-qrcode", "Hello", "with-custom-shape", "with_file_writer", "with_terminal"],
    AllAscii (ascii s) ∧ (ascii s).length ≤ 1273 := by
  unfold AllAscii
  decide +kernel

end QR.Examples
