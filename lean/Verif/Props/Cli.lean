import Verif.Model.Cli
import Verif.Spec.Decimal
import Verif.Props.ImageOptions
import Verif.Props.Total
/-!
# C51, C57: the command line
-/
namespace QR.Cli
open QR Standard

/-- The bytes of a string as numbers. -/
def codes (s : Bytes) : List Nat := s.map UInt8.toNat

/-! ## Splitting -/

/-- `split` is inverse to joining with the separator. -/
theorem split_join (sep : UInt8) : ∀ (s : Bytes), (split sep s ≠ []) ∧ (∀ p ∈ split sep s, sep ∉ p) ∧
    s = List.intercalate [sep] (split sep s) := by
  intro s
  induction s with
  | nil => refine ⟨by simp [split], by simp [split], by simp [split, List.intercalate]⟩
  | cons b s ih =>
    obtain ⟨h1, h2, h3⟩ := ih
    obtain ⟨x, xs, hx⟩ := List.exists_cons_of_ne_nil h1
    unfold split
    by_cases hb : b = sep
    · rw [if_pos hb]
      refine ⟨by simp, ?_, ?_⟩
      · intro p hp
        rcases List.mem_cons.1 hp with hp | hp
        · rw [hp]; simp
        · exact h2 p hp
      · conv => lhs; rw [h3]
        rw [hx, hb]
        simp [List.intercalate]
    · rw [if_neg hb, hx]
      refine ⟨by simp, ?_, ?_⟩
      · intro p hp
        simp only [List.mem_cons] at hp
        rcases hp with hp | hp
        · rw [hp]
          have := h2 x (by rw [hx]; simp)
          simp only [List.mem_cons, not_or]
          exact ⟨fun hc => hb hc.symm, this⟩
        · exact h2 p (by rw [hx]; simp [hp])
      · conv => lhs; rw [h3]
        rw [hx]
        cases xs <;> simp [List.intercalate]

theorem split_noSep {sep : UInt8} {p : Bytes} (h : sep ∉ p) : split sep p = [p] := by
  induction p with
  | nil => rfl
  | cons b p ih =>
    simp only [List.mem_cons, not_or] at h
    unfold split
    rw [if_neg (fun hc => h.1 hc.symm), ih h.2]

theorem split_append {sep : UInt8} {p : Bytes} (h : sep ∉ p) (s : Bytes) : split sep (p ++ sep :: s) = p :: split sep s := by
  induction p with
  | nil => simp [split]
  | cons b p ih =>
    simp only [List.mem_cons, not_or] at h
    rw [List.cons_append, split, if_neg (fun hc => h.1 hc.symm), ih h.2]

/-! ## Numbers -/

theorem parseLoop_spec : ∀ (s : Bytes) (n v : Nat), n ≤ 255 → (parseLoop n s = some v ↔
    (∀ d ∈ codes s, 48 ≤ d ∧ d ≤ 57) ∧ (codes s).foldl (fun v d => 10 * v + (d - 48)) n = v ∧ v ≤ 255) := by
  intro s
  induction s with
  | nil =>
    intro n v hn
    simp only [parseLoop, codes, List.map_nil, List.not_mem_nil, false_implies, implies_true, List.foldl_nil, true_and, Option.some.injEq]
    constructor
    · rintro rfl; exact ⟨rfl, hn⟩
    · exact fun h => h.1
  | cons b s ih =>
    intro n v hn
    have mono : ∀ (l : List Nat) (m : Nat), m ≤ l.foldl (fun v d => 10 * v + (d - 48)) m := by
      intro l
      induction l with
      | nil => intro m; simp
      | cons x l ih => intro m; rw [List.foldl_cons]; refine Nat.le_trans ?_ (ih _); omega
    unfold parseLoop
    simp only [codes, List.map_cons, List.mem_cons, forall_eq_or_imp, List.foldl_cons]
    by_cases hb : 0x30 ≤ b.toNat ∧ b.toNat ≤ 0x39
    · rw [if_pos hb]
      have e : n * 10 + (b.toNat - 0x30) = 10 * n + (b.toNat - 48) := by omega
      rw [e]
      by_cases hv : 10 * n + (b.toNat - 48) > 255
      · rw [if_pos hv]
        constructor
        · intro h; cases h
        · rintro ⟨_, h2, h3⟩
          have := mono (codes s) (10 * n + (b.toNat - 48))
          unfold codes at this
          omega
      · rw [if_neg hv, ih _ _ (by omega)]
        constructor
        · rintro ⟨h1, h2, h3⟩; exact ⟨⟨hb, h1⟩, h2, h3⟩
        · rintro ⟨⟨_, h1⟩, h2, h3⟩; exact ⟨h1, h2, h3⟩
    · rw [if_neg hb]
      constructor
      · intro h; cases h
      · rintro ⟨⟨h, _⟩, _⟩; exact absurd h hb

theorem parseUint8_spec (s : Bytes) (v : Nat) : parseUint8 s = some v ↔ Spec.IsDecimal (codes s) v ∧ v ≤ 255 := by
  unfold parseUint8 Spec.IsDecimal Spec.decimalValue
  by_cases h : s = []
  · subst h; simp [codes]
  · rw [if_neg h, parseLoop_spec s 0 v (by omega)]
    have : codes s ≠ [] := by simpa [codes] using h
    constructor
    · rintro ⟨h1, h2, h3⟩; exact ⟨⟨this, h1, h2⟩, h3⟩
    · rintro ⟨⟨_, h1, h2⟩, h3⟩; exact ⟨h1, h2, h3⟩

theorem comma_not_digit {s : Bytes} {v : Nat} (h : Spec.IsDecimal (codes s) v) : (0x2c : UInt8) ∉ s := by
  intro hc
  have := h.2.1 44 (by unfold codes; exact List.mem_map.2 ⟨0x2c, hc, rfl⟩)
  omega

/-- **C51, borders.**  The flag is accepted exactly if it consists of four decimal numbers of at most 255 with commas in between,
and these are the numbers, in this order. -/
theorem C51_borders_syntax (s : Bytes) (vs : List Nat) : parseBorders s = some vs ↔
    ∃ a b c d va vb vc vd, s = a ++ 0x2c :: (b ++ 0x2c :: (c ++ 0x2c :: d)) ∧ vs = [va, vb, vc, vd] ∧
      Spec.IsDecimal (codes a) va ∧ Spec.IsDecimal (codes b) vb ∧ Spec.IsDecimal (codes c) vc ∧ Spec.IsDecimal (codes d) vd ∧
      va ≤ 255 ∧ vb ≤ 255 ∧ vc ≤ 255 ∧ vd ≤ 255 := by
  unfold parseBorders
  simp only
  constructor
  · intro h
    split at h
    · cases h
    · rename_i hl
      simp only [ne_eq, Decidable.not_not] at hl
      obtain ⟨_, _, hs⟩ := split_join 0x2c s
      match hsp : split 0x2c s, hl with
      | [a, b, c, d], _ =>
        rw [hsp] at h hs
        cases ha : parseUint8 a with
        | none => simp [List.mapM_cons, ha] at h
        | some va =>
        cases hb : parseUint8 b with
        | none => simp [List.mapM_cons, ha, hb] at h
        | some vb =>
        cases hc : parseUint8 c with
        | none => simp [List.mapM_cons, ha, hb, hc] at h
        | some vc =>
        cases hd : parseUint8 d with
        | none => simp [List.mapM_cons, ha, hb, hc, hd] at h
        | some vd =>
        simp [List.mapM_cons, ha, hb, hc, hd] at h
        obtain ⟨a1, a2⟩ := (parseUint8_spec a va).1 ha
        obtain ⟨b1, b2⟩ := (parseUint8_spec b vb).1 hb
        obtain ⟨c1, c2⟩ := (parseUint8_spec c vc).1 hc
        obtain ⟨d1, d2⟩ := (parseUint8_spec d vd).1 hd
        refine ⟨a, b, c, d, va, vb, vc, vd, ?_, h.symm, a1, b1, c1, d1, a2, b2, c2, d2⟩
        rw [hs]
        simp [List.intercalate]
  · rintro ⟨a, b, c, d, va, vb, vc, vd, rfl, rfl, ha, hb, hc, hd, a2, b2, c2, d2⟩
    rw [split_append (comma_not_digit ha), split_append (comma_not_digit hb), split_append (comma_not_digit hc),
      split_noSep (comma_not_digit hd)]
    rw [if_neg (by simp)]
    simp [List.mapM_cons, (parseUint8_spec a va).2 ⟨ha, a2⟩, (parseUint8_spec b vb).2 ⟨hb, b2⟩, (parseUint8_spec c vc).2 ⟨hc, c2⟩,
      (parseUint8_spec d vd).2 ⟨hd, d2⟩]

/-! ## The whole program -/

/-- The options of the file writer never panic. -/
theorem options_ok (readImage : Bytes → Option Image) (foo : FileOutputOptions) :
    ∃ o, newWithWriter false (foo.applyOptions readImage) = some o := by
  cases h : newWithWriter false (foo.applyOptions readImage) with
  | some o => exact ⟨o, rfl⟩
  | none =>
    exfalso
    have := (C44_panics false _).1 h
    rcases this with h | ⟨x, hx, hp⟩
    · cases h
    · unfold FileOutputOptions.applyOptions at hx
      simp only [List.mem_append, List.mem_cons, List.not_mem_nil, or_false, List.mem_ite_nil_right] at hx
      rcases hx with ((((hx | hx) | hx) | ⟨_, hx⟩) | ⟨_, hx⟩) | ⟨_, hx⟩
      · subst hx; exact hp
      · subst hx; exact hp
      · split at hx <;> subst hx <;> simp [Panics] at hp
      · subst hx; exact hp
      · subst hx; exact hp
      · subst hx; exact hp

theorem four_borders {s : Bytes} {vs : List Nat} (h : parseBorders s = some vs) : ∃ a b c d, vs = [a, b, c, d] := by
  obtain ⟨_, _, _, _, va, vb, vc, vd, _, hv, _⟩ := (C51_borders_syntax s vs).1 h
  exact ⟨va, vb, vc, vd, hv⟩

/-- What the flags ask the file writer for. -/
theorem options_of {readImage : Bytes → Option Image} {foo : FileOutputOptions} {a b c d : Nat} (hb : foo.borders = [a, b, c, d]) {o : Opts}
    (h : newWithWriter false (foo.applyOptions readImage) = some o) :
    o.borders = { top := a, right := b, bottom := c, left := d } ∧ o.qrBlockWidth = (if foo.blockSize = 0 then 20 else (foo.blockSize.toNat : Int)) ∧
    o.imageEncoder = (if foo.outputSuffix = png then .png else .jpeg) ∧
    o.getShape = (if foo.isCircleShape then .circle else .rectangle) ∧ o.bgTransparent = foo.transparent ∧
    o.halftone = (if foo.halftoneImage = [] then none else readImage foo.halftoneImage) ∧
    o.qrColor = ⟨0, 0, 0, 255⟩ ∧ o.bgColor = ⟨255, 255, 255, 255⟩ ∧ o.logo = none ∧ o.qrGradient = none := by
  obtain ⟨h1, h2, h3, h4, h5, h6, h7, _, _, h10, h11, h12, _⟩ := C44_options _ h
  rw [h1, h2, h3, h4, h5, h6, h7, h10, h11, h12]
  clear h1 h2 h3 h4 h5 h6 h7 h10 h11 h12
  unfold FileOutputOptions.applyOptions lastAsked
  rw [hb]
  cases foo.isCircleShape <;> cases foo.transparent <;> by_cases hh : foo.halftoneImage = [] <;> by_cases hp : foo.outputSuffix = png <;>
    (try cases hr : readImage foo.halftoneImage) <;> by_cases hz : foo.blockSize = 0 <;>
    simp [List.findSome?, askedBorders, askedBlock, askedFg, askedBg, askedTransparent, askedGradient, askedLogo, askedShape, askedEncoder,
      askedHalftone, hh, hp, hz]

/-- **C51, the flags as a whole.**  The program panics at once exactly if the borders are malformed.  Otherwise, if it draws to a file, it
draws to the file given, with the four borders given in the order top, right, bottom, left, the block size given if it is in
1..255, and black on white; with `--terminal` it shows the same symbol in the terminal. -/
theorem C51_run_partial (E : Ext) (cache : AlignCache) (arrival : List Nat) (readImage : Bytes → Option Image) (f : Flags) :
    (parseBorders f.borders = none → run E cache arrival readImage f = .panic) ∧
    ∀ vs, parseBorders f.borders = some vs → ∀ q, new E cache arrival .string f.text = .ok q →
      (f.terminal = true → run E cache arrival readImage f = .terminal q) ∧
      (f.terminal = false → ∃ o, run E cache arrival readImage f = .file f.output o q ∧
        vs = [o.borders.top.toNat, o.borders.right.toNat, o.borders.bottom.toNat, o.borders.left.toNat] ∧
        (1 ≤ f.block → f.block ≤ 255 → o.qrBlockWidth = f.block) ∧
        (∀ d, (o.attribute d).borders = o.borders ∧ (o.attribute d).blockWidth = o.qrBlockWidth) ∧
        o.getShape = (if f.circle then .circle else .rectangle) ∧ o.bgTransparent = f.transparent ∧
        o.halftone = (if f.halftone = [] then none else readImage f.halftone) ∧
        o.qrColor = ⟨0, 0, 0, 255⟩ ∧ o.bgColor = ⟨255, 255, 255, 255⟩ ∧ o.logo = none ∧ o.qrGradient = none) := by
  refine ⟨fun h => ?_, ?_⟩
  · unfold run parse
    rw [h]
    rfl
  · intro vs hvs q hq
    refine ⟨fun ht => ?_, fun ht => ?_⟩
    · unfold run parse
      rw [hvs, Option.map_some, hq, ht]
      rfl
    · obtain ⟨a, b, c, d, hv⟩ := four_borders hvs
      obtain ⟨o, ho⟩ := options_ok readImage
        (⟨f.output, trimDot (ext f.output), UInt8.ofNat f.block, vs, f.circle, f.transparent, f.halftone⟩ : FileOutputOptions)
      have := options_of (a := a) (b := b) (c := c) (d := d) hv ho
      simp only at this
      obtain ⟨h1, h2, _, h4, h5, h6, h7, h8, h9, h10⟩ := this
      refine ⟨o, ?_, ?_, ?_, fun _ => ⟨rfl, rfl⟩, h4, h5, h6, h7, h8, h9, h10⟩
      · unfold run parse
        rw [hvs, Option.map_some, hq, ht]
        simp only [ho]
        rfl
      · rw [h1, hv]; simp
      · intro h1 h255
        rw [h2]
        have e : (UInt8.ofNat f.block).toNat = f.block := by rw [UInt8.toNat_ofNat', Nat.mod_eq_of_lt (by omega)]
        have : UInt8.ofNat f.block ≠ 0 := fun hc => by
          rw [hc] at e
          have : (0 : UInt8).toNat = 0 := rfl
          omega
        rw [if_neg this, e]

/-- The block size the program really uses: the given one modulo 256, and 20 instead of 0. -/
theorem C51_block (E : Ext) (cache : AlignCache) (arrival : List Nat) (readImage : Bytes → Option Image) (f : Flags) {name : Bytes} {o : Opts} {q : QRCode}
    (h : run E cache arrival readImage f = .file name o q) :
    o.qrBlockWidth = if f.block % 256 = 0 then 20 else ((f.block % 256 : Nat) : Int) := by
  unfold run parse at h
  cases hb : parseBorders f.borders with
  | none => rw [hb] at h; cases h
  | some vs =>
    rw [hb, Option.map_some] at h
    simp only at h
    cases hq : new E cache arrival .string f.text with
    | panic p => rw [hq] at h; cases h
    | err e => rw [hq] at h; cases h
    | ok q' =>
      rw [hq] at h
      simp only at h
      cases ht : f.terminal with
      | true => rw [ht, if_pos rfl] at h; cases h
      | false =>
        rw [ht, if_neg (by simp)] at h
        obtain ⟨a, b, c, d, hv⟩ := four_borders hb
        split at h
        · cases h
        · rename_i o' ho
          cases h
          have := (options_of (a := a) (b := b) (c := c) (d := d) hv ho).2.1
          simp only at this
          rw [this]
          have e : (UInt8.ofNat f.block).toNat = f.block % 256 := UInt8.toNat_ofNat'
          by_cases hz : f.block % 256 = 0
          · rw [if_pos hz, if_pos (UInt8.toNat_inj.1 (by rw [e, hz]; rfl))]
          · rw [if_neg hz, if_neg (fun hc => hz (by rw [← e, hc]; rfl)), e]

/-- Two example flags: `--borders=1,2,3,4 --block=257 -o a.png`. -/
def demoFlags : Flags where
  text := [0x31]
  terminal := false
  output := [0x61, 0x2e, 0x70, 0x6e, 0x67]
  block := 257
  borders := [0x31, 0x2c, 0x32, 0x2c, 0x33, 0x2c, 0x34]
  circle := false
  transparent := false
  halftone := []

/-- **C51 is false for large block sizes**: whenever the symbol can be made, `--block=257` draws blocks of one pixel. -/
theorem C51_counterexample (E : Ext) (cache : AlignCache) (arrival : List Nat) (readImage : Bytes → Option Image) {q : QRCode}
    (hq : new E cache arrival .string demoFlags.text = .ok q) :
    ∃ o, run E cache arrival readImage demoFlags = .file demoFlags.output o q ∧ o.borders = ⟨1, 2, 3, 4⟩ ∧ o.qrBlockWidth = 1 := by
  have hb : parseBorders demoFlags.borders = some [1, 2, 3, 4] := by decide +kernel
  obtain ⟨o, h1, h2, _⟩ := ((C51_run_partial E cache arrival readImage demoFlags).2 _ hb q hq).2 rfl
  have h3 := C51_block E cache arrival readImage demoFlags h1
  refine ⟨o, h1, ?_, by rw [h3]; rfl⟩
  unfold run parse at h1
  rw [hb, Option.map_some, hq] at h1
  simp only at h1
  rw [if_neg (by decide)] at h1
  split at h1
  · cases h1
  · rename_i o' ho
    cases h1
    exact (options_of (a := 1) (b := 2) (c := 3) (d := 4) rfl ho).1

/-! ## The format of the file -/

theorem ext_spec (p : Bytes) : ext p = 0x2e :: png ↔ ∃ base, p = base ++ 0x2e :: png := by
  have key : ∀ (r acc : Bytes), extLoop r acc = 0x2e :: png ↔
      (∃ a b, r = a ++ 0x2e :: b ∧ (0x2e : UInt8) ∉ a ∧ (0x2f : UInt8) ∉ a ∧ a.reverse ++ acc = png) := by
    intro r
    induction r with
    | nil => intro acc; simp [extLoop]
    | cons x r ih =>
      intro acc
      unfold extLoop
      by_cases h1 : x = 0x2f
      · rw [if_pos h1]
        constructor
        · intro h; cases h
        · rintro ⟨a, b, e, n1, n2, _⟩
          cases a with
          | nil => simp only [List.nil_append, List.cons.injEq] at e; rw [h1] at e; exact absurd e.1 (by decide)
          | cons y a =>
            simp only [List.cons_append, List.cons.injEq] at e
            simp only [List.mem_cons, not_or] at n2
            exact absurd (h1.symm.trans e.1) n2.1
      · rw [if_neg h1]
        by_cases h2 : x = 0x2e
        · rw [if_pos h2]
          constructor
          · intro h
            simp only [List.cons.injEq, true_and] at h
            exact ⟨[], r, by rw [h2]; rfl, by simp, by simp, h⟩
          · rintro ⟨a, b, e, n1, n2, ha⟩
            cases a with
            | nil => simp only [List.reverse_nil, List.nil_append] at ha; rw [ha]
            | cons y a =>
              simp only [List.cons_append, List.cons.injEq] at e
              simp only [List.mem_cons, not_or] at n1
              exact absurd (h2.symm.trans e.1) n1.1
        · rw [if_neg h2, ih]
          constructor
          · rintro ⟨a, b, e, n1, n2, ha⟩
            refine ⟨x :: a, b, by rw [e]; rfl, ?_, ?_, ?_⟩
            · simp only [List.mem_cons, not_or]; exact ⟨fun hc => h2 hc.symm, n1⟩
            · simp only [List.mem_cons, not_or]; exact ⟨fun hc => h1 hc.symm, n2⟩
            · rw [List.reverse_cons, List.append_assoc]; exact ha
          · rintro ⟨a, b, e, n1, n2, ha⟩
            cases a with
            | nil => simp only [List.nil_append, List.cons.injEq] at e; exact absurd e.1 h2
            | cons y a =>
              simp only [List.cons_append, List.cons.injEq] at e
              simp only [List.mem_cons, not_or] at n1 n2
              refine ⟨a, b, e.2, n1.2, n2.2, ?_⟩
              rw [e.1]
              rw [List.reverse_cons, List.append_assoc] at ha
              exact ha
  unfold ext
  rw [key]
  constructor
  · rintro ⟨a, b, e, _, _, ha⟩
    rw [List.append_nil] at ha
    refine ⟨b.reverse, ?_⟩
    have := congrArg List.reverse e
    rw [List.reverse_reverse, List.reverse_append, List.reverse_cons, ha, List.append_assoc] at this
    exact this
  · rintro ⟨base, rfl⟩
    refine ⟨png.reverse, base.reverse, ?_, by decide, by decide, by decide⟩
    simp

/-- **C57.**  A file whose name ends in `.png` (in lower case) is written as PNG, every other one as JPEG. -/
theorem C57_format (E : Ext) (cache : AlignCache) (arrival : List Nat) (readImage : Bytes → Option Image) (f : Flags) {name : Bytes} {o : Opts} {q : QRCode}
    (h : run E cache arrival readImage f = .file name o q) :
    name = f.output ∧ ((∃ base, f.output = base ++ [0x2e, 0x70, 0x6e, 0x67]) → o.imageEncoder = .png) ∧
    ((¬ ∃ base, f.output = base ++ [0x2e, 0x70, 0x6e, 0x67]) → o.imageEncoder = .jpeg) := by
  unfold run parse at h
  cases hb : parseBorders f.borders with
  | none => rw [hb] at h; cases h
  | some vs =>
    rw [hb, Option.map_some] at h
    simp only at h
    cases hq : new E cache arrival .string f.text with
    | panic p => rw [hq] at h; cases h
    | err e => rw [hq] at h; cases h
    | ok q' =>
      rw [hq] at h
      simp only at h
      cases ht : f.terminal with
      | true => rw [ht, if_pos rfl] at h; cases h
      | false =>
        rw [ht, if_neg (by simp)] at h
        obtain ⟨a, b, c, d, hv⟩ := four_borders hb
        split at h
        · cases h
        · rename_i o' ho
          cases h
          have := (options_of (a := a) (b := b) (c := c) (d := d) hv ho).2.2.1
          simp only at this
          have hsuf : trimDot (ext f.output) = png ↔ ext f.output = 0x2e :: png := by
            have : ext f.output = [] ∨ ∃ l, ext f.output = 0x2e :: l := by
              have key : ∀ (r acc : Bytes), extLoop r acc = [] ∨ ∃ l, extLoop r acc = 0x2e :: l := by
                intro r
                induction r with
                | nil => intro acc; exact Or.inl rfl
                | cons x r ih =>
                  intro acc
                  unfold extLoop
                  split
                  · exact Or.inl rfl
                  · split
                    · exact Or.inr ⟨_, rfl⟩
                    · exact ih _
              exact key _ _
            rcases this with h | ⟨l, h⟩
            · rw [h]; simp [trimDot, png]
            · rw [h]
              simp [trimDot]
          refine ⟨rfl, fun hp => ?_, fun hp => ?_⟩
          · rw [this, if_pos (hsuf.2 ((ext_spec _).2 hp))]
          · rw [this, if_neg (fun hc => hp ((ext_spec _).1 (hsuf.1 hc)))]

/-- The name `dir.png/x` is not a PNG name; `a.png` is. -/
example : ext [0x61, 0x2e, 0x70, 0x6e, 0x67] = 0x2e :: png ∧ ext [0x61, 0x2e, 0x70, 0x6e, 0x67, 0x2f, 0x78] = [] := by decide

end QR.Cli
