import Verif.Model.Wasm
import Verif.Spec.Base64
import Verif.Props.ImageOptions
import Verif.Props.Color
import Verif.Props.Total
/-!
# C52, C58: the WebAssembly function
-/
namespace QR.Wasm
open QR Standard

def IsNumber (v : JS) : Prop := ∃ i t, v = .number i t
def IsBoolean (v : JS) : Prop := ∃ b, v = .boolean b

/-- A value the code can use as a colour: the empty string, or a string that parses as a colour. -/
def UsableColour (v : JS) : Prop := v = .string [] ∨ ∃ s, v = .string s ∧ parseFromHex s ≠ none

/-- The documented fields of the options object (cmd/wasm/README.md), by type. -/
def numberFields : List String := ["encodeVersion", "encodeMode", "outputQrWidth", "outputMargin"]
def booleanFields : List String := ["outputBgTransparent", "outputCircleShape"]
def colourFields : List String := ["outputBgColor", "outputQrColor"]

theorem not_hash {s : Bytes} {b : UInt8} (h : b ≠ 0x23) : parseFromHex (b :: s) = none := by
  have hb : b.toNat ≠ 35 := fun hc => h (UInt8.toNat_inj.1 hc)
  unfold parseFromHex
  split
  · rw [sscanf_hash hb]; rfl
  · split
    · rw [sscanf_hash hb]; rfl
    · rfl

/-- A value that is no string is never usable as a colour. -/
theorem usable_iff (v : JS) : UsableColour v ↔ (v.str = [] ∨ parseFromHex v.str ≠ none) := by
  have other : ∀ {v : JS} {l : Bytes}, v.str = 0x3c :: l → (∀ s, v ≠ .string s) → (UsableColour v ↔ (v.str = [] ∨ parseFromHex v.str ≠ none)) := by
    intro v l h hs
    constructor
    · rintro (hc | ⟨s, hc, _⟩) <;> exact absurd hc (hs _)
    · rw [h, not_hash (by decide)]
      rintro (hc | hc)
      · cases hc
      · exact absurd rfl hc
  cases v with
  | string s =>
    unfold UsableColour JS.str
    constructor
    · rintro (h | ⟨s', h, h2⟩)
      · cases h; exact Or.inl rfl
      · cases h; exact Or.inr h2
    · rintro (h | h)
      · exact Or.inl (congrArg JS.string h)
      · exact Or.inr ⟨s, rfl, h⟩
  | undefined => exact other (l := lit "undefined>") (by decide) (by simp)
  | null => exact other (l := lit "null>") (by decide) (by simp)
  | boolean b => cases b <;> first | exact other (l := lit "boolean: true>") (by decide) (by simp) | exact other (l := lit "boolean: false>") (by decide) (by simp)
  | number i t => exact other (l := lit "number: " ++ t ++ lit ">") (by show lit "<number: " ++ t ++ _ = _; rfl) (by simp)
  | symbol => exact other (l := lit "symbol>") (by decide) (by simp)
  | object _ => exact other (l := lit "object>") (by show lit "<object>" = _; decide) (by simp)
  | function _ => exact other (l := lit "function>") (by show lit "<function>" = _; decide) (by simp)

theorem int_isNumber (v : JS) : v.int ≠ none ↔ IsNumber v := by
  cases v <;> simp [JS.int, IsNumber]

theorem bool_isBoolean (v : JS) : v.bool ≠ none ↔ IsBoolean v := by
  cases v <;> simp [JS.bool, IsBoolean]

theorem option_none (get : String → JS) : optionFromJSValue (.object get) = none ↔
    (∃ f ∈ numberFields, ¬ IsNumber (get f)) ∨ ∃ f ∈ booleanFields, ¬ IsBoolean (get f) := by
  have n1 := int_isNumber (get "encodeVersion")
  have n2 := int_isNumber (get "encodeMode")
  have n3 := int_isNumber (get "outputQrWidth")
  have n4 := int_isNumber (get "outputMargin")
  have b1 := bool_isBoolean (get "outputBgTransparent")
  have b2 := bool_isBoolean (get "outputCircleShape")
  simp only [numberFields, booleanFields, List.mem_cons, List.not_mem_nil, or_false, exists_eq_or_imp, exists_eq_left, ← n1, ← n2, ← n3, ← n4,
    ← b1, ← b2, ne_eq, Decidable.not_not]
  unfold optionFromJSValue
  clear n1 n2 n3 n4 b1 b2
  simp only [Option.bind_eq_bind]
  generalize (get "encodeVersion").int = x1
  generalize (get "encodeMode").int = x2
  generalize (get "outputQrWidth").int = x3
  generalize (get "outputMargin").int = x4
  generalize (get "outputBgTransparent").bool = x5
  generalize (get "outputCircleShape").bool = x6
  cases x1 <;> cases x2 <;> cases x3 <;> cases x4 <;> cases x5 <;> cases x6 <;> simp

/-- The options object of a call whose numbers and booleans are there. -/
theorem option_some {get : String → JS} {ver mode w mar : Int} {t1 t2 t3 t4 : Bytes} {tr ci : Bool}
    (h1 : get "encodeVersion" = .number ver t1) (h2 : get "encodeMode" = .number mode t2) (h3 : get "outputQrWidth" = .number w t3)
    (h4 : get "outputMargin" = .number mar t4) (h5 : get "outputBgTransparent" = .boolean tr) (h6 : get "outputCircleShape" = .boolean ci) :
    optionFromJSValue (.object get) = some (some ⟨ver, toUint8 mode, (get "encodeECLevel").str, (get "outputBgColor").str, tr,
      (get "outputQrColor").str, toUint8 w, ci, (get "outputImageEncoder").str, mar⟩) := by
  simp only [optionFromJSValue]
  rw [h1, h2, h3, h4, h5, h6]
  rfl

/-- The level a value of the field `encodeECLevel` stands for; everything that is not one of the four strings means the default. -/
inductive LevelField : JS → Int → Prop
  | l : LevelField (.string [0x4c]) 1
  | m : LevelField (.string [0x4d]) 2
  | q : LevelField (.string [0x51]) 3
  | h : LevelField (.string [0x48]) 4
  | other (v : JS) : (∀ b ∈ [0x4c, 0x4d, 0x51, 0x48], v ≠ .string [b]) → LevelField v 3

/-- The mode the code makes of a number in `encodeMode`. -/
def modeOf (n : Int) : Nat := if n % 256 = 4 ∨ n % 256 = 8 ∨ n % 256 = 16 ∨ n % 256 = 32 then (n % 256).toNat else 0

/-- The version the code makes of a number in `encodeVersion` (0 means the smallest possible). -/
def versionOf (n : Int) : Int := if 1 ≤ n ∧ n ≤ 40 then n else 0

theorem str_single (v : JS) (b : UInt8) (hb : b ≠ 0x3c) : v.str = [b] ↔ v = .string [b] := by
  have other : ∀ {v : JS} {l : Bytes}, v.str = 0x3c :: l → (∀ s, v ≠ .string s) → (v.str = [b] ↔ v = .string [b]) := by
    intro v l h hs
    rw [h]
    constructor
    · intro hc; cases hc; exact absurd rfl hb
    · intro hc; exact absurd hc (hs _)
  cases v with
  | string s => simp [JS.str]
  | undefined => exact other (l := lit "undefined>") (by decide) (by simp)
  | null => exact other (l := lit "null>") (by decide) (by simp)
  | boolean b => cases b <;> first | exact other (l := lit "boolean: true>") (by decide) (by simp) | exact other (l := lit "boolean: false>") (by decide) (by simp)
  | number i t => exact other (l := lit "number: " ++ t ++ lit ">") (by show lit "<number: " ++ t ++ _ = _; rfl) (by simp)
  | symbol => exact other (l := lit "symbol>") (by decide) (by simp)
  | object _ => exact other (l := lit "object>") (by show lit "<object>" = _; decide) (by simp)
  | function _ => exact other (l := lit "function>") (by show lit "<function>" = _; decide) (by simp)

theorem toUint8_toNat (i : Int) : (toUint8 i).toNat = (i % 256).toNat := by
  unfold toUint8
  rw [UInt8.toNat_ofNat', show (2 : Nat) ^ 8 = 256 from rfl]
  omega

/-- The encoding settings of a well-typed object. -/
theorem encode_settings (o : GenOption) {mode : Int} (hm : o.mode = toUint8 mode) {v : JS} (hv : o.ecLevel = v.str) {lv : Int} (hl : LevelField v lv) :
    applyOptions (encodeOptions (some o)) = { version := versionOf o.version, minimumVersion := 0, encMode := modeOf mode, ecLevel := lv } := by
  have hmode : o.mode.toNat = (mode % 256).toNat := by rw [hm, toUint8_toNat]
  have l1 : o.ecLevel = lit "L" ↔ v = .string [0x4c] := by rw [hv]; exact str_single v 0x4c (by decide)
  have l2 : o.ecLevel = lit "M" ↔ v = .string [0x4d] := by rw [hv]; exact str_single v 0x4d (by decide)
  have l3 : o.ecLevel = lit "Q" ↔ v = .string [0x51] := by rw [hv]; exact str_single v 0x51 (by decide)
  have l4 : o.ecLevel = lit "H" ↔ v = .string [0x48] := by rw [hv]; exact str_single v 0x48 (by decide)
  have hlev : ∀ e : EncodingOption, e.ecLevel = 3 → (if o.ecLevel = lit "L" then [EncodeOption.withErrorCorrectionLevel ecLow]
     else if o.ecLevel = lit "M" then [.withErrorCorrectionLevel ecMedium]
     else if o.ecLevel = lit "Q" then [.withErrorCorrectionLevel ecQuart]
     else if o.ecLevel = lit "H" then [.withErrorCorrectionLevel ecHighest]
     else []).foldl EncodeOption.apply e = { e with ecLevel := lv } := by
    intro e he
    cases hl with
    | l => rw [if_pos (l1.2 rfl)]; rfl
    | m =>
      rw [if_neg (fun h => by have := l1.1 h; simp at this), if_pos (l2.2 rfl)]; rfl
    | q =>
      rw [if_neg (fun h => by have := l1.1 h; simp at this), if_neg (fun h => by have := l2.1 h; simp at this), if_pos (l3.2 rfl)]; rfl
    | h =>
      rw [if_neg (fun h => by have := l1.1 h; simp at this), if_neg (fun h => by have := l2.1 h; simp at this),
        if_neg (fun h => by have := l3.1 h; simp at this), if_pos (l4.2 rfl)]; rfl
    | other _ hne =>
      rw [if_neg (fun h => hne _ (by simp) (l1.1 h)), if_neg (fun h => hne _ (by simp) (l2.1 h)), if_neg (fun h => hne _ (by simp) (l3.1 h)),
        if_neg (fun h => hne _ (by simp) (l4.1 h)), ← he]; rfl
  unfold applyOptions encodeOptions
  simp only
  rw [List.foldl_append, List.foldl_append]
  have hver : (if o.version ≠ 0 then [EncodeOption.withVersion o.version] else []).foldl EncodeOption.apply defaultEncodingOption =
      { defaultEncodingOption with version := versionOf o.version } := by
    unfold versionOf
    by_cases h0 : o.version = 0
    · rw [if_neg (by simp [h0]), if_neg (by omega)]; rfl
    · rw [if_pos h0]
      simp only [List.foldl_cons, List.foldl_nil, EncodeOption.apply]
      by_cases h : 1 ≤ o.version ∧ o.version ≤ 40
      · rw [if_neg (by omega), if_pos h]
      · rw [if_pos (by omega), if_neg h]; rfl
  rw [hver]
  have hmod : ∀ e : EncodingOption, (if o.mode.toNat = encAlphanumeric then [EncodeOption.withEncodingMode encAlphanumeric]
     else if o.mode.toNat = encNumeric then [.withEncodingMode encNumeric]
     else if o.mode.toNat = encByte then [.withEncodingMode encByte]
     else if o.mode.toNat = encKanji then [.withEncodingMode encKanji]
     else []).foldl EncodeOption.apply e = if modeOf mode = 0 then e else { e with encMode := modeOf mode } := by
    intro e
    have hnn : 0 ≤ mode % 256 := Int.emod_nonneg _ (by decide)
    have ha : ∀ m, EncodeOption.apply e (.withEncodingMode m) = { e with encMode := m } := by
      intro m; simp only [EncodeOption.apply]; rw [if_neg (getEncModeName_ne m)]
    rw [hmode]
    unfold modeOf
    simp only [encAlphanumeric, encNumeric, encByte, encKanji]
    obtain ⟨n, hn⟩ := Int.eq_ofNat_of_zero_le hnn
    rw [hn]
    have c4 : ((n : Int) = 4) ↔ n = 4 := by omega
    have c8 : ((n : Int) = 8) ↔ n = 8 := by omega
    have c16 : ((n : Int) = 16) ↔ n = 16 := by omega
    have c32 : ((n : Int) = 32) ↔ n = 32 := by omega
    simp only [Int.toNat_natCast, c4, c8, c16, c32]
    by_cases h8 : n = 8
    · subst h8; simp [ha]
    · by_cases h4 : n = 4
      · subst h4; simp [ha]
      · by_cases h32 : n = 32
        · subst h32; simp [ha]
        · by_cases h16 : n = 16
          · subst h16; simp [ha]
          · simp [h4, h8, h16, h32]
  rw [hmod]
  by_cases hz : modeOf mode = 0
  · rw [if_pos hz, hz, hlev _ rfl]
    rfl
  · rw [if_neg hz, hlev _ rfl]
    rfl

/-- The colour a usable value of a colour field stands for; the empty string means the default. -/
def colourOf (dflt : RGBA) (v : JS) : RGBA := (parseFromHex v.str).getD dflt

/-- The output settings of a well-typed object. -/
theorem output_settings (o : GenOption) (hb : o.bgColor = [] ∨ parseFromHex o.bgColor ≠ none) (hf : o.qrColor = [] ∨ parseFromHex o.qrColor ≠ none) :
    ∃ x, newWithWriter false (outputOptions (some o)) = some x ∧
      x.borders = (if o.margin = 0 then ⟨40, 40, 40, 40⟩ else ⟨o.margin, o.margin, o.margin, o.margin⟩) ∧
      x.qrBlockWidth = (if o.qrWidth = 0 then 20 else (o.qrWidth.toNat : Int)) ∧
      x.qrColor = (parseFromHex o.qrColor).getD ⟨0, 0, 0, 255⟩ ∧ x.bgColor = (parseFromHex o.bgColor).getD ⟨255, 255, 255, 255⟩ ∧
      x.bgTransparent = o.bgTransparent ∧ x.getShape = (if o.circleShape then .circle else .rectangle) ∧
      x.imageEncoder = (if o.imageEncoder = lit "jpg" ∨ o.imageEncoder = lit "jpeg" then .jpeg else .png) ∧
      x.logo = none ∧ x.qrGradient = none ∧ x.halftone = none := by
  have p1 : ∀ y : Opts, (if o.bgColor ≠ [] then [ImgOpt.bgHex o.bgColor] else []).foldlM apply y =
      some { y with bgColor := (parseFromHex o.bgColor).getD y.bgColor } := by
    intro y
    by_cases h : o.bgColor = []
    · rw [if_neg (by simp [h]), h]; rfl
    · rw [if_pos h]
      rcases hb with hb | hb
      · exact absurd hb h
      · cases hp : parseFromHex o.bgColor with
        | none => exact absurd hp hb
        | some c => simp [apply, h, hp]
  have p2 : ∀ y : Opts, (if o.bgTransparent = true then [ImgOpt.bgTransparent] else []).foldlM apply y =
      some { y with bgTransparent := o.bgTransparent || y.bgTransparent } := by
    intro y; cases o.bgTransparent <;> simp [apply]
  have p3 : ∀ y : Opts, (if o.qrColor ≠ [] then [ImgOpt.fgHex o.qrColor] else []).foldlM apply y =
      some { y with qrColor := (parseFromHex o.qrColor).getD y.qrColor } := by
    intro y
    by_cases h : o.qrColor = []
    · rw [if_neg (by simp [h]), h]; rfl
    · rw [if_pos h]
      rcases hf with hf | hf
      · exact absurd hf h
      · cases hp : parseFromHex o.qrColor with
        | none => exact absurd hp hf
        | some c => simp [apply, hp]
  have p4 : ∀ y : Opts, (if o.qrWidth ≠ 0 then [ImgOpt.qrWidth o.qrWidth] else []).foldlM apply y =
      some { y with qrWidth := if o.qrWidth = 0 then y.qrWidth else o.qrWidth.toNat } := by
    intro y
    by_cases h : o.qrWidth = 0
    · rw [if_neg (by simp [h]), if_pos h]; rfl
    · rw [if_pos h, if_neg h]; rfl
  have p5 : ∀ y : Opts, (if o.circleShape = true then [ImgOpt.circleShape] else []).foldlM apply y =
      some { y with shape := if o.circleShape = true then some .circle else y.shape } := by
    intro y; cases o.circleShape <;> simp [apply]
  have p6 : ∀ y : Opts, [if o.imageEncoder = lit "jpg" ∨ o.imageEncoder = lit "jpeg" then ImgOpt.builtinEncoder 0 else .builtinEncoder 1].foldlM apply y =
      some { y with imageEncoder := if o.imageEncoder = lit "jpg" ∨ o.imageEncoder = lit "jpeg" then .jpeg else .png } := by
    intro y
    by_cases h : o.imageEncoder = lit "jpg" ∨ o.imageEncoder = lit "jpeg"
    · rw [if_pos h, if_pos h]; rfl
    · rw [if_neg h, if_neg h]; rfl
  have p7 : ∀ y : Opts, (if o.margin ≠ 0 then [ImgOpt.borderWidth [o.margin]] else []).foldlM apply y =
      some { y with borders := if o.margin = 0 then y.borders else ⟨o.margin, o.margin, o.margin, o.margin⟩ } := by
    intro y
    by_cases h : o.margin = 0
    · rw [if_neg (by simp [h]), if_pos h]; rfl
    · rw [if_pos h, if_neg h]; rfl
  have hx : newWithWriter false (outputOptions (some o)) = some { defaultOpts with
      bgColor := (parseFromHex o.bgColor).getD ⟨255, 255, 255, 255⟩
      bgTransparent := o.bgTransparent || false
      qrColor := (parseFromHex o.qrColor).getD ⟨0, 0, 0, 255⟩
      qrWidth := if o.qrWidth = 0 then 20 else o.qrWidth.toNat
      shape := if o.circleShape = true then some .circle else defaultOpts.shape
      imageEncoder := if o.imageEncoder = lit "jpg" ∨ o.imageEncoder = lit "jpeg" then .jpeg else .png
      borders := if o.margin = 0 then ⟨40, 40, 40, 40⟩ else ⟨o.margin, o.margin, o.margin, o.margin⟩ } := by
    unfold newWithWriter outputOptions
    simp only [List.foldlM_append, p1, p2, p3, p4, p5, p6, p7, Option.bind_eq_bind, Option.bind_some]
    rfl
  refine ⟨_, hx, rfl, ?_, rfl, rfl, by simp, ?_, rfl, rfl, rfl, rfl⟩
  · unfold Opts.qrBlockWidth
    simp only
    by_cases h : o.qrWidth = 0
    · rw [if_pos h]; rfl
    · rw [if_neg h]
      have h1 : 0 < o.qrWidth.toNat := Nat.pos_of_ne_zero fun hc => h (UInt8.toNat_inj.1 hc)
      have h2 := o.qrWidth.toNat_lt
      rw [if_neg (by omega)]
  · unfold Opts.getShape
    cases o.circleShape <;> rfl

/-! ## C52 -/

/-- **C52, when the call panics.**  With an options object the call panics exactly if one of the four numbers or one of the two
booleans is missing or of another type, or the symbol can be made but one of the colours is missing or no colour (or saving the
picture panics). -/
theorem C52_panics_partial {E : Ext} {unsjis : Nat → Option Nat} (hE : E.Ok unsjis) {c : AlignCache} (hc : CacheReachable c)
    {arrival : List Nat} (ha : Arrival arrival) (save : Opts → Matrix → Saved) (hsave : ∀ o m, save o m ≠ .panics)
    (content : JS) (get : String → JS) (rest : List JS) :
    genqrcode E c arrival save (content :: .object get :: rest) = .panics ↔
      (∃ f ∈ numberFields, ¬ IsNumber (get f)) ∨ (∃ f ∈ booleanFields, ¬ IsBoolean (get f)) ∨
      (∃ f ∈ colourFields, ¬ UsableColour (get f)) ∧
        ∃ opt q, optionFromJSValue (.object get) = some opt ∧ newWith E c arrival .string content.str (encodeOptions opt) = .ok q := by
  rw [← or_assoc, ← option_none get]
  unfold genqrcode
  simp only
  cases ho : optionFromJSValue (.object get) with
  | none => simp
  | some opt =>
    simp only [reduceCtorEq, false_or, Option.some.injEq]
    obtain ⟨o, rfl⟩ : ∃ o, opt = some o := by
      simp only [optionFromJSValue, Option.bind_eq_bind, Option.bind_eq_some_iff] at ho
      obtain ⟨_, _, _, _, _, _, _, _, _, _, _, _, h⟩ := ho
      exact ⟨_, (Option.some.inj h).symm⟩
    have hcol : o.bgColor = (get "outputBgColor").str ∧ o.qrColor = (get "outputQrColor").str := by
      simp only [optionFromJSValue, Option.bind_eq_bind, Option.bind_eq_some_iff] at ho
      obtain ⟨_, _, _, _, _, _, _, _, _, _, _, _, h⟩ := ho
      have := Option.some.inj (Option.some.inj h)
      rw [← this]
      exact ⟨rfl, rfl⟩
    have hsup : Supported (modeIn (encodeOptions (some o))) := by
      rw [← mode_applied]
      have hl : ∃ lv, LevelField (.string o.ecLevel) lv := by
        by_cases h1 : o.ecLevel = [0x4c]
        · rw [h1]; exact ⟨_, .l⟩
        · by_cases h2 : o.ecLevel = [0x4d]
          · rw [h2]; exact ⟨_, .m⟩
          · by_cases h3 : o.ecLevel = [0x51]
            · rw [h3]; exact ⟨_, .q⟩
            · by_cases h4 : o.ecLevel = [0x48]
              · rw [h4]; exact ⟨_, .h⟩
              · exact ⟨3, .other _ (by simp [h1, h2, h3, h4])⟩
      obtain ⟨lv, hl⟩ := hl
      have hm : o.mode = toUint8 (o.mode.toNat : Int) := by
        apply UInt8.toNat_inj.1
        rw [toUint8_toNat]
        have := o.mode.toNat_lt
        omega
      rw [encode_settings o hm (v := .string o.ecLevel) rfl hl]
      show Supported (modeOf _)
      unfold modeOf
      split
      · rename_i h
        rcases h with h | h | h | h <;> rw [h]
        · exact Or.inr ⟨.numeric, rfl⟩
        · exact Or.inr ⟨.alnum, rfl⟩
        · exact Or.inr ⟨.kanji, rfl⟩
        · exact Or.inr ⟨.byte, rfl⟩
      · exact Or.inl rfl
    have hnp := C07_newWith_no_panic hE hc ha (t := .string) (by simp) content.str hsup
    rcases hnp with ⟨q, hq⟩ | ⟨e, he⟩
    · rw [hq]
      simp only
      have hpan : newWithWriter false (outputOptions (some o)) = none ↔ ∃ f ∈ colourFields, ¬ UsableColour (get f) := by
        simp only [colourFields, List.mem_cons, List.not_mem_nil, or_false, exists_eq_or_imp, exists_eq_left, usable_iff, ← hcol.1, ← hcol.2]
        constructor
        · intro h
          by_cases hb : o.bgColor = [] ∨ parseFromHex o.bgColor ≠ none
          · by_cases hf : o.qrColor = [] ∨ parseFromHex o.qrColor ≠ none
            · obtain ⟨x, hx, _⟩ := output_settings o hb hf
              rw [hx] at h; cases h
            · exact Or.inr hf
          · exact Or.inl hb
        · intro h
          rw [C44_panics]
          refine Or.inr ?_
          unfold outputOptions
          simp only [List.mem_append, List.mem_ite_nil_right, List.mem_singleton]
          rcases h with h | h
          · rw [not_or, ne_eq, Decidable.not_not] at h
            exact ⟨.bgHex o.bgColor, Or.inl (Or.inl (Or.inl (Or.inl (Or.inl (Or.inl ⟨h.1, rfl⟩))))), h⟩
          · rw [not_or, ne_eq, Decidable.not_not] at h
            exact ⟨.fgHex o.qrColor, Or.inl (Or.inl (Or.inl (Or.inl (Or.inr ⟨h.1, rfl⟩)))), h.2⟩
      rw [← hpan]
      cases hw : newWithWriter false (outputOptions (some o)) with
      | none => simp [hq]
      | some x =>
        simp only [reduceCtorEq, false_and, iff_false]
        cases hs : save x q.mat with
        | panics => exact absurd hs (hsave _ _)
        | error e => simp
        | image b => simp
    · rw [he]
      simp only [reduceCtorEq, false_iff, not_and, not_exists]
      rintro _ x q rfl
      rw [he]
      simp

/-- **C52, what a complete object asks for.**  If the numbers, the booleans and the colours are there, the text is encoded with the
version, mode and level given and drawn with the settings given; the fields `encodeECLevel` and `outputImageEncoder` may be missing (then
the level is `Q` and the format PNG).  A failure is reported in the result. -/
theorem C52_settings_partial (E : Ext) (c : AlignCache) (arrival : List Nat) (save : Opts → Matrix → Saved)
    (content : JS) (get : String → JS) (rest : List JS) {ver mode w mar : Int} {t1 t2 t3 t4 : Bytes} {tr ci : Bool} {lv : Int}
    (h1 : get "encodeVersion" = .number ver t1) (h2 : get "encodeMode" = .number mode t2) (h3 : get "outputQrWidth" = .number w t3)
    (h4 : get "outputMargin" = .number mar t4) (h5 : get "outputBgTransparent" = .boolean tr) (h6 : get "outputCircleShape" = .boolean ci)
    (h7 : UsableColour (get "outputBgColor")) (h8 : UsableColour (get "outputQrColor")) (h9 : LevelField (get "encodeECLevel") lv) :
    ∃ eo o, applyOptions eo = { version := versionOf ver, minimumVersion := 0, encMode := modeOf mode, ecLevel := lv } ∧
      o.borders = (if mar = 0 then ⟨40, 40, 40, 40⟩ else ⟨mar, mar, mar, mar⟩) ∧
      o.qrBlockWidth = (if w % 256 = 0 then 20 else w % 256) ∧
      o.qrColor = colourOf ⟨0, 0, 0, 255⟩ (get "outputQrColor") ∧ o.bgColor = colourOf ⟨255, 255, 255, 255⟩ (get "outputBgColor") ∧
      o.bgTransparent = tr ∧ o.getShape = (if ci then .circle else .rectangle) ∧
      o.imageEncoder = (if (get "outputImageEncoder").str = lit "jpg" ∨ (get "outputImageEncoder").str = lit "jpeg" then .jpeg else .png) ∧
      o.logo = none ∧ o.qrGradient = none ∧ o.halftone = none ∧
      (∀ e, newWith E c arrival .string content.str eo = .err e →
        genqrcode E c arrival save (content :: .object get :: rest) = .result ⟨false, some (.new e), []⟩) ∧
      ∀ q, newWith E c arrival .string content.str eo = .ok q →
        (∀ e, save o q.mat = .error e → genqrcode E c arrival save (content :: .object get :: rest) = .result ⟨false, some (.save e), []⟩) ∧
        (∀ b, save o q.mat = .image b → genqrcode E c arrival save (content :: .object get :: rest) = .result ⟨true, none, Base64.encode b⟩) ∧
        (save o q.mat = .panics → genqrcode E c arrival save (content :: .object get :: rest) = .panics) := by
  have hopt := option_some h1 h2 h3 h4 h5 h6
  obtain ⟨x, hx, x1, x2, x3, x4, x5, x6, x7, x8, x9, x10⟩ := output_settings
    (⟨ver, toUint8 mode, (get "encodeECLevel").str, (get "outputBgColor").str, tr, (get "outputQrColor").str, toUint8 w, ci,
      (get "outputImageEncoder").str, mar⟩ : GenOption) ((usable_iff _).1 h7) ((usable_iff _).1 h8)
  refine ⟨encodeOptions (some ⟨ver, toUint8 mode, (get "encodeECLevel").str, (get "outputBgColor").str, tr, (get "outputQrColor").str,
      toUint8 w, ci, (get "outputImageEncoder").str, mar⟩), x, encode_settings _ rfl rfl h9, x1, ?_, x3, x4, x5, x6, x7, x8, x9, x10, ?_, ?_⟩
  · rw [x2]
    simp only
    have e := toUint8_toNat w
    by_cases hz : w % 256 = 0
    · rw [if_pos hz, if_pos (UInt8.toNat_inj.1 (by rw [e, hz]; rfl))]
    · have : ¬ toUint8 w = 0 := by
        intro hc
        rw [hc] at e
        have e0 : (0 : UInt8).toNat = 0 := rfl
        omega
      rw [if_neg hz, if_neg this, e]
      omega
  · intro e he
    unfold genqrcode
    simp only [hopt, he]
  · intro q hq
    refine ⟨fun e he => ?_, fun b hb => ?_, fun hp => ?_⟩
    · unfold genqrcode
      simp only [hopt, hq, hx, he]
    · unfold genqrcode
      simp only [hopt, hq, hx, hb]
    · unfold genqrcode
      simp only [hopt, hq, hx, hp]

/-- **C52, no options.**  Without options, or with options that are no object, the text is encoded with the default settings and
drawn with the default settings, except that without an argument the format is PNG and with `null`, `undefined` or another value that
is no object it is JPEG.  Without any argument the result reports an error. -/
theorem C52_defaults (E : Ext) (c : AlignCache) (arrival : List Nat) (save : Opts → Matrix → Saved) (content : JS) :
    genqrcode E c arrival save [] = .result ⟨false, some .noArgs, []⟩ ∧
    ∀ (args : List JS), (∀ o rest, args = o :: rest → ∀ get, o ≠ .object get) →
      (∀ e, new E c arrival .string content.str = .err e → genqrcode E c arrival save (content :: args) = .result ⟨false, some (.new e), []⟩) ∧
      ∀ q, new E c arrival .string content.str = .ok q →
        (∀ e, save { defaultOpts with imageEncoder := if args = [] then .png else .jpeg } q.mat = .error e →
          genqrcode E c arrival save (content :: args) = .result ⟨false, some (.save e), []⟩) ∧
        ∀ b, save { defaultOpts with imageEncoder := if args = [] then .png else .jpeg } q.mat = .image b →
          genqrcode E c arrival save (content :: args) = .result ⟨true, none, Base64.encode b⟩ := by
  refine ⟨rfl, ?_⟩
  intro args hargs
  rw [new_eq]
  cases args with
  | nil =>
    have e1 : encodeOptions (some zeroOption) = [] := by decide
    have e2 : newWithWriter false (outputOptions (some zeroOption)) = some { defaultOpts with imageEncoder := .png } := rfl
    refine ⟨fun e he => ?_, fun q hq => ⟨fun e he => ?_, fun b hb => ?_⟩⟩
    · unfold genqrcode; simp only [e1, he]
    · rw [if_pos rfl] at he; unfold genqrcode; simp only [e1, hq, e2, he]
    · rw [if_pos rfl] at hb; unfold genqrcode; simp only [e1, hq, e2, hb]
  | cons o rest =>
    have e0 : optionFromJSValue o = some none := by
      cases o with
      | object g => exact absurd rfl (hargs _ _ rfl g)
      | _ => rfl
    have e2 : newWithWriter false (outputOptions none) = some { defaultOpts with imageEncoder := .jpeg } := rfl
    have e1 : encodeOptions none = [] := rfl
    have e3 : ¬ (o :: rest = []) := by simp
    refine ⟨fun e he => ?_, fun q hq => ⟨fun e he => ?_, fun b hb => ?_⟩⟩
    · unfold genqrcode; simp only [e0, e1, he]
    · rw [if_neg e3] at he; unfold genqrcode; simp only [e0, e1, hq, e2, he]
    · rw [if_neg e3] at hb; unfold genqrcode; simp only [e0, e1, hq, e2, hb]

/-- **C52 is false**: with an empty options object (every field omitted) the call panics whatever the content is; the same with one
number or boolean missing.  A complete object without the colours panics when the symbol can be made. -/
theorem C52_counterexample (E : Ext) (c : AlignCache) (arrival : List Nat) (save : Opts → Matrix → Saved) (content : JS) (rest : List JS) :
    genqrcode E c arrival save (content :: .object (fun _ => .undefined) :: rest) = .panics ∧
    (∀ get f, f ∈ numberFields ++ booleanFields → get f = .undefined → genqrcode E c arrival save (content :: .object get :: rest) = .panics) := by
  have key : ∀ get f, f ∈ numberFields ++ booleanFields → get f = JS.undefined → genqrcode E c arrival save (content :: .object get :: rest) = .panics := by
    intro get f hf hg
    have : optionFromJSValue (.object get) = none := by
      rw [option_none]
      rcases List.mem_append.1 hf with hf | hf
      · exact Or.inl ⟨f, hf, by rw [hg]; rintro ⟨_, _, h⟩; cases h⟩
      · exact Or.inr ⟨f, hf, by rw [hg]; rintro ⟨_, h⟩; cases h⟩
    unfold genqrcode
    simp only [this]
  exact ⟨key _ "encodeVersion" (by decide) rfl, key⟩

/-- **C52, the documented modes do nothing**: the README documents `encodeMode` 0 to 3; each of these leaves the mode to be detected. -/
theorem C52_documented_modes : ∀ n : Int, 0 ≤ n → n ≤ 3 → modeOf n = encAuto := by
  intro n h1 h2
  unfold modeOf
  rw [if_neg (by omega)]
  rfl

/-- **C52, content that is no string** is not rejected: the number 5 becomes the text `<number: 5>`. -/
theorem C52_content (E : Ext) (c : AlignCache) (arrival : List Nat) (save : Opts → Matrix → Saved) (args : List JS) (t : Bytes) (i : Int) :
    genqrcode E c arrival save (.number i t :: args) = genqrcode E c arrival save (.string (lit "<number: " ++ t ++ lit ">") :: args) := rfl

/-- The object of the README meets the hypotheses of `C52_settings_partial`. -/
def readme : String → JS := fun k =>
  if k = "encodeVersion" then .number 0 [0x30]
  else if k = "encodeMode" then .number 2 [0x32]
  else if k = "encodeECLevel" then .string (lit "Q")
  else if k = "outputBgColor" then .string (lit "#123123")
  else if k = "outputBgTransparent" then .boolean false
  else if k = "outputQrColor" then .string (lit "#666666")
  else if k = "outputQrWidth" then .number 20 [0x32, 0x30]
  else if k = "outputCircleShape" then .boolean true
  else if k = "outputImageEncoder" then .string (lit "png")
  else if k = "outputMargin" then .number 20 [0x32, 0x30]
  else .undefined

example : IsNumber (readme "encodeVersion") ∧ UsableColour (readme "outputBgColor") ∧ LevelField (readme "encodeECLevel") 3 ∧
    colourOf ⟨0, 0, 0, 255⟩ (readme "outputQrColor") = ⟨0x66, 0x66, 0x66, 255⟩ :=
  ⟨⟨_, _, rfl⟩, (usable_iff _).2 (Or.inr (by decide +kernel)), .q, by decide +kernel⟩

/-! ## C58: the picture in the result -/

theorem sextet_char : ∀ n : Fin 64, Spec.sextet (Base64.char n.val).toNat = some n.val := by decide +kernel

theorem sextet_mod (n : Nat) : Spec.sextet (Base64.char (n % 64)).toNat = some (n % 64) := sextet_char ⟨n % 64, Nat.mod_lt _ (by decide)⟩

/-- **C58.**  Base64 as the result contains it is read back to exactly the bytes of the picture. -/
theorem C58_base64 : ∀ (l : List UInt8), Spec.unbase64 ((Base64.encode l).map UInt8.toNat) = some (l.map UInt8.toNat)
  | [] => rfl
  | [a] => by
    have ha := a.toNat_lt
    have e : Spec.sextet 61 = none := by decide
    simp only [Base64.encode, List.map_cons, List.map_nil, Spec.unbase64, Spec.quad, sextet_mod, show (0x3d : UInt8).toNat = 61 from rfl, e]
    generalize a.toNat = x at *
    simp
    omega
  | [a, b] => by
    have ha := a.toNat_lt
    have hb := b.toNat_lt
    have e : Spec.sextet 61 = none := by decide
    simp only [Base64.encode, List.map_cons, List.map_nil, Spec.unbase64, Spec.quad, sextet_mod, show (0x3d : UInt8).toNat = 61 from rfl, e]
    generalize a.toNat = x at *
    generalize b.toNat = y at *
    simp
    omega
  | a :: b :: c :: rest => by
    have ha := a.toNat_lt
    have hb := b.toNat_lt
    have hc := c.toNat_lt
    have ih := C58_base64 rest
    have hg : ∀ x y z : Nat, x < 256 → y < 256 → z < 256 → ∀ v, v = x * 65536 + y * 256 + z →
        4 * (v / 262144 % 64) + v / 4096 % 64 / 16 = x ∧ 16 * (v / 4096 % 64 % 16) + v / 64 % 64 / 4 = y ∧ 64 * (v / 64 % 64 % 4) + v % 64 = z := by
      intro x y z hx hy hz v hv
      omega
    obtain ⟨g1, g2, g3⟩ := hg a.toNat b.toNat c.toNat ha hb hc _ rfl
    simp only [Base64.encode, List.map_cons, Spec.unbase64, Spec.quad, sextet_mod, Option.bind_eq_bind, Option.bind_some, g1, g2, g3]
    by_cases hr : rest = []
    · subst hr; simp [Base64.encode]
    · have : (Base64.encode rest).map UInt8.toNat ≠ [] := by
        match rest, hr with
        | [_], _ => simp [Base64.encode]
        | [_, _], _ => simp [Base64.encode]
        | _ :: _ :: _ :: _, _ => simp [Base64.encode]
      rw [if_neg this, ih]
      simp

/-- The settings a call asks for: none given means the zero options, an options object is read field by field (what each field does is
said by `C52_settings_partial` and `C52_defaults`). -/
def Settings (rest : List JS) (opt : Option GenOption) : Prop :=
  (rest = [] ∧ opt = some zeroOption) ∨ ∃ o more, rest = o :: more ∧ optionFromJSValue o = some opt

/-- **C58.**  Whenever the call returns a result: it reports success exactly if the content's symbol was made, with the settings asked for, and
saved; then it contains exactly the picture that was saved and no error.  Otherwise it contains no picture and the error that occurred: no
arguments, the error of making the symbol, or that of saving it. -/
theorem C58_result (E : Ext) (c : AlignCache) (arrival : List Nat) (save : Opts → Matrix → Saved) (args : List JS) (r : GenResult)
    (h : genqrcode E c arrival save args = .result r) :
    (r.success = true ∧ r.error = none ∧ ∃ content rest opt q o b, args = content :: rest ∧ Settings rest opt ∧
      newWith E c arrival .string content.str (encodeOptions opt) = .ok q ∧ newWithWriter false (outputOptions opt) = some o ∧
      save o q.mat = .image b ∧ Spec.unbase64 (r.base64EncodedImage.map UInt8.toNat) = some (b.map UInt8.toNat)) ∨
    (r.success = false ∧ r.base64EncodedImage = [] ∧
      ((args = [] ∧ r.error = some .noArgs) ∨ ∃ content rest opt, args = content :: rest ∧ Settings rest opt ∧
        ((∃ e, newWith E c arrival .string content.str (encodeOptions opt) = .err e ∧ r.error = some (.new e)) ∨
          ∃ q o e, newWith E c arrival .string content.str (encodeOptions opt) = .ok q ∧
            newWithWriter false (outputOptions opt) = some o ∧ save o q.mat = .error e ∧ r.error = some (.save e)))) := by
  unfold genqrcode at h
  split at h
  · cases h; exact Or.inr ⟨rfl, rfl, Or.inl ⟨rfl, rfl⟩⟩
  · rename_i content rest
    simp only at h
    split at h
    · cases h
    · rename_i opt hopt
      have hset : Settings rest opt := by
        cases rest with
        | nil => exact Or.inl ⟨rfl, (Option.some.inj hopt).symm⟩
        | cons o more => exact Or.inr ⟨o, more, rfl, hopt⟩
      split at h
      · cases h
      · rename_i e he
        cases h; exact Or.inr ⟨rfl, rfl, Or.inr ⟨content, rest, opt, rfl, hset, Or.inl ⟨e, he, rfl⟩⟩⟩
      · rename_i q hq
        split at h
        · cases h
        · rename_i o ho
          split at h
          · cases h
          · rename_i e hs
            cases h; exact Or.inr ⟨rfl, rfl, Or.inr ⟨content, rest, opt, rfl, hset, Or.inr ⟨q, o, e, hq, ho, hs, rfl⟩⟩⟩
          · rename_i hs
            cases h
            exact Or.inl ⟨rfl, rfl, content, rest, opt, q, o, _, rfl, hset, hq, ho, hs, C58_base64 _⟩

end QR.Wasm
