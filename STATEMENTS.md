# The claims and their theorems

Written by `tools/statements.py` from `properties.jsonl`, `MANIFEST.json` and the sources; the definitions the statements use are in `lean/Verif/Spec` and `lean/Verif/Model`.

## C01 – A symbol decodes back to the text it was made from (partial)

Whenever New/NewWith returns a QRCode, a standards-conforming reader that sees only the dark/light bitmap (no errors) recovers exactly the bytes that were passed in.

*false for alphanumeric+kanji texts in automatic mode; proved for all others*

`QR.C01_roundtrip_partial` (Verif/Props/Text.lean): **C01 (partial).** A reader that sees only the bitmap recovers exactly the bytes passed in, unless the mode was automatic and the text is an alphanumeric part followed by a kanji part. Full statement: without the last hypothesis (refuted by `C01_counterexample`).

```lean
theorem C01_roundtrip_partial {E : Ext} {unsjis : Nat → Option Nat} (hE : E.Ok unsjis) {c : AlignCache} (hc : CacheReachable c)
    {arrival : List Nat} (ha : Arrival arrival) {t : TextType} {text : Bytes} {opts : List EncodeOption} {q : QRCode}
    (h : newWith E c arrival t text opts = .ok q)
    (hx : ¬ (modeIn opts = encAuto ∧ AlnumThenKanji E.sjis (nats text))) :
    Spec.decode unsjis q.mat.bitmap = some (nats text)
```

`QR.C01_exact` (Verif/Props/Mixed.lean): **C01, exactly.** A reader (with a Shift-JIS table in which no two-byte code means an ASCII character) recovers the text of a symbol if and only if it is not the case that the mode was automatic and the text is an alphanumeric part followed by a kanji part.

```lean
theorem C01_exact {E : Ext} {unsjis : Nat → Option Nat} (hE : E.Ok unsjis) (hu : ∀ s r, unsjis s = some r → 0x80 ≤ r)
    {c : AlignCache} (hc : CacheReachable c) {arrival : List Nat} (ha : Arrival arrival) {t : TextType} {text : Bytes}
    {opts : List EncodeOption} {q : QRCode} (h : newWith E c arrival t text opts = .ok q) :
    Spec.decode unsjis q.mat.bitmap = some (nats text) ↔ ¬ (modeIn opts = encAuto ∧ AlnumThenKanji E.sjis (nats text))
```

`QR.C01_counterexample` (Verif/Props/Text.lean): **C01 refuted** in full generality: for some text, accepted with default options, the reader does not recover the text. (In fact no reader can, by `C03_counterexample`.)

```lean
theorem C01_counterexample :
    ∃ (E : Ext) (unsjis : Nat → Option Nat) (c : AlignCache) (arrival : List Nat) (text : Bytes) (q : QRCode),
      E.Ok unsjis ∧ CacheReachable c ∧ Arrival arrival ∧ newWith E c arrival .string text [] = .ok q ∧
      ∀ reader : List (List Bool) → Option (List Nat), ∃ text' q', newWith E c arrival .string text' [] = .ok q' ∧
        reader q'.mat.bitmap ≠ some (nats text')
```

`QR.C01_ascii` (Verif/Props/Ascii.lean): **C01 for ASCII texts**, without exception: whatever the options, if `NewWith` succeeds then the symbol contains the text.

```lean
theorem C01_ascii {E : Ext} {unsjis : Nat → Option Nat} (hE : E.Ok unsjis) {c : AlignCache} (hc : CacheReachable c)
    {arrival : List Nat} (ha : Arrival arrival) {t : TextType} {text : Bytes} {opts : List EncodeOption} {q : QRCode}
    (h : newWith E c arrival t text opts = .ok q) (htext : AllAscii text) : decode unsjis q.mat.bitmap = some (nats text)
```

## C02 – The automatically chosen encoding mode can represent every character of the text (partial)

With automatic mode selection, the chosen mode is the first of numeric, alphanumeric, kanji, byte that can represent all characters of the text.

*false for alphanumeric+kanji texts; proved for all others*

`QR.C02_auto_mode_partial` (Verif/Props/Text.lean): **C02 (partial).** With automatic mode selection the mode of the symbol is the first of numeric, alphanumeric, kanji, byte that can represent the whole text, unless the text is an alphanumeric part followed by a kanji part. Full statement: without the last hypothesis (refuted by `C02_counterexample`).

```lean
theorem C02_auto_mode_partial {E : Ext} {unsjis : Nat → Option Nat} (hE : E.Ok unsjis) {c : AlignCache} (hc : CacheReachable c)
    {arrival : List Nat} (ha : Arrival arrival) {t : TextType} {text : Bytes} {opts : List EncodeOption} {q : QRCode}
    (h : newWith E c arrival t text opts = .ok q) (hauto : modeIn opts = encAuto)
    (hx : ¬ AlnumThenKanji E.sjis (nats text)) :
    ∃ m, modeInSymbol q.mat.bitmap = some m ∧ FirstMode E.sjis (nats text) m
```

`QR.C02_counterexample` (Verif/Props/Text.lean): **C02 refuted** for every text outside the hypothesis of `C02_auto_mode_partial`: such a text is written in kanji mode, which cannot represent it, and whose payload is empty (the count is followed by the filling).

```lean
theorem C02_counterexample {E : Ext} {unsjis : Nat → Option Nat} (hE : E.Ok unsjis) {c : AlignCache} (hc : CacheReachable c)
    {arrival : List Nat} (ha : Arrival arrival) {t : TextType} {text : Bytes} {opts : List EncodeOption} {q : QRCode}
    (h : newWith E c arrival t text opts = .ok q) (hauto : modeIn opts = encAuto)
    (hx : AlnumThenKanji E.sjis (nats text)) :
    modeInSymbol q.mat.bitmap = some .kanji ∧ ¬ Encodable E.sjis .kanji (nats text) ∧
      ∃ v lv k bs, readData q.mat.bitmap = some (v, lv, k, bs) ∧
        Filled (8 * dataCodewords v lv) (Segment v .kanji (Spec.charCount .kanji (nats text)) []) bs
```

## C03 – Different texts give different symbols (partial)

Two different texts encoded with the same options never yield the same set of possible symbols (otherwise no reader could tell them apart).

*false for alphanumeric+kanji texts in automatic mode; proved for all others*

`QR.C03_injective_partial` (Verif/Props/Text.lean): **C03 (partial).** Different texts never give the same symbol, whatever the options and schedules of the two calls, unless one of them is, in automatic mode, an alphanumeric part followed by a kanji part. Full statement: without the last two hypotheses (refuted by `C03_counterexample`).

```lean
theorem C03_injective_partial {E : Ext} {unsjis : Nat → Option Nat} (hE : E.Ok unsjis) {c c' : AlignCache}
    (hc : CacheReachable c) (hc' : CacheReachable c') {arrival arrival' : List Nat} (ha : Arrival arrival) (ha' : Arrival arrival')
    {t t' : TextType} {text text' : Bytes} {opts opts' : List EncodeOption} {q q' : QRCode}
    (h : newWith E c arrival t text opts = .ok q) (h' : newWith E c' arrival' t' text' opts' = .ok q')
    (hne : text ≠ text')
    (hx : ¬ (modeIn opts = encAuto ∧ AlnumThenKanji E.sjis (nats text)))
    (hx' : ¬ (modeIn opts' = encAuto ∧ AlnumThenKanji E.sjis (nats text'))) :
    q.mat.bitmap ≠ q'.mat.bitmap
```

`QR.C03_collisions` (Verif/Props/Mixed.lean): **C03, the collisions.** Any two texts made of an alphanumeric part followed by a kanji part, with equally many characters, give the same symbol (in automatic mode, with the same other options, in every schedule).

```lean
theorem C03_collisions {E : Ext} {unsjis : Nat → Option Nat} (hE : E.Ok unsjis) (c : AlignCache) (arrival : List Nat) (t : TextType)
    {a b : Bytes} {opts : List EncodeOption} (h0 : modeIn opts = encAuto) (ha : AlnumThenKanji E.sjis (nats a))
    (hb : AlnumThenKanji E.sjis (nats b)) (hab : Spec.charCount .kanji (nats a) = Spec.charCount .kanji (nats b)) :
    symbolOf (newWith E c arrival t a opts) = symbolOf (newWith E c arrival t b opts)
```

`QR.C03_counterexample` (Verif/Props/Text.lean): Every reader, however clever: no function of the bitmap recovers the text of all symbols, because two texts share their symbols.

```lean
theorem C03_counterexample :
    ∃ (E : Ext) (unsjis : Nat → Option Nat), E.Ok unsjis ∧ ∃ a b : Bytes, a ≠ b ∧
      (∀ c arrival t opts, modeIn opts = encAuto →
        symbolOf (newWith E c arrival t a opts) = symbolOf (newWith E c arrival t b opts)) ∧
      ∀ c arrival, CacheReachable c → Arrival arrival → ∃ q, newWith E c arrival .string a [] = .ok q
```

## C04 – Automatic version selection is the smallest sufficient version (proved)

With no explicit version, the symbol's version is the smallest version, not below WithMinimumVersion, whose published character capacity for the chosen mode and level holds the text; an error is returned exactly when no version holds it.

`QR.C04_smallest_version` (Verif/Props/Version.lean): **C04.** Without an explicit version, the version a reader finds in the symbol is the smallest one that holds the text in the mode used, or the minimum version if that is larger.

```lean
theorem C04_smallest_version {E : Ext} {unsjis : Nat → Option Nat} (hE : E.Ok unsjis) {c : AlignCache} (hc : CacheReachable c)
    {arrival : List Nat} (ha : Arrival arrival) {t : TextType} {text : Bytes} {opts : List EncodeOption} {q : QRCode}
    (h : newWith E c arrival t text opts = .ok q) (hv : versionIn opts = none) :
    ∃ m u, UsesMode E.sjis (modeIn opts) (nats text) m ∧ modeInSymbol q.mat.bitmap = some m ∧
      LeastVersion (levelIn opts) m (Spec.charCount m (nats text)) u ∧
      readVersion q.mat.bitmap = some (max u (minimumIn opts))
```

`QR.C04_error_iff` (Verif/Props/Version.lean): **C04.** Without an explicit version, and for a text the mode can represent, an error is returned exactly when no version holds the text. (An explicit mode that cannot represent the text is C09.)

```lean
theorem C04_error_iff {E : Ext} {unsjis : Nat → Option Nat} (hE : E.Ok unsjis) {c : AlignCache} (hc : CacheReachable c)
    {arrival : List Nat} (ha : Arrival arrival) {t : TextType} (ht : t ≠ .defined) {text : Bytes} {opts : List EncodeOption}
    (hv : versionIn opts = none) {m : Mode} (hm : UsesMode E.sjis (modeIn opts) (nats text) m) :
    (∃ e, newWith E c arrival t text opts = .err e) ↔
      ∀ u, 1 ≤ u → u ≤ 40 → ¬ fits u (levelIn opts) m (Spec.charCount m (nats text))
```

`QR.C04_ascii` (Verif/Props/Ascii.lean): **C04 for ASCII texts**: `New` accepts every ASCII text of at most 1273 characters, with any level and minimum version, in automatic or byte mode.

```lean
theorem C04_ascii {E : Ext} {unsjis : Nat → Option Nat} (hE : E.Ok unsjis) {c : AlignCache} (hc : CacheReachable c) {arrival : List Nat} (ha : Arrival arrival)
    {opts : List EncodeOption} (hv : versionIn opts = none) (hm : modeIn opts = encAuto ∨ modeIn opts = encByte) {text : Bytes} (h : AllAscii text) (hl : text.length ≤ 1273) :
    ∃ q, newWith E c arrival .string text opts = .ok q
```

## C05 – An automatically versioned text is never rejected later for lack of room (proved)

If version selection succeeds, the encoded bit stream (mode, count, payload) fits the selected version, also when WithMinimumVersion raises it.

`QR.C05_never_overfull` (Verif/Props/Version.lean): **C05.** Without an explicit version the call never fails for lack of room: whatever the minimum version, the error of an overfull stream does not occur.

```lean
theorem C05_never_overfull {E : Ext} {unsjis : Nat → Option Nat} (hE : E.Ok unsjis) {c : AlignCache} (hc : CacheReachable c)
    {arrival : List Nat} (ha : Arrival arrival) {t : TextType} (ht : t ≠ .defined) (text : Bytes) {opts : List EncodeOption}
    (hs : Supported (modeIn opts)) (hv : versionIn opts = none) :
    ∀ ver cap len, newWith E c arrival t text opts ≠ .err (.wrongVersionCap ver cap len)
```

`QR.C05_stream_fits` (Verif/Props/Version.lean): **C05.** The stream in an automatically versioned symbol: mode indicator, count and payload fit the version found in the symbol, also when the minimum version raised it.

```lean
theorem C05_stream_fits {E : Ext} {unsjis : Nat → Option Nat} (hE : E.Ok unsjis) {c : AlignCache} (hc : CacheReachable c)
    {arrival : List Nat} (ha : Arrival arrival) {t : TextType} {text : Bytes} {opts : List EncodeOption} {q : QRCode}
    (h : newWith E c arrival t text opts = .ok q) (hv : versionIn opts = none) :
    ∃ v m, readVersion q.mat.bitmap = some v ∧ modeInSymbol q.mat.bitmap = some m ∧ minimumIn opts ≤ v ∧
      fits v (levelIn opts) m (Spec.charCount m (nats text))
```

## C06 – An explicit version is honoured or rejected with an error (partial)

NewWith(text, WithVersion(v)) with 1<=v<=40 either yields a symbol of exactly version v or returns an error; it errs exactly when the text is not representable in the mode or its bit stream exceeds version v's data capacity.

*false for alphanumeric+kanji texts in automatic mode (never rejected); proved for all others*

`QR.C06_honoured` (Verif/Props/Version.lean): **C06.** With an explicit version the call yields a symbol of exactly that version, or an error; it does not panic.

```lean
theorem C06_honoured {E : Ext} {unsjis : Nat → Option Nat} (hE : E.Ok unsjis) {c : AlignCache} (hc : CacheReachable c)
    {arrival : List Nat} (ha : Arrival arrival) {t : TextType} (ht : t ≠ .defined) (text : Bytes) {opts : List EncodeOption}
    (hs : Supported (modeIn opts)) {v : Nat} (hv : versionIn opts = some v) :
    (∃ q, newWith E c arrival t text opts = .ok q ∧ readVersion q.mat.bitmap = some v) ∨
    ∃ e, newWith E c arrival t text opts = .err e
```

`QR.C06_error_iff_partial` (Verif/Props/Version.lean): **C06 (partial).** With an explicit version, an error is returned exactly when the explicit mode cannot represent the text, or its bits exceed the version's capacity. Full statement: without `hx` (refuted by `C06_counterexample`).

```lean
theorem C06_error_iff_partial {E : Ext} {unsjis : Nat → Option Nat} (hE : E.Ok unsjis) {c : AlignCache} (hc : CacheReachable c)
    {arrival : List Nat} (ha : Arrival arrival) {t : TextType} (ht : t ≠ .defined) (text : Bytes) {opts : List EncodeOption}
    (hs : Supported (modeIn opts)) {v : Nat} (hv : versionIn opts = some v)
    (hx : ¬ (modeIn opts = encAuto ∧ AlnumThenKanji E.sjis (nats text))) :
    (∃ e, newWith E c arrival t text opts = .err e) ↔
      (∃ m, modeIn opts = modeNum m ∧ ¬ Encodable E.sjis m (nats text)) ∨
      ∃ m, UsesMode E.sjis (modeIn opts) (nats text) m ∧ ¬ fits v (levelIn opts) m (Spec.charCount m (nats text))
```

`QR.C06_counterexample` (Verif/Props/Version.lean): **C06 refuted** in the excluded corner: there, no text is ever rejected under an explicit version, however long: its payload is lost and nothing but mode and count is written.

```lean
theorem C06_counterexample {E : Ext} {unsjis : Nat → Option Nat} (hE : E.Ok unsjis) {c : AlignCache} (hc : CacheReachable c)
    {arrival : List Nat} (ha : Arrival arrival) {t : TextType} (ht : t ≠ .defined) (text : Bytes) {opts : List EncodeOption}
    {v : Nat} (hv : versionIn opts = some v) (h0 : modeIn opts = encAuto) (hx : AlnumThenKanji E.sjis (nats text)) :
    ∃ q, newWith E c arrival t text opts = .ok q ∧ readVersion q.mat.bitmap = some v
```

## C07 – New/NewWith never panic for string or []byte input and supported modes (proved)

For T = string or []byte and modes auto/numeric/alphanumeric/kanji/byte, NewWith returns a QRCode or an error and never panics.

`QR.C07_newWith_no_panic` (Verif/Props/Total.lean): **C07.** For texts of type `string` and `[]byte` and supported modes, `NewWith` returns a code or an error: it never panics, whatever the text, the options, the cache state and the schedule.

```lean
theorem C07_newWith_no_panic {E : Ext} {unsjis : Nat → Option Nat} (hE : E.Ok unsjis) {c : AlignCache} (hc : CacheReachable c)
    {arrival : List Nat} (ha : Arrival arrival) {t : TextType} (ht : t ≠ .defined) (text : Bytes) {opts : List EncodeOption}
    (hs : Supported (modeIn opts)) : (∃ q, newWith E c arrival t text opts = .ok q) ∨ ∃ e, newWith E c arrival t text opts = .err e
```

`QR.C07_new_no_panic` (Verif/Props/Total.lean): **C07** for `New`.

```lean
theorem C07_new_no_panic {E : Ext} {unsjis : Nat → Option Nat} (hE : E.Ok unsjis) {c : AlignCache} (hc : CacheReachable c)
    {arrival : List Nat} (ha : Arrival arrival) {t : TextType} (ht : t ≠ .defined) (text : Bytes) :
    (∃ q, new E c arrival t text = .ok q) ∨ ∃ e, new E c arrival t text = .err e
```

## C08 – Unsupported modes and named text types are rejected without panicking (partial)

NewWith with an encoding mode outside the supported set, or with a text of a user-defined string/[]byte type (which the type constraint admits), returns an error or a symbol but does not panic.

*false; the exact set of panicking calls is proved*

`QR.C08_no_panic_partial` (Verif/Props/Total.lean): **C08 (partial).** The exact set of panicking calls: a call panics iff the text has a defined type, or the mode is unsupported and a version was given; all other calls return a code or an error. Full statement: no call panics (refuted above).

```lean
theorem C08_no_panic_partial {E : Ext} {unsjis : Nat → Option Nat} (hE : E.Ok unsjis) {c : AlignCache} (hc : CacheReachable c)
    {arrival : List Nat} (ha : Arrival arrival) (t : TextType) (text : Bytes) (opts : List EncodeOption) :
    (∃ p, newWith E c arrival t text opts = .panic p) ↔
      t = .defined ∨ (¬ Supported (modeIn opts) ∧ versionIn opts ≠ none)
```

`QR.C08_counterexample` (Verif/Props/Total.lean): **C08 refuted**, second half: an unsupported mode together with a valid explicit version panics.

```lean
theorem C08_counterexample (E : Ext) (c : AlignCache) (arrival : List Nat) (text : Bytes) :
    newWith E c arrival .string text [.withEncodingMode 3, .withVersion 1] = .panic .unsupportedMode
```

`QR.C08_defined_type_panics` (Verif/Props/Total.lean): **C08 refuted**, first half: a text of a defined type with underlying type `string` or `[]byte` always panics, although the type constraint `~string | ~[]byte` admits it.

```lean
theorem C08_defined_type_panics (E : Ext) (c : AlignCache) (arrival : List Nat) (text : Bytes) (opts : List EncodeOption) :
    newWith E c arrival .defined text opts = .panic .unreachableType ∧ new E c arrival .defined text = .panic .unreachableType
```

`QR.C08_unsupported_mode` (Verif/Props/Total.lean): What happens with an unsupported mode: without an explicit version an error, with one a panic.

```lean
theorem C08_unsupported_mode (E : Ext) (c : AlignCache) (arrival : List Nat) {t : TextType} (ht : t ≠ .defined) (text : Bytes)
    {opts : List EncodeOption} (hs : ¬ Supported (modeIn opts)) :
    newWith E c arrival t text opts =
      if versionIn opts = none then .err .missMatchedEncodeType else .panic .unsupportedMode
```

## C09 – Characters outside an explicitly chosen mode are rejected (proved)

With an explicit numeric, alphanumeric or kanji mode NewWith returns an error exactly when some character of the text is outside that mode's repertoire (given enough capacity); byte mode accepts every byte string.

`QR.C09_rejects_iff` (Verif/Props/Total.lean): **C09.** With an explicit mode the call is rejected for a character exactly when the text is not in that mode's repertoire; the rejection does not depend on capacity.

```lean
theorem C09_rejects_iff {E : Ext} {unsjis : Nat → Option Nat} (hE : E.Ok unsjis) {c : AlignCache} (hc : CacheReachable c)
    {arrival : List Nat} (ha : Arrival arrival) {t : TextType} (ht : t ≠ .defined) (text : Bytes) {opts : List EncodeOption}
    {m : Mode} (hm : modeIn opts = modeNum m) :
    (∃ r, newWith E c arrival t text opts = .err (.cannotEncode r (modeNum m))) ↔ ¬ Encodable E.sjis m (nats text)
```

`QR.C09_fails_iff` (Verif/Props/Total.lean): **C09.** Given enough capacity (the text would fit version 40 and no version, or a version it fits, is asked for), an explicit mode fails exactly when some character is outside its repertoire.

```lean
theorem C09_fails_iff {E : Ext} {unsjis : Nat → Option Nat} (hE : E.Ok unsjis) {c : AlignCache} (hc : CacheReachable c)
    {arrival : List Nat} (ha : Arrival arrival) {t : TextType} (ht : t ≠ .defined) (text : Bytes) {opts : List EncodeOption}
    {m : Mode} (hm : modeIn opts = modeNum m)
    (hroom : fits ((versionIn opts).getD 40) (levelIn opts) m (Spec.charCount m (nats text))) :
    (∃ q, newWith E c arrival t text opts = .ok q) ↔ Encodable E.sjis m (nats text)
```

`QR.C09_byte_accepts` (Verif/Props/Total.lean): **C09.** Byte mode accepts every byte string that fits.

```lean
theorem C09_byte_accepts {E : Ext} {unsjis : Nat → Option Nat} (hE : E.Ok unsjis) {c : AlignCache} (hc : CacheReachable c)
    {arrival : List Nat} (ha : Arrival arrival) {t : TextType} (ht : t ≠ .defined) (text : Bytes) {opts : List EncodeOption}
    (hm : modeIn opts = encByte) (hroom : fits ((versionIn opts).getD 40) (levelIn opts) .byte text.length) :
    ∃ q, newWith E c arrival t text opts = .ok q
```

## C10 – Encode options: invalid values ignored, last valid value wins, different options commute (proved)

The effective options are determined field by field by the last in-range option; out-of-range versions, minimum versions and levels have no effect; order between options of different kinds is irrelevant.

`QR.C10_options` (Verif/Props/Options.lean): **C10.** Field by field, the last valid option wins; invalid versions, minimum versions and levels have no effect.

```lean
theorem C10_options (opts : List EncodeOption) : applyOptions opts =
    { version := lastOr 0 (versionsIn opts), minimumVersion := lastOr 0 (minimumsIn opts),
      encMode := lastOr encAuto (modesIn opts), ecLevel := lastOr ecQuart (levelsIn opts) }
```

`QR.C10_order_irrelevant` (Verif/Props/Options.lean): **C10.** Option lists that agree kind by kind (same valid options of each kind, in the same order; options of different kinds interleaved in any way) give the same result for every text.

```lean
theorem C10_order_irrelevant (a b : List EncodeOption) (hm : modesIn a = modesIn b) (hl : levelsIn a = levelsIn b)
    (hv : versionsIn a = versionsIn b) (hn : minimumsIn a = minimumsIn b) (E : Ext) (c : AlignCache)
    (arrival : List Nat) (t : TextType) (text : Bytes) :
    newWith E c arrival t text a = newWith E c arrival t text b
```

`QR.C10_commute` (Verif/Props/Options.lean): **C10.** Adjacent options of different kinds commute, anywhere in the list.

```lean
theorem C10_commute (x y : EncodeOption) (h : sameKind x y = false) (a b : List EncodeOption) :
    applyOptions (a ++ x :: y :: b) = applyOptions (a ++ y :: x :: b)
```

`QR.C10_invalid_ignored` (Verif/Props/Options.lean): **C10.** An out-of-range option has no effect, anywhere in the list.

```lean
theorem C10_invalid_ignored (a b : List EncodeOption) (x : EncodeOption)
    (h : (∃ l, x = .withErrorCorrectionLevel l ∧ ¬ (1 ≤ l ∧ l ≤ 4)) ∨ (∃ v, x = .withVersion v ∧ ¬ (1 ≤ v ∧ v ≤ 40)) ∨
      (∃ v, x = .withMinimumVersion v ∧ ¬ (1 ≤ v ∧ v ≤ 40))) :
    applyOptions (a ++ x :: b) = applyOptions (a ++ b)
```

## C11 – Symbol dimension (proved)

Every symbol is square with side 17+4*version modules and Dimension() reports that side.

`QR.C11_dimension` (Verif/Props/Symbol.lean): **C11.** Every symbol is a square of `17 + 4 version` modules, and `Dimension()` reports that side.

```lean
theorem C11_dimension {E : Ext} {unsjis : Nat → Option Nat} (hE : E.Ok unsjis) {c : AlignCache} (hc : CacheReachable c)
    {arrival : List Nat} (ha : Arrival arrival) {t : TextType} {text : Bytes} {opts : List EncodeOption} {q : QRCode}
    (h : newWith E c arrival t text opts = .ok q) :
    ∃ v, ChosenVersion E.sjis opts (nats text) v ∧ q.dimension = 17 + 4 * v ∧ q.mat.bitmap.length = 17 + 4 * v ∧
      ∀ r ∈ q.mat.bitmap, r.length = 17 + 4 * v
```

## C12 – Function patterns are those of the standard (proved)

In every symbol the finder patterns, separators, timing patterns, alignment patterns and dark module have exactly the dark/light values and positions prescribed for its version.

`QR.C12_function_patterns` (Verif/Props/Symbol.lean): **C12.** In every symbol each module of a finder pattern, separator, alignment pattern, timing pattern and the dark module has the prescribed colour; `v` is the version that belongs to the dimension.

```lean
theorem C12_function_patterns {E : Ext} {unsjis : Nat → Option Nat} (hE : E.Ok unsjis) {c : AlignCache} (hc : CacheReachable c)
    {arrival : List Nat} (ha : Arrival arrival) {t : TextType} {text : Bytes} {opts : List EncodeOption} {q : QRCode}
    (h : newWith E c arrival t text opts = .ok q) {v : Nat} (hv : q.dimension = 17 + 4 * v) :
    ∀ i j colour, i < 17 + 4 * v → j < 17 + 4 * v → patternColour v i j = some colour → pixel q.mat.bitmap i j = colour
```

## C13 – Format information names the level and mask actually used (proved)

Both copies of the 15-bit format information carry the BCH-encoded error correction level requested and the mask pattern that was actually applied to the data region.

`QR.C13_format_information` (Verif/Props/Symbol.lean): **C13.** Both copies of the format information carry the BCH-coded level asked for and a mask number `k`; and mask `k` is the one applied: with it removed, the data region carries the codewords of the text.

```lean
theorem C13_format_information {E : Ext} {unsjis : Nat → Option Nat} (hE : E.Ok unsjis) {c : AlignCache} (hc : CacheReachable c)
    {arrival : List Nat} (ha : Arrival arrival) {t : TextType} {text : Bytes} {opts : List EncodeOption} {q : QRCode}
    (h : newWith E c arrival t text opts = .ok q) {v : Nat} (hv : q.dimension = 17 + 4 * v) :
    ∃ k, k < 8 ∧
      (formatCells1.map fun x => pixel q.mat.bitmap x.1 x.2) = numBits 15 (formatWord (levelIn opts) k) ∧
      ((formatCells2 v).map fun x => pixel q.mat.bitmap x.1 x.2) = numBits 15 (formatWord (levelIn opts) k) ∧
      ∃ m p bits, UsesMode E.sjis (modeIn opts) (nats text) m ∧
        Filled (8 * dataCodewords v (levelIn opts)) (Segment v m (Spec.charCount m (nats text)) p) bits ∧
        IsStream E.rs v (levelIn opts) bits (readStream q.mat.bitmap v k)
```

## C14 – Version information (proved)

For versions 7..40 both copies of the 18-bit version information carry the Golay-encoded version number; versions below 7 carry none.

`QR.C14_version_information` (Verif/Props/Symbol.lean): **C14.** Versions 7..40 carry both copies of the Golay-coded version number; below 7 every function module is a pattern or format module, so there is no version information.

```lean
theorem C14_version_information {E : Ext} {unsjis : Nat → Option Nat} (hE : E.Ok unsjis) {c : AlignCache} (hc : CacheReachable c)
    {arrival : List Nat} (ha : Arrival arrival) {t : TextType} {text : Bytes} {opts : List EncodeOption} {q : QRCode}
    (h : newWith E c arrival t text opts = .ok q) {v : Nat} (hv : q.dimension = 17 + 4 * v) :
    (7 ≤ v → ((versionCells1 v).map fun x => pixel q.mat.bitmap x.1 x.2) = numBits 18 (versionWord v) ∧
      ((versionCells2 v).map fun x => pixel q.mat.bitmap x.1 x.2) = numBits 18 (versionWord v)) ∧
    (v < 7 → ∀ i j, i < 17 + 4 * v → j < 17 + 4 * v →
      (∃ colour, patternColour v i j = some colour) ∨ (i, j) ∈ formatCells1 ∨ (i, j) ∈ formatCells2 v ∨ (i, j) ∈ dataModules v)
```

## C15 – Every module is determined: the final bit stream exactly fills the data region (proved)

The codewords plus remainder bits are exactly as many as the non-function modules, each of these modules receives exactly one bit, and no module of the returned symbol is left in the initial state.

`QR.C15_every_module_determined` (Verif/Props/Symbol.lean): **C15.** The stream (codewords and remainder bits) has exactly as many bits as there are data modules; the list of data modules has no repetitions and contains every non-function module; no module of the returned matrix is in the initial state.

```lean
theorem C15_every_module_determined {E : Ext} {unsjis : Nat → Option Nat} (hE : E.Ok unsjis) {c : AlignCache} (hc : CacheReachable c)
    {arrival : List Nat} (ha : Arrival arrival) {t : TextType} {text : Bytes} {opts : List EncodeOption} {q : QRCode}
    (h : newWith E c arrival t text opts = .ok q) {v : Nat} (hv : q.dimension = 17 + 4 * v) :
    q.dataBSet.length = (dataModules v).length ∧ (dataModules v).length = 8 * totalCodewords v + rawModules v % 8 ∧
    (dataModules v).Nodup ∧ (∀ i j, (i, j) ∈ dataModules v ↔ i < 17 + 4 * v ∧ j < 17 + 4 * v ∧ isFunction v i j = false) ∧
    ∀ x y : Nat, x < q.dimension → y < q.dimension → (q.mat.at' x y).ty ≠ .init
```

`QR.C15_symbol_unique` (Verif/Props/Symbol.lean): **C15**, seen from the standard: version, level, mask and stream determine every module, so a bitmap that satisfies C12, C13, C14 and C16 for the same stream is the same bitmap.

```lean
theorem C15_symbol_unique {v : Nat} {lv : Level} {k : Nat} {s : List Bool} {bm bm' : List (List Bool)}
    (h : IsSymbol v lv k s bm) (h' : IsSymbol v lv k s bm') : bm = bm'
```

## C16 – Data bits are placed in the standard zig-zag order (proved)

Reading the non-function modules of the unmasked symbol in the standard two-column zig-zag order yields the interleaved codeword stream.

`QR.C16_zigzag` (Verif/Props/Symbol.lean): **C16.** Reading the non-function modules in the standard's zig-zag order, with the mask named in the format information removed, yields the stream of interleaved codewords (data, error correction, zero remainder bits).

```lean
theorem C16_zigzag {E : Ext} {unsjis : Nat → Option Nat} (hE : E.Ok unsjis) {c : AlignCache} (hc : CacheReachable c)
    {arrival : List Nat} (ha : Arrival arrival) {t : TextType} {text : Bytes} {opts : List EncodeOption} {q : QRCode}
    (h : newWith E c arrival t text opts = .ok q) :
    ∃ v lv k bits, readVersion q.mat.bitmap = some v ∧ readFormat q.mat.bitmap = some (lv, k) ∧
      ((dataModules v).map fun x => pixel q.mat.bitmap x.1 x.2 ^^ maskBit k x.1 x.2) = q.dataBSet ∧
      IsStream E.rs v lv bits q.dataBSet
```

## C17 – Masking flips exactly the data modules selected by the standard formula (proved)

For mask k the symbol differs from the unmasked symbol exactly on non-function modules whose (row,column) satisfies formula k of the standard; masking twice restores the symbol.

`QR.C17_mask` (Verif/Props/Mask.lean): **C17.** Let `q0` be the code before masking and `F` its matrix with the data bits filled in. For each of the eight masks `k`, masking `F` changes a module exactly if it is no function module and row and column satisfy formula `k`; doing it twice gives back the bitmap of `F`. The symbol that is returned is `F` with one of these masks on all modules except the format and version modules.

```lean
theorem C17_mask {E : Ext} {unsjis : Nat → Option Nat} (hE : E.Ok unsjis) {c : AlignCache} (hc : CacheReachable c)
    {arrival : List Nat} (ha : Arrival arrival) {t : TextType} {text : Bytes} {opts : List EncodeOption} {q : QRCode}
    (h : newWith E c arrival t text opts = .ok q) {v : Nat} (hv : q.dimension = 17 + 4 * v) :
    ∃ q0 F, init E c text (applyOptions opts) = .ok q0 ∧
      fillDataBinary q0.mat.copy q0.v.dimension q0.dataBSet = some F ∧
      (∀ k < 8, ∃ mask, newMask q0.mat k = .ok mask ∧
        (∀ i j, i < 17 + 4 * v → j < 17 + 4 * v →
          pixel (xorMask F mask).bitmap i j = (pixel F.bitmap i j ^^ (maskBit k i j && !isFunction v i j))) ∧
        (xorMask (xorMask F mask) mask).bitmap = F.bitmap) ∧
      ∃ k lv, readFormat q.mat.bitmap = some (lv, k) ∧
        ∀ i j, i < 17 + 4 * v → j < 17 + 4 * v →
          (isFunction v i j = false → pixel q.mat.bitmap i j = (pixel F.bitmap i j ^^ maskBit k i j)) ∧
          (∀ colour, patternColour v i j = some colour → pixel q.mat.bitmap i j = pixel F.bitmap i j)
```

## C18 – The chosen mask has the lowest penalty whatever the goroutine order (proved)

For every completion order of the eight mask goroutines the returned symbol is one of the eight candidates and no candidate has a strictly lower penalty score.

*C78_lowest has the score as a function of version and colours*

`QR.C18_lowest_penalty` (Verif/Props/Mask.lean): **C18.** There are eight candidate symbols, one for each mask, that do not depend on the schedule: they have the same version, level and stream, and a score each below the sentinel the search starts with. In every arrival order of the scores the call succeeds with one of them, and no candidate has a lower score.

```lean
theorem C18_lowest_penalty {E : Ext} {unsjis : Nat → Option Nat} (hE : E.Ok unsjis) {c : AlignCache} (hc : CacheReachable c)
    {arrival : List Nat} {t : TextType} {text : Bytes} {opts : List EncodeOption} {q : QRCode}
    (h : newWith E c arrival t text opts = .ok q) :
    ∃ (v : Nat) (stream : List Bool) (M : Nat → Matrix) (score : Nat → Nat),
      (∀ k < 8, IsSymbol v (levelIn opts) k stream (M k).bitmap ∧ evaluation (M k) = .ok (score k) ∧ score k < 2 ^ 31 - 1) ∧
      ∀ arrival, Arrival arrival → ∃ q' k, newWith E c arrival t text opts = .ok q' ∧ k < 8 ∧ q'.mat = M k ∧
        ∀ j < 8, score k ≤ score j
```

`QR.C78_lowest` (Verif/Props/MaskChoice.lean): C78 for the code returned: no mask gives the reference symbol a lower score.

```lean
theorem C78_lowest {E : Ext} {unsjis : Nat → Option Nat} (hE : E.Ok unsjis) (hRS : E.rs = rsEncode) {c : AlignCache}
    (hc : CacheReachable c) {arrival : List Nat} (ha : Arrival arrival) {t : TextType} {text : Bytes} {opts : List EncodeOption} {q : QRCode}
    (h : newWith E c arrival t text opts = .ok q) :
    ∃ m v p k, UsesMode E.sjis (modeIn opts) (nats text) m ∧ ChosenVersion E.sjis opts (nats text) v ∧
      PayloadOf E.sjis (modeIn opts) m (nats text) p ∧ k < 8 ∧
      q.mat.bitmap = encodeSymbol v (levelIn opts) k m (Spec.charCount m (nats text)) p ∧
      ∀ j < 8, score v (pixel q.mat.bitmap) ≤ score v (pixel (encodeSymbol v (levelIn opts) j m (Spec.charCount m (nats text)) p))
```

## C19 – Determinism: the same text and options always give the same symbol (partial)

The returned symbol is a function of text and options only, independent of goroutine scheduling.

*false when two masks tie for the lowest score (witness: the text 19); C19_exact: all schedules agree exactly if one mask alone has the lowest score; up to the mask in general*

`QR.C19_deterministic_partial` (Verif/Props/Mask.lean): **C19**, the part that holds: if one mask has a lower score than the seven others, every schedule returns the same code. Missing: the case of a tie for the lowest score, where the claim is false (`C19_counterexample`).

```lean
theorem C19_deterministic_partial {E : Ext} {unsjis : Nat → Option Nat} (hE : E.Ok unsjis) {c : AlignCache} (hc : CacheReachable c)
    {a a' : List Nat} (ha : Arrival a) (ha' : Arrival a') {t : TextType} {text : Bytes} {opts : List EncodeOption} {q : QRCode}
    (h : newWith E c a t text opts = .ok q)
    (best : Nat) (hbest : best < 8)
    (hu : ∀ k < 8, k ≠ best → ∀ m s m' s', WorkerResult E c text opts best m s → WorkerResult E c text opts k m' s' → s < s') :
    newWith E c a' t text opts = .ok q
```

`QR.C19_exact` (Verif/Props/MaskChoice.lean): **C19, exactly.** With mode, version and payload of the text and the options: all schedules return the same bitmap if and only if one mask alone gives the reference symbol the lowest score.

```lean
theorem C19_exact {E : Ext} {unsjis : Nat → Option Nat} (hE : E.Ok unsjis) (hRS : E.rs = rsEncode) {c : AlignCache}
    (hc : CacheReachable c) {arrival : List Nat} {t : TextType} {text : Bytes} {opts : List EncodeOption} {q : QRCode}
    (h : newWith E c arrival t text opts = .ok q) :
    ∃ (m : Mode) (v : Nat) (p : List Bool),
      UsesMode E.sjis (modeIn opts) (nats text) m ∧ ChosenVersion E.sjis opts (nats text) v ∧
      PayloadOf E.sjis (modeIn opts) m (nats text) p ∧
      ((∀ a a' q1 q2, Arrival a → Arrival a' → newWith E c a t text opts = .ok q1 → newWith E c a' t text opts = .ok q2 →
          q1.mat.bitmap = q2.mat.bitmap) ↔
        ∀ k k', k < 8 → k' < 8 →
          (∀ j < 8, score v (pixel (encodeSymbol v (levelIn opts) k m (Spec.charCount m (nats text)) p)) ≤
            score v (pixel (encodeSymbol v (levelIn opts) j m (Spec.charCount m (nats text)) p))) →
          (∀ j < 8, score v (pixel (encodeSymbol v (levelIn opts) k' m (Spec.charCount m (nats text)) p)) ≤
            score v (pixel (encodeSymbol v (levelIn opts) j m (Spec.charCount m (nats text)) p))) →
          k = k')
```

`QR.C19_up_to_mask` (Verif/Props/Mask.lean): **C19**, for every call: two schedules return codes with the same score, version, level and data stream; only the mask can differ, and with the same mask the codes are the same.

```lean
theorem C19_up_to_mask {E : Ext} {unsjis : Nat → Option Nat} (hE : E.Ok unsjis) {c : AlignCache} (hc : CacheReachable c)
    {a a' : List Nat} (ha : Arrival a) (ha' : Arrival a') {t : TextType} {text : Bytes} {opts : List EncodeOption} {q : QRCode}
    (h : newWith E c a t text opts = .ok q) :
    ∃ q' v k k' stream, newWith E c a' t text opts = .ok q' ∧ evaluation q.mat = evaluation q'.mat ∧
      IsSymbol v (levelIn opts) k stream q.mat.bitmap ∧ IsSymbol v (levelIn opts) k' stream q'.mat.bitmap ∧
      (k = k' → q = q')
```

`QR.C19_counterexample` (Verif/Props/Mask.lean): **C19 is false in general**: with the standard's Reed-Solomon coder, two schedules of `New("19")` return different bitmaps, because two masks tie for the lowest score and the first to arrive wins.

```lean
theorem C19_counterexample : ∃ c a a' q q', CacheReachable c ∧ Arrival a ∧ Arrival a' ∧
    newWith demoExt c a .string [49, 57] [] = .ok q ∧ newWith demoExt c a' .string [49, 57] [] = .ok q' ∧
    q.mat.bitmap ≠ q'.mat.bitmap
```

## C20 – Mask goroutines: every interleaving terminates with all eight scores and no cross-talk (proved)

Under every interleaving of the eight workers none blocks on the score channel, the waiter is released only after all eight sent their score, each worker's final matrix equals its sequential result, and the channel holds each index exactly once.

*small-step machine of the goroutines; every schedule*

`QR.Conc.C20_terminates` (Verif/Props/Conc.lean): **C20, termination.** Every interleaving, whatever it is, can be continued until `masking` returns, never gets stuck before, and has then made exactly `8 * (side * side + 6) + 27` steps; no step crashes (panic, send on a closed channel, negative WaitGroup counter).

```lean
theorem C20_terminates {sched : List Actor} {s : St} (h : run q (initial cpy masks) sched = some s) :
    s.crash = none ∧
    sched.length ≤ 8 * (q.v.dimension * q.v.dimension + 6) + 27 ∧
    (sched.length = 8 * (q.v.dimension * q.v.dimension + 6) + 27 ↔ ∃ k, s.main = .finished k) ∧
    ((∀ a, step q s a = none) ↔ ∃ k, s.main = .finished k) ∧
    ∃ rest s' k, run q s rest = some s' ∧ s'.main = .finished k
```

`QR.Conc.C20_never_blocked` (Verif/Props/Conc.lean): **C20, no blocking.** In every reachable state every started worker that has not ended can make a step; in particular none waits at the channel.

```lean
theorem C20_never_blocked {sched : List Actor} {s : St} (h : run q (initial cpy masks) sched = some s) {i : Nat} (hi : i < 8)
    (hb : s.pc i ≠ .unborn) (hd : s.pc i ≠ .dead) : ∃ s', step q s (.worker i) = some s'
```

`QR.Conc.C20_wait` (Verif/Props/Conc.lean): **C20, the waiter.** Once the main goroutine has passed `Wait`, all eight workers have ended, each has sent exactly once, and each matrix is what that worker computes when it runs alone.

```lean
theorem C20_wait {sched : List Actor} {s : St} (h : run q (initial cpy masks) sched = some s) (hr : Released s) :
    s.sent.Perm (List.range 8) ∧
    ∀ i < 8, s.pc i = .dead ∧ ∃ score, maskWorker q cpy i = .ok (s.heap (matPtr i), score)
```

`QR.Conc.C20_channel` (Verif/Props/Conc.lean): **C20, the channel.** At every moment the values sent so far are the workers' own scores with their own indices, no index twice; what is in the channel is a suffix of it, and all of it as long as nothing was received.

```lean
theorem C20_channel {sched : List Actor} {s : St} (h : run q (initial cpy masks) sched = some s) :
    s.chan.length ≤ chanCap ∧ (s.chan.map (·.2)).Nodup ∧
    (∀ x ∈ s.chan, x.2 < 8 ∧ ∃ m, maskWorker q cpy x.2 = .ok (m, x.1)) ∧
    (s.main = .close → (s.chan.map (·.2)).Perm (List.range 8))
```

`QR.Conc.C20_result` (Verif/Props/Conc.lean): **C20, the result.** When `masking` returns, the code has the matrix of the selected worker; this is the result of the sequential model for the order in which the scores were sent.

```lean
theorem C20_result {sched : List Actor} {s : St} (h : run q (initial cpy masks) sched = some s) {k : Nat}
    (hk : s.main = .finished k) :
    Arrival s.sent ∧ ∀ t, t ≠ .defined → newWith E c s.sent t text opts = .ok { q with mat := s.heap (matPtr k) }
```

`QR.Conc.C20_all_orders` (Verif/Props/Conc.lean): **C20, all orders.** Every order of the eight scores is produced by some interleaving; so the results of the sequential model for the possible orders are exactly the possible results of the goroutines.

```lean
theorem C20_all_orders {arrival : List Nat} (ha : Arrival arrival) :
    ∃ sched s k, run q (initial cpy masks) sched = some s ∧ s.main = .finished k ∧ s.sent = arrival
```

`QR.Conc.C20_no_crosstalk` (Verif/Props/Conc.lean): **C20, no cross-talk.** A step of worker `i` in a reachable state changes no memory but worker `i`'s own matrix; a step of the main goroutine changes none.

```lean
theorem C20_no_crosstalk {sched : List Actor} {s s' : St} (h : run q (initial cpy masks) sched = some s) :
    (∀ i a, step q s (.worker i) = some s' → a ≠ matPtr i → s'.heap a = s.heap a) ∧
    (step q s .main = some s' → s'.heap = s.heap)
```

`QR.Conc.C20_own_memory` (Verif/Props/Conc.lean): **C20, no shared reads.** What worker `i` writes to its matrix and does next depends only on its own program counter, its own matrix and its own mask (in all states, reachable or not).

```lean
theorem C20_own_memory (q : QRCode) {i : Nat} {s t s' t' : St} (hp : s.pc i = t.pc i)
    (hm : s.heap (matPtr i) = t.heap (matPtr i)) (hk : s.heap (maskPtr i) = t.heap (maskPtr i))
    (hs : stepWorker q i s = some s') (ht : stepWorker q i t = some t') (hc : s'.crash = s.crash) (hc' : t'.crash = t.crash)
    (h0 : s.crash = none) (h0' : t.crash = none) :
    s'.pc i = t'.pc i ∧ s'.heap (matPtr i) = t'.heap (matPtr i)
```

## C21 – Codewords are split into blocks and interleaved as the standard prescribes (proved)

De-interleaving the codeword stream with the standard's block table gives back the data blocks (whose concatenation is the encoded stream) and for each block the error-correction codewords computed from that block.

`QR.C21_blocks` (Verif/Props/Symbol.lean): **C21.** De-interleaving with the standard's block table gives back the data blocks, whose concatenation is the data bit stream, and for each block the codewords that the Reed-Solomon coder appends to that block.

```lean
theorem C21_blocks {E : Ext} {unsjis : Nat → Option Nat} (hE : E.Ok unsjis) {c : AlignCache} (hc : CacheReachable c)
    {arrival : List Nat} (ha : Arrival arrival) {t : TextType} {text : Bytes} {opts : List EncodeOption} {q : QRCode}
    (h : newWith E c arrival t text opts = .ok q) :
    ∃ v lv k bits, readData q.mat.bitmap = some (v, lv, k, bits) ∧
      IsStream E.rs v lv bits (readStream q.mat.bitmap v k) ∧ lv = levelIn opts
```

## C22 – The data bit stream has exactly the capacity of the symbol and the standard layout (proved)

The encoded stream is mode indicator, character count, payload, terminator of at most 4 zero bits, zero bits up to a byte boundary, then alternating pad bytes 0xEC 0x11, with total length exactly 8 x data codewords.

`QR.C22_layout` (Verif/Props/Symbol.lean): **C22.** The data bit stream of the symbol is mode indicator, character count, payload, a terminator of at most four zero bits, zero bits up to a byte boundary and alternating pad bytes `0xEC 0x11`, in total 8 times the number of data codewords; for a text the mode can represent, the payload has the standard's length and decodes to the text.

```lean
theorem C22_layout {E : Ext} {unsjis : Nat → Option Nat} (hE : E.Ok unsjis) {c : AlignCache} (hc : CacheReachable c)
    {arrival : List Nat} (ha : Arrival arrival) {t : TextType} {text : Bytes} {opts : List EncodeOption} {q : QRCode}
    (h : newWith E c arrival t text opts = .ok q) :
    ∃ v lv k bits m payload, readData q.mat.bitmap = some (v, lv, k, bits) ∧
      UsesMode E.sjis (modeIn opts) (nats text) m ∧ bits.length = 8 * dataCodewords v lv ∧
      Filled (8 * dataCodewords v lv) (m.indicator ++ numBits (countWidth v m) (Spec.charCount m (nats text)) ++ payload) bits ∧
      (Encodable E.sjis m (nats text) → payload.length = payloadBits m (Spec.charCount m (nats text)) ∧
        ∀ rest, readPayload unsjis m (Spec.charCount m (nats text)) (payload ++ rest) = some (nats text, rest))
```

## C23 – Payload codecs are invertible (proved)

Numeric, alphanumeric, byte and kanji payloads decode (by the standard's rules, knowing only the character count) to the characters that were encoded, and their bit lengths follow the standard's formulas.

`QR.C23_payload_roundtrip` (Verif/Props/Codec.lean): For every mode and every text the mode can represent (`Spec.Encodable`), the payload the encoder appends has the length the standard prescribes for that many characters, and the standard's reader, given only the mode, the number of characters and a bit stream that starts with the payload, gives back the bytes of the text and leaves what follows. `hE` says that the Shift-JIS tables used for writing and reading are inverse.

```lean
theorem C23_payload_roundtrip {E : Ext} {unsjis : Nat → Option Nat} (hE : E.Ok unsjis) (m : Mode) (raw : Bytes)
    (h : Spec.Encodable E.sjis m (nats raw)) :
    ∃ p, encodePayload E (modeNum m) raw = .ok p ∧
      charCount (modeNum m) raw = Spec.charCount m (nats raw) ∧
      p.length = payloadBits m (Spec.charCount m (nats raw)) ∧
      ∀ rest, readPayload unsjis m (Spec.charCount m (nats raw)) (p ++ rest) = some (nats raw, rest)
```

`QR.C23_payload_injective` (Verif/Props/Codec.lean): Consequence: two texts of a mode with the same number of characters and the same payload are equal.

```lean
theorem C23_payload_injective {E : Ext} {unsjis : Nat → Option Nat} (hE : E.Ok unsjis) (m : Mode) (a b : Bytes)
    (ha : Spec.Encodable E.sjis m (nats a)) (hb : Spec.Encodable E.sjis m (nats b))
    (hn : Spec.charCount m (nats a) = Spec.charCount m (nats b))
    (h : encodePayload E (modeNum m) a = encodePayload E (modeNum m) b) : a = b
```

## C24 – Version tables agree with the standard (proved)

For all 160 version/level pairs the block structure, remainder bits and the four character capacities equal the values derived from the symbol geometry and the standard's EC tables; the alignment table equals the standard's; format and version words equal their BCH/Golay encodings.

`QR.C24_entries` (Verif/Props/Tables.lean): The table has exactly one entry for each version 1..40 and level, in order, and looking a pair up gives that entry.

```lean
theorem C24_entries : versions.length = 160 ∧ ∀ v ec : Nat, 1 ≤ v → v ≤ 40 → 1 ≤ ec → ec ≤ 4 →
    ∃ V, versions[4 * (v - 1) + (ec - 1)]? = some V ∧ loadVersion v ec = .ok V ∧ V.ver = v ∧ V.ecLevel = ec
```

`QR.C24_blocks` (Verif/Props/Tables.lean): Block structure and remainder bits: with `C` the number of modules that are not part of a function pattern divided by eight, the blocks in the entry are the `numBlocks` blocks of the standard, in one group if all have the same length, otherwise in two: their lengths (data plus error correction) add up to `C`, differ by at most one, shorter ones first, each with the error correction codewords of the standard's table; the remainder is what is left of the division by eight.

```lean
theorem C24_blocks {v ec : Nat} {V : Version} (h1 : 1 ≤ v) (h2 : v ≤ 40) (h3 : 1 ≤ ec) (h4 : ec ≤ 4)
    (h : loadVersion v ec = .ok V) :
    blockList V.groups = (List.range (numBlocks v (levelOf ec))).map
      (fun b => (blockLen v (levelOf ec) b, ecPerBlock v (levelOf ec))) ∧
    (((blockList V.groups).map fun p => p.1 + p.2).sum = (dataModules v).length / 8) ∧
    V.numTotalCodewords = ((blockList V.groups).map Prod.fst).sum ∧
    V.totalNumBlocks = numBlocks v (levelOf ec) ∧
    V.numGroups = (if numShort v (levelOf ec) = numBlocks v (levelOf ec) then 1 else 2) ∧
    V.remainderBits = (dataModules v).length % 8 ∧
    V.dimension = side v
```

`QR.C24_capacities` (Verif/Props/Tables.lean): Capacities: in every mode the table's capacity is the exact limit: `n` characters fit (mode indicator, character count and payload within the data codewords) exactly when `n` is at most the capacity; and the character count field is wide enough for it.

```lean
theorem C24_capacities {v ec : Nat} {V : Version} (h1 : 1 ≤ v) (h2 : v ≤ 40) (h3 : 1 ≤ ec) (h4 : ec ≤ 4)
    (h : loadVersion v ec = .ok V) (m : Mode) (n : Nat) :
    (n ≤ capOf V.cap m ↔ fits v (levelOf ec) m n) ∧ capOf V.cap m < 2 ^ countWidth v m
```

`QR.C24_alignment` (Verif/Props/Tables.lean): Alignment positions: the table lists the standard's coordinates, and the positions computed from it are, without repetition, the centres (x is the column) of the standard's alignment patterns.

```lean
theorem C24_alignment {v : Nat} (h2 : 2 ≤ v) (h40 : v ≤ 40) :
    alignPatternLocation.lookup v = some (alignCoords v) ∧
    ∃ locs, calcAlignPatternLocs v = .ok locs ∧ locs.Nodup ∧
      ∀ x y : Int, (x, y) ∈ locs ↔ ∃ j i : Nat, x = j ∧ y = i ∧ isAlignCentre v i j = true
```

`QR.C24_alignment_1` (Verif/Props/Tables.lean): Version 1 has no alignment pattern.

```lean
theorem C24_alignment_1 : calcAlignPatternLocs 1 = .ok [] ∧ ∀ i j, isAlignCentre 1 i j = false
```

`QR.C24_format_word` (Verif/Props/Tables.lean): Format words: the word written for an entry and a mask is the BCH encoding of its level and that mask.

```lean
theorem C24_format_word {v ec k : Nat} {V : Version} (h1 : 1 ≤ v) (h2 : v ≤ 40) (h3 : 1 ≤ ec) (h4 : ec ≤ 4)
    (h : loadVersion v ec = .ok V) (hk : k < 8) :
    formatInfo V k = .ok (numBits 15 (formatWord (levelOf ec) k))
```

`QR.C24_version_word` (Verif/Props/Tables.lean): Version words: from version 7 on the word is the Golay encoding of the version, below there is none.

```lean
theorem C24_version_word {v ec : Nat} {V : Version} (h1 : 1 ≤ v) (h2 : v ≤ 40) (h3 : 1 ≤ ec) (h4 : ec ≤ 4)
    (h : loadVersion v ec = .ok V) :
    verInfo V = .ok (if 7 ≤ v then some (numBits 18 (versionWord v)) else none)
```

## C25 – Format and version words are far apart (proved)

Any two distinct format words differ in at least 7 bits and any two distinct version words in at least 8, so a reader can correct 3 wrong bits in either.

`QR.C25_format_distance` (Verif/Props/Tables.lean): Any two format words with different level or mask differ in at least 7 of 15 bits.

```lean
theorem C25_format_distance {v ec v' ec' k k' : Nat} {V V' : Version} {w w' : Bits}
    (h1 : 1 ≤ v) (h2 : v ≤ 40) (h3 : 1 ≤ ec) (h4 : ec ≤ 4) (hk : k < 8) (h : loadVersion v ec = .ok V)
    (g1 : 1 ≤ v') (g2 : v' ≤ 40) (g3 : 1 ≤ ec') (g4 : ec' ≤ 4) (gk : k' < 8) (g : loadVersion v' ec' = .ok V')
    (hw : formatInfo V k = .ok w) (gw : formatInfo V' k' = .ok w') (hne : (ec, k) ≠ (ec', k')) :
    7 ≤ bitDist w w'
```

`QR.C25_version_distance` (Verif/Props/Tables.lean): Any two version words of different versions differ in at least 8 of 18 bits.

```lean
theorem C25_version_distance {v ec v' ec' : Nat} {V V' : Version} {w w' : Bits}
    (h1 : 7 ≤ v) (h2 : v ≤ 40) (h3 : 1 ≤ ec) (h4 : ec ≤ 4) (h : loadVersion v ec = .ok V)
    (g1 : 7 ≤ v') (g2 : v' ≤ 40) (g3 : 1 ≤ ec') (g4 : ec' ≤ 4) (g : loadVersion v' ec' = .ok V')
    (hw : verInfo V = .ok (some w)) (gw : verInfo V' = .ok (some w')) (hne : v ≠ v') :
    8 ≤ bitDist w w'
```

`QR.C25_format_correctable` (Verif/Props/Tables.lean): So up to three wrong bits in a format word can be corrected: no word read is within distance 3 of two different format words.

```lean
theorem C25_format_correctable {v ec v' ec' k k' : Nat} {V V' : Version} {w w' r : Bits}
    (h1 : 1 ≤ v) (h2 : v ≤ 40) (h3 : 1 ≤ ec) (h4 : ec ≤ 4) (hk : k < 8) (h : loadVersion v ec = .ok V)
    (g1 : 1 ≤ v') (g2 : v' ≤ 40) (g3 : 1 ≤ ec') (g4 : ec' ≤ 4) (gk : k' < 8) (g : loadVersion v' ec' = .ok V')
    (hw : formatInfo V k = .ok w) (gw : formatInfo V' k' = .ok w') (hr : r.length = 15)
    (d : bitDist r w ≤ 3) (d' : bitDist r w' ≤ 3) : ec = ec' ∧ k = k'
```

`QR.C25_version_correctable` (Verif/Props/Tables.lean): The same for version words.

```lean
theorem C25_version_correctable {v ec v' ec' : Nat} {V V' : Version} {w w' r : Bits}
    (h1 : 7 ≤ v) (h2 : v ≤ 40) (h3 : 1 ≤ ec) (h4 : ec ≤ 4) (h : loadVersion v ec = .ok V)
    (g1 : 7 ≤ v') (g2 : v' ≤ 40) (g3 : 1 ≤ ec') (g4 : ec' ≤ 4) (g : loadVersion v' ec' = .ok V')
    (hw : verInfo V = .ok (some w)) (gw : verInfo V' = .ok (some w')) (hr : r.length = 18)
    (d : bitDist r w ≤ 3) (d' : bitDist r w' ≤ 3) : v = v'
```

## C26 – Penalty rule 1 scores runs (proved)

Rule 1 equals the sum over rows and columns of (n-2) for every maximal run of n>=5 modules of equal colour.

`QR.C26_rule1` (Verif/Props/Penalty.lean): **C26.** Rule 1 is the sum over all rows and columns, over the maximal runs of equal colour, of `n - 2` for a run of `n ≥ 5` modules.

```lean
theorem C26_rule1 {m : Matrix} {d : Nat} (s : m.Sq d) : rule1 m = .ok (Spec.rule1 d (pixel m.bitmap))
```

`QR.C26_runCost` (Verif/Props/Penalty.lean)

```lean
theorem C26_runCost (n : Nat) : runCost n = if 5 ≤ n then n - 2 else 0
```

## C27 – Penalty rule 2 scores same-colour 2x2 areas (partial)

Rule 2 equals 3 times the number of 2x2 squares whose four modules have the same colour.

*false: the code compares module values, not colours; the exact count it computes is proved, and equality when all modules have comparable types*

`QR.C27_rule2_partial` (Verif/Props/Penalty.lean): **C27**, the part that holds: rule 2 counts 3 for every 2x2 square whose four modules have the same colour *and the same kind* (data, finder, timing, ...); so it never exceeds the standard's rule 2, and equals it if no square of one colour has modules of different kinds. Missing: squares of one colour with different kinds, which the code does not count (`C27_counterexample`).

```lean
theorem C27_rule2_partial {m : Matrix} {d : Nat} (s : m.Sq d) :
    rule2 m = 3 * ((List.range (d - 1)).map fun i => (List.range (d - 1)).countP fun j => decide (SameValue m i j)).sum ∧
    rule2 m ≤ Spec.rule2 d (pixel m.bitmap) ∧
    ((∀ i j, i + 1 < d → j + 1 < d → SameColour (pixel m.bitmap) i j = true → SameValue m i j) →
      rule2 m = Spec.rule2 d (pixel m.bitmap))
```

`QR.C27_counterexample` (Verif/Props/Penalty.lean): **C27 is false in general**: in the symbol of the text `0;` rule 2 of the code is 66, that of the standard 81.

```lean
theorem C27_counterexample : ∃ c a q, CacheReachable c ∧ Arrival a ∧ newWith demoExt c a .string [48, 59] [] = .ok q ∧
    rule2 q.mat = 66 ∧ Spec.rule2 q.dimension (pixel q.mat.bitmap) = 81
```

## C28 – Penalty rule 3 scores finder-like patterns by colour (partial)

Rule 3 equals 40 times the number of positions (rows and columns) at which the colour sequence 10111010000 or 00001011101 occurs, overlapping occurrences included.

*false: the code looks for data modules only; what it counts is proved exactly*

`QR.C28_rule3_partial` (Verif/Props/Penalty.lean): **C28**, the part that holds: rule 3 counts 40 for every occurrence of the two sequences *all of whose eleven modules are data modules*; so it never exceeds the standard's rule 3, and equals it on a matrix of data modules only. Missing: occurrences that touch function modules, which the code does not count (`C28_counterexample`).

```lean
theorem C28_rule3_partial {m : Matrix} {d : Nat} (s : m.Sq d) :
    ∃ n, rule3 m = .ok n ∧
      n = 40 * ((List.range d).map fun k =>
        dataOccurrences finderLike1 (lineRow m d k) + dataOccurrences finderLike2 (lineRow m d k) +
        dataOccurrences finderLike1 (lineCol m d k) + dataOccurrences finderLike2 (lineCol m d k)).sum ∧
      n ≤ Spec.rule3 d (pixel m.bitmap) ∧
      ((∀ x y : Nat, x < d → y < d → (m.at' (x : Int) (y : Int)).ty = .data) → n = Spec.rule3 d (pixel m.bitmap))
```

`QR.C28_counterexample` (Verif/Props/Penalty.lean): **C28 is false in general**: in the symbol of the text `0;` rule 3 of the code is 0, that of the standard 80.

```lean
theorem C28_counterexample : ∃ c a q, CacheReachable c ∧ Arrival a ∧ newWith demoExt c a .string [48, 59] [] = .ok q ∧
    rule3 q.mat = .ok 0 ∧ Spec.rule3 q.dimension (pixel q.mat.bitmap) = 80
```

## C29 – Pattern counting counts every occurrence and terminates (proved)

The substring counter returns the number of positions at which the pattern occurs in the source, overlaps included, and terminates for every source and every non-empty pattern.

`QR.C29_counts` (Verif/Props/Penalty.lean): **C29.** The counter returns the number of positions at which a non-empty pattern occurs, overlaps included, whether or not the failure table is passed in; it terminates (`some`: the loop ended) for every source.

```lean
theorem C29_counts {α : Type} [DecidableEq α] (src pattern : List α) (hp : pattern ≠ []) :
    kmp src pattern none = some ((List.range src.length).countP fun u => decide ((src.drop u).take pattern.length = pattern)) ∧
    kmp src pattern (kmpGetNext pattern) =
      some ((List.range src.length).countP fun u => decide ((src.drop u).take pattern.length = pattern))
```

## C30 – Penalty rule 4 depends only on the dark ratio and is bounded (partial)

Rule 4 equals the standard's step function of the percentage of dark modules: ten times the distance from 50 percent in steps of five, and lies between 0 and 100; total penalties never reach the sentinel 2^31-1 used to initialise the search.

*false: integer arithmetic; the exact condition for agreement with the standard is proved*

`QR.C30_rule4_partial` (Verif/Props/Penalty.lean): **C30**, the part that holds. Rule 4 depends on the number of dark modules only; it is ten times a number `k` of steps, at most 100. `k` is the standard's number of steps (`5k ≤ |percentage - 50| ≤ 5(k+1)`) exactly if the percentage is a whole number, or its whole part is not a multiple of 5, or its whole part is 50. Missing: the remaining percentages (for example 55.78 %), for which the code is one step off (`C30_counterexample`).

```lean
theorem C30_rule4_partial {m : Matrix} {d : Nat} (s : m.Sq d) (hd : 0 < d) :
    ∃ k, rule4 m = .ok (10 * k) ∧ 10 * k ≤ 100 ∧
      k = max (50 - darkCount d (pixel m.bitmap) * 100 / (d * d)) (darkCount d (pixel m.bitmap) * 100 / (d * d) - 51) / 5 ∧
      (Rule4 (darkCount d (pixel m.bitmap)) (d * d) k ↔
        (100 * darkCount d (pixel m.bitmap) % (d * d) = 0 ∨ darkCount d (pixel m.bitmap) * 100 / (d * d) % 5 ≠ 0 ∨
          darkCount d (pixel m.bitmap) * 100 / (d * d) = 50))
```

`QR.C30_below_sentinel` (Verif/Props/Penalty.lean): **C30**, the sentinel: the evaluation of any symbol-sized matrix is a number below `2^31 - 1`.

```lean
theorem C30_below_sentinel {m : Matrix} {d : Nat} (s : m.Sq d) (h0 : 0 < d) (h1 : d ≤ 177) :
    ∃ n, evaluation m = .ok n ∧ n < 2 ^ 31 - 1
```

`QR.C30_counterexample` (Verif/Props/Penalty.lean): **C30 is false in general**: the symbol of the text `0;` has 246 dark modules of 441 (55.78 %), the standard's rule 4 is one step (10), the code's 0.

```lean
theorem C30_counterexample : ∃ c a q, CacheReachable c ∧ Arrival a ∧ newWith demoExt c a .string [48, 59] [] = .ok q ∧
    rule4 q.mat = .ok 0 ∧ ¬ Rule4 (darkCount q.dimension (pixel q.mat.bitmap)) (q.dimension * q.dimension) 0 ∧
    Rule4 (darkCount q.dimension (pixel q.mat.bitmap)) (q.dimension * q.dimension) 1
```

## C31 – Matrix views agree (proved)

Iterate visits every module exactly once in the documented order with its value; Bitmap()[y][x] is the IsSet of the value Iterate reports at (x,y); Row and Col return the corresponding lines or nil when out of range; reads and writes outside the matrix report errors and change nothing.

`QR.C31_wellformed` (Verif/Props/MatrixApi.lean): `WF` holds initially and is preserved by every operation.

```lean
theorem C31_wellformed (w h : Nat) : (newMatrix w h).WF ∧ ∀ m : Matrix, m.WF →
    (m.copy.WF ∧ ∀ x y c, (m.setE x y c).1.WF)
```

`QR.C31_iterate` (Verif/Props/MatrixApi.lean): `Iterate` calls the callback with every module exactly once (strictly increasing positions), in the documented order, with the value `at` reports, and with no other position.

```lean
theorem C31_iterate (m : Matrix) (dir : Dir) :
    ((m.iterate dir).map fun c => (c.1, c.2.1)).Pairwise (Before dir) ∧
    (∀ x y : Nat, (∃ v, (x, y, v) ∈ m.iterate dir) ↔ x < m.width ∧ y < m.height) ∧
    (∀ (x y : Nat) (v : QRValue), (x, y, v) ∈ m.iterate dir → m.atE x y = (v, none))
```

`QR.C31_direction` (Verif/Props/MatrixApi.lean): Only the value 1 means row first.

```lean
theorem C31_direction (d : UInt8) : Dir.ofByte d = .row ↔ d = 1
```

`QR.C31_bitmap` (Verif/Props/MatrixApi.lean): `Bitmap()` has `height` rows of `width` entries, and entry `[y][x]` is `IsSet` of the value at `(x, y)`.

```lean
theorem C31_bitmap (m : Matrix) : m.bitmap.length = m.height ∧ (∀ r ∈ m.bitmap, r.length = m.width) ∧
    ∀ (dir : Dir) (x y : Nat) (v : QRValue), (x, y, v) ∈ m.iterate dir →
      ∃ r, m.bitmap[y]? = some r ∧ r[x]? = some v.qrbool
```

`QR.C31_col` (Verif/Props/MatrixApi.lean): `Col(x)` is the column of `height` modules at `x`, or nil outside the matrix.

```lean
theorem C31_col {m : Matrix} (hm : m.WF) (x : Int) :
    (¬ (0 ≤ x ∧ x < m.width) → m.col x = none) ∧
    (0 ≤ x → x < m.width → ∃ l, m.col x = some l ∧ l.length = m.height ∧
      ∀ y : Nat, y < m.height → ∃ v, l[y]? = some v ∧ m.atE x y = (v, none))
```

`QR.C31_row` (Verif/Props/MatrixApi.lean): `Row(y)` is the row of modules at `y`, or nil exactly outside the matrix; for the square matrices of symbols (width = height) it never panics and has `width` entries. (The code allocates `height` entries: a matrix higher than wide gets zero values behind the row, and one wider than high panics for every row inside it.)

```lean
theorem C31_row (m : Matrix) (y : Int) :
    (¬ (0 ≤ y ∧ y < m.height) → m.row y = .ok none) ∧
    (0 ≤ y → y < m.height → m.width ≤ m.height → ∃ l, m.row y = .ok (some l) ∧ l.length = m.height ∧
      (∀ x : Nat, x < m.width → ∃ v, l[x]? = some v ∧ m.atE x y = (v, none)) ∧
      ∀ x : Nat, m.width ≤ x → x < m.height → l[x]? = some ZERO_V) ∧
    (0 ≤ y → y < m.height → m.height < m.width → m.row y = .panic .index)
```

`QR.C31_access` (Verif/Props/MatrixApi.lean): Reads and writes outside the matrix report an error and change nothing; inside, a write changes that module and no other, and reads succeed.

```lean
theorem C31_access {m : Matrix} (hm : m.WF) (x y : Int) (c : QRValue) :
    (¬ (0 ≤ x ∧ x < m.width ∧ 0 ≤ y ∧ y < m.height) →
      (m.setE x y c).1 = m ∧ (m.setE x y c).2 ≠ none ∧ (m.atE x y).2 ≠ none) ∧
    (0 ≤ x → x < m.width → 0 ≤ y → y < m.height → (m.setE x y c).2 = none ∧ (m.atE x y).2 = none ∧
      (m.setE x y c).1.atE x y = (c, none) ∧
      ∀ x' y' : Int, (x', y') ≠ (x, y) → (m.setE x y c).1.atE x' y' = m.atE x' y')
```

`QR.C31_copy` (Verif/Props/MatrixApi.lean): `Copy` has the same dimensions and modules.

```lean
theorem C31_copy {m : Matrix} (x y : Int) : m.copy.width = m.width ∧ m.copy.height = m.height ∧ m.copy.atE x y = m.atE x y
```

`QR.C31_bytes` (Verif/Props/MatrixApi.lean): Bytes: `Type()`, `IsSet()`, `==` and `xor` computed on Go's bytes agree with the pair model of values.

```lean
theorem C31_bytes (v w : QRValue) : byteType v.toByte = v.qrtype.toByte ∧ byteBool v.toByte = v.qrbool ∧
    (v.toByte = w.toByte ↔ v = w) ∧ byteXor v.toByte w.toByte = (v.xor w).toByte
```

`QR.C31_string` (Verif/Props/MatrixApi.lean): The type names are pairwise different, so `String()` determines the value.

```lean
theorem C31_string (v w : QRValue) (h : v.string = w.string) : v = w
```

## C32 – Copy is independent of the original (proved)

After Copy, no later write to either matrix (through set or through a slice returned by Col) is visible in the other.

`QR.Heap.C32_frame` (Verif/Props/Heap.lean): **C32, frame.** After any history, what a matrix variable shows is not changed by any continuation that neither assigns the variable nor writes to the object it shows.

```lean
theorem C32_frame (ops ops2 : List Op) {k : Nat} {M : Matrix} (h : Shows (history empty ops) k M)
    (hq : Quiet k (objects ops) (ops2.map Op.event)) : Shows (history empty (ops ++ ops2)) k M
```

`QR.Heap.C32_copy_equal` (Verif/Props/Heap.lean): **C32, the copy.** After `Copy` the new variable shows what the original shows, the original still does, and the new variable shows a new object: no other variable or slice refers to it.

```lean
theorem C32_copy_equal (ops : List Op) {i : Nat} {M : Matrix} (h : Shows (history empty ops) i M) :
    Shows (history empty (ops ++ [.copy i])) (copyVar ops) M ∧ Shows (history empty (ops ++ [.copy i])) i M ∧
    ∃ o, (objects (ops ++ [.copy i])).mats[copyVar ops]? = some o ∧
      (∀ k : Nat, k ≠ copyVar ops → (objects (ops ++ [.copy i])).mats[k]? ≠ some o) ∧
      o ∉ (objects (ops ++ [.copy i])).slices
```

`QR.Heap.C32_copy_independent` (Verif/Props/Heap.lean): **C32, independence.** After `Copy` (and any history before it), writes to the original - through `set` or through slices returned by its `Col` - are never visible in the copy, and writes to the copy never in the original, in any continuation.

```lean
theorem C32_copy_independent (ops ops2 : List Op) {i : Nat} {M : Matrix} (h : Shows (history empty ops) i M) {o o' : Nat}
    (ho : (objects (ops ++ [.copy i])).mats[i]? = some o)
    (ho' : (objects (ops ++ [.copy i])).mats[copyVar ops]? = some o') :
    (NoAssign (copyVar ops) (ops2.map Op.event) → WritesOnly o (objects (ops ++ [.copy i])) (ops2.map Op.event) →
      Shows (history empty (ops ++ [.copy i] ++ ops2)) (copyVar ops) M) ∧
    (NoAssign i (ops2.map Op.event) → WritesOnly o' (objects (ops ++ [.copy i])) (ops2.map Op.event) →
      Shows (history empty (ops ++ [.copy i] ++ ops2)) i M)
```

`QR.Heap.C32_refines` (Verif/Props/Heap.lean): The memory model computes what the functional model does: `set` and `Copy` on variables show `Matrix.set` and `Matrix.copy` of what was shown.

```lean
theorem C32_refines (ops : List Op) {i : Nat} {M : Matrix} (h : Shows (history empty ops) i M) (w h' : Int) (c : QRValue) :
    Shows (history empty (ops ++ [.set i w h' c])) i (M.set w h' c) ∧
    Shows (history empty (ops ++ [.copy i])) (copyVar ops) M.copy ∧ M.WF
```

## C33 – A writer cannot change the QRCode it is given (partial)

Save passes the matrix by value, so whatever the writer does with it, the QRCode's later output is unchanged.

*false: Col hands out the internal column; proved for writers that write through no column they were given*

`QR.Heap.C33_writer_partial` (Verif/Props/Heap.lean): **C33 holds for writers that do not write into columns of the matrix they got** (writing into columns of copies is harmless): whatever else they do, the code's matrix shows the same as before. Full statement: without the last hypothesis; it is false (`C33_counterexample`).

```lean
theorem C33_writer_partial (ops prog : List Op) {k : Nat} {M : Matrix} (h : Shows (history empty ops) k M) {o : Nat}
    (ho : (objects ops).mats[k]? = some o)
    (hext : ∀ op ∈ prog, External (copyVar ops) (objects ops).slices.length op)
    (hcol : ∀ a e b, prog.map Op.event = a ++ e :: b → (Objects.written (a.foldl Objects.step ((objects ops).step (.pass k))) e) ≠ some o) :
    Shows (history empty (ops ++ .pass k :: prog)) k M
```

`QR.Heap.C33_counterexample` (Verif/Props/Heap.lean): **C33 is false**: `Col` returns the matrix's own column, so for every code (every matrix with at least one module) a writer that takes `Col(0)` of the matrix it was given and writes its first element changes the code: its bitmap is different afterwards.

```lean
theorem C33_counterexample (ops : List Op) {k : Nat} {M : Matrix} (h : Shows (history empty ops) k M) (hw : 0 < M.width)
    (hh : 0 < M.height) : ∃ prog M', (∀ op ∈ prog, External (copyVar ops) (objects ops).slices.length op) ∧
      Shows (history empty (ops ++ .pass k :: prog)) k M' ∧ M'.bitmap ≠ M.bitmap
```

## C34 – Save calls Write once, then Close once, and returns Write's error (proved)

For every writer, Save calls Write exactly once with the symbol and then Close exactly once even if Write fails or panics, returns Write's error and swallows Close's; a nil writer is a no-op returning nil.

`QR.C34_calls` (Verif/Props/Save.lean): **C34, the calls.** For every writer, every state of it and every symbol, `Save` calls `Write` exactly once, with the symbol, and then `Close` exactly once, after `Write`'s effects - whether they return nil, an error, or panic; nothing else is called. The writer's final state is the one after these two calls.

```lean
theorem C34_calls {σ : Type} (w : Writer σ) (s : σ) (m : Matrix) :
    ∃ tail, (save (some m) (some w) s).2.2 = .writeCall m :: .closeCall :: tail ∧
      (∀ e ∈ tail, ∃ n, e = .logWarning n) ∧
      (save (some m) (some w) s).1 = (w.close (w.write s m).1).1
```

`QR.C34_result` (Verif/Props/Save.lean): **C34, the result.** If neither call panics, `Save` returns exactly `Write`'s error, whatever `Close` returns; an error of `Close` only causes a logged warning, which appears exactly then.

```lean
theorem C34_result {σ : Type} (w : Writer σ) (s : σ) (m : Matrix)
    (hc : ∀ p, (w.close (w.write s m).1).2 ≠ .panics p) :
    (save (some m) (some w) s).2.1 = (match (w.write s m).2 with
      | .ok => .returned none
      | .error e => .returned (some e)
      | .panics p => .panicked p) ∧
    ∀ e, SaveEvent.logWarning e ∈ (save (some m) (some w) s).2.2 ↔ (w.close (w.write s m).1).2 = .error e
```

`QR.C34_panics` (Verif/Props/Save.lean): **C34, panics.** If `Write` panics, `Close` has still been called (`C34_calls`) and the panic goes on; a panic of `Close` becomes the outcome of `Save`, whatever `Write` did.

```lean
theorem C34_panics {σ : Type} (w : Writer σ) (s : σ) (m : Matrix) :
    (∀ p, (w.close (w.write s m).1).2 = .panics p → (save (some m) (some w) s).2.1 = .panicked p) ∧
    (∀ p, (w.write s m).2 = .panics p → (∃ p', (w.close (w.write s m).1).2 = .panics p') ∨
      (save (some m) (some w) s).2.1 = .panicked p)
```

`QR.C34_nil_writer` (Verif/Props/Save.lean): **C34, nil writer.** It does nothing and returns nil.

```lean
theorem C34_nil_writer {σ : Type} (s : σ) (m : Matrix) : save (some m) (none : Option (Writer σ)) s = (s, .returned none, [])
```

`QR.C34_made_by_new` (Verif/Props/Save.lean): Every code made by `New`/`NewWith` has a matrix, so `Save` on it does not dereference nil, and `Dimension` is its width (C11 says which).

```lean
theorem C34_made_by_new {E : Ext} {c : AlignCache} {arrival : List Nat} {t : TextType} {text : Bytes} {opts : List EncodeOption}
    {q : QRCode} (_h : newWith E c arrival t text opts = .ok q) {σ : Type} (w : Option (Writer σ)) (s : σ) :
    (save (some q.mat) w s).2.1 ≠ .nilDeref ∧ dimension (some q.mat) = q.mat.width
```

`QR.C34_zero_code` (Verif/Props/Save.lean): Outside of `New`/`NewWith`: the zero `QRCode` has dimension 0, and its `Save` panics with a nil dereference - after calling `Close` on the writer, without calling `Write`.

```lean
theorem C34_zero_code {σ : Type} (w : Writer σ) (s : σ) :
    dimension none = 0 ∧ (save none (some w) s).2.2.head? = some .closeCall ∧
    ((∀ p, (w.close s).2 ≠ .panics p) → (save none (some w) s).2.1 = .nilDeref)
```

## C35 – File writer output determines the bitmap (proved)

The text produced by the file writer has ceil(h/2) lines of w block characters from which every module's colour can be read back; if the file is nil or a write fails the error is returned and what was written is a prefix of the full text.

`QR.FileWriter.C35_picture` (Verif/Props/FileWriter.lean): **C35, success.** If no `WriteString` fails, `Write` returns nil and the file has received a text whose UTF-8 characters form ⌈height/2⌉ lines, each of `width` block characters ended by a newline, and from which the colour of every module can be read back.

```lean
theorem C35_picture (m : Matrix) (sink : Sink) (hs : ∀ i, sink i = none) :
    ∃ text lines, write (some sink) m = some (text, none) ∧ runes text = lines.flatMap (fun l => l ++ [10]) ∧
      lines.length = (m.height + 1) / 2 ∧ (∀ l ∈ lines, l.length = m.width ∧ ∀ c ∈ l, isBlockChar c = true) ∧
      ∀ x y, x < m.width → y < m.height → inkAt lines x y = some (m.raw x y).bit
```

`QR.FileWriter.C35_prefix` (Verif/Props/FileWriter.lean): **C35, failure.** Whatever the file does, `Write` does not panic, what has reached the file is a prefix of the full text (the text of `C35_picture`), `Write` returns nil exactly if no call failed (and then all of it was written), and otherwise the error of the first call that failed; after it no further call is made.

```lean
theorem C35_prefix (m : Matrix) (sink : Sink) :
    ∃ w r full, write (some sink) m = some (w, r) ∧ write (some fun _ => none) m = some (full, none) ∧ w <+: full ∧
      ((r = none ∧ w = full) ∨ ∃ k n e, sink k = some (n, e) ∧ (∀ k' < k, sink k' = none) ∧ r = some (.write e))
```

`QR.FileWriter.C35_nil_file` (Verif/Props/FileWriter.lean): **C35, no file.** With a nil file `Write` returns an error and writes nothing.

```lean
theorem C35_nil_file (m : Matrix) : write none m = some ([], some .nilFile)
```

## C36 – Compressed writer paints every pixel as its module (proved)

Pixel (px,py) of the compressed image is foreground exactly when it lies inside the symbol area and the module covering it is dark; the image is (w*block+2*padding) square and nothing is written outside it.

*for padding and block size that are not negative; the PNG encoder is external*

`QR.Compressed.C36_pixels` (Verif/Props/Compressed.lean): **C36.** For every symbol that is not higher than wide (every QR code is square), every padding and block size that is not negative: `Write` does not panic; the image it encodes is a square of side `width * blockSize + 2 * padding`; and every pixel of it is black exactly if it lies in the block of a dark module, and white otherwise. The block of module `(x, y)` consists of the pixels `padding + x * blockSize ≤ px < padding + (x + 1) * blockSize` and likewise for `py`.

```lean
theorem C36_pixels (m : Matrix) (hh : m.height ≤ m.width) (padding blockSize : Nat) :
    ∃ img, write (some ⟨padding, blockSize⟩) m = some img ∧
      (img.minX = 0 ∧ img.minY = 0 ∧ img.maxX = m.width * blockSize + 2 * padding ∧
        img.maxY = m.width * blockSize + 2 * padding) ∧
      ∀ px py : Nat, px < m.width * blockSize + 2 * padding → py < m.width * blockSize + 2 * padding →
        (img.at' px py = some 0x00 ∨ img.at' px py = some 0xff) ∧
        (img.at' px py = some 0x00 ↔ ∃ x y, x < m.width ∧ y < m.height ∧ (m.raw x y).bit = true ∧
          padding + x * blockSize ≤ px ∧ px < padding + (x + 1) * blockSize ∧
          padding + y * blockSize ≤ py ∧ py < padding + (y + 1) * blockSize)
```

`QR.Compressed.C36_injective` (Verif/Props/Compressed.lean): **C36, read back.** With a positive block size the image determines the symbol: its side and the colour of every module.

```lean
theorem C36_injective {a b : Matrix} (ha : a.width = a.height) (hb : b.width = b.height) {padding blockSize : Nat}
    (hpos : 0 < blockSize) (h : write (some ⟨padding, blockSize⟩) a = write (some ⟨padding, blockSize⟩) b) :
    a.width = b.width ∧ ∀ x y, x < a.width → y < a.height → (a.raw x y).bit = (b.raw x y).bit
```

`QR.Compressed.C36_nil_option` (Verif/Props/Compressed.lean): A nil option panics.

```lean
theorem C36_nil_option (m : Matrix) : write none m = none
```

## C37 – Writing an image file replaces the previous contents (partial)

After creating a writer for a path and saving, the file contains exactly the encoded image, whatever it contained before.

*proved for the standard writer; false for the compressed writer (no O_TRUNC), with the exact condition*

`QR.Files.C37_standard` (Verif/Props/Files.lean): **C37 for the standard writer.** If the file can be opened at all, then after `New` and `Save` the file contains exactly the encoded image, whatever it contained before, and no other file has changed. (`os.Stat` never fails with an "already exists" error in practice; if it did, the file would be `default.jpeg`.)

```lean
theorem C37_standard (fs : FS) (filename : String) (chunks : List Content) {stat : Stat} (hstat : stat ≠ .existErr) :
    ∃ fs', standardSave stat false fs filename chunks = some fs' ∧ fs' filename = some chunks.flatten ∧
      ∀ q, q ≠ filename → fs' q = fs q
```

`QR.Files.C37_standard_fallback` (Verif/Props/Files.lean): The same for the fall-back name.

```lean
theorem C37_standard_fallback (fs : FS) (filename : String) (chunks : List Content) :
    ∃ fs', standardSave .existErr false fs filename chunks = some fs' ∧ fs' "default.jpeg" = some chunks.flatten ∧
      ∀ q, q ≠ "default.jpeg" → fs' q = fs q
```

`QR.Files.C37_debug` (Verif/Props/Files.lean): **C37 for debug drawings.**

```lean
theorem C37_debug (fs : FS) (filename : String) (chunks : List Content) :
    ∃ fs', debugSave false fs filename chunks = some fs' ∧ fs' filename = some chunks.flatten ∧
      ∀ q, q ≠ filename → fs' q = fs q
```

`QR.Files.C37_open_error` (Verif/Props/Files.lean): If the file cannot be opened, `New` fails and nothing changes.

```lean
theorem C37_open_error (fs : FS) (filename : String) (chunks : List Content) (stat : Stat) :
    standardSave stat true fs filename chunks = none ∧ compressedSave true fs filename chunks = none
```

`QR.Files.C37_compressed_partial` (Verif/Props/Files.lean): **C37 for the compressed writer, the part that holds.** After `New` and `Save` the file begins with the encoded image; it contains exactly the encoded image if and only if the file did not exist before or was not longer than the image. No other file has changed. (The property as stated in English is false: see `C37_counterexample`.)

```lean
theorem C37_compressed_partial (fs : FS) (filename : String) (chunks : List Content) :
    ∃ fs', compressedSave false fs filename chunks = some fs' ∧
      fs' filename = some (chunks.flatten ++ ((fs filename).getD []).drop chunks.flatten.length) ∧
      (fs' filename = some chunks.flatten ↔ ∀ old, fs filename = some old → old.length ≤ chunks.flatten.length) ∧
      ∀ q, q ≠ filename → fs' q = fs q
```

`QR.Files.C37_counterexample` (Verif/Props/Files.lean): **C37 is false for the compressed writer**: the file is opened without `O_TRUNC`, so the tail of a longer old file stays behind the new image.

```lean
theorem C37_counterexample : ¬ ∀ (fs : FS) (filename : String) (chunks : List Content),
    ∃ fs', compressedSave false fs filename chunks = some fs' ∧ fs' filename = some chunks.flatten
```

## C38 – Terminal writer draws every module as two cells inside a one-module quiet zone (proved)

After drawing, terminal cells (2x+2,y+1) and (2x+3,y+1) show module (x,y)'s colour and the surrounding quiet zone is white.

`QR.Terminal.C38_cells` (Verif/Props/Terminal.lean): **C38, the symbol.** For every matrix with at least one module and every terminal size: after drawing, every cell of the terminal that lies in the area of `2 * (width + 2)` columns and `height + 2` rows shows a full block on white: in black if the cell is one of the two cells `(2x+2, y+1)`, `(2x+3, y+1)` of a dark module `(x, y)`, and in white otherwise (light modules and the quiet zone of one module around the symbol).

```lean
theorem C38_cells {m : Matrix} (hw : 0 < m.width) (hh : 0 < m.height) (s : Screen) (runeWidth : Nat → Nat)
    (ambiguous : Nat → Bool) (cx cy : Nat) (hx : cx < s.cols) (hy : cy < s.rows)
    (hcx : cx < 2 * (m.width + 2)) (hcy : cy < m.height + 2) :
    (Dark m (cx, cy) → (render runeWidth ambiguous s m).cells (cx, cy) = some ⟨fullBlock, colorBlack, colorWhite⟩) ∧
    (¬ Dark m (cx, cy) → (render runeWidth ambiguous s m).cells (cx, cy) = some ⟨fullBlock, colorWhite, colorWhite⟩)
```

`QR.Terminal.C38_rest` (Verif/Props/Terminal.lean): **C38, nothing else.** Every other cell outside the row of the tip (row `height + 3`, two rows below the quiet zone) keeps its content.

```lean
theorem C38_rest {m : Matrix} (hw : 0 < m.width) (hh : 0 < m.height) (s : Screen) (runeWidth : Nat → Nat)
    (ambiguous : Nat → Bool) (cx cy : Nat) (hx : cx < s.cols) (hy : cy < s.rows)
    (hout : 2 * (m.width + 2) ≤ cx ∨ m.height + 2 ≤ cy) (htip : cy ≠ m.height + 3) :
    (render runeWidth ambiguous s m).cells (cx, cy) = s.cells (cx, cy)
```

`QR.Terminal.C38_tip` (Verif/Props/Terminal.lean): **C38, the tip.** If the runewidth library gives every character of the tip the width 1 (they are ASCII), the tip "Press any key to quit." stands in row `height + 3` from column 0 on, as far as the terminal reaches.

```lean
theorem C38_tip {m : Matrix} (hw : 0 < m.width) (hh : 0 < m.height) (s : Screen) (runeWidth : Nat → Nat)
    (ambiguous : Nat → Bool) (hrw : ∀ r, 32 ≤ r → r < 127 → runeWidth r = 1) (i : Nat) (hi : i < tip.length)
    (hx : i < s.cols) (hy : m.height + 3 < s.rows) :
    (render runeWidth ambiguous s m).cells (i, m.height + 3) = some ⟨tip[i], colorDefault, colorDefault⟩
```

`QR.Terminal.C38_hold` (Verif/Props/Terminal.lean): **C38, waiting.** `Write` returns the error of `Flush` without waiting; otherwise it returns nil exactly when a key is pressed, whatever other events come before, and it reads no event after that one.

```lean
theorem C38_hold (flush : Option Nat) (events : List Event) :
    (∀ e, flush = some e → hold flush events = (.flushError e, 0)) ∧
    (flush = none → ∀ before after, events = before ++ .key :: after → (∀ e ∈ before, e ≠ .key) →
      hold flush events = (.ok, before.length + 1)) ∧
    (flush = none → (∀ e ∈ events, e ≠ .key) → hold flush events = (.waiting, events.length))
```

## C39 – Standard writer: Attribute predicts the image geometry (proved)

Attribute(dim) returns the width and height of the image Write draws, with the borders and block width in effect.

`QR.Standard.C39_attribute` (Verif/Props/Standard.lean): **C39.** For every square symbol and all options, `draw` does not panic before encoding, makes exactly one image, and its width and height are the ones `Attribute` reports for the symbol's dimension; the blocks have the reported width and (without halftone) every block is placed at the reported borders; and using the options to draw does not change what `Attribute` reports.

```lean
theorem C39_attribute (scale : Scaler) (o : Opts) (m : Matrix) {dim : Nat} (hw : m.width = dim) (hh : m.height = dim) :
    ∃ ops o', draw scale o m = some (ops, o') ∧
      contexts ops = [((o.attribute dim).w, (o.attribute dim).h)] ∧
      ops.head? = some (.newContext (o.attribute dim).w (o.attribute dim).h) ∧
      (o.halftone = none → ∀ c ∈ shapeCalls ops, c.2.2.w = (o.attribute dim).blockWidth ∧ c.2.2.h = (o.attribute dim).blockWidth ∧
        ∃ x y : Nat, x < dim ∧ y < dim ∧
          c.2.2.x = (((o.attribute dim).borders.left + x * (o.attribute dim).blockWidth : Int) : Rat) ∧
          c.2.2.y = (((o.attribute dim).borders.top + y * (o.attribute dim).blockWidth : Int) : Rat)) ∧
      ∀ d, o'.attribute d = o.attribute d
```

## C40 – Standard writer draws each module once, in its own cell, in its colour (proved)

Without logo safe zone and halftone, every module is drawn exactly once at its own block position with foreground colour iff dark; blocks tile the image without the borders, so with the rectangle shape every pixel shows its module's colour and every border pixel the background.

`QR.Standard.C40_calls` (Verif/Props/Standard.lean): **C40, the calls.** Without halftone image and without a safe zone in effect: the shape is called exactly once for every module, in row order, with `DrawFinder` exactly for finder modules; the context has the module's own block position and size, and the foreground colour exactly if the module is dark (otherwise the background colour, or nothing if it is transparent).

```lean
theorem C40_calls (scale : Scaler) (o : Opts) (m : Matrix) (hh : o.halftone = none) (hs : safeOn o m = false) :
    ∃ ops o', draw scale o m = some (ops, o') ∧
      shapeCalls ops = (m.iterate .row).map fun a => (decide (a.2.2.ty = .finder), o.getShape,
        { x := (((a.1 : Int) * o.qrBlockWidth + o.borders.left : Int) : Rat),
          y := (((a.2.1 : Int) * o.qrBlockWidth + o.borders.top : Int) : Rat),
          w := o.qrBlockWidth, h := o.qrBlockWidth,
          color := if a.2.2.bit then o.qrColor else if o.bgTransparent then ⟨0, 0, 0, 0⟩ else o.bgColor,
          neighbours := getNeighbours m.bitmap a.1 a.2.1 })
```

`QR.Standard.C40_pixels` (Verif/Props/Standard.lean): **C40, the pixels.** With the rectangle shape, opaque colours and no halftone, gradient or logo: the image has the size `Attribute` reports (whatever the borders, also negative ones that cut modules off), every pixel in the block of a module shows the foreground colour if the module is dark and the background colour if it is light, and every pixel outside all blocks (the borders) shows the background colour.

```lean
theorem C40_pixels (scale : Scaler) {o : Opts} (hp : Plain o) (m : Matrix) {dim : Nat} (hw : m.width = dim) (hh : m.height = dim)
    (hfg : o.qrColor.a = 255) (hbg : o.bgColor.a = 255) (ht : o.bgTransparent = false) {px py : Int}
    (hpx : 0 ≤ px ∧ px < (o.attribute dim).w) (hpy : 0 ≤ py ∧ py < (o.attribute dim).h) :
    ∃ ops o' cv, draw scale o m = some (ops, o') ∧ paintAll ops = some cv ∧ cv.w = (o.attribute dim).w ∧ cv.h = (o.attribute dim).h ∧
      (∀ x y, x < dim → y < dim → InBlock o x y px py →
        cv.pix px py = if (m.raw x y).bit then o.qrColor else o.bgColor) ∧
      ((∀ x y, x < dim → y < dim → ¬ InBlock o x y px py) → cv.pix px py = o.bgColor)
```

`QR.Standard.C40_transparent` (Verif/Props/Standard.lean): **C40, transparent background.** With `WithBgTransparent` every pixel of a dark module's block has the (opaque) foreground colour, and every other pixel has alpha 0.

```lean
theorem C40_transparent (scale : Scaler) {o : Opts} (hp : Plain o) (m : Matrix) {dim : Nat} (hw : m.width = dim) (hh : m.height = dim)
    (hfg : o.qrColor.a = 255) (ht : o.bgTransparent = true) {px py : Int}
    (hpx : 0 ≤ px ∧ px < (o.attribute dim).w) (hpy : 0 ≤ py ∧ py < (o.attribute dim).h) :
    ∃ ops o' cv, draw scale o m = some (ops, o') ∧ paintAll ops = some cv ∧
      (∀ x y, x < dim → y < dim → InBlock o x y px py →
        if (m.raw x y).bit then cv.pix px py = o.qrColor else (cv.pix px py).a = 0) ∧
      ((∀ x y, x < dim → y < dim → ¬ InBlock o x y px py) → (cv.pix px py).a = 0)
```

## C41 – Neighbour mask (proved)

The neighbour bitmask passed to a shape has the bit of each of the nine directions set exactly when that cell is inside the matrix and dark.

`QR.Standard.C41_neighbours` (Verif/Props/Standard.lean): **C41.** Without a safe zone in effect, the neighbour mask of module `(x, y)` has the bit of each of the nine directions (bit `3 * (dy + 1) + (dx + 1)`) set exactly if the cell `(x + dx, y + dy)` lies inside the matrix and is dark; no other bit is set.

```lean
theorem C41_neighbours (m : Matrix) (x y : Nat) :
    (∀ dx dy : Int, -1 ≤ dx → dx ≤ 1 → -1 ≤ dy → dy ≤ 1 →
      ((getNeighbours m.bitmap x y).toNat.testBit (3 * (dy + 1) + (dx + 1)).toNat = true ↔
        ∃ nx ny : Nat, (nx : Int) = x + dx ∧ (ny : Int) = y + dy ∧ nx < m.width ∧ ny < m.height ∧ (m.raw nx ny).bit = true)) ∧
    (getNeighbours m.bitmap x y).toNat < 2 ^ 9
```

`QR.Standard.C41_flags` (Verif/Props/Standard.lean): The masks shapes get are those of `C41_neighbours` (see `C40_calls`); the flag constants are the nine bits.

```lean
theorem C41_flags : [NTopLeft, NTop, NTopRight, NLeft, NSelf, NRight, NBotLeft, NBot, NBotRight].map (·.toNat) =
    (List.range 9).map (2 ^ ·)
```

## C42 – Logo safe zone: no dark module is drawn under the logo and nothing else is lost (proved)

With a valid logo and the safe zone on, a dark module is skipped exactly when its block shares a pixel with the logo rectangle; light modules and all others are drawn.

*for logos that are not empty; an empty logo still removes modules*

`QR.Standard.C42_safe_zone` (Verif/Props/Standard.lean): **C42.** With a logo that is not empty and small enough (its size times the multiplier fits the image), the safe zone on, and no halftone, on a square symbol: the logo is drawn once, at some position `(lx, ly)`, and the shape is called, in row order, for exactly those modules that are light or whose block shares no pixel with the logo's rectangle; each call has the module's own position and colour.

```lean
theorem C42_safe_zone (scale : Scaler) {o : Opts} {m : Matrix} (hsq : m.width = m.height) (hh : o.halftone = none) (hz : o.logoSafeZone = true)
    {img : Image} (hl : o.logo = some img) (hv1 : o.logoSizeMultiplier * (img.maxX - img.minX) ≤ (o.attribute m.width).w)
    (hv2 : o.logoSizeMultiplier * (img.maxY - img.minY) ≤ (o.attribute m.width).h) (hw : img.minX < img.maxX) (hht : img.minY < img.maxY) :
    ∃ ops o' lx ly, draw scale o m = some (ops, o') ∧ images ops = [(img, lx, ly)] ∧ ∃ keep : Nat → Nat → QRValue → Bool,
      (∀ x y, x < m.width → y < m.height → (keep x y (m.raw x y) = false ↔ (m.raw x y).bit = true ∧
        ∃ px py, InBlock o x y px py ∧ lx ≤ px ∧ px < lx + (img.maxX - img.minX) ∧ ly ≤ py ∧ py < ly + (img.maxY - img.minY))) ∧
      (shapeCalls ops).map (fun c => (c.1, c.2.1, c.2.2.x, c.2.2.y, c.2.2.w, c.2.2.h, c.2.2.color)) =
        ((m.iterate .row).filter fun a => keep a.1 a.2.1 a.2.2).map fun a =>
        (decide (a.2.2.ty = .finder), o.getShape, (((a.1 : Int) * o.qrBlockWidth + o.borders.left : Int) : Rat),
          (((a.2.1 : Int) * o.qrBlockWidth + o.borders.top : Int) : Rat), o.qrBlockWidth, o.qrBlockWidth,
          if a.2.2.bit then o.qrColor else if o.bgTransparent then ⟨0, 0, 0, 0⟩ else o.bgColor)
```

`QR.Standard.C42_empty_logo` (Verif/Props/Standard.lean): **C42, the empty logo.** Without the condition that the logo is not empty the claim is false: an empty image still removes the dark modules around the centre.

```lean
theorem C42_empty_logo : let o := { demoO with logo := some ⟨0, 0, 0, 0, fun _ _ => (0, 0, 0, 0)⟩, qrWidth := 3 }
    logoValid o demoM = true ∧ overlaps o demoM 1 1 = true ∧
    ((draw (fun _ _ _ _ => (0, 0, 0, 0)) o demoM).map fun r => (shapeCalls r.1).length) = some 8
```

## C43 – Logo safe zone: neighbour masks treat exactly the removed modules as light (partial)

With the safe zone on, a shape's neighbour mask shows a neighbour as dark exactly when that neighbour is a dark module that is not removed by the safe zone.

*false: the code clears the transposed entry; what it does is proved exactly, and the property when the geometry is symmetric*

`QR.Standard.C43_mask_partial` (Verif/Props/Standard.lean): **C43, what holds.** With the safe zone on, on a square symbol, the mask of module `(x, y)` shows the neighbour `(nx, ny)` as dark exactly if it lies inside the matrix, is dark, and the *transposed* module `(ny, nx)` does not overlap the logo. (The property as stated in English is false, see `C43_counterexample`.)

```lean
theorem C43_mask_partial (scale : Scaler) {o : Opts} {m : Matrix} (hsq : m.width = m.height) (hh : o.halftone = none)
    (hs : safeOn o m = true) : ∃ ops o' bm, draw scale o m = some (ops, o') ∧
      ((shapeCalls ops).map fun c => c.2.2.neighbours) =
        (((m.iterate .row).filter fun a => !(overlaps o m a.1 a.2.1 && a.2.2.bit)).map fun a => getNeighbours bm a.1 a.2.1) ∧
      ∀ (x y : Nat) (dx dy : Int), -1 ≤ dx → dx ≤ 1 → -1 ≤ dy → dy ≤ 1 →
        ((getNeighbours bm x y).toNat.testBit (3 * (dy + 1) + (dx + 1)).toNat = true ↔
          ∃ nx ny : Nat, (nx : Int) = x + dx ∧ (ny : Int) = y + dy ∧ nx < m.width ∧ ny < m.height ∧ (m.raw nx ny).bit = true ∧
            overlaps o m ny nx = false)
```

`QR.Standard.C43_symmetric` (Verif/Props/Standard.lean): If the picture is symmetric (equal left and top border, equal right and bottom border, a square logo), the masks are right.

```lean
theorem C43_symmetric {o : Opts} {m : Matrix} (hsq : m.width = m.height) (h1 : o.borders.left = o.borders.top)
    (h2 : o.borders.right = o.borders.bottom) (h3 : logoW o m = logoH o m) (x y : Nat) : overlaps o m y x = overlaps o m x y
```

`QR.Standard.C43_counterexample` (Verif/Props/Standard.lean): **C43 is false**: the code clears the transposed entry. In the example the logo covers the middle row, the module to the right of (0, 0) is dark and is drawn, but the mask of (0, 0) shows it as light.

```lean
theorem C43_counterexample : ¬ ∀ (scale : Scaler) (o : Opts) (m : Matrix), m.width = m.height → o.halftone = none → safeOn o m = true →
    ∃ ops o' bm, draw scale o m = some (ops, o') ∧
      ((shapeCalls ops).map fun c => c.2.2.neighbours) =
        (((m.iterate .row).filter fun a => !(overlaps o m a.1 a.2.1 && a.2.2.bit)).map fun a => getNeighbours bm a.1 a.2.1) ∧
      ∀ (x y : Nat) (dx dy : Int), -1 ≤ dx → dx ≤ 1 → -1 ≤ dy → dy ≤ 1 → x < m.width → y < m.height →
        ¬ (overlaps o m x y = true ∧ (m.raw x y).bit = true) →
        ((getNeighbours bm x y).toNat.testBit (3 * (dy + 1) + (dx + 1)).toNat = true ↔
          ∃ nx ny : Nat, (nx : Int) = x + dx ∧ (ny : Int) = y + dy ∧ nx < m.width ∧ ny < m.height ∧ (m.raw nx ny).bit = true ∧
            overlaps o m nx ny = false)
```

## C44 – Image options: borders, block width and unset values (proved)

WithBorderWidth follows its documented 0/1/2/4-argument forms, block width 0 means 20, of several options for the same setting the last one counts, options for different settings do not interfere, and nil colours, gradients, logos and encoders are ignored (a nil shape means rectangles); the constructor panics only for a nil writer, a malformed hex colour or an unknown format.

`QR.Standard.C44_options` (Verif/Props/ImageOptions.lean): **C44.** For every list of options that does not panic, every setting of the writer is the one the last option that asks for it has asked for, or else the default: white background, black foreground, no gradient, no logo, no halftone, blocks of 20 pixels, rectangles, JPEG, borders of 40 pixels, a logo of at most a fifth, no transparency and no safe zone. `Attribute` reports the borders and the block width.

```lean
theorem C44_options (opts : List ImgOpt) {o : Opts} (h : newWithWriter false opts = some o) :
    o.borders = (lastAsked askedBorders opts).getD ⟨40, 40, 40, 40⟩ ∧
    o.qrBlockWidth = (lastAsked askedBlock opts).getD 20 ∧
    o.qrColor = (lastAsked askedFg opts).getD ⟨0, 0, 0, 255⟩ ∧
    o.bgColor = (lastAsked askedBg opts).getD ⟨255, 255, 255, 255⟩ ∧
    o.bgTransparent = (lastAsked askedTransparent opts).getD false ∧
    o.qrGradient = lastAsked askedGradient opts ∧
    o.logo = lastAsked askedLogo opts ∧
    o.logoSizeMultiplier = (lastAsked askedMultiplier opts).getD 5 ∧
    o.logoSafeZone = (lastAsked askedSafeZone opts).getD false ∧
    o.getShape = (lastAsked askedShape opts).getD .rectangle ∧
    o.imageEncoder = (lastAsked askedEncoder opts).getD .jpeg ∧
    o.halftone = (lastAsked askedHalftone opts).getD none ∧
    ∀ d, (o.attribute d).borders = (lastAsked askedBorders opts).getD ⟨40, 40, 40, 40⟩ ∧
      (o.attribute d).blockWidth = (lastAsked askedBlock opts).getD 20
```

`QR.Standard.C44_panics` (Verif/Props/ImageOptions.lean): **C44, panics.** Making a writer panics exactly if the writer is nil or one of the options panics.

```lean
theorem C44_panics (nilWriter : Bool) (opts : List ImgOpt) :
    newWithWriter nilWriter opts = none ↔ nilWriter = true ∨ ∃ x ∈ opts, Panics x
```

## C45 – Colours given as color.Color are used faithfully (partial)

WithFgColor/WithBgColor(c) use c's colour reduced to 8 bits per channel (the high byte of each 16-bit channel).

*false: the low byte of each channel is used; proved for color.RGBA and exactly the colours whose channels have two equal bytes*

`QR.Standard.C45_partial` (Verif/Props/Color.lean): **C45, what holds.** A `color.RGBA` is used as it is; a colour of another type (with channels of at most 16 bits, as `RGBA()` promises) is used faithfully exactly if the two bytes of every channel are the same.

```lean
theorem C45_partial : (∀ c : RGBA, fgOf (.rgba c) = some (GoColor.rgba c).high ∧ bgOf (.rgba c) = some (GoColor.rgba c).high) ∧
    ∀ r g b a : UInt32, r.toNat < 65536 → g.toNat < 65536 → b.toNat < 65536 → a.toNat < 65536 →
      (fgOf (.other r g b a) = some (GoColor.other r g b a).high ↔ Doubled r ∧ Doubled g ∧ Doubled b ∧ Doubled a) ∧
      (bgOf (.other r g b a) = some (GoColor.other r g b a).high ↔ Doubled r ∧ Doubled g ∧ Doubled b ∧ Doubled a)
```

`QR.Standard.C45_counterexample` (Verif/Props/Color.lean): **C45 is false**: `color.NRGBA{200, 200, 200, 128}` has the 16-bit channels 0x64c8 (and 0x8080), the writer uses 0xc8 instead of 0x64.

```lean
theorem C45_counterexample : (nrgba 200 200 200 128).high = ⟨0x64, 0x64, 0x64, 0x80⟩ ∧
    fgOf (nrgba 200 200 200 128) = some ⟨0xc8, 0xc8, 0xc8, 0x80⟩ ∧
    ¬ ∀ c : GoColor, fgOf c = some c.high
```

## C46 – Hex colours (proved)

WithFgColorRGBHex/WithBgColorRGBHex parse #rrggbb and #rgb (each digit doubled) to the opaque colour they denote.

`QR.Standard.C46_hex` (Verif/Props/Color.lean): **C46.** Every string `#rrggbb` or `#rgb` of hexadecimal digits (of either case) gives the opaque colour it denotes, to the foreground as well as to the background.

```lean
theorem C46_hex (s : Bytes) {r g b : Nat} (h : Spec.hexColor (codes s) = some (r, g, b)) :
    r < 256 ∧ g < 256 ∧ b < 256 ∧
    newWithWriter false [.fgHex s] = some { defaultOpts with qrColor := ⟨UInt8.ofNat r, UInt8.ofNat g, UInt8.ofNat b, 255⟩ } ∧
    newWithWriter false [.bgHex s] = some { defaultOpts with bgColor := ⟨UInt8.ofNat r, UInt8.ofNat g, UInt8.ofNat b, 255⟩ }
```

`QR.Standard.C46_accepts` (Verif/Props/Color.lean): **C46, which strings are accepted.** A string without spaces is accepted exactly if it is `#rgb`, or has seven bytes and starts with `#` and five hexadecimal digits (the last byte may be anything, see `C46_sloppy`); otherwise the option panics.

```lean
theorem C46_accepts (s : Bytes) (hs : NoSpace s) : newWithWriter false [.fgHex s] ≠ none ↔
    (s.length = 4 ∧ (Spec.hexColor (codes s)).isSome = true) ∨
    (s.length = 7 ∧ (codes s).head? = some 35 ∧ ∀ b ∈ ((codes s).drop 1).take 5, (Spec.hexVal b).isSome = true)
```

`QR.Standard.C46_sloppy` (Verif/Props/Color.lean): **C46, what is accepted although it is not well-formed**: `#12345z` (blue is the single digit 5), and `# 1 2 3` (with spaces, seven bytes, one digit per channel). The empty string panics as a foreground and is ignored as a background.

```lean
theorem C46_sloppy :
    (newWithWriter false [.fgHex [0x23, 0x31, 0x32, 0x33, 0x34, 0x35, 0x7a]]).map (·.qrColor) = some ⟨0x12, 0x34, 0x05, 255⟩ ∧
    (newWithWriter false [.fgHex [0x23, 0x20, 0x31, 0x20, 0x32, 0x20, 0x33]]).map (·.qrColor) = some ⟨1, 2, 3, 255⟩ ∧
    (newWithWriter false [.fgHex []]).map (·.qrColor) = none ∧
    (newWithWriter false [.bgHex []]).map (·.bgColor) = some defaultOpts.bgColor
```

## C47 – Gradient interpolation is well defined (partial)

For sorted stops the interpolated colour is one of the two neighbouring stops' blend, never divides by zero, never reaches the fallback, lies channel-wise between the two stops, and is opaque except at or beyond the end stops, where it is the stop's colour.

*proved in exact arithmetic; in float64 a channel can be one too small (proved bound and witness)*

`QR.Standard.C47_exact` (Verif/Props/Gradient.lean): **C47 in exact arithmetic.** For every non-empty list of stops (sorted or not) and every position: before the first stop the colour is its colour, from the last one on it is the last one's, and in between it is the blend of two neighbouring stops around the position, with a divisor that is not zero and a factor between 0 and 1, opaque, with every channel between theirs. The fall-back is never reached.

```lean
theorem C47_exact (stops : List ColorStop) (t : Rat) : C47Claim id 0 stops t
```

`QR.Standard.C47_float64_partial` (Verif/Props/Gradient.lean): **C47, in `float64`.** The same in the arithmetic of `float64` (stops at `float64` positions), except that a channel may be one too small; see `C47_counterexample`.

```lean
theorem C47_float64_partial {stops : List ColorStop} (h : Repr64 float64Round stops) (t : Rat) : C47Claim float64Round 1 stops t
```

`QR.Standard.C47_no_fallback` (Verif/Props/Gradient.lean): Neither the panic nor the fall-back occurs.

```lean
theorem C47_no_fallback {stops : List ColorStop} (hne : stops ≠ []) (h : Repr64 float64Round stops) (t : Rat) :
    interpolateColor float64Round stops t ≠ .panic ∧ interpolateColor float64Round stops t ≠ .fallback
```

`QR.Standard.C47_position` (Verif/Props/Gradient.lean): **C47, positions.** For every pixel of an image, every direction and every rounding: the divisor is not zero and the position along the gradient lies between 0 and 1.

```lean
theorem C47_position {rnd : Rat → Rat} (R : Rounding rnd) {dx dy : Rat} (hd : Direction dx dy) {w h x y : Int} (hx0 : 0 ≤ x) (hx : x < w)
    (hy0 : 0 ≤ y) (hy : y < h) : gradientSpan rnd dx dy 0 w 0 h ≠ 0 ∧
      0 ≤ gradientPos rnd dx dy 0 w 0 h x y ∧ gradientPos rnd dx dy 0 w 0 h x y ≤ 1
```

`QR.Standard.C47_newGradient` (Verif/Props/Gradient.lean): `NewGradient` keeps the stops and puts them in the order of their positions.

```lean
theorem C47_newGradient (angle : Rat) (stops : List ColorStop) :
    (newGradient angle stops).stops.Perm stops ∧ (newGradient angle stops).stops.Pairwise (fun a b => a.t ≤ b.t)
```

`QR.Standard.C47_counterexample` (Verif/Props/Gradient.lean): **C47 is false in `float64`**: in a gradient from white to white, the colour at the `float64` nearest to 3/7 has red 254.

```lean
theorem C47_counterexample : ¬ ∀ (stops : List ColorStop) (t : Rat), Repr64 float64Round stops → float64Round t = t →
    C47Claim float64Round 0 stops t
```

## C48 – Version lookup by binary search finds every present key and terminates for every key (partial)

Searching the version table for (version, level) returns that entry when present and terminates with not-found otherwise.

*every present key is found; false for absent keys: the search never ends exactly when some entry comes after the absent key*

`QR.C48_search_partial` (Verif/Props/Search.lean): What the search does, for every range and every key (also keys that no version has): it finds the entry of the key if the range contains it; else it never ends if some entry of the range comes after the key; else it reports "not found". 161 rounds are enough for the two ends.

```lean
theorem C48_search_partial (low high ver ec : Int) :
    (∀ (i : Nat) (V : Version), InRange low high i → versions[i]? = some V → IsKey ver ec V →
      ∀ fuel, 161 < fuel → binarySearchVersion low high (defaultBinaryCompare ver ec) fuel = .hit V) ∧
    ((∀ (i : Nat) (V : Version), InRange low high i → versions[i]? = some V → ¬ IsKey ver ec V) →
      (∃ (i : Nat) (V : Version), InRange low high i ∧ versions[i]? = some V ∧ After ver ec V) →
      ∀ fuel, binarySearchVersion low high (defaultBinaryCompare ver ec) fuel = .running) ∧
    ((∀ (i : Nat) (V : Version), InRange low high i → versions[i]? = some V → ¬ IsKey ver ec V ∧ ¬ After ver ec V) →
      ∀ fuel, 161 < fuel → binarySearchVersion low high (defaultBinaryCompare ver ec) fuel = .notFound)
```

`QR.C48_found` (Verif/Props/Search.lean): Every entry of the table is found by searching the whole table.

```lean
theorem C48_found (v ec : Nat) (h1 : 1 ≤ v) (h40 : v ≤ 40) (h3 : 1 ≤ ec) (h4 : ec ≤ 4) : ∃ V, loadVersion v ec = .ok V ∧
    ∀ fuel, 161 < fuel → binarySearchVersion 0 160 (defaultBinaryCompare v ec) fuel = .hit V
```

`QR.C48_above` (Verif/Props/Search.lean): Versions above 40 are reported as not found.

```lean
theorem C48_above (v : Nat) (ec : Int) (h : 40 < v) (fuel : Nat) (hf : 161 < fuel) :
    binarySearchVersion 0 160 (defaultBinaryCompare v ec) fuel = .notFound
```

`QR.C48_counterexample` (Verif/Props/Search.lean): C48 is false: the search for version 0 (any level) never ends.

```lean
theorem C48_counterexample (ec : Int) : (∀ V ∈ versions, ¬ IsKey 0 ec V) ∧
    ∀ fuel, binarySearchVersion 0 160 (defaultBinaryCompare 0 ec) fuel = .running
```

## C49 – Alignment positions do not depend on call history (proved)

Every lookup of alignment positions returns the positions computed for that version, for every earlier sequence of lookups, and after start-up no lookup for a legal version writes to the shared cache. A lookup with an empty cache finds the same positions.

`QR.C49_never_written` (Verif/Props/Align.lean): After start-up no completed lookup writes to the shared cache: whatever was looked up, it is the start-up cache.

```lean
theorem C49_never_written {c : AlignCache} (h : History c) : initialCache = .ok c
```

`QR.C49_history_irrelevant` (Verif/Props/Align.lean): After any history a lookup of a legal version, by either function, returns exactly the positions computed for that version and leaves the cache as it is.

```lean
theorem C49_history_irrelevant {c : AlignCache} (h : History c) {v : Nat} (h40 : v ≤ 40) :
    ∃ locs, calcAlignPatternLocs v = .ok locs ∧
      loadAlignmentPatternLocV2 c v = .ok (locs, c) ∧ loadAlignmentPatternLoc c v = .ok (locs, c)
```

`QR.C49_reachable` (Verif/Props/Align.lean): A symbol's construction therefore sees the same positions whatever was built before: `CacheReachable` caches of the other theorems are such histories.

```lean
theorem C49_reachable {c : AlignCache} (h : CacheReachable c) : History c
```

`QR.C49_cold` (Verif/Props/Align.lean): Even with a cache that has no entry for the version, as before start-up, both functions find the centres of the standard, and store them.

```lean
theorem C49_cold {c : AlignCache} {v : Nat} (h2 : 2 ≤ v) (h40 : v ≤ 40) (hc : c.lookup v = none) :
    ∃ locs, loadAlignmentPatternLocV2 c v = .ok (locs, (v, locs) :: c) ∧ loadAlignmentPatternLoc c v = .ok (locs, (v, locs) :: c) ∧
      ∀ x y : Int, (x, y) ∈ locs ↔ ∃ j i : Nat, x = j ∧ y = i ∧ isAlignCentre v i j = true
```

## C50 – Error correction really corrects (proved)

With a systematic Reed-Solomon coder over GF(256), any two distinct blocks of a symbol differ in more codewords than the block's number of error-correction codewords, so floor(n/2) wrong codewords per block are uniquely correctable.

`QR.C50_codewords` (Verif/Props/ReedSolomon.lean): In every symbol each block is a codeword of the standard's Reed-Solomon code with as many check bytes as the block has error correction codewords.

```lean
theorem C50_codewords {E : Ext} {unsjis : Nat → Option Nat} (hE : E.Ok unsjis) (hRS : E.rs = rsEncode)
    {c : AlignCache} (hc : CacheReachable c)
    {arrival : List Nat} (ha : Arrival arrival) {t : TextType} {text : Bytes} {opts : List EncodeOption} {q : QRCode}
    (h : newWith E c arrival t text opts = .ok q) {v : Nat} {lv : Level} {k : Nat} {bits : List Bool}
    (hr : readData q.mat.bitmap = some (v, lv, k, bits)) :
    1 ≤ v ∧ v ≤ 40 ∧ ∀ b < numBlocks v lv, IsCodeword (ecPerBlock v lv) (blockBytes v lv (codewordsOf q.mat.bitmap v k) b)
```

`QR.C50_distance` (Verif/Props/ReedSolomon.lean): Any two symbols of the same version and level: corresponding blocks are equal or differ in more codewords than the number of error correction codewords per block.

```lean
theorem C50_distance {E : Ext} {unsjis : Nat → Option Nat} (hE : E.Ok unsjis) (hRS : E.rs = rsEncode)
    {c c' : AlignCache} (hc : CacheReachable c) (hc' : CacheReachable c')
    {arrival arrival' : List Nat} (ha : Arrival arrival) (ha' : Arrival arrival')
    {t t' : TextType} {text text' : Bytes} {opts opts' : List EncodeOption} {q q' : QRCode}
    (h : newWith E c arrival t text opts = .ok q) (h' : newWith E c' arrival' t' text' opts' = .ok q')
    {v : Nat} {lv : Level} {k k' : Nat} {bits bits' : List Bool}
    (hr : readData q.mat.bitmap = some (v, lv, k, bits)) (hr' : readData q'.mat.bitmap = some (v, lv, k', bits'))
    {b : Nat} (hb : b < numBlocks v lv)
    (hne : blockBytes v lv (codewordsOf q.mat.bitmap v k) b ≠ blockBytes v lv (codewordsOf q'.mat.bitmap v k') b) :
    ecPerBlock v lv < hamming (blockBytes v lv (codewordsOf q.mat.bitmap v k) b)
      (blockBytes v lv (codewordsOf q'.mat.bitmap v k') b)
```

`QR.C50_correctable` (Verif/Props/ReedSolomon.lean): So damage is correctable: if the codewords `r` read from a damaged symbol are, in every block, within half the number of error correction codewords of two symbols' codewords, then both symbols carry the same data bits.

```lean
theorem C50_correctable {E : Ext} {unsjis : Nat → Option Nat} (hE : E.Ok unsjis) (hRS : E.rs = rsEncode)
    {c c' : AlignCache} (hc : CacheReachable c) (hc' : CacheReachable c')
    {arrival arrival' : List Nat} (ha : Arrival arrival) (ha' : Arrival arrival')
    {t t' : TextType} {text text' : Bytes} {opts opts' : List EncodeOption} {q q' : QRCode}
    (h : newWith E c arrival t text opts = .ok q) (h' : newWith E c' arrival' t' text' opts' = .ok q')
    {v : Nat} {lv : Level} {k k' : Nat} {bits bits' : List Bool}
    (hr : readData q.mat.bitmap = some (v, lv, k, bits)) (hr' : readData q'.mat.bitmap = some (v, lv, k', bits'))
    (r : List Nat)
    (d : ∀ b < numBlocks v lv, hamming (blockBytes v lv (codewordsOf q.mat.bitmap v k) b) (blockBytes v lv r b) ≤ ecPerBlock v lv / 2)
    (d' : ∀ b < numBlocks v lv, hamming (blockBytes v lv (codewordsOf q'.mat.bitmap v k') b) (blockBytes v lv r b) ≤ ecPerBlock v lv / 2) :
    bits = bits'
```

`QR.C50_nontrivial` (Verif/Props/ReedSolomon.lean): The number of error correction codewords is positive in every symbol, so some damage can always be corrected (at least three codewords per block).

```lean
theorem C50_nontrivial {v : Nat} (h1 : 1 ≤ v) (h40 : v ≤ 40) (lv : Level) : 3 ≤ ecPerBlock v lv / 2
```

## C51 – Command line: borders and block size (partial)

The command line accepts exactly four comma-separated decimal numbers 0..255 as borders, passes them in order top,right,bottom,left, and uses the given block size.

*false for block sizes above 255 (taken modulo 256) and 0 (20); proved for 1..255 and for the borders*

`QR.Cli.C51_borders_syntax` (Verif/Props/Cli.lean): **C51, borders.** The flag is accepted exactly if it consists of four decimal numbers of at most 255 with commas in between, and these are the numbers, in this order.

```lean
theorem C51_borders_syntax (s : Bytes) (vs : List Nat) : parseBorders s = some vs ↔
    ∃ a b c d va vb vc vd, s = a ++ 0x2c :: (b ++ 0x2c :: (c ++ 0x2c :: d)) ∧ vs = [va, vb, vc, vd] ∧
      Spec.IsDecimal (codes a) va ∧ Spec.IsDecimal (codes b) vb ∧ Spec.IsDecimal (codes c) vc ∧ Spec.IsDecimal (codes d) vd ∧
      va ≤ 255 ∧ vb ≤ 255 ∧ vc ≤ 255 ∧ vd ≤ 255
```

`QR.Cli.C51_run_partial` (Verif/Props/Cli.lean): **C51, the flags as a whole.** The program panics at once exactly if the borders are malformed. Otherwise, if it draws to a file, it draws to the file given, with the four borders given in the order top, right, bottom, left, the block size given if it is in 1..255, and black on white; with `--terminal` it shows the same symbol in the terminal.

```lean
theorem C51_run_partial (E : Ext) (cache : AlignCache) (arrival : List Nat) (readImage : Bytes → Option Image) (f : Flags) :
    (parseBorders f.borders = none → run E cache arrival readImage f = .panic) ∧
    ∀ vs, parseBorders f.borders = some vs → ∀ q, new E cache arrival .string f.text = .ok q →
      (f.terminal = true → run E cache arrival readImage f = .terminal q) ∧
      (f.terminal = false → ∃ o, run E cache arrival readImage f = .file f.output o q ∧
        vs = [o.borders.top.toNat, o.borders.right.toNat, o.borders.bottom.toNat, o.borders.left.toNat] ∧
        (1 ≤ f.block → f.block ≤ 255 → o.qrBlockWidth = f.block) ∧
        (∀ d, (o.attribute d).borders = o.borders ∧ (o.attribute d).blockWidth = o.qrBlockWidth) ∧
        o.getShape = (if f.circle then .circle else .rectangle) ∧ o.bgTransparent = f.transparent ∧
        o.halftone = (if f.halftone = [] then none else readImage f.halftone) ∧
        o.qrColor = ⟨0, 0, 0, 255⟩ ∧ o.bgColor = ⟨255, 255, 255, 255⟩ ∧ o.logo = none ∧ o.qrGradient = none)
```

`QR.Cli.C51_block` (Verif/Props/Cli.lean): The block size the program really uses: the given one modulo 256, and 20 instead of 0.

```lean
theorem C51_block (E : Ext) (cache : AlignCache) (arrival : List Nat) (readImage : Bytes → Option Image) (f : Flags) {name : Bytes} {o : Opts} {q : QRCode}
    (h : run E cache arrival readImage f = .file name o q) :
    o.qrBlockWidth = if f.block % 256 = 0 then 20 else ((f.block % 256 : Nat) : Int)
```

`QR.Cli.C51_counterexample` (Verif/Props/Cli.lean): **C51 is false for large block sizes**: whenever the symbol can be made, `--block=257` draws blocks of one pixel.

```lean
theorem C51_counterexample (E : Ext) (cache : AlignCache) (arrival : List Nat) (readImage : Bytes → Option Image) {q : QRCode}
    (hq : new E cache arrival .string demoFlags.text = .ok q) :
    ∃ o, run E cache arrival readImage demoFlags = .file demoFlags.output o q ∧ o.borders = ⟨1, 2, 3, 4⟩ ∧ o.qrBlockWidth = 1
```

## C52 – WebAssembly: omitted options mean defaults (partial)

generateQRCode(content, options) accepts any subset of the documented option fields, uses defaults for the rest, and reports failures in the result object.

*false: omitting a number, boolean or colour field panics; the exact panic condition is proved, and the settings of complete objects and of calls without options*

`QR.Wasm.C52_panics_partial` (Verif/Props/Wasm.lean): **C52, when the call panics.** With an options object the call panics exactly if one of the four numbers or one of the two booleans is missing or of another type, or the symbol can be made but one of the colours is missing or no colour (or saving the picture panics).

```lean
theorem C52_panics_partial {E : Ext} {unsjis : Nat → Option Nat} (hE : E.Ok unsjis) {c : AlignCache} (hc : CacheReachable c)
    {arrival : List Nat} (ha : Arrival arrival) (save : Opts → Matrix → Saved) (hsave : ∀ o m, save o m ≠ .panics)
    (content : JS) (get : String → JS) (rest : List JS) :
    genqrcode E c arrival save (content :: .object get :: rest) = .panics ↔
      (∃ f ∈ numberFields, ¬ IsNumber (get f)) ∨ (∃ f ∈ booleanFields, ¬ IsBoolean (get f)) ∨
      (∃ f ∈ colourFields, ¬ UsableColour (get f)) ∧
        ∃ opt q, optionFromJSValue (.object get) = some opt ∧ newWith E c arrival .string content.str (encodeOptions opt) = .ok q
```

`QR.Wasm.C52_settings_partial` (Verif/Props/Wasm.lean): **C52, what a complete object asks for.** If the numbers, the booleans and the colours are there, the text is encoded with the version, mode and level given and drawn with the settings given; the fields `encodeECLevel` and `outputImageEncoder` may be missing (then the level is `Q` and the format PNG). A failure is reported in the result.

```lean
theorem C52_settings_partial (E : Ext) (c : AlignCache) (arrival : List Nat) (save : Opts → Matrix → Saved)
    (content : JS) (get : String → JS) (rest : List JS) {ver mode w mar : Int} {t1 t2 t3 t4 : Bytes} {tr ci : Bool} {lv : Int}
    (h1 : get "encodeVersion" = .number ver t1) (h2 : get "encodeMode" = .number mode t2) (h3 : get "outputQrWidth" = .number w t3)
    (h4 : get "outputMargin" = .number mar t4) (h5 : get "outputBgTransparent" = .boolean tr) (h6 : get "outputCircleShape" = .boolean ci)
    (h7 : UsableColour (get "outputBgColor")) (h8 : UsableColour (get "outputQrColor")) (h9 : LevelField (get "encodeECLevel") lv) :
    ∃ eo o, applyOptions eo = { version := versionOf ver, minimumVersion := 0, encMode := modeOf mode, ecLevel := lv } ∧
      o.borders = (if mar = 0 then ⟨40, 40, 40, 40⟩ else ⟨mar, mar, mar, mar⟩) ∧
      o.qrBlockWidth = (if w % 256 = 0 then 20 else w % 256) ∧
      o.qrColor = colourOf ⟨0, 0, 0, 255⟩ (get "outputQrColor") ∧ o.bgColor = colourOf ⟨255, 255, 255, 255⟩ (get "outputBgColor") ∧
      o.bgTransparent = tr ∧ o.getShape = (if ci then .circle else .rectangle) ∧
      o.imageEncoder = (if (get "outputImageEncoder").str = lit "jpg" ∨ (get "outputImageEncoder").str = lit "jpeg" then .jpeg else .png) ∧
      o.logo = none ∧ o.qrGradient = none ∧ o.halftone = none ∧
      (∀ e, newWith E c arrival .string content.str eo = .err e →
        genqrcode E c arrival save (content :: .object get :: rest) = .result ⟨false, some (.new e), []⟩) ∧
      ∀ q, newWith E c arrival .string content.str eo = .ok q →
        (∀ e, save o q.mat = .error e → genqrcode E c arrival save (content :: .object get :: rest) = .result ⟨false, some (.save e), []⟩) ∧
        (∀ b, save o q.mat = .image b → genqrcode E c arrival save (content :: .object get :: rest) = .result ⟨true, none, Base64.encode b⟩) ∧
        (save o q.mat = .panics → genqrcode E c arrival save (content :: .object get :: rest) = .panics)
```

`QR.Wasm.C52_defaults` (Verif/Props/Wasm.lean): **C52, no options.** Without options, or with options that are no object, the text is encoded with the default settings and drawn with the default settings, except that without an argument the format is PNG and with `null`, `undefined` or another value that is no object it is JPEG. Without any argument the result reports an error.

```lean
theorem C52_defaults (E : Ext) (c : AlignCache) (arrival : List Nat) (save : Opts → Matrix → Saved) (content : JS) :
    genqrcode E c arrival save [] = .result ⟨false, some .noArgs, []⟩ ∧
    ∀ (args : List JS), (∀ o rest, args = o :: rest → ∀ get, o ≠ .object get) →
      (∀ e, new E c arrival .string content.str = .err e → genqrcode E c arrival save (content :: args) = .result ⟨false, some (.new e), []⟩) ∧
      ∀ q, new E c arrival .string content.str = .ok q →
        (∀ e, save { defaultOpts with imageEncoder := if args = [] then .png else .jpeg } q.mat = .error e →
          genqrcode E c arrival save (content :: args) = .result ⟨false, some (.save e), []⟩) ∧
        ∀ b, save { defaultOpts with imageEncoder := if args = [] then .png else .jpeg } q.mat = .image b →
          genqrcode E c arrival save (content :: args) = .result ⟨true, none, Base64.encode b⟩
```

`QR.Wasm.C52_counterexample` (Verif/Props/Wasm.lean): **C52 is false**: with an empty options object (every field omitted) the call panics whatever the content is; the same with one number or boolean missing. A complete object without the colours panics when the symbol can be made.

```lean
theorem C52_counterexample (E : Ext) (c : AlignCache) (arrival : List Nat) (save : Opts → Matrix → Saved) (content : JS) (rest : List JS) :
    genqrcode E c arrival save (content :: .object (fun _ => .undefined) :: rest) = .panics ∧
    (∀ get f, f ∈ numberFields ++ booleanFields → get f = .undefined → genqrcode E c arrival save (content :: .object get :: rest) = .panics)
```

`QR.Wasm.C52_documented_modes` (Verif/Props/Wasm.lean): **C52, the documented modes do nothing**: the README documents `encodeMode` 0 to 3; each of these leaves the mode to be detected.

```lean
theorem C52_documented_modes : ∀ n : Int, 0 ≤ n → n ≤ 3 → modeOf n = encAuto
```

`QR.Wasm.C52_content` (Verif/Props/Wasm.lean): **C52, content that is no string** is not rejected: the number 5 becomes the text `<number: 5>`.

```lean
theorem C52_content (E : Ext) (c : AlignCache) (arrival : List Nat) (save : Opts → Matrix → Saved) (args : List JS) (t : Bytes) (i : Int) :
    genqrcode E c arrival save (.number i t :: args) = genqrcode E c arrival save (.string (lit "<number: " ++ t ++ lit ">") :: args)
```

## C53 – Halftone blocks keep the module colour in the centre (proved)

With a halftone image every data module is drawn as nine sub-blocks whose centre has the module's colour and the other eight the colour of the corresponding halftone pixel; the nine sub-blocks lie inside the module's block.

`QR.Standard.C53_halftone` (Verif/Props/Standard.lean): **C53.** With a halftone image and no safe zone in effect, the shape is called nine times for every data module and once for every other one. The nine sub-blocks `(i, j)` of data module `(x, y)` sit at `i`, `j` thirds of the block, are squares of `⌊blockWidth / 3⌋` pixels and lie inside the block; the centre has the module's colour, the others the colour of point `(3x + i, 3y + j)` of the halftone image.

```lean
theorem C53_halftone (scale : Scaler) {o : Opts} {m : Matrix} {img : Image} (hh : o.halftone = some img) (hs : safeOn o m = false) :
    ∃ ops o', draw scale o m = some (ops, o') ∧
      shapeCalls ops = (m.iterate .row).flatMap fun a =>
        if a.2.2.ty = .data then
          [(0, 0), (0, 1), (0, 2), (1, 0), (1, 1), (1, 2), (2, 0), (2, 1), (2, 2)].map fun (ij : Nat × Nat) => (false, o.getShape,
            { x := (((a.1 : Int) * o.qrBlockWidth + o.borders.left : Int) : Rat) + (ij.1 : Rat) * ((o.qrBlockWidth : Rat) / 3),
              y := (((a.2.1 : Int) * o.qrBlockWidth + o.borders.top : Int) : Rat) + (ij.2 : Rat) * ((o.qrBlockWidth : Rat) / 3),
              w := o.qrBlockWidth / 3, h := o.qrBlockWidth / 3,
              color := if ij = (1, 1) then (if a.2.2.bit then o.qrColor else if o.bgTransparent then ⟨0, 0, 0, 0⟩ else o.bgColor)
                else halftoneColor scale img (m.width * 3) o.bgTransparent (a.1 * 3 + ij.1) (a.2.1 * 3 + ij.2),
              neighbours := 0 })
        else [(decide (a.2.2.ty = .finder), o.getShape, moduleCtx o m.bitmap a.1 a.2.1 a.2.2)]
```

`QR.Standard.C53_inside` (Verif/Props/Standard.lean): **C53, inside the block**: the sub-blocks of `C53_halftone` do not leave the block, and they do not overlap; they fill it exactly if the block width is a multiple of 3 (otherwise gaps remain).

```lean
theorem C53_inside (bw : Int) (h : 0 < bw) (i : Nat) (hi : i < 3) :
    0 ≤ (i : Rat) * ((bw : Rat) / 3) ∧ (i : Rat) * ((bw : Rat) / 3) + ((bw / 3 : Int) : Rat) ≤ ((i + 1 : Nat) : Rat) * ((bw : Rat) / 3) ∧
    ((i + 1 : Nat) : Rat) * ((bw : Rat) / 3) ≤ bw ∧
    ((i : Rat) * ((bw : Rat) / 3) + ((bw / 3 : Int) : Rat) = ((i + 1 : Nat) : Rat) * ((bw : Rat) / 3) ↔ bw % 3 = 0)
```

## C54 – A standard Writer can be used again (partial)

Writing a matrix with a Writer that has already written any number of other matrices draws the same picture as a new Writer with the same options.

*false with a transparent background (the stored background colour is overwritten); proved otherwise*

`QR.Standard.C54_reuse_partial` (Verif/Props/ImageOptions.lean): **C54, what holds.** Without a transparent background, after drawing any list of (square) symbols the writer draws the next one exactly as a new writer with the same options would.

```lean
theorem C54_reuse_partial (scale : Scaler) {o : Opts} (ht : o.bgTransparent = false) (ms : List Matrix) (h : ∀ m ∈ ms, m.width = m.height)
    (m : Matrix) : ∃ o', afterDrawing scale o ms = some o' ∧ draw scale o' m = draw scale o m
```

`QR.Standard.C54_reuse_transparent` (Verif/Props/ImageOptions.lean): **C54, transparent background.** All calls but the one that fills the background are the same.

```lean
theorem C54_reuse_transparent (scale : Scaler) {o : Opts} (ms : List Matrix) (h : ∀ m ∈ ms, m.width = m.height) (m : Matrix)
    (hm : m.width = m.height) : ∃ o' ops ops' o1 o1', afterDrawing scale o ms = some o' ∧ draw scale o m = some (ops, o1) ∧
      draw scale o' m = some (ops', o1') ∧ ops'.take 1 = ops.take 1 ∧ ops'.drop 2 = ops.drop 2
```

`QR.Standard.C54_counterexample` (Verif/Props/ImageOptions.lean): **C54 is false with a transparent background**: the first picture of a light module is white with alpha 0, the second one black with alpha 0 (an encoder that ignores alpha, like JPEG, shows the difference).

```lean
theorem C54_counterexample : let o := { defaultOpts with bgTransparent := true, qrWidth := 1, borders := ⟨0, 0, 0, 0⟩ }
    let first := draw (fun _ _ _ _ => (0, 0, 0, 0)) o lightM
    let second := (afterDrawing (fun _ _ _ _ => (0, 0, 0, 0)) o [lightM]).bind fun o' => draw (fun _ _ _ _ => (0, 0, 0, 0)) o' lightM
    ((first.bind fun r => paintAll r.1).map fun c => c.pix 0 0) = some ⟨255, 255, 255, 0⟩ ∧
    ((second.bind fun r => paintAll r.1).map fun c => c.pix 0 0) = some ⟨0, 0, 0, 0⟩
```

## C55 – A gradient recolours the foreground only (proved)

Applying a gradient leaves every pixel that does not have the foreground colour unchanged, gives every other pixel a colour, and never fails when the gradient has at least one stop.

`QR.Standard.C55_only_foreground` (Verif/Props/Gradient.lean): **C55.** A gradient only touches pixels of the foreground colour: any other pixel keeps its colour; and with at least one stop (what `WithFgGradient` insists on) every pixel gets a colour.

```lean
theorem C55_only_foreground (g : LinearGradient) (hg : g.stops ≠ []) (hr : Repr64 float64Round g.stops) (dx dy : Rat) (w h : Int) (fg : RGBA)
    (x y : Int) (c : RGBA) : ∃ c', gradientPixel float64Round g dx dy w h fg x y c = some c' ∧ (c ≠ fg → c' = c)
```

## C56 – Logo size and position (proved)

The logo is drawn exactly if its width and height times the size multiplier fit the picture; it is drawn once, last, centred to half a pixel and entirely inside the picture.

`QR.Standard.C56_logo` (Verif/Props/ImageOptions.lean): **C56.** For every square symbol and all options: the logo is drawn exactly if `multiplier` times its width and height fit into the picture; then it is drawn once, after everything else, in the centre (to half a pixel). With a multiplier of at least 1 (the default is 5) and a logo with ordinary bounds it lies entirely inside the picture and takes at most `1 / multiplier` of its width and height.

```lean
theorem C56_logo (scale : Scaler) {o : Opts} {m : Matrix} {dim : Nat} (hw : m.width = dim) (hh : m.height = dim) :
    ∃ ops o', draw scale o m = some (ops, o') ∧
      (o.logo = none → images ops = []) ∧
      ∀ img, o.logo = some img →
        let lw := img.maxX - img.minX
        let lh := img.maxY - img.minY
        let W := (o.attribute dim).w
        let H := (o.attribute dim).h
        (¬ (o.logoSizeMultiplier * lw ≤ W ∧ o.logoSizeMultiplier * lh ≤ H) → images ops = []) ∧
        (o.logoSizeMultiplier * lw ≤ W ∧ o.logoSizeMultiplier * lh ≤ H →
          ∃ lx ly, images ops = [(img, lx, ly)] ∧ ops.getLast? = some (.image img lx ly) ∧
            -1 ≤ 2 * lx + lw - W ∧ 2 * lx + lw - W ≤ 1 ∧ -1 ≤ 2 * ly + lh - H ∧ 2 * ly + lh - H ≤ 1 ∧
            (1 ≤ o.logoSizeMultiplier → 0 ≤ lw → 0 ≤ lh → 0 ≤ lx ∧ lx + lw ≤ W ∧ 0 ≤ ly ∧ ly + lh ≤ H))
```

## C57 – Command line: the format follows the file name (proved)

The command line writes a PNG file exactly if the output file name ends in .png (in lower case) and a JPEG file otherwise.

`QR.Cli.C57_format` (Verif/Props/Cli.lean): **C57.** A file whose name ends in `.png` (in lower case) is written as PNG, every other one as JPEG.

```lean
theorem C57_format (E : Ext) (cache : AlignCache) (arrival : List Nat) (readImage : Bytes → Option Image) (f : Flags) {name : Bytes} {o : Opts} {q : QRCode}
    (h : run E cache arrival readImage f = .file name o q) :
    name = f.output ∧ ((∃ base, f.output = base ++ [0x2e, 0x70, 0x6e, 0x67]) → o.imageEncoder = .png) ∧
    ((¬ ∃ base, f.output = base ++ [0x2e, 0x70, 0x6e, 0x67]) → o.imageEncoder = .jpeg)
```

## C58 – WebAssembly: the result object (proved)

The result of generateQRCode reports success exactly if the symbol was made and saved; then base64EncodedImage decodes to exactly the bytes of the picture and the error is empty; otherwise there is an error and no picture.

`QR.Wasm.C58_result` (Verif/Props/Wasm.lean): **C58.** Whenever the call returns a result: it reports success exactly if the content's symbol was made, with the settings asked for, and saved; then it contains exactly the picture that was saved and no error. Otherwise it contains no picture and the error that occurred: no arguments, the error of making the symbol, or that of saving it.

```lean
theorem C58_result (E : Ext) (c : AlignCache) (arrival : List Nat) (save : Opts → Matrix → Saved) (args : List JS) (r : GenResult)
    (h : genqrcode E c arrival save args = .result r) :
    (r.success = true ∧ r.error = none ∧ ∃ content rest opt q o b, args = content :: rest ∧ Settings rest opt ∧
      newWith E c arrival .string content.str (encodeOptions opt) = .ok q ∧ newWithWriter false (outputOptions opt) = some o ∧
      save o q.mat = .image b ∧ Spec.unbase64 (r.base64EncodedImage.map UInt8.toNat) = some (b.map UInt8.toNat)) ∨
    (r.success = false ∧ r.base64EncodedImage = [] ∧
      ((args = [] ∧ r.error = some .noArgs) ∨ ∃ content rest opt, args = content :: rest ∧ Settings rest opt ∧
        ((∃ e, newWith E c arrival .string content.str (encodeOptions opt) = .err e ∧ r.error = some (.new e)) ∨
          ∃ q o e, newWith E c arrival .string content.str (encodeOptions opt) = .ok q ∧
            newWithWriter false (outputOptions opt) = some o ∧ save o q.mat = .error e ∧ r.error = some (.save e))))
```

`QR.Wasm.C58_base64` (Verif/Props/Wasm.lean): **C58.** Base64 as the result contains it is read back to exactly the bytes of the picture.

```lean
theorem C58_base64 : ∀ (l : List UInt8), Spec.unbase64 ((Base64.encode l).map UInt8.toNat) = some (l.map UInt8.toNat)
```

## C59 – Shapes keep the symbol readable (partial)

Whatever shape of the library is chosen (rectangle, circle, or any pair of finder and block functions of the shapes package), the centre of every dark module ends up in the foreground colour and the centre of every light module in the background colour, although shapes paint into neighbouring blocks and share one drawing path.

*false for the circle shape in blocks one pixel wide (nothing is drawn); proved for all other cases*

`QR.Standard.C59_centres_partial` (Verif/Props/Shapes.lean): **C59.** With a shape of this library, the centre of every dark module ends up in the foreground colour, and the centre of every light module in the background colour (given to it by its block, or left from the beginning).

```lean
theorem C59_centres_partial (scale : Scaler) (o : Opts) (m : Matrix) (hh : o.halftone = none) (hs : safeOn o m = false)
    (assembled : Nat → DrawFn × DrawFn) (hcirc : o.getShape = .circle → 2 ≤ o.qrBlockWidth) :
    ∃ ops o', draw scale o m = some (ops, o') ∧ ∀ i j, i < m.width → j < m.height →
      ((m.raw i j).bit = true → colourAt (drawing (meaning assembled) (shapeCalls ops)) (centre o i j) = some o.qrColor) ∧
      ((m.raw i j).bit = false → colourAt (drawing (meaning assembled) (shapeCalls ops)) (centre o i j) = none ∨
        colourAt (drawing (meaning assembled) (shapeCalls ops)) (centre o i j) =
          some (if o.bgTransparent then ⟨0, 0, 0, 0⟩ else o.bgColor))
```

`QR.Standard.C59_counterexample` (Verif/Props/Shapes.lean): **C59, the exception.** Circles in blocks one pixel wide have the radius `1 / 2 = 0`: nothing is drawn at all.

```lean
theorem C59_counterexample (scale : Scaler) (o : Opts) (m : Matrix) (hh : o.halftone = none) (hs : safeOn o m = false)
    (assembled : Nat → DrawFn × DrawFn) (hcirc : o.getShape = .circle) (hw : o.qrWidth = 1) :
    ∃ ops o', draw scale o m = some (ops, o') ∧ ∀ p, colourAt (drawing (meaning assembled) (shapeCalls ops)) p = none
```

## C60 – Shapes keep out of the quiet zone (proved)

No shape of the library paints a point outside the symbol; a function paints out of its own block only towards dark neighbours of a dark module (only LiquidBlock and RoundedFinder do, by at most half a block), and none leaves an unfilled figure for the next module.

*the built-in circle in blocks one pixel wide draws nothing, see C59_counterexample*

`QR.Standard.C60_quiet_zone` (Verif/Props/Shapes.lean): **C60, the quiet zone.** With a shape of this library, no point outside the symbol is painted.

```lean
theorem C60_quiet_zone (scale : Scaler) (o : Opts) (m : Matrix) (hh : o.halftone = none) (hs : safeOn o m = false)
    (assembled : Nat → DrawFn × DrawFn) (hcirc : o.getShape = .circle → 2 ≤ o.qrBlockWidth) :
    ∃ ops o', draw scale o m = some (ops, o') ∧ ∀ p : Pt,
      (p.x < o.borders.left ∨ o.borders.left + m.width * o.qrBlockWidth < p.x ∨ p.y < o.borders.top ∨
        o.borders.top + m.height * o.qrBlockWidth < p.y) →
      colourAt (drawing (meaning assembled) (shapeCalls ops)) p = none
```

`QR.Standard.C60_block` (Verif/Props/Shapes.lean): **C60, the block.** Every function but `LiquidBlock` and `RoundedFinder` paints inside its block; these two paint out of it only towards dark neighbours of a dark module, and at most half a block wide. None leaves anything in the path.

```lean
theorem C60_block (d : DrawFn) (c : Ctx) (hh : c.h = c.w) (hw : 0 < c.w) :
    (∀ p, Painted (d.cmds c) p →
      (c.x - c.w / 2 ≤ p.x ∧ p.x ≤ c.x + c.w + c.w / 2 ∧ c.y - c.w / 2 ≤ p.y ∧ p.y ≤ c.y + c.w + c.w / 2) ∧
      (p.x < c.x → c.neighbours.toNat.testBit 4 ∧ c.neighbours.toNat.testBit 3) ∧
      (c.x + c.w < p.x → c.neighbours.toNat.testBit 4 ∧ c.neighbours.toNat.testBit 5) ∧
      (p.y < c.y → c.neighbours.toNat.testBit 4 ∧ c.neighbours.toNat.testBit 1) ∧
      (c.y + c.w < p.y → c.neighbours.toNat.testBit 4 ∧ c.neighbours.toNat.testBit 7) ∧
      (d ≠ .liquidBlock → d ≠ .roundedFinder → c.x ≤ p.x ∧ p.x ≤ c.x + c.w ∧ c.y ≤ p.y ∧ p.y ≤ c.y + c.w)) ∧
    leftover [] (d.cmds c) = []
```

## C61 – Joining shapes join (proved)

With LiquidBlock, HStripeBlock, ChainBlock or HChainBlock the whole line between the centres of two adjacent dark modules of a row is painted in the foreground colour in the final picture; with LiquidBlock, VStripeBlock, ChainBlock or VChainBlock that of two adjacent dark modules of a column.

`QR.Standard.C61_rows` (Verif/Props/ShapeJoins.lean): **C61, rows.** With `LiquidBlock`, `HStripeBlock`, `ChainBlock` or `HChainBlock`, the line between the centres of two adjacent dark modules of a row is painted in the foreground colour.

```lean
theorem C61_rows (scale : Scaler) (o : Opts) (m : Matrix) (hh : o.halftone = none) (hs : safeOn o m = false)
    (assembled : Nat → DrawFn × DrawFn) (k : Nat) (hk : o.getShape = .custom k) :
    ∃ ops o', draw scale o m = some (ops, o') ∧ ∀ i j, i + 1 < m.width → j < m.height →
      (m.raw i j).bit = true → (m.raw (i + 1) j).bit = true →
      (fnOf (assembled k) m i j).JoinsRow → (fnOf (assembled k) m (i + 1) j).JoinsRow →
      ∀ t : Rat, 0 ≤ t → t ≤ 1 →
        colourAt (drawing (meaning assembled) (shapeCalls ops)) ⟨(centre o i j).x + t * o.qrBlockWidth, (centre o i j).y⟩ = some o.qrColor
```

`QR.Standard.C61_columns` (Verif/Props/ShapeJoins.lean): **C61, columns.** With `LiquidBlock`, `VStripeBlock`, `ChainBlock` or `VChainBlock`, the line between the centres of two adjacent dark modules of a column is painted in the foreground colour.

```lean
theorem C61_columns (scale : Scaler) (o : Opts) (m : Matrix) (hh : o.halftone = none) (hs : safeOn o m = false)
    (assembled : Nat → DrawFn × DrawFn) (k : Nat) (hk : o.getShape = .custom k) :
    ∃ ops o', draw scale o m = some (ops, o') ∧ ∀ i j, i < m.width → j + 1 < m.height →
      (m.raw i j).bit = true → (m.raw i (j + 1)).bit = true →
      (fnOf (assembled k) m i j).JoinsColumn → (fnOf (assembled k) m i (j + 1)).JoinsColumn →
      ∀ t : Rat, 0 ≤ t → t ≤ 1 →
        colourAt (drawing (meaning assembled) (shapeCalls ops)) ⟨(centre o i j).x, (centre o i j).y + t * o.qrBlockWidth⟩ = some o.qrColor
```

## C62 – Sizes of blocks (proved)

VStripeBlock(ratio) draws a stripe of ratio times the block width (0.85 outside [0.6, 1]), SquareBlocks(size) a centred square with size times the side of the block and CircleBlocks(size) a centred disc with size times its diameter (1 outside [0.1, 1]).

`QR.Standard.C62_v_stripe` (Verif/Props/Shapes.lean): **C62, vertical stripes.** Between two dark modules of its column, a dark module drawn by `VStripeBlock(ratio)` is a stripe of the width `ratio` (0.85 if `ratio` is not in [0.6, 1]) times the block width, in the middle of the block.

```lean
theorem C62_v_stripe (ratio : Rat) (c : Ctx) (hh : c.h = c.w) (hw : 0 < c.w) (h1 : c.neighbours.toNat.testBit 1 = true)
    (h4 : c.neighbours.toNat.testBit 4 = true) (h7 : c.neighbours.toNat.testBit 7 = true) (p : Pt) :
    Painted ((DrawFn.vStripeBlock ratio).cmds c) p ↔
      (c.x + c.w / 2 - c.w * (if 6 / 10 ≤ ratio ∧ ratio ≤ 1 then ratio else 85 / 100) / 2 ≤ p.x ∧
       p.x < c.x + c.w / 2 + c.w * (if 6 / 10 ≤ ratio ∧ ratio ≤ 1 then ratio else 85 / 100) / 2) ∧ c.y ≤ p.y ∧ p.y < c.y + c.w
```

`QR.Standard.C62_square` (Verif/Props/ShapeJoins.lean): **C62, squares.** `SquareBlocks(size)` paints the square in the middle of the block whose side is `size` (1 if `size` is not in [0.1, 1]) times the block width.

```lean
theorem C62_square (size : Rat) (c : Ctx) (hh : c.h = c.w) (p : Pt) :
    Painted ((DrawFn.squareBlocks size).cmds c) p ↔
      let side : Rat := c.w * (if 1 / 10 ≤ size ∧ size ≤ 1 then size else 1)
      (c.x + c.w / 2 - side / 2 ≤ p.x ∧ p.x < c.x + c.w / 2 + side / 2) ∧ c.y + c.w / 2 - side / 2 ≤ p.y ∧ p.y < c.y + c.w / 2 + side / 2
```

`QR.Standard.C62_circle` (Verif/Props/ShapeJoins.lean): **C62, circles.** `CircleBlocks(size)` paints the disc around the middle of the block whose diameter is `size` times the block width.

```lean
theorem C62_circle (size : Rat) (c : Ctx) (hw : 0 < c.w) (p : Pt) :
    Painted ((DrawFn.circleBlocks size).cmds c) p ↔
      let r : Rat := c.w / 2 * (if 1 / 10 ≤ size ∧ size ≤ 1 then size else 1)
      (p.x - (c.x + c.w / 2)) * (p.x - (c.x + c.w / 2)) + (p.y - (c.y + c.h / 2)) * (p.y - (c.y + c.h / 2)) < r * r
```

## C63 – Height of horizontal stripes (partial)

HStripeBlock(ratio) draws a stripe of ratio times the block height (0.85 outside [0.6, 1]).

*false: the ratio is ignored, the height is always 0.9; proved exactly*

`QR.Standard.C63_h_stripe_partial` (Verif/Props/Shapes.lean): **C63, what is true.** Between two dark modules of its row, a dark module drawn by `HStripeBlock(ratio)` is a stripe in the middle of the block whose height is 0.9 times that of the block, whatever the ratio.

```lean
theorem C63_h_stripe_partial (ratio : Rat) (c : Ctx) (hh : c.h = c.w) (hw : 0 < c.w) (h3 : c.neighbours.toNat.testBit 3 = true)
    (h4 : c.neighbours.toNat.testBit 4 = true) (h5 : c.neighbours.toNat.testBit 5 = true) (p : Pt) :
    Painted ((DrawFn.hStripeBlock ratio).cmds c) p ↔
      (c.y + c.w / 2 - c.w * (9 / 10) / 2 ≤ p.y ∧ p.y < c.y + c.w / 2 + c.w * (9 / 10) / 2) ∧ c.x ≤ p.x ∧ p.x < c.x + c.w
```

`QR.Standard.C63_counterexample` (Verif/Props/Shapes.lean): **C63 is false**: with the ratio 0.6 a stripe of 0.6 block heights is promised, but points out of it are painted.

```lean
theorem C63_counterexample : ¬ ∀ (ratio : Rat) (c : Ctx) (p : Pt), 6 / 10 ≤ ratio → ratio ≤ 1 → c.h = c.w → 0 < c.w →
    c.neighbours.toNat.testBit 3 = true → c.neighbours.toNat.testBit 4 = true → c.neighbours.toNat.testBit 5 = true →
    Painted ((DrawFn.hStripeBlock ratio).cmds c) p →
      c.y + c.w / 2 - c.w * ratio / 2 ≤ p.y ∧ p.y < c.y + c.w / 2 + c.w * ratio / 2
```

## C64 – Grey pictures (partial)

imgkit.Gray keeps the bounds of an image and gives every point of it its grey value (white 255, black 0); Binaryzation makes exactly the points with a grey value above the threshold white and the others black. The halftone picture of the standard writer is coloured by it.

*false for images that do not begin at (0, 0); proved for the others, with the exact condition*

`QR.Imgkit.C64_partial` (Verif/Props/Imgkit.lean): **C64, the part that holds**: for images whose upper left point is (0, 0), `Gray` and `Binaryzation` keep the bounds, give every point its grey value, and the points white or black by whether the grey value is above the threshold. In general this is true of exactly those points that lie in the square (0, 0) - (width, height), and all other points come out black.

```lean
theorem C64_partial (src : Image) (t : UInt8) :
    ((gray src).minX = src.minX ∧ (gray src).minY = src.minY ∧ (gray src).maxX = src.maxX ∧ (gray src).maxY = src.maxY) ∧
    ((binaryzation src t).minX = src.minX ∧ (binaryzation src t).minY = src.minY ∧ (binaryzation src t).maxX = src.maxX ∧
      (binaryzation src t).maxY = src.maxY) ∧
    (src.minX = 0 → src.minY = 0 → ∀ x y, Within src x y →
      (gray src).at x y = grayValue (src.chan x y) ∧ (binaryzation src t).at x y = if grayValue (src.chan x y) > t then 255 else 0) ∧
    (∀ x y, Within src x y →
      if 0 ≤ x ∧ x < src.maxX - src.minX ∧ 0 ≤ y ∧ y < src.maxY - src.minY then
        (gray src).at x y = grayValue (src.chan x y) ∧ (binaryzation src t).at x y = if grayValue (src.chan x y) > t then 255 else 0
      else (gray src).at x y = 0 ∧ (binaryzation src t).at x y = 0)
```

`QR.Imgkit.C64_grey` (Verif/Props/Imgkit.lean): White is 255, black is 0, and the grey value of a grey point is its value.

```lean
theorem C64_grey : ∀ y : UInt8, grayValue (UInt32.ofNat (y.toNat * 257), UInt32.ofNat (y.toNat * 257), UInt32.ofNat (y.toNat * 257), 65535) = y
```

`QR.Imgkit.C64_halftone` (Verif/Props/Imgkit.lean): The halftone picture of the standard writer is made by this function: from the scaled image, which begins at (0, 0).

```lean
theorem C64_halftone (scale : Image → Nat → Int → Int → UInt32 × UInt32 × UInt32 × UInt32) (img : Image) (n : Nat) (transparent : Bool) (x y : Int) :
    halftoneColor scale img n transparent x y =
      if (binaryzation ⟨0, 0, n, n, scale img n⟩ 60).at x y = 255 then if transparent then ⟨0, 0, 0, 0⟩ else ⟨255, 255, 255, 255⟩ else ⟨0, 0, 0, 255⟩
```

`QR.Imgkit.C64_counterexample` (Verif/Props/Imgkit.lean): **C64 is false** for images that do not begin at (0, 0), such as a `SubImage`: this white point comes out black.

```lean
theorem C64_counterexample : ¬ ∀ (src : Image) (t : UInt8) (x y : Int), Within src x y →
    (gray src).at x y = grayValue (src.chan x y)
```

## C65 – Saving an image (partial)

imgkit.Save returns nil exactly if the file could be created, its name ends in .jpg, .jpeg or .png and the encoder succeeded, and then the file holds exactly the picture in the format of the name; otherwise no file changes.

*false: a refused name truncates the file; the rest is proved*

`QR.Imgkit.C65_save_partial` (Verif/Props/Imgkit.lean): **C65, the part that holds.** `Save` returns nil exactly if the file could be created, the name ends in `.jpg`, `.jpeg` or `.png` (in lower case) and the encoder succeeded; then the file holds exactly the picture in the format of the name. Other files never change.

```lean
theorem C65_save_partial (denied : Bool) (fs : FS) (filename : Bytes) (path : String) (jpeg png : Encoding) :
    ((save denied fs filename path jpeg png).2 = true ↔ denied = false ∧
      ((Cli.ext filename = dotJpg ∨ Cli.ext filename = dotJpeg) ∧ jpeg.ok = true ∨ Cli.ext filename = dotPng ∧ png.ok = true)) ∧
    ((save denied fs filename path jpeg png).2 = true →
      (save denied fs filename path jpeg png).1 path = some (if Cli.ext filename = dotPng then png.chunks.flatten else jpeg.chunks.flatten)) ∧
    (denied = true → (save denied fs filename path jpeg png).1 = fs) ∧
    ∀ q, q ≠ path → (save denied fs filename path jpeg png).1 q = fs q
```

`QR.Imgkit.C65_counterexample` (Verif/Props/Imgkit.lean): **C65 is false**: a refused name costs the file its contents. `Save(img, "photo.gif")` reports an unsupported format and leaves the file empty.

```lean
theorem C65_counterexample : ¬ ∀ (denied : Bool) (fs : Files.FS) (filename : Bytes) (path : String) (jpeg png : Encoding),
    (save denied fs filename path jpeg png).2 = false → Cli.ext filename ≠ dotJpg → Cli.ext filename ≠ dotJpeg → Cli.ext filename ≠ dotPng →
      (save denied fs filename path jpeg png).1 path = fs path
```

## C66 – The debug switch (proved)

Debugging is on at some moment exactly if SetDebugMode was called before, or QRCODE_DEBUG had an enabling value the first time the library looked; later changes of the variable have no effect and it is never switched off.

*for calls that do not overlap*

`QR.Debug.C66_switch` (Verif/Props/Debug.lean): **C66.** Debugging is on at some moment exactly if `SetDebugMode` was called before, or `QRCODE_DEBUG` was 1, true, TRUE, enabled or ENABLED at the first time the library looked (which may be this moment). It is never switched off.

```lean
theorem C66_switch (before : List Event) (env : String) :
    (run Switch.init (before ++ [Event.ask env])).2.getLast? = some (decide (Event.set ∈ before ∨
      (firstAsk (before ++ [Event.ask env])).getD "" ∈ ["1", "true", "TRUE", "enabled", "ENABLED"])) ∧
    ∀ after env', (run Switch.init (before ++ [Event.ask env])).2.getLast? = some true →
      (run Switch.init (before ++ [Event.ask env] ++ after ++ [Event.ask env'])).2.getLast? = some true
```

## C67 – The debug picture (proved)

The debug picture shows module (i, j) as ten by ten pixels beginning at (10 i + 10, 10 j + 10), black if dark and white if light, within a border of ten grey pixels.

`QR.Debug.C67_picture` (Verif/Props/Debug.lean): **C67.** The debug picture is a square of 10 pixels a module and a border of 10 pixels; the ten by ten pixels of module `(i, j)` begin at `(10 i + 10, 10 j + 10)` and are black if it is dark and white if it is light, and all other pixels have the grey value 0xff12.

```lean
theorem C67_picture (m : Matrix) :
    (debugPicture m).width = 10 * m.width + 20 ∧ (debugPicture m).height = 10 * m.width + 20 ∧
    ∀ x y : Int, 0 ≤ x → x < 10 * m.width + 20 → 0 ≤ y → y < 10 * m.width + 20 →
      (∀ i j : Nat, i < m.width → j < m.height → 10 * i + 10 ≤ x → x < 10 * i + 20 → 10 * j + 10 ≤ y → y < 10 * j + 20 →
        (debugPicture m).pix x y = if (m.raw i j).bit then 0 else 0xffff) ∧
      (x < 10 ∨ y < 10 ∨ 10 * m.width + 10 ≤ x ∨ 10 * m.height + 10 ≤ y → (debugPicture m).pix x y = 0xff12)
```

## C68 – Damaged symbols can be read (proved)

If at most 6 of the 30 format modules of a symbol and, in every Reed-Solomon block, at most half as many codewords as the block has error correction codewords are damaged, a reader that corrects errors still recovers exactly the text (for the texts of C01); in particular any three wrong modules are harmless, and any six at levels Q and H. The bound is sharp: with one codeword more damaged in a block with an odd number of error correction codewords, nothing is read.

*the finder, timing and alignment modules may be damaged at will: locating the symbol is not modelled*

`QR.C68_damage` (Verif/Props/Damage.lean): **C68.** A reader that corrects errors recovers the text from a damaged symbol, whatever colours the damaged modules have, as long as at most 6 of the 30 format modules are wrong and in every block at most half as many codewords are damaged as the block has error correction codewords. (The finder, timing, alignment and version modules may be damaged at will: locating the symbol is not modelled.)

```lean
theorem C68_damage {E : Ext} {unsjis : Nat → Option Nat} (hE : E.Ok unsjis) (hRS : E.rs = rsEncode) {c : AlignCache} (hc : CacheReachable c)
    {arrival : List Nat} (ha : Arrival arrival) {t : TextType} {text : Bytes} {opts : List EncodeOption} {q : QRCode}
    (h : newWith E c arrival t text opts = .ok q)
    (hx : ¬ (modeIn opts = encAuto ∧ AlnumThenKanji E.sjis (nats text)))
    {v : Nat} (hv : q.dimension = 17 + 4 * v) {bm : List (List Bool)} (hlen : bm.length = q.dimension)
    (hfmt : wrongAt q.mat.bitmap bm formatCells1 + wrongAt q.mat.bitmap bm (formatCells2 v) ≤ 6)
    (hcw : ∀ b < numBlocks v (levelIn opts), wrongCodewords v (levelIn opts) q.mat.bitmap bm b ≤ ecPerBlock v (levelIn opts) / 2) :
    decodeDamaged unsjis bm = some (nats text)
```

`QR.C68_few_modules` (Verif/Props/Damage.lean): In particular few wrong modules, anywhere in the symbol, do no harm: no more than 6 and no more than half the error correction codewords of a block.

```lean
theorem C68_few_modules {E : Ext} {unsjis : Nat → Option Nat} (hE : E.Ok unsjis) (hRS : E.rs = rsEncode) {c : AlignCache} (hc : CacheReachable c)
    {arrival : List Nat} (ha : Arrival arrival) {t : TextType} {text : Bytes} {opts : List EncodeOption} {q : QRCode}
    (h : newWith E c arrival t text opts = .ok q)
    (hx : ¬ (modeIn opts = encAuto ∧ AlnumThenKanji E.sjis (nats text)))
    {v : Nat} (hv : q.dimension = 17 + 4 * v) {bm : List (List Bool)} (hlen : bm.length = q.dimension)
    (h6 : wrongAt q.mat.bitmap bm (allCells v) ≤ 6) (he : wrongAt q.mat.bitmap bm (allCells v) ≤ ecPerBlock v (levelIn opts) / 2) :
    decodeDamaged unsjis bm = some (nats text)
```

`QR.C68_margin` (Verif/Props/Damage.lean): Any three wrong modules are harmless in every symbol, any six at the levels Q (the default) and H.

```lean
theorem C68_margin {v : Nat} (h1 : 1 ≤ v) (h40 : v ≤ 40) :
    (∀ lv, 3 ≤ ecPerBlock v lv / 2) ∧ 6 ≤ ecPerBlock v .Q / 2 ∧ 6 ≤ ecPerBlock v .H / 2
```

`QR.C68_limit` (Verif/Props/DamageLimit.lean): **C68, the limit.** If in some block one codeword more is damaged than can be corrected, and the block has an odd number of error correction codewords, the correcting reader does not find any text (whatever the text and whatever colours the damaged modules have).

```lean
theorem C68_limit {E : Ext} {unsjis : Nat → Option Nat} (hE : E.Ok unsjis) (hRS : E.rs = rsEncode) {c : AlignCache} (hc : CacheReachable c)
    {arrival : List Nat} (ha : Arrival arrival) {t : TextType} {text : Bytes} {opts : List EncodeOption} {q : QRCode}
    (h : newWith E c arrival t text opts = .ok q)
    {v : Nat} (hv : q.dimension = 17 + 4 * v) {bm : List (List Bool)} (hlen : bm.length = q.dimension)
    (hfmt : wrongAt q.mat.bitmap bm formatCells1 + wrongAt q.mat.bitmap bm (formatCells2 v) ≤ 6)
    {b : Nat} (hb : b < numBlocks v (levelIn opts)) (hodd : ecPerBlock v (levelIn opts) % 2 = 1)
    (hcw : wrongCodewords v (levelIn opts) q.mat.bitmap bm b = ecPerBlock v (levelIn opts) / 2 + 1) :
    decodeDamaged unsjis bm = none
```

## C69 – A logo of allowed size leaves the symbol readable (proved)

With rectangles, distinguishable colours, symmetric borders of at most two blocks and a logo accepted by the default size check (a fifth of the picture), looking at any one pixel per block of the picture and correcting errors yields exactly the text, whatever the logo shows, with or without safe zone, except at level L in versions 1-6 and 36 and level M in versions 2 and 4. At version 1, level L, some logo of a permitted size makes every symbol unreadable.

*for images whose bounds begin at the origin (gg displaces others); the exceptions are in the statement, and at version 1, level L, a logo that destroys the symbol is exhibited for every text*

`QR.Standard.C69_logo` (Verif/Props/Scan.lean): **C69.** Text, picture with a logo, text: with rectangles, no halftone and no gradient, colours that can be told apart, equal borders left and right and equal borders above and below, each at most two blocks wide, and a logo that occupies at most a fifth of the picture's width and height (multiplier at least 5, the default): drawing succeeds, and a scanner that looks at any one pixel of every block and corrects errors reads exactly the text, whatever the logo shows and with or without a safe zone, except at level L in the versions 1 to 6 and 36 and at level M in the versions 2 and 4, where the logo may cover more codewords than can be corrected.

```lean
theorem C69_logo {E : Ext} {unsjis : Nat → Option Nat} (hE : E.Ok unsjis) (hRS : E.rs = rsEncode) {c : AlignCache} (hc : CacheReachable c)
    {arrival : List Nat} (ha : Arrival arrival) {t : TextType} {text : Bytes} {opts : List EncodeOption} {q : QRCode}
    (h : newWith E c arrival t text opts = .ok q)
    (hx : ¬ (modeIn opts = encAuto ∧ AlnumThenKanji E.sjis (nats text)))
    {v : Nat} (hv : q.dimension = 17 + 4 * v)
    (hlv : ¬ (levelIn opts = .L ∧ v ∈ [1, 2, 3, 4, 5, 6, 36] ∨ levelIn opts = .M ∧ v ∈ [2, 4]))
    (scale : Scaler) (blend : Blend) {o : Opts} (hp : Rects o) (hcol : Contrast o)
    (hbx : 0 ≤ o.borders.left ∧ o.borders.left ≤ 2 * o.qrBlockWidth ∧ o.borders.right = o.borders.left)
    (hby : 0 ≤ o.borders.top ∧ o.borders.top ≤ 2 * o.qrBlockWidth ∧ o.borders.bottom = o.borders.top)
    {img : Image} (hl : o.logo = some img) (hmin : img.minX = 0 ∧ img.minY = 0) (hmax : 0 ≤ img.maxX ∧ 0 ≤ img.maxY)
    (hk : 5 ≤ o.logoSizeMultiplier) :
    ∃ ops o' cv, draw scale o q.mat = some (ops, o') ∧ paintAllImg blend ops = some cv ∧
      ∀ pt, InBlocks o q.dimension pt → decodeDamaged unsjis (seen o q.dimension cv pt) = some (nats text)
```

`QR.Standard.C69_counterexample` (Verif/Props/DamageLimit.lean): **C69, counterexample.** The exceptions of C69 cannot be dropped: for every symbol of version 1 and level L, whatever the text, there is a logo of a permitted size (a fifth of the width and height) which, drawn with the default options, makes the symbol unreadable for every scanner.

```lean
theorem C69_counterexample {E : Ext} {unsjis : Nat → Option Nat} (hE : E.Ok unsjis) (hRS : E.rs = rsEncode) {c : AlignCache} (hc : CacheReachable c)
    {arrival : List Nat} (ha : Arrival arrival) {t : TextType} {text : Bytes} {opts : List EncodeOption} {q : QRCode}
    (h : newWith E c arrival t text opts = .ok q) (hv : q.dimension = 21) (hlv : levelIn opts = .L)
    (scale : Scaler) {blend : Blend} (hbl : ShowsOpaque blend) :
    ∃ img : Image, img.minX = 0 ∧ img.minY = 0 ∧ img.maxX = 100 ∧ img.maxY = 100 ∧
      ∃ ops o' cv, draw scale { defaultOpts with logo := some img } q.mat = some (ops, o') ∧ paintAllImg blend ops = some cv ∧
        ∀ pt, InBlocks { defaultOpts with logo := some img } 21 pt →
          decodeDamaged unsjis (seen { defaultOpts with logo := some img } 21 cv pt) = none
```

## C70 – Text to picture and back (proved)

Without a logo (or with one too large to be drawn), with rectangles, no halftone, no gradient and distinguishable colours (also transparent background), any one pixel per block of the picture drawn by the standard writer gives back exactly the text (for the texts of C01).

`QR.Standard.C70_picture` (Verif/Props/Scan.lean): **C70.** Text, picture, text: with rectangles, no halftone, no gradient and no logo (or one that is too large to be drawn), colours that can be told apart and borders that are not negative, drawing succeeds, and a scanner that looks at any one pixel of every block reads exactly the text.

```lean
theorem C70_picture {E : Ext} {unsjis : Nat → Option Nat} (hE : E.Ok unsjis) {c : AlignCache} (hc : CacheReachable c)
    {arrival : List Nat} (ha : Arrival arrival) {t : TextType} {text : Bytes} {opts : List EncodeOption} {q : QRCode}
    (h : newWith E c arrival t text opts = .ok q)
    (hx : ¬ (modeIn opts = encAuto ∧ AlnumThenKanji E.sjis (nats text)))
    (scale : Scaler) (blend : Blend) {o : Opts} (hp : Rects o) (hcol : Contrast o)
    (hb : 0 ≤ o.borders.top ∧ 0 ≤ o.borders.right ∧ 0 ≤ o.borders.bottom ∧ 0 ≤ o.borders.left)
    (hl : ∀ img, o.logo = some img → ¬ (o.logoSizeMultiplier * (img.maxX - img.minX) ≤ (o.attribute q.dimension).w ∧
      o.logoSizeMultiplier * (img.maxY - img.minY) ≤ (o.attribute q.dimension).h)) :
    ∃ ops o' cv, draw scale o q.mat = some (ops, o') ∧ paintAllImg blend ops = some cv ∧
      ∀ pt, InBlocks o q.dimension pt → decode unsjis (seen o q.dimension cv pt) = some (nats text)
```

## C71 – Text to the other writers and back (proved)

The image of the compressed writer, the characters of the text file writer and the cells of the terminal writer give back exactly the text passed to New (for the texts of C01).

`QR.C71_compressed` (Verif/Props/ScanWriters.lean): **C71, compressed writer.** With a positive block size, a scanner that looks at any one pixel in the block of every module of the image that is encoded reads exactly the text.

```lean
theorem C71_compressed {E : Ext} {unsjis : Nat → Option Nat} (hE : E.Ok unsjis) {c : AlignCache} (hc : CacheReachable c)
    {arrival : List Nat} (ha : Arrival arrival) {t : TextType} {text : Bytes} {opts : List EncodeOption} {q : QRCode}
    (h : newWith E c arrival t text opts = .ok q)
    (hx : ¬ (modeIn opts = encAuto ∧ AlnumThenKanji E.sjis (nats text))) {padding blockSize : Nat} (hpos : 0 < blockSize) :
    ∃ img, Compressed.write (some ⟨padding, blockSize⟩) q.mat = some img ∧
      ∀ pt : Nat → Nat → Int × Int,
        (∀ x y, x < q.dimension → y < q.dimension → padding + x * blockSize ≤ (pt x y).1 ∧ (pt x y).1 < padding + (x + 1) * blockSize ∧
          padding + y * blockSize ≤ (pt x y).2 ∧ (pt x y).2 < padding + (y + 1) * blockSize) →
        decode unsjis (scan q.dimension (fun px py => decide (img.at' px py = some 0x00)) pt) = some (nats text)
```

`QR.C71_file` (Verif/Props/ScanWriters.lean): **C71, text file writer.** If writing to the file does not fail, the lines of block characters that the file receives show the text to a reader of the characters' ink.

```lean
theorem C71_file {E : Ext} {unsjis : Nat → Option Nat} (hE : E.Ok unsjis) {c : AlignCache} (hc : CacheReachable c)
    {arrival : List Nat} (ha : Arrival arrival) {t : TextType} {text : Bytes} {opts : List EncodeOption} {q : QRCode}
    (h : newWith E c arrival t text opts = .ok q)
    (hx : ¬ (modeIn opts = encAuto ∧ AlnumThenKanji E.sjis (nats text))) {sink : FileWriter.Sink} (hs : ∀ i, sink i = none) :
    ∃ out lines, FileWriter.write (some sink) q.mat = some (out, none) ∧ runes out = lines.flatMap (fun l => l ++ [10]) ∧
      (∀ l ∈ lines, ∀ c ∈ l, isBlockChar c = true) ∧
      decode unsjis ((List.range q.dimension).map fun y => (List.range q.dimension).map fun x => decide (inkAt lines x y = some true)) =
        some (nats text)
```

`QR.C71_terminal` (Verif/Props/ScanWriters.lean): **C71, terminal writer.** On a terminal with at least `2 * (dimension + 2)` columns and `dimension + 2` rows, one of the two cells of every module, whichever, shows black for a dark module: read so, the screen contains the text.

```lean
theorem C71_terminal {E : Ext} {unsjis : Nat → Option Nat} (hE : E.Ok unsjis) {c : AlignCache} (hc : CacheReachable c)
    {arrival : List Nat} (ha : Arrival arrival) {t : TextType} {text : Bytes} {opts : List EncodeOption} {q : QRCode}
    (h : newWith E c arrival t text opts = .ok q)
    (hx : ¬ (modeIn opts = encAuto ∧ AlnumThenKanji E.sjis (nats text))) (s : Terminal.Screen) (runeWidth : Nat → Nat) (ambiguous : Nat → Bool)
    (hcols : 2 * (q.dimension + 2) ≤ s.cols) (hrows : q.dimension + 2 ≤ s.rows) (half : Nat → Nat → Bool) :
    decode unsjis ((List.range q.dimension).map fun y => (List.range q.dimension).map fun x =>
      decide (((Terminal.render runeWidth ambiguous s q.mat).cells ((2 * x + 2 + (half x y).toNat : Nat), (y + 1 : Nat))).map (·.fg) = some Terminal.colorBlack)) =
        some (nats text)
```

## C72 – Shapes and halftone pictures keep the text (proved)

With any shape of the library (circles in blocks of at least two pixels), and with a halftone image in blocks of at least three pixels, the centres of the blocks give back exactly the text (for the texts of C01), whatever the halftone image shows; in smaller blocks a halftone picture shows nothing of the data modules.

*halftone: for the rectangle shape*

`QR.Standard.C72_shapes` (Verif/Props/ScanShapes.lean): **C72, shapes.** With any shape of this library (circles in blocks of at least two pixels), no halftone and no logo in effect with a safe zone, colours that can be told apart: the centres of the blocks show the text.

```lean
theorem C72_shapes {E : Ext} {unsjis : Nat → Option Nat} (hE : E.Ok unsjis) {c : AlignCache} (hc : CacheReachable c)
    {arrival : List Nat} (ha : Arrival arrival) {t : TextType} {text : Bytes} {opts : List EncodeOption} {q : QRCode}
    (h : newWith E c arrival t text opts = .ok q)
    (hx : ¬ (modeIn opts = encAuto ∧ AlnumThenKanji E.sjis (nats text)))
    (scale : Scaler) {o : Opts} (hcol : Contrast o) (hh : o.halftone = none) (hl : o.logo = none ∨ o.logoSafeZone = false)
    (assembled : Nat → DrawFn × DrawFn) (hcirc : o.getShape = .circle → 2 ≤ o.qrBlockWidth) :
    ∃ ops o', draw scale o q.mat = some (ops, o') ∧
      decode unsjis (seenCentres o q.dimension (drawing (meaning assembled) (shapeCalls ops))) = some (nats text)
```

`QR.Standard.C72_halftone_centres` (Verif/Props/ScanShapes.lean): **C72, halftone, the centres.** With a halftone image, rectangles, no logo in effect with a safe zone and blocks of at least three pixels: the centre of every block has the colour of its module, whatever the halftone image shows.

```lean
theorem C72_halftone_centres (scale : Scaler) {o : Opts} {m : Matrix} {img : Image} (hh : o.halftone = some img) (hs : safeOn o m = false)
    (hr : o.getShape = .rectangle) (h3 : 3 ≤ o.qrBlockWidth) (assembled : Nat → DrawFn × DrawFn) :
    ∃ ops o', draw scale o m = some (ops, o') ∧ ∀ i j, i < m.width → j < m.height →
      colourAt (drawing (meaning assembled) (shapeCalls ops)) (centre o i j) =
        some (if (m.raw i j).bit then o.qrColor else if o.bgTransparent then ⟨0, 0, 0, 0⟩ else o.bgColor)
```

`QR.Standard.C72_halftone` (Verif/Props/ScanShapes.lean): **C72, halftone.** Text, halftone picture, text.

```lean
theorem C72_halftone {E : Ext} {unsjis : Nat → Option Nat} (hE : E.Ok unsjis) {c : AlignCache} (hc : CacheReachable c)
    {arrival : List Nat} (ha : Arrival arrival) {t : TextType} {text : Bytes} {opts : List EncodeOption} {q : QRCode}
    (h : newWith E c arrival t text opts = .ok q)
    (hx : ¬ (modeIn opts = encAuto ∧ AlnumThenKanji E.sjis (nats text)))
    (scale : Scaler) {o : Opts} (hcol : Contrast o) {img : Image} (hh : o.halftone = some img) (hl : o.logo = none ∨ o.logoSafeZone = false)
    (hr : o.getShape = .rectangle) (h3 : 3 ≤ o.qrBlockWidth) (assembled : Nat → DrawFn × DrawFn) :
    ∃ ops o', draw scale o q.mat = some (ops, o') ∧
      decode unsjis (seenCentres o q.dimension (drawing (meaning assembled) (shapeCalls ops))) = some (nats text)
```

`QR.Standard.C72_counterexample` (Verif/Props/ScanShapes.lean): **C72, the exception.** In blocks of one or two pixels a halftone picture shows nothing of the data modules: the sub-blocks have the width `⌊2 / 3⌋ = 0`.

```lean
theorem C72_counterexample (scale : Scaler) {o : Opts} {m : Matrix} {img : Image} (hh : o.halftone = some img) (hs : safeOn o m = false)
    (hr : o.getShape = .rectangle) (h2 : o.qrBlockWidth ≤ 2) (assembled : Nat → DrawFn × DrawFn) :
    ∃ ops o', draw scale o m = some (ops, o') ∧ ∀ i j, i < m.width → j < m.height → (m.raw i j).ty = .data →
      colourAt (drawing (meaning assembled) (shapeCalls ops)) (centre o i j) = none
```

## C73 – Concurrent calls of New do not affect each other (proved)

Any number of goroutines may call New/NewWith at the same time: in every interleaving the process is not killed by overlapping accesses to the package's shared map, no call waits for another, and each call returns exactly what it returns alone.

*the counterexample is about the same code without the precomputation at start-up*

`QR.C73_safe` (Verif/Props/Shared.lean): **C73, safety.** Any number of goroutines call `NewWith` with any texts and options, in any interleaving: the map they share is never written while someone else is at it (the process is not killed), it keeps the contents start-up gave it, and its mutex is never taken.

```lean
theorem C73_safe {E : Ext} {calls : Nat → Call} {c : AlignCache} (hi : initialCache = .ok c) {sched : List Nat} {s : St}
    (h : run E calls sched (start c) = some s) : s.crashed = false ∧ s.cache = c ∧ s.holder = none ∧ s.writers = 0
```

`QR.C73_isolated` (Verif/Props/Shared.lean): **C73, isolation.** Whatever the others do, a call that returns has returned exactly what it returns when it is the only one.

```lean
theorem C73_isolated {E : Ext} {calls : Nat → Call} {c : AlignCache} (hi : initialCache = .ok c) {sched : List Nat} {s : St}
    (h : run E calls sched (start c) = some s) {i : Nat} {r : Res QRCode} (hr : s.pc i = .returned r) :
    r = newWith E c (calls i).arrival (calls i).t (calls i).text (calls i).opts
```

`QR.C73_wait_free` (Verif/Props/Shared.lean): **C73, no waiting.** A call that has not returned can take its next step whatever the others are doing, and it has returned after at most four steps of its own: no goroutine can delay another.

```lean
theorem C73_wait_free {E : Ext} {calls : Nat → Call} {c : AlignCache} (hi : initialCache = .ok c) {sched : List Nat} {s : St}
    (h : run E calls sched (start c) = some s) (i : Nat) :
    ((∃ r, s.pc i = .returned r) ↔ step E calls i s = none) ∧ sched.count i ≤ 4 ∧
      (sched.count i = 4 → ∃ r, s.pc i = .returned r)
```

`QR.C73_completes` (Verif/Props/Shared.lean): Any number of calls can all be driven to their end, from any point of any interleaving.

```lean
theorem C73_completes {E : Ext} {calls : Nat → Call} {c : AlignCache} (hi : initialCache = .ok c) {sched : List Nat} {s : St}
    (h : run E calls sched (start c) = some s) (n : Nat) :
    ∃ more s', run E calls more s = some s' ∧ ∀ i < n, s'.pc i =
      .returned (newWith E c (calls i).arrival (calls i).t (calls i).text (calls i).opts)
```

`QR.C73_counterexample` (Verif/Props/Shared.lean): **C73, why start-up matters.** Without the precomputation at package initialisation the same code would not be safe: starting from an empty map, two goroutines whose calls need a version above 1 have an interleaving in which the process is killed (an unlocked read while the other writes).

```lean
theorem C73_counterexample {E : Ext} {calls : Nat → Call} {c : AlignCache} {i j : Nat} (hij : i ≠ j) {q q' : QRCode}
    (hq : newWith E c (calls i).arrival (calls i).t (calls i).text (calls i).opts = .ok q) (hv : q.v.ver > 1)
    (hq' : newWith E c (calls j).arrival (calls j).t (calls j).text (calls j).opts = .ok q') (hv' : q'.v.ver > 1) :
    ∃ sched s, run E calls sched (start []) = some s ∧ s.crashed = true
```

`QR.C73_cold` (Verif/Props/SharedCold.lean): **C73, what the mutex alone guarantees.** The map starts empty, or with any correct entries. Any number of goroutines call `NewWith`, in any interleaving; unless the process has been killed (which `C73_counterexample` shows can happen then): a call that has returned has returned exactly what it returns when it is the only one; two goroutines are never both between `Lock` and `Unlock`, and no more than one write of the map is under way; every entry of the map is what `calcAlignPatternLocs` computes for its version, and nothing is lost from it; a goroutine that cannot go on has returned or waits for the lock, and then the goroutine that has the lock can go on; and a call takes at most eight steps of its own.

```lean
theorem C73_cold {E : Ext} {calls : Nat → Call} {c : AlignCache} (hc : ∀ v locs, c.lookup v = some locs → calcAlignPatternLocs v = .ok locs) {sched : List Nat} {s : St}
    (h : run E calls sched (start c) = some s) (hk : s.crashed = false) :
    (∀ i r, s.pc i = .returned r → r = newWith E c (calls i).arrival (calls i).t (calls i).text (calls i).opts) ∧
    (∀ i j, Locked (s.pc i) → Locked (s.pc j) → i = j) ∧ s.writers ≤ 1 ∧
    (∀ v locs, s.cache.lookup v = some locs → calcAlignPatternLocs v = .ok locs) ∧
    (∀ v locs, c.lookup v = some locs → s.cache.lookup v = some locs) ∧
    (∀ i, step E calls i s = none → (∃ r, s.pc i = .returned r) ∨
      (∃ q locs, s.pc i = .lock q locs) ∧ ∃ j, s.holder = some j ∧ Locked (s.pc j) ∧ step E calls j s ≠ none) ∧
    ∀ i, sched.count i ≤ 8
```

## C74 – Save reports failed writes; reuse of a writer (proved)

With a standard or compressed writer, Save returns nil exactly when every write to the file succeeded, and then the file has received the whole image; otherwise it returns an error and the file holds a beginning of it. The file is closed in every case, an error of closing is only logged, and every further Save with the same writer returns an error and changes nothing. The text file writer never closes the file: further Saves append.

*the bytes the PNG and JPEG encoders write are a parameter; they are assumed to stop at the first failed write and to return its error*

`QR.C74_first_save` (Verif/Props/Fd.lean): **C74, a first `Save`** with a standard or compressed writer on an open file (`pic m` is what is written for the symbol, in order): `Save` returns nil exactly when every write succeeded, and then the file has received all of it; otherwise it returns an error and the file has received the beginning of it. In every case the file is closed afterwards.

```lean
theorem C74_first_save (w : World) (pic : Matrix → Option (List Bytes)) {wr : Writer Fd.Fd}
    (hwr : wr = Fd.standard w pic ∨ wr = Fd.compressed w pic) {f : Fd.Fd} (ho : f.isOpen = true) {m : Matrix} {cs : List Bytes}
    (hp : pic m = some cs) :
    let r := save (some m) (some wr) f
    r.1.isOpen = false ∧
    (r.2.1 = .returned none ↔ ∀ i < cs.length, w.write (f.calls + i) = none) ∧
    (r.2.1 = .returned none → r.1.content = f.content ++ cs.flatten) ∧
    (r.2.1 ≠ .returned none → ∃ e, r.2.1 = .returned (some e)) ∧
    (∃ n, r.1.content = f.content ++ cs.flatten.take n)
```

`QR.C74_close_error` (Verif/Props/Fd.lean): **C74, the warning.** An error of closing the file is not returned, only logged.

```lean
theorem C74_close_error (w : World) (pic : Matrix → Option (List Bytes)) {wr : Writer Fd.Fd}
    (hwr : wr = Fd.standard w pic ∨ wr = Fd.compressed w pic) {f : Fd.Fd} (ho : f.isOpen = true) {m : Matrix} {cs : List Bytes}
    (hp : pic m = some cs) (e : Nat) :
    SaveEvent.logWarning e ∈ (save (some m) (some wr) f).2.2 ↔ ∃ k, w.close = some k ∧ e = k + 1
```

`QR.C74_second_save` (Verif/Props/Fd.lean): **C74, a second `Save`** with the same standard or compressed writer returns an error and leaves the file as it is (whenever there is something to write); the standard writer logs no warning, the compressed one does.

```lean
theorem C74_second_save (w : World) (pic : Matrix → Option (List Bytes)) {f : Fd.Fd} (ho : f.isOpen = false) {m : Matrix}
    {c : Bytes} {cs : List Bytes} (hp : pic m = some (c :: cs)) :
    save (some m) (some (Fd.standard w pic)) f = (f, .returned (some errClosed), [.writeCall m, .closeCall]) ∧
    save (some m) (some (Fd.compressed w pic)) f =
      (f, .returned (some errClosed), [.writeCall m, .closeCall, .logWarning errClosed])
```

`QR.C74_only_first` (Verif/Props/Fd.lean): So of any number of `Save`s with one such writer only the first can succeed.

```lean
theorem C74_only_first (w : World) (pic : Matrix → Option (List Bytes)) {wr : Writer Fd.Fd}
    (hwr : wr = Fd.standard w pic ∨ wr = Fd.compressed w pic) {f : Fd.Fd} (ho : f.isOpen = true) (m : Matrix) (ms : List Matrix)
    (hp : ∀ m, ∃ c cs, pic m = some (c :: cs)) :
    (saves wr (m :: ms) f).1 = (save (some m) (some wr) f).1 ∧
    ∀ o ∈ (saves wr (m :: ms) f).2.tail, o = .returned (some errClosed)
```

`QR.C74_text_appends` (Verif/Props/Fd.lean): **C74, the text file writer** never closes the file: if no write fails, any number of `Save`s return nil and write the pictures one below the other, and the file is still open.

```lean
theorem C74_text_appends {w : World} (hw : ∀ i, w.write i = none) : ∀ (ms : List Matrix) {f : Fd.Fd}, f.isOpen = true →
    (saves (Fd.text w) ms f).1.isOpen = true ∧
    (saves (Fd.text w) ms f).1.content = f.content ++
      (ms.map fun m => (FileWriter.chunks (FileWriter.picture m)).flatten).flatten ∧
    ∀ o ∈ (saves (Fd.text w) ms f).2, o = .returned none
```

`QR.C74_zero_writer` (Verif/Props/Fd.lean): The zero value of `standard.Writer` returns an error from every `Save` and does not panic.

```lean
theorem C74_zero_writer {σ : Type} (s : σ) (m : Matrix) :
    save (some m) (some (Fd.standardZero σ)) s = (s, .returned (some 1), [.writeCall m, .closeCall])
```

## C75 – The command line makes a code that contains the text given (proved)

The qrcode command panics exactly if the borders are malformed, reports an error exactly if the text has no symbol, and otherwise shows the symbol in the terminal or draws it for the file given. A scanner that looks at any one pixel of every block of the picture (of the centres, with circles in blocks of at least 2 pixels or a halftone picture in blocks of at least 3), starting at the borders given and in steps of the block size given (modulo 256, 20 for 0), reads exactly the text given, except for the texts of C01; so does a reader of the terminal's screen if it is large enough. Pixel by pixel, too: with circles in blocks of at least 10 pixels, a halftone picture in blocks of at least 12 (with circles 30 and a multiple of 3), one pixel at the centre of every block is enough, whatever the anti-aliasing does up to a quarter of a pixel.

*parsing the command line into flags and encoding the picture as a file are not modelled*

`QR.Cli.C75_outcome` (Verif/Props/Programs.lean): **C75, what the program does.** It panics exactly if the borders are malformed; it reports an error exactly if they are not and the text has no symbol (C04 says when); otherwise it shows the symbol in the terminal or draws it for the file given.

```lean
theorem C75_outcome {E : Ext} {unsjis : Nat → Option Nat} (hE : E.Ok unsjis) {c : AlignCache} (hc : CacheReachable c)
    {arrival : List Nat} (ha : Arrival arrival) (readImage : Bytes → Option Image) (f : Flags) :
    (run E c arrival readImage f = .panic ↔ parseBorders f.borders = none) ∧
    (∀ e, run E c arrival readImage f = .failed e ↔ parseBorders f.borders ≠ none ∧ new E c arrival .string f.text = .err e) ∧
    (∀ q, run E c arrival readImage f = .terminal q ↔ parseBorders f.borders ≠ none ∧ new E c arrival .string f.text = .ok q ∧ f.terminal = true) ∧
    (∀ name q, (∃ o, run E c arrival readImage f = .file name o q) ↔
      parseBorders f.borders ≠ none ∧ new E c arrival .string f.text = .ok q ∧ f.terminal = false ∧ name = f.output)
```

`QR.Cli.C75_picture` (Verif/Props/Programs.lean): **C75, picture.** If the borders are well-formed, the text has a symbol (and does not meet the exception of C01), `--terminal` is not given, and neither are circles nor a halftone picture that can be read: the program draws the picture for the file given, and a scanner that looks at any one pixel of every block, the first block starting right and below of the borders given, reads exactly the text given.

```lean
theorem C75_picture {E : Ext} {unsjis : Nat → Option Nat} (hE : E.Ok unsjis) {c : AlignCache} (hc : CacheReachable c)
    {arrival : List Nat} (ha : Arrival arrival) (readImage : Bytes → Option Image) (f : Flags)
    {top right bottom left : Nat} (hb : parseBorders f.borders = some [top, right, bottom, left])
    {q : QRCode} (hq : new E c arrival .string f.text = .ok q) (hx : ¬ AlnumThenKanji E.sjis (nats f.text))
    (ht : f.terminal = false) (hcirc : f.circle = false) (hh : f.halftone = [] ∨ readImage f.halftone = none) (scale : Scaler) (blend : Blend) :
    ∃ o ops o' cv, run E c arrival readImage f = .file f.output o q ∧ draw scale o q.mat = some (ops, o') ∧ paintAllImg blend ops = some cv ∧
      ∀ pt : Nat → Nat → Int × Int, (∀ x y, x < q.dimension → y < q.dimension →
          left + x * usedBlock f ≤ (pt x y).1 ∧ (pt x y).1 < left + (x + 1) * usedBlock f ∧
          top + y * usedBlock f ≤ (pt x y).2 ∧ (pt x y).2 < top + (y + 1) * usedBlock f) →
        decode unsjis (scan q.dimension (fun px py => decide (cv.pix px py = ⟨0, 0, 0, 255⟩)) pt) = some (nats f.text)
```

`QR.Cli.C75_shapes` (Verif/Props/Programs.lean): **C75, circles and halftone.** The same with `--circle` if the block size is at least 2, and with a halftone picture if it is at least 3 (and no circles): the centres of the blocks show the text.

```lean
theorem C75_shapes {E : Ext} {unsjis : Nat → Option Nat} (hE : E.Ok unsjis) {c : AlignCache} (hc : CacheReachable c)
    {arrival : List Nat} (ha : Arrival arrival) (readImage : Bytes → Option Image) (f : Flags)
    {top right bottom left : Nat} (hb : parseBorders f.borders = some [top, right, bottom, left])
    {q : QRCode} (hq : new E c arrival .string f.text = .ok q) (hx : ¬ AlnumThenKanji E.sjis (nats f.text))
    (ht : f.terminal = false)
    (hs : (f.circle = true ∧ 2 ≤ usedBlock f ∧ (f.halftone = [] ∨ readImage f.halftone = none)) ∨ (f.circle = false ∧ 3 ≤ usedBlock f))
    (scale : Scaler) (assembled : Nat → DrawFn × DrawFn) :
    ∃ o ops o', run E c arrival readImage f = .file f.output o q ∧ draw scale o q.mat = some (ops, o') ∧
      decode unsjis (seenCentres o q.dimension (drawing (meaning assembled) (shapeCalls ops))) = some (nats f.text)
```

`QR.Cli.C75_terminal` (Verif/Props/Programs.lean): **C75, terminal.** With `--terminal`, on a terminal that is large enough, the screen shows the text given.

```lean
theorem C75_terminal {E : Ext} {unsjis : Nat → Option Nat} (hE : E.Ok unsjis) {c : AlignCache} (hc : CacheReachable c)
    {arrival : List Nat} (ha : Arrival arrival) (readImage : Bytes → Option Image) (f : Flags) (hb : parseBorders f.borders ≠ none)
    {q : QRCode} (hq : new E c arrival .string f.text = .ok q) (hx : ¬ AlnumThenKanji E.sjis (nats f.text)) (ht : f.terminal = true)
    (s : Terminal.Screen) (runeWidth : Nat → Nat) (ambiguous : Nat → Bool)
    (hcols : 2 * (q.dimension + 2) ≤ s.cols) (hrows : q.dimension + 2 ≤ s.rows) (half : Nat → Nat → Bool) :
    run E c arrival readImage f = .terminal q ∧
    decode unsjis ((List.range q.dimension).map fun y => (List.range q.dimension).map fun x =>
      decide (((Terminal.render runeWidth ambiguous s q.mat).cells ((2 * x + 2 + (half x y).toNat : Nat), (y + 1 : Nat))).map (·.fg) = some Terminal.colorBlack)) =
        some (nats f.text)
```

`QR.Cli.C75_pixels` (Verif/Props/ProgramsPixels.lean): **C75, circles and halftone, pixel by pixel.** With `--circle` in blocks of at least 10 pixels, or with a halftone picture in blocks of at least 12 pixels (circles and a halftone picture: at least 30, a multiple of three), the program draws a picture for the file given, and a scanner that looks at one pixel at the centre of every block reads exactly the text given: dark are the opaque pixels that are not white (all opaque ones with `--transparent`).

```lean
theorem C75_pixels {E : Ext} {unsjis : Nat → Option Nat} (hE : E.Ok unsjis) {c : AlignCache} (hc : CacheReachable c)
    {arrival : List Nat} (ha : Arrival arrival) (readImage : Bytes → Option Image) (f : Flags)
    {top right bottom left : Nat} (hb : parseBorders f.borders = some [top, right, bottom, left])
    {q : QRCode} (hq : new E c arrival .string f.text = .ok q) (hx : ¬ AlnumThenKanji E.sjis (nats f.text))
    (ht : f.terminal = false)
    (hs : (10 ≤ usedBlock f ∧ (f.halftone = [] ∨ readImage f.halftone = none)) ∨ (12 ≤ usedBlock f ∧ f.circle = false) ∨ (30 ≤ usedBlock f ∧ usedBlock f % 3 = 0))
    (scale : Scaler) {cov : Coverage} (hcov : Rasters cov) (blend : Blend) {put : Put} (hput : PutsOver put) (direction : Rat → Rat × Rat) (assembled : Nat → DrawFn × DrawFn) :
    ∃ o ops o' cv, run E c arrival readImage f = .file f.output o q ∧ draw scale o q.mat = some (ops, o') ∧
      paintAllShapes cov (meaning assembled) blend put direction ops = some cv ∧
      ∀ pt : Nat → Nat → Int × Int, (∀ x y, x < q.dimension → y < q.dimension → CentreOf left top (usedBlock f) x y (pt x y).1 (pt x y).2) →
        decode unsjis (scan q.dimension (fun px py => decide ((cv.pix px py).a = 255) && (f.transparent || decide (cv.pix px py ≠ ⟨255, 255, 255, 255⟩))) pt) =
          some (nats f.text)
```

## C76 – The WASM function returns a picture that contains the content (proved)

Whenever generateQRCode reports success for a string and no options, or a complete options object (no circles, PNG, margin not negative, colours that differ or transparent background), decoding the base64 text and then the PNG gives a picture in which a scanner that looks at any one pixel of every block reads exactly the content, except for the texts of C01 when the mode is left open. With circles the same holds in blocks of at least 10 pixels for a scanner that looks at one pixel at the centre of every block.

*PNG itself is an assumption (SavesPng): a picture that was saved decodes to itself where it is opaque*

`QR.Wasm.C76_object` (Verif/Props/Programs.lean): **C76.** From the call in JavaScript to the text: with a complete options object without circles, a margin that is not negative, colours that differ (or a transparent background) and the format PNG, whenever the call reports success the picture in the result shows the content: the base64 text is decoded to bytes, the bytes to a picture, and a scanner that looks at any one pixel of every block of the picture reads exactly the content.

```lean
theorem C76_object {E : Ext} {unsjis : Nat → Option Nat} (hE : E.Ok unsjis) {c : AlignCache} (hc : CacheReachable c)
    {arrival : List Nat} (ha : Arrival arrival) {scale : Scaler} {blend : Blend} {decodeImage : List Nat → Option Canvas} {save : Opts → Matrix → Saved}
    (hsave : SavesPng scale blend decodeImage save) (content : Bytes) (get : String → JS) (rest : List JS) {ver mode w mar : Int} {t1 t2 t3 t4 : Bytes} {tr : Bool} {lv : Int}
    (h1 : get "encodeVersion" = .number ver t1) (h2 : get "encodeMode" = .number mode t2) (h3 : get "outputQrWidth" = .number w t3)
    (h4 : get "outputMargin" = .number mar t4) (h5 : get "outputBgTransparent" = .boolean tr) (h6 : get "outputCircleShape" = .boolean false)
    (h7 : UsableColour (get "outputBgColor")) (h8 : UsableColour (get "outputQrColor")) (h9 : LevelField (get "encodeECLevel") lv)
    (h10 : get "outputImageEncoder" ≠ .string (lit "jpg") ∧ get "outputImageEncoder" ≠ .string (lit "jpeg"))
    (hmar : 0 ≤ mar) (hcol : tr = true ∨ colourOf ⟨255, 255, 255, 255⟩ (get "outputBgColor") ≠ colourOf ⟨0, 0, 0, 255⟩ (get "outputQrColor"))
    (hx : ¬ (modeOf mode = encAuto ∧ AlnumThenKanji E.sjis (nats content)))
    {r : GenResult} (hr : genqrcode E c arrival save (.string content :: .object get :: rest) = .result r) (hok : r.success = true) :
    ∃ dim bytes cv, QR.Spec.unbase64 (r.base64EncodedImage.map UInt8.toNat) = some bytes ∧ decodeImage bytes = some cv ∧
      ∀ pt : Nat → Nat → Int × Int, (∀ x y, x < dim → y < dim →
          margin mar + x * width w ≤ (pt x y).1 ∧ (pt x y).1 < margin mar + (x + 1) * width w ∧
          margin mar + y * width w ≤ (pt x y).2 ∧ (pt x y).2 < margin mar + (y + 1) * width w) →
        decode unsjis (scan dim (fun px py => decide (cv.pix px py = colourOf ⟨0, 0, 0, 255⟩ (get "outputQrColor"))) pt) = some (nats content)
```

`QR.Wasm.C76_plain` (Verif/Props/Programs.lean): **C76, without options.** The same for a call with the content alone: the picture is a PNG picture with blocks of 20 pixels, borders of 40 pixels, black on white.

```lean
theorem C76_plain {E : Ext} {unsjis : Nat → Option Nat} (hE : E.Ok unsjis) {c : AlignCache} (hc : CacheReachable c)
    {arrival : List Nat} (ha : Arrival arrival) {scale : Scaler} {blend : Blend} {decodeImage : List Nat → Option Canvas} {save : Opts → Matrix → Saved}
    (hsave : SavesPng scale blend decodeImage save) (content : Bytes) (hx : ¬ AlnumThenKanji E.sjis (nats content))
    {r : GenResult} (hr : genqrcode E c arrival save [.string content] = .result r) (hok : r.success = true) :
    ∃ dim bytes img, QR.Spec.unbase64 (r.base64EncodedImage.map UInt8.toNat) = some bytes ∧ decodeImage bytes = some img ∧
      ∀ pt : Nat → Nat → Int × Int, (∀ x y, x < dim → y < dim →
          40 + x * 20 ≤ (pt x y).1 ∧ (pt x y).1 < 40 + (x + 1) * 20 ∧ 40 + y * 20 ≤ (pt x y).2 ∧ (pt x y).2 < 40 + (y + 1) * 20) →
        decode unsjis (scan dim (fun px py => decide (img.pix px py = ⟨0, 0, 0, 255⟩)) pt) = some (nats content)
```

`QR.Wasm.C76_pixels` (Verif/Props/ProgramsPixels.lean): **C76 with circles, pixel by pixel.** With a complete options object, with or without circles, block sizes of at least 10, a margin that is not negative, colours that differ (or a transparent background) and the format PNG, whenever the call reports success, a scanner that looks at one pixel at the centre of every block of the picture in the result reads exactly the content.

```lean
theorem C76_pixels {E : Ext} {unsjis : Nat → Option Nat} (hE : E.Ok unsjis) {c : AlignCache} (hc : CacheReachable c)
    {arrival : List Nat} (ha : Arrival arrival) {scale : Scaler} {cov : Coverage} (hcov : Rasters cov) {assembled : Nat → DrawFn × DrawFn} {blend : Blend} {put : Put}
    (hput : PutsOver put) {direction : Rat → Rat × Rat} {decodeImage : List Nat → Option Canvas} {save : Opts → Matrix → Saved}
    (hsave : SavesPngShapes scale cov assembled blend put direction decodeImage save) (content : Bytes) (get : String → JS) (rest : List JS) {ver mode w mar : Int} {t1 t2 t3 t4 : Bytes}
    {tr ci : Bool} {lv : Int}
    (h1 : get "encodeVersion" = .number ver t1) (h2 : get "encodeMode" = .number mode t2) (h3 : get "outputQrWidth" = .number w t3)
    (h4 : get "outputMargin" = .number mar t4) (h5 : get "outputBgTransparent" = .boolean tr) (h6 : get "outputCircleShape" = .boolean ci)
    (h7 : UsableColour (get "outputBgColor")) (h8 : UsableColour (get "outputQrColor")) (h9 : LevelField (get "encodeECLevel") lv)
    (h10 : get "outputImageEncoder" ≠ .string (lit "jpg") ∧ get "outputImageEncoder" ≠ .string (lit "jpeg"))
    (hw : 10 ≤ width w) (hmar : 0 ≤ mar) (hcol : tr = true ∨ colourOf ⟨255, 255, 255, 255⟩ (get "outputBgColor") ≠ colourOf ⟨0, 0, 0, 255⟩ (get "outputQrColor"))
    (hx : ¬ (modeOf mode = encAuto ∧ AlnumThenKanji E.sjis (nats content)))
    {r : GenResult} (hr : genqrcode E c arrival save (.string content :: .object get :: rest) = .result r) (hok : r.success = true) :
    ∃ dim bytes img, QR.Spec.unbase64 (r.base64EncodedImage.map UInt8.toNat) = some bytes ∧ decodeImage bytes = some img ∧
      ∀ pt : Nat → Nat → Int × Int, (∀ x y, x < dim → y < dim → CentreOf (margin mar) (margin mar) (width w) x y (pt x y).1 (pt x y).2) →
        decode unsjis (scan dim (fun px py => decide ((img.pix px py).a = 255) &&
          (tr || decide (img.pix px py ≠ colourOf ⟨255, 255, 255, 255⟩ (get "outputBgColor")))) pt) = some (nats content)
```

## C77 – Every module is that of a reference encoder (proved)

Whenever New or NewWith succeeds, the bitmap equals, module by module, the symbol that an encoder written directly from ISO/IEC 18004 makes of the text's payload in the chosen mode, version and level with some mask; the eight candidates are its symbols for the eight masks and none scores lower than the one returned. Mode, version and payload are determined by text and options (in the exceptional case of C01 the payload is empty).

*the Reed-Solomon package is assumed to be the coder of the standard (C50)*

`QR.C77_reference` (Verif/Props/Reference.lean): **C77.** Let a call succeed. There are a mode, a version and a payload, those of the text and the options, such that the eight candidates are, module by module, the symbols the reference encoder makes with the eight masks; in every arrival order of the scores the result is one of them, and none has a lower score.

```lean
theorem C77_reference {E : Ext} {unsjis : Nat → Option Nat} (hE : E.Ok unsjis) (hRS : E.rs = rsEncode) {c : AlignCache}
    (hc : CacheReachable c) {arrival : List Nat} {t : TextType} {text : Bytes} {opts : List EncodeOption} {q : QRCode}
    (h : newWith E c arrival t text opts = .ok q) :
    ∃ (m : Mode) (v : Nat) (p : List Bool) (M : Nat → Matrix) (score : Nat → Nat),
      UsesMode E.sjis (modeIn opts) (nats text) m ∧ ChosenVersion E.sjis opts (nats text) v ∧
      PayloadOf E.sjis (modeIn opts) m (nats text) p ∧
      (∀ k < 8, (M k).bitmap = encodeSymbol v (levelIn opts) k m (Spec.charCount m (nats text)) p ∧ evaluation (M k) = .ok (score k)) ∧
      ∀ arrival', Arrival arrival' → ∃ q' k, newWith E c arrival' t text opts = .ok q' ∧ k < 8 ∧ q'.mat = M k ∧
        ∀ j < 8, score k ≤ score j
```

`QR.C77_bitmap` (Verif/Props/Reference.lean): The bitmap of a successful call.

```lean
theorem C77_bitmap {E : Ext} {unsjis : Nat → Option Nat} (hE : E.Ok unsjis) (hRS : E.rs = rsEncode) {c : AlignCache}
    (hc : CacheReachable c) {arrival : List Nat} (ha : Arrival arrival) {t : TextType} {text : Bytes} {opts : List EncodeOption} {q : QRCode}
    (h : newWith E c arrival t text opts = .ok q) :
    ∃ m v p k, UsesMode E.sjis (modeIn opts) (nats text) m ∧ ChosenVersion E.sjis opts (nats text) v ∧
      PayloadOf E.sjis (modeIn opts) m (nats text) p ∧ k < 8 ∧
      q.mat.bitmap = encodeSymbol v (levelIn opts) k m (Spec.charCount m (nats text)) p
```

`QR.C77_determined` (Verif/Props/Reference.lean): Mode, version and payload are determined by text and options, so the reference symbol depends on the mask only.

```lean
theorem C77_determined {sjis : Nat → Option (List UInt8)} {opts : List EncodeOption} {t : List Nat} {m m' : Mode} {v v' : Nat} {p p' : List Bool}
    (hm : UsesMode sjis (modeIn opts) t m) (hm' : UsesMode sjis (modeIn opts) t m') (hv : ChosenVersion sjis opts t v)
    (hv' : ChosenVersion sjis opts t v') (hp : PayloadOf sjis (modeIn opts) m t p) (hp' : PayloadOf sjis (modeIn opts) m' t p') :
    m = m' ∧ v = v' ∧ p = p'
```

## C78 – Text, options and arrival order determine the bitmap (proved)

Whenever New or NewWith succeeds, the bitmap is the reference encoder's symbol (C77) with the mask that comes first, in the order in which the eight scores arrive, among those whose symbol has the lowest score; the score is a fixed function of version and module colours. So the bitmaps a call can return are exactly the reference symbols of the lowest score.

*the Reed-Solomon package is assumed to be the coder of the standard (C50)*

`QR.C78_mask_choice` (Verif/Props/MaskChoice.lean): **C78.** Let a call succeed. With mode, version and payload of the text and the options, in every arrival order of the scores the bitmap is the reference symbol with the mask that comes first among those of the lowest score.

```lean
theorem C78_mask_choice {E : Ext} {unsjis : Nat → Option Nat} (hE : E.Ok unsjis) (hRS : E.rs = rsEncode) {c : AlignCache}
    (hc : CacheReachable c) {arrival : List Nat} {t : TextType} {text : Bytes} {opts : List EncodeOption} {q : QRCode}
    (h : newWith E c arrival t text opts = .ok q) :
    ∃ (m : Mode) (v : Nat) (p : List Bool),
      UsesMode E.sjis (modeIn opts) (nats text) m ∧ ChosenVersion E.sjis opts (nats text) v ∧
      PayloadOf E.sjis (modeIn opts) m (nats text) p ∧
      ∀ arrival', Arrival arrival' → ∃ q' k, newWith E c arrival' t text opts = .ok q' ∧ k < 8 ∧
        q'.mat.bitmap = encodeSymbol v (levelIn opts) k m (Spec.charCount m (nats text)) p ∧
        FirstLowest (fun j => score v (pixel (encodeSymbol v (levelIn opts) j m (Spec.charCount m (nats text)) p))) arrival' k
```

`QR.C78_lowest` (Verif/Props/MaskChoice.lean): C78 for the code returned: no mask gives the reference symbol a lower score.

```lean
theorem C78_lowest {E : Ext} {unsjis : Nat → Option Nat} (hE : E.Ok unsjis) (hRS : E.rs = rsEncode) {c : AlignCache}
    (hc : CacheReachable c) {arrival : List Nat} (ha : Arrival arrival) {t : TextType} {text : Bytes} {opts : List EncodeOption} {q : QRCode}
    (h : newWith E c arrival t text opts = .ok q) :
    ∃ m v p k, UsesMode E.sjis (modeIn opts) (nats text) m ∧ ChosenVersion E.sjis opts (nats text) v ∧
      PayloadOf E.sjis (modeIn opts) m (nats text) p ∧ k < 8 ∧
      q.mat.bitmap = encodeSymbol v (levelIn opts) k m (Spec.charCount m (nats text)) p ∧
      ∀ j < 8, score v (pixel q.mat.bitmap) ≤ score v (pixel (encodeSymbol v (levelIn opts) j m (Spec.charCount m (nats text)) p))
```

`QR.C78_all` (Verif/Props/MaskChoice.lean): C78, the converse: every mask of the lowest score is the one returned in some arrival order, so the bitmaps a call can return are exactly the reference symbols of the lowest score.

```lean
theorem C78_all {E : Ext} {unsjis : Nat → Option Nat} (hE : E.Ok unsjis) (hRS : E.rs = rsEncode) {c : AlignCache}
    (hc : CacheReachable c) {arrival : List Nat} {t : TextType} {text : Bytes} {opts : List EncodeOption} {q : QRCode}
    (h : newWith E c arrival t text opts = .ok q) :
    ∃ (m : Mode) (v : Nat) (p : List Bool),
      UsesMode E.sjis (modeIn opts) (nats text) m ∧ ChosenVersion E.sjis opts (nats text) v ∧
      PayloadOf E.sjis (modeIn opts) m (nats text) p ∧
      ∀ bm, (∃ arrival' q', Arrival arrival' ∧ newWith E c arrival' t text opts = .ok q' ∧ q'.mat.bitmap = bm) ↔
        ∃ k < 8, bm = encodeSymbol v (levelIn opts) k m (Spec.charCount m (nats text)) p ∧
          ∀ j < 8, score v (pixel bm) ≤ score v (pixel (encodeSymbol v (levelIn opts) j m (Spec.charCount m (nats text)) p))
```

`QR.demo_choice` (Verif/Props/MaskChoice.lean): `0;` in byte mode and version 1: the call succeeds in every schedule, always with the same symbol (mask 0, score 242).

```lean
theorem demo_choice {c : AlignCache} (hc : CacheReachable c) {arrival : List Nat} (ha : Arrival arrival) :
    ∃ q, newWith demoExt c arrival .string [48, 59] [.withEncodingMode encByte, .withVersion 1] = .ok q ∧
      q.mat.bitmap = demoSymbol 0
```

## C79 – Pictures with a gradient keep the text (proved)

With WithFgGradient, rectangle modules and no halftone, if the foreground can be told from the background, all gradient stops are opaque and (unless the background is transparent) every stop, and every two stops that follow each other, are in some colour channel both below, or both more than one above, the background, then reading any one pixel of every module's block, calling it dark if it is opaque and not the background colour, gives a symbol whose text is exactly the text encoded, for every angle, number and order of stops. With a logo on the conditions of C69 the text is still read after error correction.

*direction of the gradient (cos and sin) and what drawing a not opaque pixel does are left open; positions of stops are float64 numbers; C79_gradient_logo assumes the Reed-Solomon package to be the coder of the standard (C50)*

`QR.Standard.C79_gradient` (Verif/Props/ScanGradient.lean): **C79.** Text, picture with a gradient, text: with rectangles, no halftone and no logo (or one that is too large to be drawn), borders that are not negative, a foreground that can be told apart from the background and a gradient whose stops can be told apart from it, drawing succeeds, and a scanner that looks at any one pixel of every block reads exactly the text - whatever the angle of the gradient and the order and positions of its stops.

```lean
theorem C79_gradient {E : Ext} {unsjis : Nat → Option Nat} (hE : E.Ok unsjis) {c : AlignCache} (hc : CacheReachable c)
    {arrival : List Nat} (ha : Arrival arrival) {t : TextType} {text : Bytes} {opts : List EncodeOption} {q : QRCode}
    (h : newWith E c arrival t text opts = .ok q)
    (hx : ¬ (modeIn opts = encAuto ∧ AlnumThenKanji E.sjis (nats text)))
    (scale : Scaler) (blend : Blend) {put : Put} (hput : PutsOver put) (direction : Rat → Rat × Rat) {o : Opts}
    (hsh : o.shape = none ∨ o.shape = some .rectangle) (hht : o.halftone = none) {g : LinearGradient} (hgr : o.qrGradient = some g)
    (hcol : Contrast o) (hg : GradientContrast o g)
    (hb : 0 ≤ o.borders.top ∧ 0 ≤ o.borders.right ∧ 0 ≤ o.borders.bottom ∧ 0 ≤ o.borders.left)
    (hl : ∀ img, o.logo = some img → ¬ (o.logoSizeMultiplier * (img.maxX - img.minX) ≤ (o.attribute q.dimension).w ∧
      o.logoSizeMultiplier * (img.maxY - img.minY) ≤ (o.attribute q.dimension).h)) :
    ∃ ops o' cv, draw scale o q.mat = some (ops, o') ∧ paintAllGradient blend put direction ops = some cv ∧
      ∀ pt, InBlocks o q.dimension pt → decode unsjis (seenInk o q.dimension cv pt) = some (nats text)
```

`QR.Standard.C79_gradient_logo` (Verif/Props/ScanGradient.lean): **C79, with a logo.** The same with a logo under the conditions of C69, for a scanner that corrects errors, whatever the logo shows and with or without a safe zone.

```lean
theorem C79_gradient_logo {E : Ext} {unsjis : Nat → Option Nat} (hE : E.Ok unsjis) (hRS : E.rs = rsEncode) {c : AlignCache} (hc : CacheReachable c)
    {arrival : List Nat} (ha : Arrival arrival) {t : TextType} {text : Bytes} {opts : List EncodeOption} {q : QRCode}
    (h : newWith E c arrival t text opts = .ok q)
    (hx : ¬ (modeIn opts = encAuto ∧ AlnumThenKanji E.sjis (nats text)))
    {v : Nat} (hv : q.dimension = 17 + 4 * v)
    (hlv : ¬ (levelIn opts = .L ∧ v ∈ [1, 2, 3, 4, 5, 6, 36] ∨ levelIn opts = .M ∧ v ∈ [2, 4]))
    (scale : Scaler) (blend : Blend) {put : Put} (hput : PutsOver put) (direction : Rat → Rat × Rat) {o : Opts}
    (hsh : o.shape = none ∨ o.shape = some .rectangle) (hht : o.halftone = none) {g : LinearGradient} (hgr : o.qrGradient = some g)
    (hcol : Contrast o) (hg : GradientContrast o g)
    (hbx : 0 ≤ o.borders.left ∧ o.borders.left ≤ 2 * o.qrBlockWidth ∧ o.borders.right = o.borders.left)
    (hby : 0 ≤ o.borders.top ∧ o.borders.top ≤ 2 * o.qrBlockWidth ∧ o.borders.bottom = o.borders.top)
    {img : Image} (hl : o.logo = some img) (hmin : img.minX = 0 ∧ img.minY = 0) (hmax : 0 ≤ img.maxX ∧ 0 ≤ img.maxY)
    (hk : 5 ≤ o.logoSizeMultiplier) :
    ∃ ops o' cv, draw scale o q.mat = some (ops, o') ∧ paintAllGradient blend put direction ops = some cv ∧
      ∀ pt, InBlocks o q.dimension pt → decodeDamaged unsjis (seenInk o q.dimension cv pt) = some (nats text)
```

## C80 – Shapes with a logo keep the text (proved)

With any shape of the library (circles in blocks of at least two pixels), no halftone, distinguishable colours, and a logo and borders as in C69, the centres of the blocks give back exactly the text after error correction, whatever the logo shows, with or without safe zone, in the versions and levels of C69. In general (any logo and borders) every light module's centre keeps the background colour and every dark module not removed by the safe zone has its centre in the foreground colour, except exactly those drawn by RoundedFinder whose mirrored place overlaps the logo: for these nothing is drawn.

*colours given by the shapes, in the plane; a gradient recolours them afterwards and is not considered here (C79); the Reed-Solomon package is assumed to be the coder of the standard (C50)*

`QR.Standard.C80_shapes_logo` (Verif/Props/ScanShapesLogo.lean): **C80.** Text, picture with shapes and a logo, text: with any shape of this library (circles in blocks of at least two pixels), no halftone and no gradient, colours that can be told apart, and a logo and borders as in C69: a scanner that looks at the centres of the blocks and corrects errors reads exactly the text, whatever the logo shows and with or without a safe zone, except in the versions and levels excepted in C69.

```lean
theorem C80_shapes_logo {E : Ext} {unsjis : Nat → Option Nat} (hE : E.Ok unsjis) (hRS : E.rs = rsEncode) {c : AlignCache} (hc : CacheReachable c)
    {arrival : List Nat} (ha : Arrival arrival) {t : TextType} {text : Bytes} {opts : List EncodeOption} {q : QRCode}
    (h : newWith E c arrival t text opts = .ok q)
    (hx : ¬ (modeIn opts = encAuto ∧ AlnumThenKanji E.sjis (nats text)))
    {v : Nat} (hv : q.dimension = 17 + 4 * v)
    (hlv : ¬ (levelIn opts = .L ∧ v ∈ [1, 2, 3, 4, 5, 6, 36] ∨ levelIn opts = .M ∧ v ∈ [2, 4]))
    (scale : Scaler) {o : Opts} (hcol : Contrast o) (hht : o.halftone = none)
    (assembled : Nat → DrawFn × DrawFn) (hcirc : o.getShape = .circle → 2 ≤ o.qrBlockWidth)
    (hbx : 0 ≤ o.borders.left ∧ o.borders.left ≤ 2 * o.qrBlockWidth ∧ o.borders.right = o.borders.left)
    (hby : 0 ≤ o.borders.top ∧ o.borders.top ≤ 2 * o.qrBlockWidth ∧ o.borders.bottom = o.borders.top)
    {img : Image} (hl : o.logo = some img) (hmin : img.minX = 0 ∧ img.minY = 0) (hmax : 0 ≤ img.maxX ∧ 0 ≤ img.maxY)
    (hk : 5 ≤ o.logoSizeMultiplier) :
    ∃ ops o', draw scale o q.mat = some (ops, o') ∧ ∀ logo : Pt → Bool,
      decodeDamaged unsjis (seenCentresLogo o q.dimension ops (drawing (meaning assembled) (shapeCalls ops)) logo) = some (nats text)
```

`QR.Standard.C80_centres` (Verif/Props/ScanShapesLogo.lean): **C80, the centres.** With any shape of this library, with or without logo and safe zone: the centre of a light module ends up in the background colour (given to it by its block, or left from the beginning). The centre of a dark module ends up in the foreground colour, if the safe zone does not remove the module (its block does not overlap the logo) and, only where `RoundedFinder` draws it, the module at the mirrored place does not overlap the logo (see C43).

```lean
theorem C80_centres (scale : Scaler) {o : Opts} {m : Matrix} (hsq : m.width = m.height) (hh : o.halftone = none)
    (assembled : Nat → DrawFn × DrawFn) (hcirc : o.getShape = .circle → 2 ≤ o.qrBlockWidth) :
    ∃ ops o', draw scale o m = some (ops, o') ∧ ∀ i j, i < m.width → j < m.height →
      ((m.raw i j).bit = true → (safeOn o m = true → overlaps o m i j = false) →
        (safeOn o m = true → needsSelf (meaning assembled o.getShape) (decide ((m.raw i j).ty = .finder)) = true → overlaps o m j i = false) →
        colourAt (drawing (meaning assembled) (shapeCalls ops)) (centre o i j) = some o.qrColor) ∧
      ((m.raw i j).bit = false → colourAt (drawing (meaning assembled) (shapeCalls ops)) (centre o i j) = none ∨
        colourAt (drawing (meaning assembled) (shapeCalls ops)) (centre o i j) =
          some (if o.bgTransparent then ⟨0, 0, 0, 0⟩ else o.bgColor))
```

`QR.Standard.C80_lost` (Verif/Props/ScanShapesLogo.lean): **C80, the exception.** Where `RoundedFinder` draws a dark module that does not overlap the logo, but the module at the mirrored place does, nothing is drawn for it.

```lean
theorem C80_lost (scale : Scaler) {o : Opts} {m : Matrix} (hsq : m.width = m.height) (hh : o.halftone = none) (hs : safeOn o m = true)
    (assembled : Nat → DrawFn × DrawFn) (hcirc : o.getShape = .circle → 2 ≤ o.qrBlockWidth) :
    ∃ ops o', draw scale o m = some (ops, o') ∧ ∀ i j, i < m.width → j < m.height →
      needsSelf (meaning assembled o.getShape) (decide ((m.raw i j).ty = .finder)) = true → overlaps o m j i = true →
        colourAt (drawing (meaning assembled) (shapeCalls ops)) (centre o i j) = none
```

## C81 – Halftone pictures with shapes and a logo keep the text (proved)

With a halftone image, blocks of at least three pixels and rectangles (or any other library shape except RoundedFinder as block function, in blocks whose width is a multiple of three; circles from six pixels on), distinguishable colours: the centres of the blocks give back exactly the text, whatever the halftone image shows; with a logo and borders as in C69, with or without safe zone, after error correction.

*as C80; scaling of the halftone image is a parameter*

`QR.Standard.C81_halftone` (Verif/Props/ScanHalftone.lean): **C81.** Text, halftone picture with shapes, text: no logo, distinguishable colours, and a shape that draws its sub-blocks: the centres of the blocks show exactly the text, whatever the halftone image shows.

```lean
theorem C81_halftone {E : Ext} {unsjis : Nat → Option Nat} (hE : E.Ok unsjis) {c : AlignCache} (hc : CacheReachable c)
    {arrival : List Nat} (ha : Arrival arrival) {t : TextType} {text : Bytes} {opts : List EncodeOption} {q : QRCode}
    (h : newWith E c arrival t text opts = .ok q)
    (hx : ¬ (modeIn opts = encAuto ∧ AlnumThenKanji E.sjis (nats text)))
    (scale : Scaler) {o : Opts} (hcol : Contrast o) {img : Image} (hh : o.halftone = some img) (hl : o.logo = none)
    (assembled : Nat → DrawFn × DrawFn) (hS : SubBlocks o (meaning assembled o.getShape)) :
    ∃ ops o', draw scale o q.mat = some (ops, o') ∧
      decode unsjis (seenCentres o q.dimension (drawing (meaning assembled) (shapeCalls ops))) = some (nats text)
```

`QR.Standard.C81_halftone_logo` (Verif/Props/ScanHalftone.lean): **C81, with a logo** as in C69 and C80, with or without a safe zone.

```lean
theorem C81_halftone_logo {E : Ext} {unsjis : Nat → Option Nat} (hE : E.Ok unsjis) (hRS : E.rs = rsEncode) {c : AlignCache} (hc : CacheReachable c)
    {arrival : List Nat} (ha : Arrival arrival) {t : TextType} {text : Bytes} {opts : List EncodeOption} {q : QRCode}
    (h : newWith E c arrival t text opts = .ok q)
    (hx : ¬ (modeIn opts = encAuto ∧ AlnumThenKanji E.sjis (nats text)))
    {v : Nat} (hv : q.dimension = 17 + 4 * v)
    (hlv : ¬ (levelIn opts = .L ∧ v ∈ [1, 2, 3, 4, 5, 6, 36] ∨ levelIn opts = .M ∧ v ∈ [2, 4]))
    (scale : Scaler) {o : Opts} (hcol : Contrast o) {himg : Image} (hht : o.halftone = some himg)
    (assembled : Nat → DrawFn × DrawFn) (hS : SubBlocks o (meaning assembled o.getShape))
    (hbx : 0 ≤ o.borders.left ∧ o.borders.left ≤ 2 * o.qrBlockWidth ∧ o.borders.right = o.borders.left)
    (hby : 0 ≤ o.borders.top ∧ o.borders.top ≤ 2 * o.qrBlockWidth ∧ o.borders.bottom = o.borders.top)
    {img : Image} (hl : o.logo = some img) (hmin : img.minX = 0 ∧ img.minY = 0) (hmax : 0 ≤ img.maxX ∧ 0 ≤ img.maxY)
    (hk : 5 ≤ o.logoSizeMultiplier) :
    ∃ ops o', draw scale o q.mat = some (ops, o') ∧ ∀ logo : Pt → Bool,
      decodeDamaged unsjis (seenCentresLogo o q.dimension ops (drawing (meaning assembled) (shapeCalls ops)) logo) = some (nats text)
```

`QR.Standard.C81_centres` (Verif/Props/ScanHalftone.lean): **C81, the centres.** With a halftone image and a library shape that draws its sub-blocks (`SubBlocks`), with or without logo and safe zone: the centres have the colours of C80, whatever the halftone image shows.

```lean
theorem C81_centres (scale : Scaler) {o : Opts} {m : Matrix} (hsq : m.width = m.height) {img : Image} (hh : o.halftone = some img)
    (assembled : Nat → DrawFn × DrawFn) (hS : SubBlocks o (meaning assembled o.getShape)) :
    ∃ ops o', draw scale o m = some (ops, o') ∧ ∀ i j, i < m.width → j < m.height →
      ((m.raw i j).bit = true → (safeOn o m = true → overlaps o m i j = false) →
        (safeOn o m = true → needsSelf (meaning assembled o.getShape) (decide ((m.raw i j).ty = .finder)) = true → overlaps o m j i = false) →
        colourAt (drawing (meaning assembled) (shapeCalls ops)) (centre o i j) = some o.qrColor) ∧
      ((m.raw i j).bit = false → colourAt (drawing (meaning assembled) (shapeCalls ops)) (centre o i j) = none ∨
        colourAt (drawing (meaning assembled) (shapeCalls ops)) (centre o i j) =
          some (if o.bgTransparent then ⟨0, 0, 0, 0⟩ else o.bgColor))
```

## C82 – Symbols of different texts are far apart (proved)

Two symbols of the same size returned for different texts (whatever the options, and neither text in the exception of C01) differ in at least 7 modules of each copy of the format information, or have the same level and some block in which more codewords differ than the block has error correction codewords. So they differ in at least 14 modules at levels Q (default) and H, 11 at M, 8 at L, and no picture is within the correction limits of both.

*the Reed-Solomon package is assumed to be the coder of the standard (C50)*

`QR.C82_apart` (Verif/Props/Apart.lean): **C82.** Two symbols of the same size that carry different texts (whatever the options of the two calls, and unless one of the texts is in the exception of C01) either have different format information, and then differ in at least 7 of the 15 modules of each of its copies, or have the same level and some block in which more codewords differ than the block has error correction codewords.

```lean
theorem C82_apart {E : Ext} {unsjis : Nat → Option Nat} (hE : E.Ok unsjis) (hRS : E.rs = rsEncode)
    {c c' : AlignCache} (hc : CacheReachable c) (hc' : CacheReachable c')
    {arrival arrival' : List Nat} (ha : Arrival arrival) (ha' : Arrival arrival')
    {t t' : TextType} {text text' : Bytes} {opts opts' : List EncodeOption} {q q' : QRCode}
    (h : newWith E c arrival t text opts = .ok q) (h' : newWith E c' arrival' t' text' opts' = .ok q')
    (hne : text ≠ text')
    (hx : ¬ (modeIn opts = encAuto ∧ AlnumThenKanji E.sjis (nats text)))
    (hx' : ¬ (modeIn opts' = encAuto ∧ AlnumThenKanji E.sjis (nats text')))
    {v : Nat} (hv : q.dimension = 17 + 4 * v) (hv' : q'.dimension = 17 + 4 * v) :
    (7 ≤ wrongAt q.mat.bitmap q'.mat.bitmap formatCells1 ∧ 7 ≤ wrongAt q.mat.bitmap q'.mat.bitmap (formatCells2 v)) ∨
    (levelIn opts = levelIn opts' ∧ ∃ b < numBlocks v (levelIn opts),
      ecPerBlock v (levelIn opts) < wrongCodewords v (levelIn opts) q.mat.bitmap q'.mat.bitmap b)
```

`QR.C82_modules` (Verif/Props/Apart.lean): Counted in modules: symbols of the same size that carry different texts differ in at least 14 modules, or in more modules than a block has error correction codewords if that is less.

```lean
theorem C82_modules {E : Ext} {unsjis : Nat → Option Nat} (hE : E.Ok unsjis) (hRS : E.rs = rsEncode)
    {c c' : AlignCache} (hc : CacheReachable c) (hc' : CacheReachable c')
    {arrival arrival' : List Nat} (ha : Arrival arrival) (ha' : Arrival arrival')
    {t t' : TextType} {text text' : Bytes} {opts opts' : List EncodeOption} {q q' : QRCode}
    (h : newWith E c arrival t text opts = .ok q) (h' : newWith E c' arrival' t' text' opts' = .ok q')
    (hne : text ≠ text')
    (hx : ¬ (modeIn opts = encAuto ∧ AlnumThenKanji E.sjis (nats text)))
    (hx' : ¬ (modeIn opts' = encAuto ∧ AlnumThenKanji E.sjis (nats text')))
    {v : Nat} (hv : q.dimension = 17 + 4 * v) (hv' : q'.dimension = 17 + 4 * v) :
    min 14 (ecPerBlock v (levelIn opts) + 1) ≤ wrongAt q.mat.bitmap q'.mat.bitmap (allCells v)
```

`QR.C82_margin` (Verif/Props/Apart.lean): The least numbers of error correction codewords per block: 7 at level L, 10 at M, 13 at the default Q and 16 at H. So symbols of different texts differ in at least 8, 11, 14 and 14 modules.

```lean
theorem C82_margin {v : Nat} (h1 : 1 ≤ v) (h40 : v ≤ 40) :
    7 ≤ ecPerBlock v .L ∧ 10 ≤ ecPerBlock v .M ∧ 13 ≤ ecPerBlock v .Q ∧ 16 ≤ ecPerBlock v .H
```

`QR.C82_unambiguous` (Verif/Props/Apart.lean): A reader cannot take one symbol for the other: no picture is within the correction limits of C68 of the symbols of two different texts.

```lean
theorem C82_unambiguous {E : Ext} {unsjis : Nat → Option Nat} (hE : E.Ok unsjis) (hRS : E.rs = rsEncode)
    {c c' : AlignCache} (hc : CacheReachable c) (hc' : CacheReachable c')
    {arrival arrival' : List Nat} (ha : Arrival arrival) (ha' : Arrival arrival')
    {t t' : TextType} {text text' : Bytes} {opts opts' : List EncodeOption} {q q' : QRCode}
    (h : newWith E c arrival t text opts = .ok q) (h' : newWith E c' arrival' t' text' opts' = .ok q')
    (hne : text ≠ text')
    (hx : ¬ (modeIn opts = encAuto ∧ AlnumThenKanji E.sjis (nats text)))
    (hx' : ¬ (modeIn opts' = encAuto ∧ AlnumThenKanji E.sjis (nats text')))
    {v v' : Nat} (hv : q.dimension = 17 + 4 * v) (hv' : q'.dimension = 17 + 4 * v')
    {bm : List (List Bool)} :
    ¬ ((bm.length = q.dimension ∧ wrongAt q.mat.bitmap bm formatCells1 + wrongAt q.mat.bitmap bm (formatCells2 v) ≤ 6 ∧
          ∀ b < numBlocks v (levelIn opts), wrongCodewords v (levelIn opts) q.mat.bitmap bm b ≤ ecPerBlock v (levelIn opts) / 2) ∧
       (bm.length = q'.dimension ∧ wrongAt q'.mat.bitmap bm formatCells1 + wrongAt q'.mat.bitmap bm (formatCells2 v') ≤ 6 ∧
          ∀ b < numBlocks v' (levelIn opts'), wrongCodewords v' (levelIn opts') q'.mat.bitmap bm b ≤ ecPerBlock v' (levelIn opts') / 2))
```

## C83 – Pictures with shapes, pixel by pixel (proved)

With any shape of the library (SquareBlocks and CircleBlocks with a factor above 2/5) in blocks of at least 10 pixels, no halftone, borders that are not negative, distinguishable colours, with or without a gradient that stands out from the background: drawing succeeds and one pixel at the centre of every block, wherever anti-aliasing and the order of overlapping figures leave it, is dark exactly for dark modules, so a scanner that looks at these pixels reads exactly the text; with a logo and borders as in C69, with or without safe zone, it does after error correction.

*assumed of the rasterizer: full coverage of a pixel a quarter of a pixel inside a figure, none outside; mixing as freetype does it; halftone pictures: C84*

`QR.Standard.C83_shapes` (Verif/Props/ScanPixels.lean): **C83.** Text, picture with shapes, text: with any shape of this library that is not too thin in blocks of at least 10 pixels, no halftone and no logo (or one that is too large to be drawn), borders that are not negative, colours that can be told apart, with or without a gradient that can be told apart from the background: drawing succeeds, and a scanner that looks at one pixel at the centre of every block reads exactly the text.

```lean
theorem C83_shapes {E : Ext} {unsjis : Nat → Option Nat} (hE : E.Ok unsjis) {c : AlignCache} (hc : CacheReachable c)
    {arrival : List Nat} (ha : Arrival arrival) {t : TextType} {text : Bytes} {opts : List EncodeOption} {q : QRCode}
    (h : newWith E c arrival t text opts = .ok q)
    (hx : ¬ (modeIn opts = encAuto ∧ AlnumThenKanji E.sjis (nats text)))
    (scale : Scaler) {cov : Coverage} (hcov : Rasters cov) (blend : Blend) {put : Put} (hput : PutsOver put) (direction : Rat → Rat × Rat)
    (assembled : Nat → DrawFn × DrawFn) {o : Opts} (hw : 10 ≤ o.qrBlockWidth) (hbold : (meaning assembled o.getShape).bold) (hht : o.halftone = none)
    (hcol : Contrast o) (hg : ∀ g, o.qrGradient = some g → GradientContrast o g)
    (hb : 0 ≤ o.borders.top ∧ 0 ≤ o.borders.right ∧ 0 ≤ o.borders.bottom ∧ 0 ≤ o.borders.left)
    (hl : ∀ img, o.logo = some img → ¬ (o.logoSizeMultiplier * (img.maxX - img.minX) ≤ (o.attribute q.dimension).w ∧
      o.logoSizeMultiplier * (img.maxY - img.minY) ≤ (o.attribute q.dimension).h)) :
    ∃ ops o' cv, draw scale o q.mat = some (ops, o') ∧ paintAllShapes cov (meaning assembled) blend put direction ops = some cv ∧
      ∀ pt, AtCentres o q.dimension pt → decode unsjis (seenInk o q.dimension cv pt) = some (nats text)
```

`QR.Standard.C83_shapes_logo` (Verif/Props/ScanPixels.lean): **C83, with a logo.** The same with a logo under the conditions of C69, for a scanner that corrects errors, whatever the logo shows and with or without a safe zone.

```lean
theorem C83_shapes_logo {E : Ext} {unsjis : Nat → Option Nat} (hE : E.Ok unsjis) (hRS : E.rs = rsEncode) {c : AlignCache} (hc : CacheReachable c)
    {arrival : List Nat} (ha : Arrival arrival) {t : TextType} {text : Bytes} {opts : List EncodeOption} {q : QRCode}
    (h : newWith E c arrival t text opts = .ok q)
    (hx : ¬ (modeIn opts = encAuto ∧ AlnumThenKanji E.sjis (nats text)))
    {v : Nat} (hv : q.dimension = 17 + 4 * v)
    (hlv : ¬ (levelIn opts = .L ∧ v ∈ [1, 2, 3, 4, 5, 6, 36] ∨ levelIn opts = .M ∧ v ∈ [2, 4]))
    (scale : Scaler) {cov : Coverage} (hcov : Rasters cov) (blend : Blend) {put : Put} (hput : PutsOver put) (direction : Rat → Rat × Rat)
    (assembled : Nat → DrawFn × DrawFn) {o : Opts} (hw : 10 ≤ o.qrBlockWidth) (hbold : (meaning assembled o.getShape).bold) (hht : o.halftone = none)
    (hcol : Contrast o) (hg : ∀ g, o.qrGradient = some g → GradientContrast o g)
    (hbx : 0 ≤ o.borders.left ∧ o.borders.left ≤ 2 * o.qrBlockWidth ∧ o.borders.right = o.borders.left)
    (hby : 0 ≤ o.borders.top ∧ o.borders.top ≤ 2 * o.qrBlockWidth ∧ o.borders.bottom = o.borders.top)
    {img : Image} (hl : o.logo = some img) (hmin : img.minX = 0 ∧ img.minY = 0) (hmax : 0 ≤ img.maxX ∧ 0 ≤ img.maxY)
    (hk : 5 ≤ o.logoSizeMultiplier) :
    ∃ ops o' cv, draw scale o q.mat = some (ops, o') ∧ paintAllShapes cov (meaning assembled) blend put direction ops = some cv ∧
      ∀ pt, AtCentres o q.dimension pt → decodeDamaged unsjis (seenInk o q.dimension cv pt) = some (nats text)
```

## C84 – Halftone pictures, pixel by pixel (proved)

With a halftone image, rectangles in blocks of at least 12 pixels (or another shape that is not too thin and does not depend on neighbours, in blocks of at least 30 pixels whose width is a multiple of 3), borders that are not negative, distinguishable colours, with or without a gradient that stands out from the background: drawing succeeds and one pixel at the centre of every block, wherever anti-aliasing and the eight halftone sub-blocks around it leave it, is dark exactly for dark modules, whatever the image shows, so a scanner that looks at these pixels reads exactly the text; with a logo and borders as in C69, with or without safe zone, it does after error correction.

*coverage of a pixel by a figure is a parameter, exact up to a quarter of a pixel; the mixing is freetype's formula*

`QR.Standard.C84_halftone` (Verif/Props/ScanHalftonePixels.lean): **C84.** Text, halftone picture, text: rectangles in blocks of at least 12 pixels (or another shape that is not too thin and needs no flag, in blocks of at least 30 pixels whose width is a multiple of three), borders that are not negative, colours that can be told apart, with or without a gradient, no logo (or one that is too large): drawing succeeds, and a scanner that looks at one pixel at the centre of every block reads exactly the text, whatever the halftone image shows.

```lean
theorem C84_halftone {E : Ext} {unsjis : Nat → Option Nat} (hE : E.Ok unsjis) {c : AlignCache} (hc : CacheReachable c)
    {arrival : List Nat} (ha : Arrival arrival) {t : TextType} {text : Bytes} {opts : List EncodeOption} {q : QRCode}
    (h : newWith E c arrival t text opts = .ok q)
    (hx : ¬ (modeIn opts = encAuto ∧ AlnumThenKanji E.sjis (nats text)))
    (scale : Scaler) {cov : Coverage} (hcov : Rasters cov) (blend : Blend) {put : Put} (hput : PutsOver put) (direction : Rat → Rat × Rat)
    (assembled : Nat → DrawFn × DrawFn) {o : Opts} {himg : Image} (hht : o.halftone = some himg)
    (hS : SubPixels o (meaning assembled o.getShape)) (hbold : (meaning assembled o.getShape).bold)
    (hcol : Contrast o) (hg : ∀ g, o.qrGradient = some g → GradientContrast o g)
    (hb : 0 ≤ o.borders.top ∧ 0 ≤ o.borders.right ∧ 0 ≤ o.borders.bottom ∧ 0 ≤ o.borders.left)
    (hl : ∀ img, o.logo = some img → ¬ (o.logoSizeMultiplier * (img.maxX - img.minX) ≤ (o.attribute q.dimension).w ∧
      o.logoSizeMultiplier * (img.maxY - img.minY) ≤ (o.attribute q.dimension).h)) :
    ∃ ops o' cv, draw scale o q.mat = some (ops, o') ∧ paintAllShapes cov (meaning assembled) blend put direction ops = some cv ∧
      ∀ pt, AtCentres o q.dimension pt → decode unsjis (seenInk o q.dimension cv pt) = some (nats text)
```

`QR.Standard.C84_halftone_logo` (Verif/Props/ScanHalftonePixels.lean): **C84, with a logo** as in C69, for a scanner that corrects errors, with or without a safe zone.

```lean
theorem C84_halftone_logo {E : Ext} {unsjis : Nat → Option Nat} (hE : E.Ok unsjis) (hRS : E.rs = rsEncode) {c : AlignCache} (hc : CacheReachable c)
    {arrival : List Nat} (ha : Arrival arrival) {t : TextType} {text : Bytes} {opts : List EncodeOption} {q : QRCode}
    (h : newWith E c arrival t text opts = .ok q)
    (hx : ¬ (modeIn opts = encAuto ∧ AlnumThenKanji E.sjis (nats text)))
    {v : Nat} (hv : q.dimension = 17 + 4 * v)
    (hlv : ¬ (levelIn opts = .L ∧ v ∈ [1, 2, 3, 4, 5, 6, 36] ∨ levelIn opts = .M ∧ v ∈ [2, 4]))
    (scale : Scaler) {cov : Coverage} (hcov : Rasters cov) (blend : Blend) {put : Put} (hput : PutsOver put) (direction : Rat → Rat × Rat)
    (assembled : Nat → DrawFn × DrawFn) {o : Opts} {himg : Image} (hht : o.halftone = some himg)
    (hS : SubPixels o (meaning assembled o.getShape)) (hbold : (meaning assembled o.getShape).bold)
    (hcol : Contrast o) (hg : ∀ g, o.qrGradient = some g → GradientContrast o g)
    (hbx : 0 ≤ o.borders.left ∧ o.borders.left ≤ 2 * o.qrBlockWidth ∧ o.borders.right = o.borders.left)
    (hby : 0 ≤ o.borders.top ∧ o.borders.top ≤ 2 * o.qrBlockWidth ∧ o.borders.bottom = o.borders.top)
    {img : Image} (hl : o.logo = some img) (hmin : img.minX = 0 ∧ img.minY = 0) (hmax : 0 ≤ img.maxX ∧ 0 ≤ img.maxY)
    (hk : 5 ≤ o.logoSizeMultiplier) :
    ∃ ops o' cv, draw scale o q.mat = some (ops, o') ∧ paintAllShapes cov (meaning assembled) blend put direction ops = some cv ∧
      ∀ pt, AtCentres o q.dimension pt → decodeDamaged unsjis (seenInk o q.dimension cv pt) = some (nats text)
```

## C85 – Pictures with a shape of the user's own (proved)

WithCustomShape takes any shape. If the shape (whatever its state and whatever it is told of neighbours) always paints one fixed spot of its block in the colour it is given - it may skip light modules - and never the same spot of another block, and leaves the size of the picture alone, then with any block width, borders that are not negative, distinguishable colours, with or without a gradient that stands out, no halftone: drawing succeeds and a scanner that looks at that spot of every block reads exactly the text; with a logo and borders as in C69, with or without safe zone, it does after error correction. The shape of example/with-custom-shape is such a shape.

*shapes that panic are not included; what drawing a not opaque gradient pixel does and the direction of the gradient are left open; C85_custom_logo assumes the Reed-Solomon package to be the coder of the standard (C50); C85_example assumes the rasterizer of C83*

`QR.Standard.C85_custom` (Verif/Props/ScanCustom.lean): **C85.** Text, picture with a shape written by the user, text: whatever the shape is, if it always paints one spot of its block and never the same spot of another block (`Readable`), then with blocks of any width, borders that are not negative, colours that can be told apart, with or without a gradient, no halftone and no logo (or one that is too large to be drawn), drawing succeeds and a scanner that looks at that spot of every block reads exactly the text.

```lean
theorem C85_custom {E : Ext} {unsjis : Nat → Option Nat} (hE : E.Ok unsjis) {c : AlignCache} (hc : CacheReachable c)
    {arrival : List Nat} (ha : Arrival arrival) {t : TextType} {text : Bytes} {opts : List EncodeOption} {q : QRCode}
    (h : newWith E c arrival t text opts = .ok q)
    (hx : ¬ (modeIn opts = encAuto ∧ AlnumThenKanji E.sjis (nats text)))
    {σ : Type} {shape : UserShape σ} {Ok : σ → Prop} {s : σ} (hs : Ok s) {o : Opts} {sx sy : Int} (hS : Readable shape Ok o.qrBlockWidth sx sy)
    (hsx : 0 ≤ sx ∧ sx < o.qrBlockWidth) (hsy : 0 ≤ sy ∧ sy < o.qrBlockWidth)
    (scale : Scaler) (blend : Blend) {put : Put} (hput : PutsOver put) (direction : Rat → Rat × Rat) (hht : o.halftone = none)
    (hcol : Contrast o) (hg : ∀ g, o.qrGradient = some g → GradientContrast o g)
    (hb : 0 ≤ o.borders.top ∧ 0 ≤ o.borders.right ∧ 0 ≤ o.borders.bottom ∧ 0 ≤ o.borders.left)
    (hl : ∀ img, o.logo = some img → ¬ (o.logoSizeMultiplier * (img.maxX - img.minX) ≤ (o.attribute q.dimension).w ∧
      o.logoSizeMultiplier * (img.maxY - img.minY) ≤ (o.attribute q.dimension).h)) :
    ∃ ops o' cv, draw scale o q.mat = some (ops, o') ∧ paintAllUser shape s blend put direction ops = some cv ∧
      decode unsjis (seenInk o q.dimension cv fun x y => (o.borders.left + x * o.qrBlockWidth + sx, o.borders.top + y * o.qrBlockWidth + sy)) = some (nats text)
```

`QR.Standard.C85_custom_logo` (Verif/Props/ScanCustom.lean): **C85, with a logo** as in C69, for a scanner that corrects errors, with or without a safe zone.

```lean
theorem C85_custom_logo {E : Ext} {unsjis : Nat → Option Nat} (hE : E.Ok unsjis) (hRS : E.rs = rsEncode) {c : AlignCache} (hc : CacheReachable c)
    {arrival : List Nat} (ha : Arrival arrival) {t : TextType} {text : Bytes} {opts : List EncodeOption} {q : QRCode}
    (h : newWith E c arrival t text opts = .ok q)
    (hx : ¬ (modeIn opts = encAuto ∧ AlnumThenKanji E.sjis (nats text)))
    {v : Nat} (hv : q.dimension = 17 + 4 * v)
    (hlv : ¬ (levelIn opts = .L ∧ v ∈ [1, 2, 3, 4, 5, 6, 36] ∨ levelIn opts = .M ∧ v ∈ [2, 4]))
    {σ : Type} {shape : UserShape σ} {Ok : σ → Prop} {s : σ} (hs : Ok s) {o : Opts} {sx sy : Int} (hS : Readable shape Ok o.qrBlockWidth sx sy)
    (hsx : 0 ≤ sx ∧ sx < o.qrBlockWidth) (hsy : 0 ≤ sy ∧ sy < o.qrBlockWidth)
    (scale : Scaler) (blend : Blend) {put : Put} (hput : PutsOver put) (direction : Rat → Rat × Rat) (hht : o.halftone = none)
    (hcol : Contrast o) (hg : ∀ g, o.qrGradient = some g → GradientContrast o g)
    (hbx : 0 ≤ o.borders.left ∧ o.borders.left ≤ 2 * o.qrBlockWidth ∧ o.borders.right = o.borders.left)
    (hby : 0 ≤ o.borders.top ∧ o.borders.top ≤ 2 * o.qrBlockWidth ∧ o.borders.bottom = o.borders.top)
    {img : Image} (hl : o.logo = some img) (hmin : img.minX = 0 ∧ img.minY = 0) (hmax : 0 ≤ img.maxX ∧ 0 ≤ img.maxY)
    (hk : 5 ≤ o.logoSizeMultiplier) :
    ∃ ops o' cv, draw scale o q.mat = some (ops, o') ∧ paintAllUser shape s blend put direction ops = some cv ∧
      decodeDamaged unsjis (seenInk o q.dimension cv fun x y => (o.borders.left + x * o.qrBlockWidth + sx, o.borders.top + y * o.qrBlockWidth + sy)) = some (nats text)
```

`QR.Standard.C85_example` (Verif/Props/ScanCustom.lean): **C85 for example/with-custom-shape/main.go** (there with the text "with-custom-shape"): circles of 70 percent and otherwise the default options. Whatever the text and the options of `New`, if `New` succeeds then the picture is drawn and the middle pixels of its blocks give the text.

```lean
theorem C85_example {E : Ext} {unsjis : Nat → Option Nat} (hE : E.Ok unsjis) {c : AlignCache} (hc : CacheReachable c)
    {arrival : List Nat} (ha : Arrival arrival) {t : TextType} {text : Bytes} {opts : List EncodeOption} {q : QRCode}
    (h : newWith E c arrival t text opts = .ok q)
    (hx : ¬ (modeIn opts = encAuto ∧ AlnumThenKanji E.sjis (nats text)))
    (scale : Scaler) {cov : Coverage} (hcov : Rasters cov) (blend : Blend) {put : Put} (hput : PutsOver put) (direction : Rat → Rat × Rat) (k : Nat) :
    ∃ ops o' cv, draw scale { defaultOpts with shape := some (.custom k) } q.mat = some (ops, o') ∧
      paintAllUser (smallerCircle cov) (float64Round (7 / 10), []) blend put direction ops = some cv ∧
      decode unsjis (seenInk { defaultOpts with shape := some (.custom k) } q.dimension cv fun x y => (40 + x * 20 + 10, 40 + y * 20 + 10)) = some (nats text)
```

`QR.Standard.smallerCircle_readable` (Verif/Props/ScanCustom.lean): The example shape can be read in the middle of the blocks if its circles have a radius of at least two pixels.

```lean
theorem smallerCircle_readable {cov : Coverage} (hcov : Rasters cov) {p : Rat} (hp : p ≤ 1) {bw : Int} (hbw : 0 ≤ bw) (hbw2 : bw ≤ 2 ^ 53) (hr : 2 ≤ smallerRadius p bw bw) :
    Readable (smallerCircle cov) (fun s => s = (p, [])) bw (bw / 2) (bw / 2)
```

`QR.Standard.rectangle_readable` (Verif/Props/ScanCustom.lean): The rectangle, as if it were written by the user, can be read at every spot.

```lean
theorem rectangle_readable {bw sx sy : Int} (hsx : 0 ≤ sx ∧ sx < bw) (hsy : 0 ≤ sy ∧ sy < bw) :
    Readable (fun _ ctx s cv => (s, cv.paintRect ctx.color ctx.x.floor ctx.y.floor ctx.w ctx.h)) (fun _ : Unit => True) bw sx sy
```

## C86 – The example programs produce symbols that can be read (proved)

Each program and function under example/ that draws a picture (block width, circles, border, transparent background, colours, gradient, halftone with and without transparency, logo, minimum version, simple, assembled shape, custom shape, migration), run with any ASCII text of at most 1273 characters instead of its own: New succeeds, the image options are accepted, a picture is drawn, and a scanner that looks at the centres of the blocks (one pixel per block; with a logo: and corrects errors) reads exactly the text, whatever the halftone image or logo shows. The program with a minimum version gives version 9 for texts of at most 130 characters and never a smaller one. The same for the programs that use the file writer and (on a screen large enough) the terminal writer.

*assumptions as in C70, C69, C83, C84, C85 and C71; example/with-logosize-multiplier is in C93; not covered: the v1 library in example/migrating-from-v1*

`QR.Examples.C86_programs` (Verif/Props/Examples.lean): **C86.** Each of these programs, given any ASCII text of at most 1273 characters instead of its own, draws a picture that a scanner which looks at the pixels at the centres of the blocks reads as exactly this text - whatever the halftone image shows, in every schedule of the mask computation.

```lean
theorem C86_programs {E : Ext} {unsjis : Nat → Option Nat} (hE : E.Ok unsjis) {c : AlignCache} (hc : CacheReachable c) {arrival : List Nat} (ha : Arrival arrival)
    (scale : Scaler) {cov : Coverage} (hcov : Rasters cov) (blend : Blend) {put : Put} (hput : PutsOver put) (direction : Rat → Rat × Rat) (halftoneImage : Option Image) :
    ∀ r ∈ programs halftoneImage, Reads E c arrival r (CentresGive unsjis cov (fun _ => (.roundedFinder, .liquidBlock)) blend put direction) scale
```

`QR.Examples.C86_minimumVersion` (Verif/Props/Examples.lean): **C86, the smallest version** (`with-minimum-version`): the version a reader finds is at least the version 9 asked for, and exactly 9 if the text has at most 130 characters.

```lean
theorem C86_minimumVersion {E : Ext} {unsjis : Nat → Option Nat} (hE : E.Ok unsjis) {c : AlignCache} (hc : CacheReachable c) {arrival : List Nat} (ha : Arrival arrival)
    {text : Bytes} (h1 : AllAscii text) (h2 : text.length ≤ 1273) :
    ∃ q v, newWith E c arrival .string text minimumVersion.encode = .ok q ∧ readVersion q.mat.bitmap = some v ∧ 9 ≤ v ∧ (text.length ≤ 130 → v = 9)
```

`QR.Examples.C86_qrWidth` (Verif/Props/Examples.lean): **C86, blocks of 8 pixels** (`createQRWithQRWidth`): any one pixel of every block gives the text; dark are the black ones.

```lean
theorem C86_qrWidth {E : Ext} {unsjis : Nat → Option Nat} (hE : E.Ok unsjis) {c : AlignCache} (hc : CacheReachable c) {arrival : List Nat} (ha : Arrival arrival)
    (scale : Scaler) (blend : Blend) :
    Reads E c arrival qrWidth (fun o q ops text => ∃ cv, paintAllImg blend ops = some cv ∧ ∀ pt, InBlocks o q.dimension pt → decode unsjis (seen o q.dimension cv pt) = some (nats text)) scale
```

`QR.Examples.C86_logo` (Verif/Props/Examples.lean): **C86, with a logo** (`createQRWithLogo`): whatever the logo shows and whatever its size, a scanner that corrects errors reads the text from any one pixel of every block.

```lean
theorem C86_logo {E : Ext} {unsjis : Nat → Option Nat} (hE : E.Ok unsjis) (hRS : E.rs = rsEncode) {c : AlignCache} (hc : CacheReachable c) {arrival : List Nat} (ha : Arrival arrival)
    (scale : Scaler) (blend : Blend) {img : Image} (hmin : img.minX = 0 ∧ img.minY = 0) (hmax : 0 ≤ img.maxX ∧ 0 ≤ img.maxY) :
    Reads E c arrival (logo (some img)) (fun o q ops text => ∃ cv, paintAllImg blend ops = some cv ∧
      ∀ pt, InBlocks o q.dimension pt → decodeDamaged unsjis (seen o q.dimension cv pt) = some (nats text)) scale
```

`QR.Examples.C86_customShape` (Verif/Props/Examples.lean): **C86, the shape of the user's** (example/with-custom-shape): the pixels in the middle of the blocks give the text.

```lean
theorem C86_customShape {E : Ext} {unsjis : Nat → Option Nat} (hE : E.Ok unsjis) {c : AlignCache} (hc : CacheReachable c) {arrival : List Nat} (ha : Arrival arrival)
    (scale : Scaler) {cov : Coverage} (hcov : Rasters cov) (blend : Blend) {put : Put} (hput : PutsOver put) (direction : Rat → Rat × Rat) :
    Reads E c arrival ⟨[], [.customShape (some (.custom 0))]⟩ (fun o q ops text => ∃ cv, paintAllUser (smallerCircle cov) (float64Round (7 / 10), []) blend put direction ops = some cv ∧
      decode unsjis (seenInk o q.dimension cv fun x y => (40 + x * 20 + 10, 40 + y * 20 + 10)) = some (nats text)) scale
```

`QR.Examples.C86_writers` (Verif/Props/Examples.lean): **C86, the other writers** (example/use-file-writer, example/use-terminal-writer): what is written to a sink that accepts everything can be read, and so can a terminal that is large enough.

```lean
theorem C86_writers {E : Ext} {unsjis : Nat → Option Nat} (hE : E.Ok unsjis) {c : AlignCache} (hc : CacheReachable c) {arrival : List Nat} (ha : Arrival arrival)
    {text : Bytes} (h1 : AllAscii text) (h2 : text.length ≤ 1273) :
    ∃ q, newWith E c arrival .string text [] = .ok q ∧
      (∀ sink : FileWriter.Sink, (∀ i, sink i = none) →
        ∃ out lines, FileWriter.write (some sink) q.mat = some (out, none) ∧ runes out = lines.flatMap (fun l => l ++ [10]) ∧
          decode unsjis ((List.range q.dimension).map fun y => (List.range q.dimension).map fun x => decide (inkAt lines x y = some true)) = some (nats text)) ∧
      (∀ (s : Terminal.Screen) (runeWidth : Nat → Nat) (ambiguous : Nat → Bool) (half : Nat → Nat → Bool), 2 * (q.dimension + 2) ≤ s.cols → q.dimension + 2 ≤ s.rows →
        decode unsjis ((List.range q.dimension).map fun y => (List.range q.dimension).map fun x =>
          decide (((Terminal.render runeWidth ambiguous s q.mat).cells ((2 * x + 2 + (half x y).toNat : Nat), (y + 1 : Nat))).map (·.fg) = some Terminal.colorBlack)) = some (nats text))
```

## C87 – Row returns a copy, Col a window (proved)

The slice returned by Row shows the row as it was at the call in every continuation that does not write through it, and writing through it changes no matrix. The slice returned by Col shows, at any later time, the current contents of the column asked for (nil if there is none), and writing its k-th element is the same as setting the module in that column and row.

`QR.Heap.C87_row_snapshot` (Verif/Props/HeapSlices.lean): **C87, a row is a snapshot.** The slice returned by `Row` shows the row as it was when `Row` was called, whatever the program does afterwards to the matrix or to anything else, short of writing through that slice.

```lean
theorem C87_row_snapshot (ops ops2 : List Op) {i : Nat} {M : Matrix} (h : Shows (history empty ops) i M) {cur : Int}
    {v : Option (List QRValue)} (hv : M.row cur = .ok v) (hw : ∀ k c, Op.write (sliceVar ops) k c ∉ ops2) :
    Reads (history empty (ops ++ .row i cur :: ops2)) (sliceVar ops) v
```

`QR.Heap.C87_row_write` (Verif/Props/HeapSlices.lean): **C87, a row is not a window.** Writing through a slice that `Row` returned changes no matrix.

```lean
theorem C87_row_write (ops ops2 : List Op) {i : Nat} {M : Matrix} (h : Shows (history empty ops) i M) (cur : Int) {k : Nat}
    {M' : Matrix} (h' : Shows (history empty (ops ++ .row i cur :: ops2)) k M') (l : Nat) (c : QRValue) :
    Shows (history empty (ops ++ .row i cur :: ops2 ++ [.write (sliceVar ops) l c])) k M'
```

`QR.Heap.C87_col_window` (Verif/Props/HeapSlices.lean): **C87, the columns.** The slice returned by `Col` shows the column as it is at any later time, and writing element `k` of it is setting the module in that column and row: `Row` and `Col` differ in this.

```lean
theorem C87_col_window (ops ops2 : List Op) {i : Nat} {M : Matrix} (h : Shows (history empty ops) i M) (cur : Int)
    (hn : NoAssign i (ops2.map Op.event)) :
    ∃ M', Shows (history empty (ops ++ .col i cur :: ops2)) i M' ∧ M'.width = M.width ∧ M'.height = M.height ∧
      Reads (history empty (ops ++ .col i cur :: ops2)) (sliceVar ops) (M'.col cur) ∧
      ∀ (k : Nat) c, Shows (history empty (ops ++ .col i cur :: ops2 ++ [.write (sliceVar ops) k c])) i (M'.set cur k c)
```

## C88 – The programs of issues 69 and 106 (proved)

Given any JSON text, the program of issue 69 encodes exactly the text with its characters replaced as the program says, in alphanumeric mode at the highest level, if it has at most 1852 characters, and fails with an error otherwise; given any text, the program of issue 106 encodes it if it consists of at most 1024 kanji, and reports an error otherwise. The picture written has one pixel for each module and a white frame of four pixels, and its pixels give the text.

*assumptions as in C01 and C71; the second Close of issue 106 and the file are not part of the statement (see C37, C74)*

`QR.Issues.C88_issue69` (Verif/Props/Issues.lean): **C88, issue 69.** Whatever JSON text is put in place of the one in the program: if it has at most 1852 characters then after the replacements it can be encoded in alphanumeric mode at the highest level, the picture is drawn with one pixel for each module and a white frame four pixels wide, and its pixels give the text with capitals and `$%*/` and space in place of the other characters. If it has more, `NewWith` returns an error (and the program panics with it).

```lean
theorem C88_issue69 {E : Ext} {unsjis : Nat → Option Nat} (hE : E.Ok unsjis) {c : AlignCache} (hc : CacheReachable c) {arrival : List Nat} (ha : Arrival arrival)
    {text : Bytes} (hj : ∀ b ∈ nats text, isJson b) :
    if text.length ≤ 1852 then
      ∃ q img, newWith E c arrival .string (content69 text) options69 = .ok q ∧ Compressed.write (some writerOption) q.mat = some img ∧
        OnePixelPicture unsjis q.dimension img ((nats text).map simplify)
    else ∃ e, newWith E c arrival .string (content69 text) options69 = .err e
```

`QR.Issues.C88_issue106` (Verif/Props/Issues.lean): **C88, issue 106.** Whatever text is put in place of the one in the program: if all its characters can be written in kanji mode and they are at most 1024, the picture is drawn as above and gives the text; in all other cases `NewWith` returns an error.

```lean
theorem C88_issue106 {E : Ext} {unsjis : Nat → Option Nat} (hE : E.Ok unsjis) {c : AlignCache} (hc : CacheReachable c) {arrival : List Nat} (ha : Arrival arrival) (text : Bytes) :
    (∀ rs : List Nat, nats text = rs.flatMap utf8 → (∀ r ∈ rs, kanjiChar E.sjis r) → rs.length ≤ 1024 →
      ∃ q img, newWith E c arrival .string text options106 = .ok q ∧ Compressed.write (some writerOption) q.mat = some img ∧ OnePixelPicture unsjis q.dimension img (nats text)) ∧
    ((¬ ∃ rs : List Nat, nats text = rs.flatMap utf8 ∧ (∀ r ∈ rs, kanjiChar E.sjis r) ∧ rs.length ≤ 1024) → ∃ e, newWith E c arrival .string text options106 = .err e)
```

## C89 – Quiet zone (partial)

Every picture written has around the symbol a light margin of four modules on all sides, as ISO/IEC 18004 requires. (False with the default settings of all writers: the image writer leaves two modules, the command line none, the terminal writer one, the file writer none. Proved: the picture has a quiet zone of k modules exactly if every border (padding) is at least k modules wide.)

*false with the default settings of every writer: counterexamples for every symbol; proved: the exact condition. For shapes other than rectangles see C60_quiet_zone*

`QR.Standard.C89_standard_partial` (Verif/Props/Quiet.lean): **C89, the image writer.** A picture with rectangles in opaque colours, no halftone, gradient or logo, has a quiet zone of `k` modules if and only if each of its four borders is at least `k` modules wide.

```lean
theorem C89_standard_partial (scale : Scaler) {o : Opts} (hp : Plain o) (m : Matrix) {dim : Nat} (hw : m.width = dim) (hh : m.height = dim) (hd : 0 < dim)
    (hb : 0 ≤ o.borders.top ∧ 0 ≤ o.borders.right ∧ 0 ≤ o.borders.bottom ∧ 0 ≤ o.borders.left) (hbw : 0 < o.qrBlockWidth)
    (hbg : o.bgColor.a = 255 ∨ o.bgTransparent = true) :
    ∃ ops o' cv, draw scale o m = some (ops, o') ∧ paintAll ops = some cv ∧ cv.w = (o.attribute dim).w ∧ cv.h = (o.attribute dim).h ∧
      ∀ k : Nat, 1 ≤ k → (QuietZone k cv.w cv.h o.qrBlockWidth o.qrBlockWidth o.borders.left o.borders.top dim (Light o cv) ↔
        k * o.qrBlockWidth ≤ o.borders.top ∧ k * o.qrBlockWidth ≤ o.borders.right ∧ k * o.qrBlockWidth ≤ o.borders.bottom ∧ k * o.qrBlockWidth ≤ o.borders.left)
```

`QR.Standard.C89_room` (Verif/Props/Quiet.lean): **C89, every picture of the image writer.** Whatever the options, the size of the picture leaves room for `k` modules around the symbol only if each border is at least `k` modules wide.

```lean
theorem C89_room (scale : Scaler) (o : Opts) (m : Matrix) {dim : Nat} (hw : m.width = dim) (hh : m.height = dim) (hd : 0 < dim) (hbw : 0 < o.qrBlockWidth) :
    ∃ ops o', draw scale o m = some (ops, o') ∧ ∀ w h, contexts ops = [(w, h)] → ∀ k : Nat, 1 ≤ k → ∀ light : Int → Int → Prop,
      QuietZone k w h o.qrBlockWidth o.qrBlockWidth o.borders.left o.borders.top dim light →
        k * o.qrBlockWidth ≤ o.borders.top ∧ k * o.qrBlockWidth ≤ o.borders.right ∧ k * o.qrBlockWidth ≤ o.borders.bottom ∧ k * o.qrBlockWidth ≤ o.borders.left
```

`QR.Standard.C89_default_counterexample` (Verif/Props/Quiet.lean): **C89 is false of the image writer.** With the default options (blocks of 20 pixels, borders of 40) the picture of every symbol has a quiet zone of two modules and no more, where the standard asks for four.

```lean
theorem C89_default_counterexample (scale : Scaler) (m : Matrix) {dim : Nat} (hw : m.width = dim) (hh : m.height = dim) (hd : 0 < dim) :
    ∃ ops o' cv, draw scale defaultOpts m = some (ops, o') ∧ paintAll ops = some cv ∧ cv.w = 20 * dim + 80 ∧ cv.h = 20 * dim + 80 ∧
      QuietZone 2 cv.w cv.h 20 20 40 40 dim (fun px py => cv.pix px py = ⟨255, 255, 255, 255⟩) ∧
      ∀ k, 3 ≤ k → ¬ ∃ light, QuietZone k cv.w cv.h 20 20 40 40 dim light
```

`QR.Cli.C89_cli_partial` (Verif/Props/Quiet.lean): **C89, the command line.** Without circles and halftone, the picture for the file has a quiet zone of `k` modules if and only if each of the four `--borders` is at least `k` blocks.

```lean
theorem C89_cli_partial {E : Ext} {unsjis : Nat → Option Nat} (hE : E.Ok unsjis) {c : AlignCache} (hc : CacheReachable c) {arrival : List Nat} (ha : Arrival arrival)
    (readImage : Bytes → Option Image) (f : Flags) {top right bottom left : Nat} (hb : parseBorders f.borders = some [top, right, bottom, left]) {q : QRCode}
    (hq : new E c arrival .string f.text = .ok q) (ht : f.terminal = false) (hcirc : f.circle = false) (hhalf : f.halftone = [] ∨ readImage f.halftone = none) (scale : Scaler) :
    ∃ o ops o' cv, run E c arrival readImage f = .file f.output o q ∧ draw scale o q.mat = some (ops, o') ∧ paintAll ops = some cv ∧
      cv.w = left + q.dimension * usedBlock f + right ∧ cv.h = top + q.dimension * usedBlock f + bottom ∧
      ∀ k : Nat, 1 ≤ k →
        (QuietZone k cv.w cv.h (usedBlock f) (usedBlock f) left top q.dimension
            (fun px py => if f.transparent then (cv.pix px py).a = 0 else cv.pix px py = ⟨255, 255, 255, 255⟩) ↔
          k * usedBlock f ≤ top ∧ k * usedBlock f ≤ right ∧ k * usedBlock f ≤ bottom ∧ k * usedBlock f ≤ left)
```

`QR.Cli.C89_cli_counterexample` (Verif/Props/Quiet.lean): **C89 is false of the command line.** Without flags the picture ends where the symbol ends: there is no quiet zone at all.

```lean
theorem C89_cli_counterexample {E : Ext} {unsjis : Nat → Option Nat} (hE : E.Ok unsjis) {c : AlignCache} (hc : CacheReachable c) {arrival : List Nat} (ha : Arrival arrival)
    (readImage : Bytes → Option Image) (scale : Scaler) {text : Bytes} {q : QRCode} (hq : new E c arrival .string text = .ok q) :
    ∃ o ops o' cv, run E c arrival readImage (defaultFlags text) = .file (defaultFlags text).output o q ∧ draw scale o q.mat = some (ops, o') ∧ paintAll ops = some cv ∧
      cv.w = 5 * q.dimension ∧ cv.h = 5 * q.dimension ∧ ∀ k, 1 ≤ k → ¬ ∃ light, QuietZone k cv.w cv.h 5 5 0 0 q.dimension light
```

`QR.Compressed.C89_compressed_partial` (Verif/Props/Quiet.lean): **C89, the compressed writer.** The picture has a quiet zone of `k` modules if and only if the padding is at least `k` blocks.

```lean
theorem C89_compressed_partial (m : Matrix) {dim : Nat} (hw : m.width = dim) (hh : m.height = dim) (hd : 0 < dim) (padding blockSize : Nat) (hb : 0 < blockSize) :
    ∃ img, write (some ⟨padding, blockSize⟩) m = some img ∧ ∀ k, 1 ≤ k →
      (QuietZone k (img.maxX - img.minX) (img.maxY - img.minY) blockSize blockSize padding padding dim (fun px py => img.at' px py = some 0xff) ↔ k * blockSize ≤ padding)
```

`QR.Terminal.C89_terminal_counterexample` (Verif/Props/Quiet.lean): **C89, the terminal writer.** On a terminal that is large enough, the quiet zone is exactly one module (two columns and one row): the cells there are white, and there is no room to the left and above for two modules.

```lean
theorem C89_terminal_counterexample {m : Matrix} {dim : Nat} (hw : m.width = dim) (hh : m.height = dim) (hd : 0 < dim) (s : Screen) (runeWidth : Nat → Nat)
    (ambiguous : Nat → Bool) (hcols : 2 * (dim + 2) ≤ s.cols) (hrows : dim + 2 ≤ s.rows) :
    QuietZone 1 s.cols s.rows 2 1 2 1 dim (fun cx cy => (render runeWidth ambiguous s m).cells (cx, cy) = some ⟨fullBlock, colorWhite, colorWhite⟩) ∧
    ∀ k, 2 ≤ k → ¬ ∃ light, QuietZone k s.cols s.rows 2 1 2 1 dim light
```

`QR.FileWriter.C89_file_counterexample` (Verif/Props/Quiet.lean): **C89, the file writer.** The text has as many characters in a line as the symbol has columns and as many lines as it has pairs of rows: there is no quiet zone.

```lean
theorem C89_file_counterexample (m : Matrix) {dim : Nat} (hw : m.width = dim) (hh : m.height = dim) (hd : 0 < dim) (sink : Sink) (hs : ∀ i, sink i = none) :
    ∃ text lines, write (some sink) m = some (text, none) ∧ runes text = lines.flatMap (fun l => l ++ [10]) ∧ (∀ l ∈ lines, l.length = dim) ∧ lines.length = (dim + 1) / 2 ∧
      (∀ x y, x < dim → y < dim → inkAt lines x y = some (m.raw x y).bit) ∧
      ∀ k, 1 ≤ k → ¬ ∃ light, QuietZone k dim (2 * lines.length) 1 1 0 0 dim light
```

## C90 – How long a text may be (proved)

Without an explicit version, a text is accepted if it has at most the number of characters the standard's table gives for version 40, the level asked for and the mode it is written in (7089 digits, 4296 alphanumeric characters, 2953 bytes or 1817 kanji at level L, down to 3057, 1852, 1273 and 784 at level H), and refused with an error if it has more.

*assumptions as in C01*

`QR.C90_capacity` (Verif/Props/Sizes.lean): **C90.** Without an explicit version, a text that is written in mode `m` is accepted if it has at most as many characters as the standard's table gives for version 40, the level asked for and this mode, and refused with an error if it has more.

```lean
theorem C90_capacity {E : Ext} {unsjis : Nat → Option Nat} (hE : E.Ok unsjis) {c : AlignCache} (hc : CacheReachable c) {arrival : List Nat} (ha : Arrival arrival)
    {t : TextType} (ht : t ≠ .defined) {text : Bytes} {opts : List EncodeOption} (hv : versionIn opts = none) {m : Mode} (hm : UsesMode E.sjis (modeIn opts) (nats text) m) :
    (Spec.charCount m (nats text) ≤ maxChars (levelIn opts) m → ∃ q, newWith E c arrival t text opts = .ok q) ∧
    (maxChars (levelIn opts) m < Spec.charCount m (nats text) → ∃ e, newWith E c arrival t text opts = .err e)
```

## C91 – Longer texts and higher levels never give smaller symbols (proved)

Of two calls without an explicit version that write their texts in the same mode, the one whose text has no more characters, whose level is no higher and whose minimum version is no larger succeeds if the other does, and its symbol is no larger.

*assumptions as in C01*

`QR.C91_monotone` (Verif/Props/Sizes.lean): **C91.** Longer texts and higher levels never give smaller symbols: of two calls without an explicit version that write their texts in the same mode, the one whose text has no more characters, whose level is no higher and whose minimum version is no larger succeeds if the other does, and its symbol is no larger.

```lean
theorem C91_monotone {E : Ext} {unsjis : Nat → Option Nat} (hE : E.Ok unsjis) {c c' : AlignCache} (hc : CacheReachable c) (hc' : CacheReachable c')
    {arrival arrival' : List Nat} (ha : Arrival arrival) (ha' : Arrival arrival') {t t' : TextType} (ht : t ≠ .defined) {text text' : Bytes} {opts opts' : List EncodeOption}
    (hv : versionIn opts = none) (hv' : versionIn opts' = none) {m : Mode} (hm : UsesMode E.sjis (modeIn opts) (nats text) m) (hm' : UsesMode E.sjis (modeIn opts') (nats text') m)
    (hn : Spec.charCount m (nats text) ≤ Spec.charCount m (nats text')) (hl : (levelIn opts).strength ≤ (levelIn opts').strength) (hmin : minimumIn opts ≤ minimumIn opts')
    {q' : QRCode} (hq' : newWith E c' arrival' t' text' opts' = .ok q') :
    ∃ q, newWith E c arrival t text opts = .ok q ∧ q.dimension ≤ q'.dimension
```

## C92 – Automatic mode is never worse than an explicit one (partial)

If a text is accepted in some mode given explicitly, it is accepted in automatic mode with the same level and minimum version, and the symbol is no larger. (False of texts of an alphanumeric part followed by a kanji part: fifty letters and a kanji give version 7 automatically and version 5 in byte mode; proved for all other texts.)

*false of texts of an alphanumeric part followed by a kanji part (counterexample, same cause as C01); proved for all other texts*

`QR.C92_automatic_partial` (Verif/Props/Sizes.lean): **C92.** If a text is accepted in some mode given explicitly, it is accepted in automatic mode with the same level and minimum version, and the symbol is no larger. The exception are the texts of an alphanumeric part followed by a kanji part.

```lean
theorem C92_automatic_partial {E : Ext} {unsjis : Nat → Option Nat} (hE : E.Ok unsjis) {c c' : AlignCache} (hc : CacheReachable c) (hc' : CacheReachable c')
    {arrival arrival' : List Nat} (ha : Arrival arrival) (ha' : Arrival arrival') {t : TextType} (ht : t ≠ .defined) {text : Bytes} {opts opts' : List EncodeOption}
    (hx : ¬ AlnumThenKanji E.sjis (nats text)) (hauto : modeIn opts = encAuto) (hexp : modeIn opts' ≠ encAuto)
    (hv : versionIn opts = none) (hv' : versionIn opts' = none) (hl : levelIn opts = levelIn opts') (hmin : minimumIn opts = minimumIn opts')
    {q' : QRCode} (hq' : newWith E c' arrival' t text opts' = .ok q') :
    ∃ q, newWith E c arrival t text opts = .ok q ∧ q.dimension ≤ q'.dimension
```

`QR.C92_counterexample` (Verif/Props/Sizes.lean): **C92 is false of texts of an alphanumeric part followed by a kanji part.** Fifty letters and a kanji give a symbol of version 7 in automatic mode and one of version 5 in byte mode.

```lean
theorem C92_counterexample {c c' : AlignCache} (hc : CacheReachable c) (hc' : CacheReachable c') {arrival arrival' : List Nat} (ha : Arrival arrival) (ha' : Arrival arrival') :
    ∃ q q', newWith demoExt c arrival .string lettersKanji [] = .ok q ∧ newWith demoExt c' arrival' .string lettersKanji [.withEncodingMode encByte] = .ok q' ∧
      q.dimension = 45 ∧ q'.dimension = 37
```

## C93 – Logos of any size (proved)

Whatever the multiplier set with WithLogoSizeMultiplier, a picture with rectangles and a logo in the middle can be read by a scanner that looks at one pixel of every block and corrects errors, as long as the blocks that meet the logo belong, in every Reed-Solomon block, to at most half as many codewords as it has error correction codewords, and at most six of them are format information - in particular (exceptions as in C69) if the logo occupies at most a fifth of the width and height, whatever the multiplier. The program example/with-logosize-multiplier, with its own logo file, can be read for every ASCII text of at most 1273 characters. With multiplier 1 a logo may hide the whole symbol: then the pictures of all texts of the same size are the same.

*the condition on the codewords is part of the statement; C93_counterexample shows what happens without it; assumptions as in C69*

`QR.Standard.C93_logo` (Verif/Props/LogoSize.lean): **C93.** Text, picture with a logo of any size, text: with rectangles, no halftone and no gradient, colours that can be told apart and borders that are not negative, drawing succeeds, and a scanner that looks at any one pixel of every block and corrects errors reads exactly the text, whatever the logo shows and with or without a safe zone - provided that, in every Reed-Solomon block, the blocks of modules that meet the logo belong to at most half as many codewords as there are error correction codewords, and that at most 6 of them are format information.

```lean
theorem C93_logo {E : Ext} {unsjis : Nat → Option Nat} (hE : E.Ok unsjis) (hRS : E.rs = rsEncode) {c : AlignCache} (hc : CacheReachable c)
    {arrival : List Nat} (ha : Arrival arrival) {t : TextType} {text : Bytes} {opts : List EncodeOption} {q : QRCode}
    (h : newWith E c arrival t text opts = .ok q)
    (hx : ¬ (modeIn opts = encAuto ∧ AlnumThenKanji E.sjis (nats text)))
    {v : Nat} (hv : q.dimension = 17 + 4 * v)
    (scale : Scaler) (blend : Blend) {o : Opts} (hp : Rects o) (hcol : Contrast o)
    (hb : 0 ≤ o.borders.top ∧ 0 ≤ o.borders.right ∧ 0 ≤ o.borders.bottom ∧ 0 ≤ o.borders.left)
    {img : Image} (hl : o.logo = some img) (hmin : img.minX = 0 ∧ img.minY = 0)
    (hfmt : (formatCells1 ++ formatCells2 v).countP (under o q.dimension img) ≤ 6)
    (hcw : ∀ b < numBlocks v (levelIn opts), (blockIndices v (levelIn opts) b).countP (fun i => (codewordCells v i).any (under o q.dimension img)) ≤
      ecPerBlock v (levelIn opts) / 2) :
    ∃ ops o' cv, draw scale o q.mat = some (ops, o') ∧ paintAllImg blend ops = some cv ∧
      ∀ pt, InBlocks o q.dimension pt → decodeDamaged unsjis (seen o q.dimension cv pt) = some (nats text)
```

`QR.Standard.C93_fifth` (Verif/Props/LogoSize.lean): **C93, small logos.** The condition of C69 is about the logo, not about the multiplier: the text can be read from the picture whenever the logo occupies at most a fifth of its width and height, whatever multiplier was set.

```lean
theorem C93_fifth {E : Ext} {unsjis : Nat → Option Nat} (hE : E.Ok unsjis) (hRS : E.rs = rsEncode) {c : AlignCache} (hc : CacheReachable c)
    {arrival : List Nat} (ha : Arrival arrival) {t : TextType} {text : Bytes} {opts : List EncodeOption} {q : QRCode}
    (h : newWith E c arrival t text opts = .ok q)
    (hx : ¬ (modeIn opts = encAuto ∧ AlnumThenKanji E.sjis (nats text)))
    {v : Nat} (hv : q.dimension = 17 + 4 * v)
    (hlv : ¬ (levelIn opts = .L ∧ v ∈ [1, 2, 3, 4, 5, 6, 36] ∨ levelIn opts = .M ∧ v ∈ [2, 4]))
    (scale : Scaler) (blend : Blend) {o : Opts} (hp : Rects o) (hcol : Contrast o)
    (hbx : 0 ≤ o.borders.left ∧ o.borders.left ≤ 2 * o.qrBlockWidth ∧ o.borders.right = o.borders.left)
    (hby : 0 ≤ o.borders.top ∧ o.borders.top ≤ 2 * o.qrBlockWidth ∧ o.borders.bottom = o.borders.top)
    {img : Image} (hl : o.logo = some img) (hmin : img.minX = 0 ∧ img.minY = 0) (hmax : 0 ≤ img.maxX ∧ 0 ≤ img.maxY)
    (hk : 5 * img.maxX ≤ (o.attribute q.dimension).w ∧ 5 * img.maxY ≤ (o.attribute q.dimension).h) :
    ∃ ops o' cv, draw scale o q.mat = some (ops, o') ∧ paintAllImg blend ops = some cv ∧
      ∀ pt, InBlocks o q.dimension pt → decodeDamaged unsjis (seen o q.dimension cv pt) = some (nats text)
```

`QR.Examples.C93_program` (Verif/Props/LogoSize.lean): **C93, the program** example/with-logosize-multiplier, with its own logo file (194 × 59 pixels, whatever they show), allows logos up to half of the picture; given any ASCII text of at most 1273 characters instead of its own it draws a picture that a scanner which corrects errors reads as exactly this text.

```lean
theorem C93_program {E : Ext} {unsjis : Nat → Option Nat} (hE : E.Ok unsjis) (hRS : E.rs = rsEncode) {c : AlignCache} (hc : CacheReachable c) {arrival : List Nat} (ha : Arrival arrival)
    (scale : Scaler) (blend : Blend) (show_ : Int → Int → UInt32 × UInt32 × UInt32 × UInt32) :
    Reads E c arrival (logoSizeMultiplier (some ⟨0, 0, 194, 59, show_⟩)) (fun o q ops text => ∃ cv, paintAllImg blend ops = some cv ∧
      ∀ pt, InBlocks o q.dimension pt → decodeDamaged unsjis (seen o q.dimension cv pt) = some (nats text)) scale
```

`QR.Standard.C93_counterexample` (Verif/Props/LogoSize.lean): **C93, the limit.** With multiplier 1 a logo may be as large as the picture: then nothing of the symbol is left. Whatever the two texts and the options of the two calls, if the symbols have the same dimension, the same image options and an opaque logo of the size of the picture (`hop`: what was there before does not matter) give the same picture, so no reader can tell the texts apart.

```lean
theorem C93_counterexample {E : Ext} {unsjis : Nat → Option Nat} (hE : E.Ok unsjis) {c c' : AlignCache} (hc : CacheReachable c) (hc' : CacheReachable c')
    {arrival arrival' : List Nat} (ha : Arrival arrival) (ha' : Arrival arrival') {t t' : TextType} {text text' : Bytes} {opts opts' : List EncodeOption} {q q' : QRCode}
    (h : newWith E c arrival t text opts = .ok q) (h' : newWith E c' arrival' t' text' opts' = .ok q') (hd : q.dimension = q'.dimension)
    (scale : Scaler) (blend : Blend) {o : Opts} (hp : Rects o)
    (hb : 0 ≤ o.borders.top ∧ 0 ≤ o.borders.right ∧ 0 ≤ o.borders.bottom ∧ 0 ≤ o.borders.left)
    {img : Image} (hl : o.logo = some img) (hmin : img.minX = 0 ∧ img.minY = 0) (hmax : img.maxX = (o.attribute q.dimension).w ∧ img.maxY = (o.attribute q.dimension).h)
    (hone : o.logoSizeMultiplier = 1) (hop : ∀ px py old old', blend img px py old = blend img px py old') :
    ∃ ops ops' o1 o2 cv cv', draw scale o q.mat = some (ops, o1) ∧ draw scale o q'.mat = some (ops', o2) ∧ paintAllImg blend ops = some cv ∧ paintAllImg blend ops' = some cv' ∧
      ∀ px py, 0 ≤ px → px < (o.attribute q.dimension).w → 0 ≤ py → py < (o.attribute q.dimension).h → cv.pix px py = cv'.pix px py
```

## C94 – 64 bits are enough (proved)

Drawing a picture never overflows an int and never panics for its size as long as each border is at most 2^21 pixels, the multiplier of the logo at most 2^31 and the coordinates of the logo at most 2^30: the calls made are those of exact arithmetic. Borders of 2^22 to 2^61 pixels on all sides make Save panic, because the picture cannot be allocated. A multiplier of 2^62 does not refuse a logo whose sides are multiples of four: the product wraps around to 0 and the logo is drawn, whatever its size. The compressed writer does not overflow or panic for its size with a padding of at most 2^20 and blocks of at most 2^16 pixels; blocks of 2^20 to 2^54 pixels make Write panic.

*the limits are part of the statement; what happens beyond them is C94_too_large and C94_wraps. Platforms with 64-bit int; running out of memory below the limit of the runtime is not modelled*

`QR.Standard.C94_draw` (Verif/Props/Draw64.lean): **C94.** For every symbol, and options within generous limits, the picture is allocated and drawn without overflow: `draw` on 64 bits makes the same calls as `draw` with unbounded integers.

```lean
theorem C94_draw {E : Ext} {unsjis : Nat → Option Nat} (hE : E.Ok unsjis) {c : AlignCache} (hc : CacheReachable c)
    {arrival : List Nat} (ha : Arrival arrival) {t : TextType} {text : Bytes} {opts : List EncodeOption} {q : QRCode}
    (h : newWith E c arrival t text opts = .ok q) (scale : Scaler) {o : Opts} (hm : Moderate o) :
    draw64 scale o q.mat = draw scale o q.mat
```

`QR.Standard.C94_too_large` (Verif/Props/Draw64.lean): **C94, the limit of the borders.** Borders of 2^22 pixels or more on all sides (up to 2^61, beyond which the sums wrap around): the picture cannot be allocated and `draw` panics.

```lean
theorem C94_too_large {E : Ext} {unsjis : Nat → Option Nat} (hE : E.Ok unsjis) {c : AlignCache} (hc : CacheReachable c)
    {arrival : List Nat} (ha : Arrival arrival) {t : TextType} {text : Bytes} {opts : List EncodeOption} {q : QRCode}
    (h : newWith E c arrival t text opts = .ok q) (scale : Scaler) {o : Opts}
    (ht : 2 ^ 22 ≤ o.borders.top ∧ o.borders.top ≤ 2 ^ 61) (hr : 2 ^ 22 ≤ o.borders.right ∧ o.borders.right ≤ 2 ^ 61)
    (hb : 2 ^ 22 ≤ o.borders.bottom ∧ o.borders.bottom ≤ 2 ^ 61) (hl : 2 ^ 22 ≤ o.borders.left ∧ o.borders.left ≤ 2 ^ 61) :
    draw64 scale o q.mat = none
```

`QR.Standard.C94_wraps` (Verif/Props/Draw64.lean): **C94, the limit of the multiplier.** With a multiplier of 2^62 a logo must be refused: it would have to be 2^62 times smaller than the symbol. But if its sides are multiples of four the product wraps around to 0 and the logo, of whatever size, is drawn.

```lean
theorem C94_wraps {E : Ext} {unsjis : Nat → Option Nat} (hE : E.Ok unsjis) {c : AlignCache} (hc : CacheReachable c)
    {arrival : List Nat} (ha : Arrival arrival) {t : TextType} {text : Bytes} {opts : List EncodeOption} {q : QRCode}
    (h : newWith E c arrival t text opts = .ok q) (scale : Scaler) {img : Image} {a b : Nat} (h0 : img.minX = 0 ∧ img.minY = 0) (hx : img.maxX = 4 * a) (hy : img.maxY = 4 * b)
    (hb : 0 < a ∧ 0 < b ∧ a < 2 ^ 30 ∧ b < 2 ^ 30) :
    ∃ o, newWithWriter false [.logo (some img), .logoSizeMultiplier (2 ^ 62)] = some o ∧
      (∃ ops o', draw64 scale o q.mat = some (ops, o') ∧ ∃ x y, (img, x, y) ∈ images ops) ∧
      ∃ ops o', draw scale o q.mat = some (ops, o') ∧ images ops = []
```

`QR.Compressed.C94_compressed` (Verif/Props/Compressed64.lean): **C94 for the compressed writer.** For every symbol, a padding of at most 2^20 and a block size of at most 2^16 (either sign), the picture is allocated and computed without overflow.

```lean
theorem C94_compressed {E : Ext} {unsjis : Nat → Option Nat} (hE : E.Ok unsjis) {c : AlignCache} (hc : CacheReachable c)
    {arrival : List Nat} (ha : Arrival arrival) {t : TextType} {text : Bytes} {opts : List EncodeOption} {q : QRCode}
    (h : newWith E c arrival t text opts = .ok q) {o : Opt} (hp : -2 ^ 20 ≤ o.padding ∧ o.padding ≤ 2 ^ 20) (hb : -2 ^ 16 ≤ o.blockSize ∧ o.blockSize ≤ 2 ^ 16) :
    image64 o q.mat = image o q.mat
```

`QR.Compressed.C94_compressed_too_large` (Verif/Props/Compressed64.lean): **C94 for the compressed writer, the limit.** Blocks of 2^20 to 2^54 pixels: `Write` panics, the picture cannot be allocated.

```lean
theorem C94_compressed_too_large {E : Ext} {unsjis : Nat → Option Nat} (hE : E.Ok unsjis) {c : AlignCache} (hc : CacheReachable c)
    {arrival : List Nat} (ha : Arrival arrival) {t : TextType} {text : Bytes} {opts : List EncodeOption} {q : QRCode}
    (h : newWith E c arrival t text opts = .ok q) {o : Opt} (hp : 0 ≤ o.padding ∧ o.padding ≤ 2 ^ 60) (hb : 2 ^ 20 ≤ o.blockSize ∧ o.blockSize ≤ 2 ^ 54) :
    image64 o q.mat = none
```

## C95 – Gradients with any numbers (proved)

Whatever float64 numbers are given as angle and positions of a gradient with at least one stop - NaN, infinities and huge numbers included, in any order -, applying it never fails, gives every pixel of the foreground colour a colour and leaves all other pixels alone. With a finite angle whose product with pi does not overflow and finite positions of at most 2^1022 nothing overflows: the colours are those of the finite model (C47, C55). With an angle that is NaN, infinite or beyond that, every pixel of the foreground colour becomes opaque black, whatever the stops are. With positions that are numbers and colours that differ from the background (black included), the picture can be read by a scanner whatever the angle is.

*assumed of math.Cos and math.Sin: NaN for what is not finite (as documented), otherwise two numbers in [-1, 1] not both small; of uint8(f) nothing for numbers out of range. Signed zeros are not distinguished: C95_no_zero_division shows that they make no difference*

`QR.Standard.C95_total` (Verif/Props/Special64.lean): **C95, never fails.** Whatever numbers are given (NaN and infinities included, positions in any order), whatever `uint8(f)` does with numbers out of range and whatever the cosine and sine are: with at least one stop every pixel gets a colour, and a pixel that does not have the foreground colour keeps its own.

```lean
theorem C95_total (conv : F64 → UInt8) (tr : Trig) (g : LinearGradient64) (hne : g.stops ≠ []) (w h : Int) (fg : RGBA) (x y : Int) (c : RGBA) :
    ∃ c', gradientPixel64 conv tr g w h fg x y c = some c' ∧ (c ≠ fg → c' = c)
```

`QR.Standard.C95_finite` (Verif/Props/Special64.lean): **C95, finite numbers.** If the angle is finite and not so large that its product with π overflows, and the positions are finite and at most 2^1022, there is no overflow and no NaN: every pixel gets the colour the finite model (C47, C55) says.

```lean
theorem C95_finite {conv : F64 → UInt8} (hconv : Truncates conv) {tr : Trig} (htr : tr.Ok) {g : LinearGradient} (hm : ModerateStops g.stops) {angle : F64} {rad : Rat}
    (ha : angleRad angle = .fin rad) {w h x y : Int} (hx0 : 0 ≤ x) (hx : x < w) (hw : w ≤ 2 ^ 53) (hy0 : 0 ≤ y) (hy : y < h) (hh : h ≤ 2 ^ 53)
    (fg c : RGBA) : ∃ dx dy : Rat, tr.cos (.fin rad) = .fin dx ∧ tr.sin (.fin rad) = .fin (-dy) ∧ Direction dx dy ∧
      gradientPixel64 conv tr ⟨g.stops.map ColorStop.to64, angle⟩ w h fg x y c = gradientPixel float64Round g dx dy w h fg x y c
```

`QR.Standard.C95_angle` (Verif/Props/Special64.lean): **C95, angles that are not numbers.** If the angle is NaN or infinite, or so large that its product with π overflows, every pixel of the foreground colour becomes opaque black, whatever the stops are.

```lean
theorem C95_angle (conv : F64 → UInt8) {tr : Trig} (htr : tr.Ok) (g : LinearGradient64) (hne : g.stops ≠ []) (ha : ∀ q, angleRad g.angle ≠ .fin q)
    (w h x y : Int) (fg : RGBA) : gradientPixel64 conv tr g w h fg x y fg = some ⟨0, 0, 0, 255⟩
```

`QR.Standard.C95_angle_special` (Verif/Props/Special64.lean): The angles of `C95_angle`: NaN, the infinities and numbers beyond `2^1024 / π`.

```lean
theorem C95_angle_special : (∀ q, angleRad .nan ≠ .fin q) ∧ (∀ q, angleRad .pinf ≠ .fin q) ∧ (∀ q, angleRad .ninf ≠ .fin q) ∧
    (∀ a : Rat, pow2 1023 ≤ a → ∀ q, angleRad (.fin a) ≠ .fin q)
```

`QR.Standard.C95_read` (Verif/Props/Special64.lean): **C95, readable pictures.** C79 whatever the angle is - NaN, infinite or huge, too - if black (the colour of `C95_angle`) can be told from the background, as well: drawing succeeds, and a scanner that looks at any one pixel of every block reads exactly the text.

```lean
theorem C95_read {E : Ext} {unsjis : Nat → Option Nat} (hE : E.Ok unsjis) {c : AlignCache} (hc : CacheReachable c)
    {arrival : List Nat} (ha : Arrival arrival) {t : TextType} {text : Bytes} {opts : List EncodeOption} {q : QRCode}
    (h : newWith E c arrival t text opts = .ok q)
    (hx : ¬ (modeIn opts = encAuto ∧ AlnumThenKanji E.sjis (nats text)))
    (scale : Scaler) (blend : Blend) {put : Put} (hput : PutsOver put) {o : Opts}
    (hsh : o.shape = none ∨ o.shape = some .rectangle) (hht : o.halftone = none) {g : LinearGradient} (hgr : o.qrGradient = some g)
    (hcol : Contrast o) (hg : GradientContrast o g) (hm : ModerateStops g.stops) (hblack : o.bgTransparent = true ∨ o.bgColor ≠ ⟨0, 0, 0, 255⟩)
    (hb : 0 ≤ o.borders.top ∧ 0 ≤ o.borders.right ∧ 0 ≤ o.borders.bottom ∧ 0 ≤ o.borders.left) (hl : o.logo = none)
    {conv : F64 → UInt8} (hconv : Truncates conv) (tr : Trig) (angle : F64) :
    ∃ ops o' cv, draw scale o q.mat = some (ops, o') ∧
      paintAllGradient64 conv tr blend put ⟨g.stops.map ColorStop.to64, angle⟩ ops = some cv ∧
      ∀ pt, InBlocks o q.dimension pt → decode unsjis (seenInk o q.dimension cv pt) = some (nats text)
```

`QR.Standard.C95_positions` (Verif/Props/Special64.lean): **C95, positions that are not numbers.** A stop at NaN can make the fall-back colour appear (here between two white stops); with a first stop at -∞ the colour is left to the implementation: two conversions to `uint8` that Go allows give black and white.

```lean
theorem C95_positions :
    (∀ conv, interpolateColor64 conv [⟨.fin 0, color_WHITE⟩, ⟨.nan, color_WHITE⟩, ⟨.fin 1, color_WHITE⟩] (.fin (1 / 2)) = some ⟨0, 0, 0, 255⟩) ∧
    Truncates convLow ∧ Truncates convHigh ∧
    interpolateColor64 convLow [⟨.ninf, color_WHITE⟩, ⟨.fin 1, color_WHITE⟩] (.fin (1 / 2)) = some ⟨0, 0, 0, 255⟩ ∧
    interpolateColor64 convHigh [⟨.ninf, color_WHITE⟩, ⟨.fin 1, color_WHITE⟩] (.fin (1 / 2)) = some ⟨255, 255, 255, 255⟩
```

`QR.Standard.C95_no_zero_division` (Verif/Props/Special64.lean): **C95, division by zero.** The only number ever divided by zero between two stops is zero (which gives NaN, whatever the sign of the zeros).

```lean
theorem C95_no_zero_division {s e t : Rat} (hs : float64Round s = s) (he : float64Round e = e) (h1 : le (.fin s) (.fin t) = true) (h2 : le (.fin t) (.fin e) = true)
    (h0 : sub (.fin e) (.fin s) = .fin 0) : sub (.fin t) (.fin s) = .fin 0
```

## C96 – Factors of shapes out of range are replaced (partial)

Whatever float64 is given to SquareBlocks or CircleBlocks, the factor in use lies between 0.1 and 1, and whatever is given to HStripeBlock or VStripeBlock, the ratio in use lies between 0.6 and 1; a number in the range is used as it is. (False for NaN, which passes both tests of every function; proved for all other numbers, infinities included.)

*false for NaN (counterexample proved); proved for every other number*

`QR.Standard.C96_factors_partial` (Verif/Props/Special64.lean): **C96, for numbers.** Whatever number but NaN (infinities included) is given to `SquareBlocks` or `CircleBlocks`, the factor in use lies between 0.1 and 1; given to `HStripeBlock` or `VStripeBlock`, the ratio in use lies between 0.6 (as a `float64`) and 1; a number in the range is used as it is, and in place of any other 1 and 0.85.

```lean
theorem C96_factors_partial (f : F64) (hf : f ≠ .nan) :
    F64.Within (1 / 10) 1 (blockScale64 f) ∧ F64.Within (float64Round (6 / 10)) 1 (stripeScale64 f) ∧
    (F64.Within (float64Round (1 / 10)) 1 f → blockScale64 f = f) ∧ (¬ F64.Within (float64Round (1 / 10)) 1 f → blockScale64 f = .fin 1) ∧
    (F64.Within (float64Round (6 / 10)) 1 f → stripeScale64 f = f) ∧ (¬ F64.Within (float64Round (6 / 10)) 1 f → stripeScale64 f = .fin (float64Round (85 / 100)))
```

`QR.Standard.C96_counterexample` (Verif/Props/Special64.lean): **C96 is false for NaN**: it passes the tests of both functions and is used as factor.

```lean
theorem C96_counterexample : (¬ ∀ f, F64.Within (1 / 10) 1 (blockScale64 f)) ∧ ¬ ∀ f, F64.Within (float64Round (6 / 10)) 1 (stripeScale64 f)
```

`QR.Standard.C96_blockScale` (Verif/Props/Special64.lean): On `float64` numbers the size in use is the one of the model of the shapes (`Model/Shapes.lean`, C59 to C63, C72).

```lean
theorem C96_blockScale {q : Rat} (hq : float64Round q = q) : blockScale64 (.fin q) = .fin (blockScale q)
```

## C97 – A writer keeps what it was given (partial)

What a caller does with a gradient, the slice of its stops or the option of a compressed writer after the writer has been made makes no difference to the pictures, and NewGradient leaves the caller's slice alone. (False: gradients, their stops and options are shared. Overwriting a stop of the slice given to NewGradient or a field of the gradient or option changes later pictures; emptying g.Stops makes Write panic, although WithFgGradient refuses an empty gradient; NewGradient(angle, s...) sorts s in place. Proved: as long as the program does not assign to the gradient, to the array its stops lie in or to the option, and does not call NewGradient with a slice of that array, nothing else it does matters, for every program; NewGradient with its stops listed in the call shares nothing.)

*false: gradients, stops and options are kept by reference (counterexamples proved); what does not touch them makes no difference, for every program*

`QR.Alias.C97_untouched_partial` (Verif/Props/Alias.lean): **C97, values left alone.** Whatever a program does in between - other gradients, other slices, other writers -, as long as it does not touch what the writer refers to, `Write` uses exactly what it would have used before.

```lean
theorem C97_untouched_partial {h h' : Heap} {ops : List Op} {us : List Used} (hr : run h ops = some (h', us)) {i : Nat} {w : Wr} (hw : h.writers[i]? = some w) {u : Used}
    (hu : h.uses w = some u) (hn : ∀ op ∈ ops, ¬ Touches h w op) : step h' (.write i) = some (h', some u)
```

`QR.Alias.C97_given` (Verif/Props/Alias.lean): **C97, what is handed over.** A new standard writer with `WithFgGradient(g)` uses the stops and the angle `g` has at this moment, and no gradient if `g` has no stops; a new compressed writer the option.

```lean
theorem C97_given {h h' : Heap} {r : Option Used} :
    (∀ g gr l, step h (.newStandard (some g)) = some (h', r) → h.grads[g]? = some gr → h.read gr.stops = some l →
      step h' (.write h.writers.length) = some (h', some (if l = [] then .plain else .gradient ⟨l, gr.angle⟩))) ∧
    (∀ k o, step h (.newCompressed k) = some (h', r) → h.copts[k]? = some o → step h' (.write h.writers.length) = some (h', some (.option o)))
```

`QR.Alias.C97_shared` (Verif/Props/Alias.lean): **C97, what happens otherwise.** Whenever a program assigns to the angle of a writer's gradient, to its stops or to one of them, or to the option of a compressed writer, the next picture is drawn with the new value.

```lean
theorem C97_shared {h : Heap} {i : Nat} :
    (∀ g gr l, h.writers[i]? = some (.standard (some g)) → h.grads[g]? = some gr → h.read gr.stops = some l →
      (∀ a, ∃ h', step h (.setAngle g a) = some (h', none) ∧ step h' (.write i) = some (h', some (.gradient ⟨l, a⟩))) ∧
      (∀ s l', h.read s = some l' → ∃ h', step h (.setStops g s) = some (h', none) ∧ step h' (.write i) = some (h', some (.gradient ⟨l', gr.angle⟩))) ∧
      ∀ j v, j < l.length → ∃ h', step h (.setStop gr.stops j v) = some (h', none) ∧ step h' (.write i) = some (h', some (.gradient ⟨l.set j v, gr.angle⟩))) ∧
    ∀ k o o', h.writers[i]? = some (.compressed k) → h.copts[k]? = some o →
      ∃ h', step h (.setOption k o') = some (h', none) ∧ step h' (.write i) = some (h', some (.option o'))
```

`QR.Alias.C97_newGradient` (Verif/Props/Alias.lean): **C97, `NewGradient(angle, s...)`.** It puts the stops of the caller's slice in the order of their positions, where they are, and the gradient shows that same slice; other arrays stay as they were.

```lean
theorem C97_newGradient {h h' : Heap} {angle : Rat} {s : Slice} {l : List ColorStop} {r : Option Used} (hs : step h (.newGradientOf angle s) = some (h', r))
    (hl : h.read s = some l) : ∃ l', h'.read s = some l' ∧ l'.Perm l ∧ l'.Pairwise (fun a b => a.t ≤ b.t) ∧
      h'.grads[h.grads.length]? = some ⟨s, angle⟩ ∧ ∀ s' : Slice, s'.arr ≠ s.arr → h'.read s' = h.read s'
```

`QR.Alias.C97_newGradient_list` (Verif/Props/Alias.lean): **C97, `NewGradient(angle, a, b, c)`.** With the stops listed in the call nothing the program could refer to before changes, and the gradient has an array of its own.

```lean
theorem C97_newGradient_list {h h' : Heap} {angle : Rat} {l : List ColorStop} {r : Option Used} (hs : step h (.newGradientList angle l) = some (h', r)) :
    (∀ s' l', h.read s' = some l' → h'.read s' = some l' ∧ s'.arr ≠ h.arrs.length) ∧
    ∃ gr l', h'.grads[h.grads.length]? = some gr ∧ gr.stops.arr = h.arrs.length ∧ gr.angle = angle ∧ h'.read gr.stops = some l' ∧ l'.Perm l ∧
      l'.Pairwise (fun a b => a.t ≤ b.t)
```

`QR.Alias.C97_counterexample` (Verif/Props/Alias.lean): **C97 is false.** (1) After a stop of the caller's slice has been overwritten, the writer uses other colours than it was given. (2) After `g.Stops` has been emptied, the writer's gradient has no stop, which `WithFgGradient` would have refused, and asking for a colour panics. (3) `NewGradient(angle, s...)` does not leave the caller's slice as it was. (4) A compressed writer uses the option as it is when it writes.

```lean
theorem C97_counterexample :
    (run made [.write 0, .setStop whole 0 ⟨0, color_WHITE⟩, .write 0]).map (·.2) =
      some [.gradient ⟨twoStops, 45⟩, .gradient ⟨[⟨0, color_WHITE⟩, ⟨1, color_WHITE⟩], 45⟩] ∧
    ((run made [.setStops 0 ⟨0, 0, 0⟩, .write 0]).map (·.2) = some [.gradient ⟨[], 45⟩] ∧ ∀ t, interpolateColor float64Round [] t = .panic) ∧
    (¬ ∀ (h h' : Heap) (angle : Rat) (s : Slice) (r : Option Used), step h (.newGradientOf angle s) = some (h', r) → h'.read s = h.read s) ∧
    (run empty [.makeOption ⟨4, 8⟩, .newCompressed 0, .setOption 0 ⟨0, 8⟩, .write 0]).map (·.2) = some [.option ⟨0, 8⟩]
```

## C98 – Gradients on every platform (proved)

Go may compute x*y + z with one rounding instead of two, and does on some platforms. Whatever is fused, at any corner, pixel and channel: the colour at a position is that of the first stop before it and of the last from there on, and between two neighbouring stops around the position an opaque colour with every channel between theirs, or one below; no divisor is zero, nothing panics, the fall-back colour does not occur; the colours two platforms give at the same position differ by at most one in every channel (and they do differ: no way of computing is always right); and a picture with a gradient that stands out from the background can be read by a scanner on every platform. Without fusion the colours are those of C47 and C55.

*fusion of a product with the sum it is part of, which is what the Go compiler does*

`QR.Standard.C98_colour` (Verif/Props/Fma.lean): **C98, colours.** On every platform, at every position: the colour of the first stop before it and of the last from there on, and between two neighbouring stops around the position an opaque colour with every channel between theirs, or one below. Neither a panic nor the fall-back occurs, and the colours of two platforms differ by at most one in every channel.

```lean
theorem C98_colour {stops : List ColorStop} (hne : stops ≠ []) (hr : Repr64 float64Round stops) (t : Rat) :
    (∀ s, stops.head? = some s → t ≤ s.t → ∀ ch, interpolateColorF float64Round ch stops t = some s.color) ∧
    (∀ s l, stops.head? = some s → stops.getLast? = some l → s.t < t → l.t ≤ t → ∀ ch, interpolateColorF float64Round ch stops t = some l.color) ∧
    (∀ s l, stops.head? = some s → stops.getLast? = some l → s.t < t → t < l.t → ∃ (i : Nat) (a b : ColorStop), stops[i]? = some a ∧ stops[i + 1]? = some b ∧
      a.t < t ∧ t ≤ b.t ∧ ∀ ch, ∃ c, interpolateColorF float64Round ch stops t = some c ∧ c.a = 255 ∧ ChannelsBetween 1 a.color b.color c) ∧
    ∀ ch ch', ∃ c d, interpolateColorF float64Round ch stops t = some c ∧ interpolateColorF float64Round ch' stops t = some d ∧ Near c d
```

`QR.Standard.C98_position` (Verif/Props/Fma.lean): **C98, positions.** The divisor is never zero, whatever is fused; and if the platform does the same for the corners and the pixels, the position lies between 0 and 1.

```lean
theorem C98_position {dx dy : Rat} (hd : Direction dx dy) {w h x y : Int} (hx0 : 0 ≤ x) (hx : x < w) (hy0 : 0 ≤ y) (hy : y < h) :
    (∀ k, gradientSpanF float64Round k dx dy w h ≠ 0) ∧
    ∀ m, 0 ≤ gradientPosF float64Round (fun _ => m) m dx dy w h x y ∧ gradientPosF float64Round (fun _ => m) m dx dy w h x y ≤ 1
```

`QR.Standard.C98_read` (Verif/Props/Fma.lean): **C98, readable pictures.** C79 on every platform, whatever it fuses.

```lean
theorem C98_read {E : Ext} {unsjis : Nat → Option Nat} (hE : E.Ok unsjis) {c : AlignCache} (hc : CacheReachable c)
    {arrival : List Nat} (ha : Arrival arrival) {t : TextType} {text : Bytes} {opts : List EncodeOption} {q : QRCode}
    (h : newWith E c arrival t text opts = .ok q)
    (hx : ¬ (modeIn opts = encAuto ∧ AlnumThenKanji E.sjis (nats text)))
    (scale : Scaler) (blend : Blend) {put : Put} (hput : PutsOver put) (direction : Rat → Rat × Rat) {o : Opts}
    (hsh : o.shape = none ∨ o.shape = some .rectangle) (hht : o.halftone = none) {g : LinearGradient} (hgr : o.qrGradient = some g)
    (hcol : Contrast o) (hg : GradientContrast o g)
    (hb : 0 ≤ o.borders.top ∧ 0 ≤ o.borders.right ∧ 0 ≤ o.borders.bottom ∧ 0 ≤ o.borders.left) (hl : o.logo = none) (P : Platform) :
    ∃ ops o' cv, draw scale o q.mat = some (ops, o') ∧ paintAllGradientF P blend put direction ops = some cv ∧
      ∀ pt, InBlocks o q.dimension pt → decode unsjis (seenInk o q.dimension cv pt) = some (nats text)
```

`QR.Standard.C98_separate` (Verif/Props/Fma.lean): **C98, without fusion** the pixels are those of C47, C55 and C79.

```lean
theorem C98_separate (rnd : Rat → Rat) (g : LinearGradient) (dx dy : Rat) (w h : Int) (fg : RGBA) (x y : Int) (c : RGBA) :
    gradientPixelF rnd noFusion g dx dy w h fg x y c = gradientPixel rnd g dx dy w h fg x y c
```

`QR.Standard.C98_differ` (Verif/Props/Fma.lean): **C98, the pictures of platforms differ**: in a gradient from white to white, at the `float64` nearest to 3/61, red is 254 or 255 depending on what is fused; at 28/61 it is the other way round.

```lean
theorem C98_differ :
    ([Fuse.separate, .left, .right].map fun m => (interpolateColorF float64Round (fun _ => m) whiteStops (float64Round (3/61))).map (·.r)) = [some 254, some 255, some 254] ∧
    ([Fuse.separate, .left, .right].map fun m => (interpolateColorF float64Round (fun _ => m) whiteStops (float64Round (28/61))).map (·.r)) = [some 255, some 254, some 255]
```

## C99 – Pictures on 32-bit platforms and in WebAssembly (proved)

Where int has 32 bits, and in WebAssembly, drawing a picture does not overflow either as long as each border is at most 2^20 pixels, the multiplier of a logo at most 256 and the coordinates of the logo at most 2^20: either the picture needs more bytes than the platform can allocate (four a pixel) and Save panics, or the calls made are those of exact arithmetic. With equal borders the picture is made exactly if its side is at most 23170 pixels on a 32-bit platform and 32768 pixels in WebAssembly; for a version 40 symbol with the default borders that is blocks of at most 130 and 184 pixels, although the option takes up to 255. In the browser generateQRCode called with a complete options object and an encodable text panics exactly if the side of the picture exceeds 32768 pixels. The compressed writer (padding at most 2^20, blocks at most 2^16, one byte a pixel) makes its picture exactly up to 46340 pixels a side on a 32-bit platform and 65536 in WebAssembly.

*the limits are part of the statement; the largest slices are those of the Go runtime*

`QR.Standard.C99_draw` (Verif/Props/DrawArch.lean): **C99.** On a platform whose `int` has 32 or 64 bits, for every symbol and options within the limits: nothing overflows. `draw` panics if the bytes of the picture, four for each pixel, are more than the platform's largest slice, and otherwise makes the calls of exact arithmetic.

```lean
theorem C99_draw {E : Ext} {unsjis : Nat → Option Nat} (hE : E.Ok unsjis) {c : AlignCache} (hc : CacheReachable c)
    {arrival : List Nat} (ha : Arrival arrival) {t : TextType} {text : Bytes} {opts : List EncodeOption} {q : QRCode}
    (h : newWith E c arrival t text opts = .ok q) (scale : Scaler) {o : Opts} (hm : Small o) {A : Arch} (hA : A.bits = 32 ∨ A.bits = 64) :
    drawOn A scale o q.mat = if 4 * ((o.attribute q.dimension).w.natAbs * (o.attribute q.dimension).h.natAbs) ≤ A.limit then draw scale o q.mat else none
```

`QR.Standard.C99_limits` (Verif/Props/DrawArch.lean): **C99.** The largest square pictures: 23170 pixels a side on a 32-bit platform, 32768 in WebAssembly.

```lean
theorem C99_limits {E : Ext} {unsjis : Nat → Option Nat} (hE : E.Ok unsjis) {c : AlignCache} (hc : CacheReachable c)
    {arrival : List Nat} (ha : Arrival arrival) {t : TextType} {text : Bytes} {opts : List EncodeOption} {q : QRCode}
    (h : newWith E c arrival t text opts = .ok q) (scale : Scaler) {o : Opts} (hm : Small o) {b : Nat} (hb : o.borders = ⟨b, b, b, b⟩) :
    (drawOn i386 scale o q.mat = if (q.dimension : Int) * o.qrBlockWidth + 2 * b ≤ 23170 then draw scale o q.mat else none) ∧
    (drawOn wasm scale o q.mat = if (q.dimension : Int) * o.qrBlockWidth + 2 * b ≤ 32768 then draw scale o q.mat else none) ∧
    drawOn amd64 scale o q.mat = draw scale o q.mat
```

`QR.Standard.C99_largest` (Verif/Props/DrawArch.lean): **C99.** Version 40 with the default borders: drawn on a 32-bit platform exactly for blocks of at most 130 pixels, in WebAssembly exactly for blocks of at most 184.

```lean
theorem C99_largest {E : Ext} {unsjis : Nat → Option Nat} (hE : E.Ok unsjis) {c : AlignCache} (hc : CacheReachable c)
    {arrival : List Nat} (ha : Arrival arrival) {t : TextType} {text : Bytes} {opts : List EncodeOption} {q : QRCode}
    (h : newWith E c arrival t text opts = .ok q) (hq : q.dimension = 177) (scale : Scaler) {o : Opts} (hm : Small o) (hb : o.borders = ⟨40, 40, 40, 40⟩) :
    (drawOn i386 scale o q.mat = if o.qrBlockWidth ≤ 130 then draw scale o q.mat else none) ∧
    (drawOn wasm scale o q.mat = if o.qrBlockWidth ≤ 184 then draw scale o q.mat else none)
```

`QR.Standard.C99_browser` (Verif/Props/DrawArch.lean): **C99.** The browser program, with a complete options object: when the text can be encoded, `generateQRCode` panics exactly if a side of the picture has more than 32768 pixels.

```lean
theorem C99_browser {E : Ext} {unsjis : Nat → Option Nat} (hE : E.Ok unsjis) {c : AlignCache} (hc : CacheReachable c)
    {arrival : List Nat} (ha : Arrival arrival) (scale : Scaler) (save : Opts → Matrix → Wasm.Saved) (hsave : ∀ o m, save o m = .panics ↔ drawOn wasm scale o m = none)
    (content : Wasm.JS) (get : String → Wasm.JS) (rest : List Wasm.JS) {ver mode w : Int} {mar : Nat} {t1 t2 t3 t4 : Bytes} {tr ci : Bool} {lv : Int}
    (h1 : get "encodeVersion" = .number ver t1) (h2 : get "encodeMode" = .number mode t2) (h3 : get "outputQrWidth" = .number w t3)
    (h4 : get "outputMargin" = .number mar t4) (h5 : get "outputBgTransparent" = .boolean tr) (h6 : get "outputCircleShape" = .boolean ci)
    (h7 : Wasm.UsableColour (get "outputBgColor")) (h8 : Wasm.UsableColour (get "outputQrColor")) (h9 : Wasm.LevelField (get "encodeECLevel") lv)
    (hmar : mar ≤ 2 ^ 20) {opts : List EncodeOption} (ho : applyOptions opts = { version := Wasm.versionOf ver, minimumVersion := 0, encMode := Wasm.modeOf mode, ecLevel := lv })
    {q : QRCode} (hq : newWith E c arrival .string content.str opts = .ok q) :
    Wasm.genqrcode E c arrival save (content :: .object get :: rest) = .panics ↔
      32768 < q.dimension * (if w % 256 = 0 then 20 else w % 256) + 2 * (if mar = 0 then 40 else (mar : Int))
```

`QR.Standard.C99_same` (Verif/Props/DrawArch.lean): `amd64` is the platform of `Model/Draw64.lean`.

```lean
theorem C99_same (scale : Scaler) (o : Opts) (m : Matrix) : drawOn amd64 scale o m = draw64 scale o m
```

`QR.Compressed.C99_compressed` (Verif/Props/CompressedArch.lean): **C99 for the compressed writer.** On a platform whose `int` has 32 or 64 bits, for every symbol, a padding of at most 2^20 and blocks of at most 2^16 pixels: nothing overflows. `Write` panics if the pixels of the picture, a byte each, are more than the platform's largest slice, and otherwise makes the picture of exact arithmetic.

```lean
theorem C99_compressed {E : Ext} {unsjis : Nat → Option Nat} (hE : E.Ok unsjis) {c : AlignCache} (hc : CacheReachable c)
    {arrival : List Nat} (ha : Arrival arrival) {t : TextType} {text : Bytes} {opts : List EncodeOption} {q : QRCode}
    (h : newWith E c arrival t text opts = .ok q) {A : Arch} (hA : A.bits = 32 ∨ A.bits = 64) (hl : A.limit < 2 ^ (A.bits - 1))
    {p b : Nat} (hp : p ≤ 2 ^ 20) (hb : b ≤ 2 ^ 16) :
    imageOn A ⟨p, b⟩ q.mat = if (q.dimension * b + 2 * p) * (q.dimension * b + 2 * p) ≤ A.limit then image ⟨p, b⟩ q.mat else none
```

`QR.Compressed.C99_compressed_limits` (Verif/Props/CompressedArch.lean): **C99 for the compressed writer, the limits.** The largest pictures: 46340 pixels a side on a 32-bit platform, 65536 in WebAssembly, and no limit within these settings on 64 bits.

```lean
theorem C99_compressed_limits {E : Ext} {unsjis : Nat → Option Nat} (hE : E.Ok unsjis) {c : AlignCache} (hc : CacheReachable c)
    {arrival : List Nat} (ha : Arrival arrival) {t : TextType} {text : Bytes} {opts : List EncodeOption} {q : QRCode}
    (h : newWith E c arrival t text opts = .ok q) {p b : Nat} (hp : p ≤ 2 ^ 20) (hb : b ≤ 2 ^ 16) :
    (imageOn i386 ⟨p, b⟩ q.mat = if q.dimension * b + 2 * p ≤ 46340 then image ⟨p, b⟩ q.mat else none) ∧
    (imageOn wasm ⟨p, b⟩ q.mat = if q.dimension * b + 2 * p ≤ 65536 then image ⟨p, b⟩ q.mat else none) ∧
    imageOn amd64 ⟨p, b⟩ q.mat = image ⟨p, b⟩ q.mat
```

`QR.Compressed.C99_compressed_same` (Verif/Props/CompressedArch.lean)

```lean
theorem C99_compressed_same (o : Opt) (m : Matrix) : imageOn amd64 o m = image64 o m
```

## C100 – Writers of pictures in several goroutines (proved)

Any number of goroutines may draw symbols at the same time, with writers of their own or with shared ones. In every interleaving of the loads and stores of single bytes each goroutine draws exactly what it draws alone, nobody waits for anybody, and there is no data race - unless a writer with a transparent background is shared. Then there is a data race; still all calls of the drawing library but the fill of the background are those made alone, and the background is filled with alpha 0 and a red, green and blue that are each the given value or 0 (some interleavings mix them).

*the exception is part of the statement; the counterexample shows it occurs*

`QR.Painters.C100_alone` (Verif/Props/Painters.lean): **C100.** Any number of goroutines, writers and symbols, every interleaving: a goroutine that has finished drawing has made the calls it makes alone, unless it shares a writer that has a transparent background.

```lean
theorem C100_alone (scale : Scaler) (opts : Nat → Opts) (jobs : Nat → Job) {sched : List Nat} {s : St} (hs : run scale opts jobs sched (start opts jobs) = some s)
    {i : Nat} (hi : (s.painter i).todo = []) (hn : ¬ SharesTransparent opts jobs i) :
    (s.painter i).own.result = (draw scale (opts (jobs i).writer) (jobs i).mat).map (·.1)
```

`QR.Painters.C100_shared` (Verif/Props/Painters.lean): **C100, a shared writer with a transparent background.** All calls but the one that fills the background are those made alone, and that one is made with alpha 0 and a red, green and blue that are each as given or 0.

```lean
theorem C100_shared (scale : Scaler) (opts : Nat → Opts) (jobs : Nat → Job) {sched : List Nat} {s : St} (hs : run scale opts jobs sched (start opts jobs) = some s)
    {i : Nat} (hi : (s.painter i).todo = []) (ht : (opts (jobs i).writer).bgTransparent = true) :
    ∃ c, c.a = 0 ∧ (c.r = (opts (jobs i).writer).bgColor.r ∨ c.r = 0) ∧ (c.g = (opts (jobs i).writer).bgColor.g ∨ c.g = 0) ∧ (c.b = (opts (jobs i).writer).bgColor.b ∨ c.b = 0) ∧
      (s.painter i).own.result = (draw scale (opts (jobs i).writer) (jobs i).mat).map fun r => withBackground c r.1
```

`QR.Painters.C100_race` (Verif/Props/Painters.lean): **C100, data races.** There is a schedule with a data race exactly if two goroutines share a writer with a transparent background.

```lean
theorem C100_race (scale : Scaler) (opts : Nat → Opts) (jobs : Nat → Job) :
    (∃ sched s, run scale opts jobs sched (start opts jobs) = some s ∧ Race jobs s) ↔ ∃ i, SharesTransparent opts jobs i
```

`QR.Painters.C100_finishes` (Verif/Props/Painters.lean): **C100, nobody waits.** At any time a goroutine that has not finished can go on, and finishes after at most as many steps as its program is long if it alone is scheduled.

```lean
theorem C100_finishes (scale : Scaler) (opts : Nat → Opts) (jobs : Nat → Job) (i : Nat) : ∀ (s : St),
    ∃ n s', n ≤ (s.painter i).todo.length ∧ run scale opts jobs (List.replicate n i) s = some s' ∧ (s'.painter i).todo = []
```

`QR.Painters.C100_counterexample` (Verif/Props/Painters.lean): **C100, the difference shows.** Two goroutines draw a symbol with one light module: if one is done before the other begins, the first fills the background with a transparent white, the second with a transparent black; and there is an interleaving in which the second fills it with a mixture.

```lean
theorem C100_counterexample : let scale : Scaler := fun _ _ _ _ => (0, 0, 0, 0)
    let jobs : Nat → Job := fun _ => ⟨0, lightM⟩
    (∃ s, run scale (fun _ => glass) jobs (List.replicate 17 0 ++ List.replicate 17 1) (start (fun _ => glass) jobs) = some s ∧
      (s.painter 0).todo = [] ∧ (s.painter 1).todo = [] ∧ fills (s.painter 0).own.ops = [⟨255, 255, 255, 0⟩] ∧ fills (s.painter 1).own.ops = [⟨0, 0, 0, 0⟩]) ∧
    ∃ s, run scale (fun _ => glass) jobs ([1, 1] ++ List.replicate 17 0 ++ List.replicate 15 1) (start (fun _ => glass) jobs) = some s ∧
      (s.painter 1).todo = [] ∧ fills (s.painter 1).own.ops = [⟨255, 0, 0, 0⟩]
```

## C101 – Symbols are read in any direction and in the mirror (proved)

However often a symbol is turned by quarters and mirrored, in any order, the picture tells how to turn it back: the eight ways to look at it are all different, and exactly one of them, the symbol that was returned, has finder patterns in the upper left, upper right and lower left corners and a format word at its place. No text, version, level or mode ever produces a fourth finder pattern in the lower right corner, not even in version 1, which has no alignment pattern. So a reader that is not told the direction reads exactly the text (exception as in C01), and two symbols that look the same after turning and mirroring are the same.

*reading the text has the exception of C01 as a hypothesis*

`QR.C101_three_finders` (Verif/Props/Turn.lean): **C101.** No symbol has a fourth finder pattern: the lower right corner never shows one, whatever the text.

```lean
theorem C101_three_finders (h : newWith E c arrival t text opts = .ok q) :
    finderAt q.mat.bitmap 0 0 = true ∧ finderAt q.mat.bitmap 0 (q.dimension - 7) = true ∧
    finderAt q.mat.bitmap (q.dimension - 7) 0 = true ∧
    finderAt q.mat.bitmap (q.dimension - 7) (q.dimension - 7) = false
```

`QR.C101_one_way_up` (Verif/Props/Turn.lean): **C101.** However often a symbol is turned and mirrored, the eight views of the picture are different, and exactly one of them is right way up: the symbol that was returned.

```lean
theorem C101_one_way_up (h : newWith E c arrival t text opts = .ok q) {s : List (List Bool)} (hs : Seen q.mat.bitmap s) :
    (views s).Nodup ∧ q.mat.bitmap ∈ views s ∧ ∀ x ∈ views s, (upright x = true ↔ x = q.mat.bitmap)
```

`QR.C101_any_way` (Verif/Props/Turn.lean): **C101.** A reader that is not told how the picture was turned or mirrored recovers exactly the text (with the exception of C01).

```lean
theorem C101_any_way (h : newWith E c arrival t text opts = .ok q)
    (hx : ¬ (modeIn opts = encAuto ∧ AlnumThenKanji E.sjis (nats text))) {s : List (List Bool)} (hs : Seen q.mat.bitmap s) :
    decodeAnyWay unsjis s = some (nats text)
```

`QR.C101_same_view` (Verif/Props/Turn.lean): **C101.** Symbols of two calls that look the same after turning and mirroring are the same and carry the same text.

```lean
theorem C101_same_view {E : Ext} {unsjis : Nat → Option Nat} (hE : E.Ok unsjis) {c c' : AlignCache} (hc : CacheReachable c)
    (hc' : CacheReachable c') {arrival arrival' : List Nat} (ha : Arrival arrival) (ha' : Arrival arrival') {t t' : TextType}
    {text text' : Bytes} {opts opts' : List EncodeOption} {q q' : QRCode}
    (h : newWith E c arrival t text opts = .ok q) (h' : newWith E c' arrival' t' text' opts' = .ok q')
    {s : List (List Bool)} (hs : Seen q.mat.bitmap s) (hs' : Seen q'.mat.bitmap s) :
    q.mat.bitmap = q'.mat.bitmap ∧
    (¬ (modeIn opts = encAuto ∧ AlnumThenKanji E.sjis (nats text)) →
      ¬ (modeIn opts' = encAuto ∧ AlnumThenKanji E.sjis (nats text')) → nats text = nats text')
```

## C102 – A reader that is told nothing finds the symbol in the pixels (proved)

A picture in which every dark module is a square of equally many dark pixels, and nothing else is dark, contains the text for a reader that gets only the pixels: it finds the rectangle that contains all that is dark, the size of a module (a seventh of the upper edge of a finder pattern, and the picture must consist of such squares), the direction, the mirroring and the version on its own. That holds for every size of a module and every border, after any quarter turns and mirrorings, and so for the pictures of the compressed writer, of the image writer with rectangles, and of the command line program (exception as in C01).

*reading the text has the exception of C01 as a hypothesis*

`QR.C102_photo` (Verif/Props/Photo.lean): **C102.** If the dark pixels of a picture are those of the symbol, every module a square of `b` by `b` pixels, anywhere in the picture, and the picture is turned and mirrored in any way, then the reader that is told nothing reads exactly the text.

```lean
theorem C102_photo {E : Ext} {unsjis : Nat → Option Nat} (hE : E.Ok unsjis) {c : AlignCache} (hc : CacheReachable c)
    {arrival : List Nat} (ha : Arrival arrival) {t : TextType} {text : Bytes} {opts : List EncodeOption} {q : QRCode}
    (h : newWith E c arrival t text opts = .ok q)
    (hx : ¬ (modeIn opts = encAuto ∧ AlnumThenKanji E.sjis (nats text)))
    {b left top : Nat} (hb : 0 < b) {p : List (List Bool)} (hp : Shows p left top (inflate b q.mat.bitmap))
    {s : List (List Bool)} (hs : Seen p s) : decodePhoto unsjis s = some (nats text)
```

`QR.C102_compressed` (Verif/Props/Photo.lean): **C102, compressed writer.** The picture, turned and mirrored in any way, contains the text for a reader that is told nothing.

```lean
theorem C102_compressed {E : Ext} {unsjis : Nat → Option Nat} (hE : E.Ok unsjis) {c : AlignCache} (hc : CacheReachable c)
    {arrival : List Nat} (ha : Arrival arrival) {t : TextType} {text : Bytes} {opts : List EncodeOption} {q : QRCode}
    (h : newWith E c arrival t text opts = .ok q)
    (hx : ¬ (modeIn opts = encAuto ∧ AlnumThenKanji E.sjis (nats text))) {padding blockSize : Nat} (hpos : 0 < blockSize) :
    ∃ img, Compressed.write (some ⟨padding, blockSize⟩) q.mat = some img ∧
      ∀ s, Seen (photo img.maxX.toNat img.maxY.toNat fun x y => decide (img.at' x y = some 0x00)) s →
        decodePhoto unsjis s = some (nats text)
```

`QR.Standard.C102_standard` (Verif/Props/Photo.lean): **C102, image writer.** With rectangles, no halftone, gradient or logo, colours that can be told apart and borders that are not negative: the picture, turned and mirrored in any way, contains the text for a reader that is told nothing but the colour of dark modules.

```lean
theorem C102_standard {E : Ext} {unsjis : Nat → Option Nat} (hE : E.Ok unsjis) {c : AlignCache} (hc : CacheReachable c)
    {arrival : List Nat} (ha : Arrival arrival) {t : TextType} {text : Bytes} {opts : List EncodeOption} {q : QRCode}
    (h : newWith E c arrival t text opts = .ok q)
    (hx : ¬ (modeIn opts = encAuto ∧ AlnumThenKanji E.sjis (nats text)))
    (scale : Scaler) {o : Opts} (hp : Plain o) (hcol : Contrast o)
    (hb : 0 ≤ o.borders.top ∧ 0 ≤ o.borders.right ∧ 0 ≤ o.borders.bottom ∧ 0 ≤ o.borders.left) :
    ∃ ops o' cv, draw scale o q.mat = some (ops, o') ∧ paintAll ops = some cv ∧
      ∀ s, Seen (photo cv.w.toNat cv.h.toNat fun x y => decide (cv.pix x y = o.qrColor)) s →
        decodePhoto unsjis s = some (nats text)
```

`QR.Cli.C102_cli` (Verif/Props/Photo.lean): **C102, command line.** Without circles and halftone the picture for the file, turned and mirrored in any way, contains the text for a reader that is told nothing but that dark means black.

```lean
theorem C102_cli {E : Ext} {unsjis : Nat → Option Nat} (hE : E.Ok unsjis) {c : AlignCache} (hc : CacheReachable c)
    {arrival : List Nat} (ha : Arrival arrival) (readImage : Bytes → Option Image) (f : Flags)
    {top right bottom left : Nat} (hb : parseBorders f.borders = some [top, right, bottom, left])
    {q : QRCode} (hq : new E c arrival .string f.text = .ok q) (hx : ¬ AlnumThenKanji E.sjis (nats f.text))
    (ht : f.terminal = false) (hcirc : f.circle = false) (hh : f.halftone = [] ∨ readImage f.halftone = none) (scale : Scaler) :
    ∃ o ops o' cv, run E c arrival readImage f = .file f.output o q ∧ draw scale o q.mat = some (ops, o') ∧ paintAll ops = some cv ∧
      ∀ s, Seen (photo cv.w.toNat cv.h.toNat fun x y => decide (cv.pix x y = ⟨0, 0, 0, 255⟩)) s →
        decodePhoto unsjis s = some (nats f.text)
```

## C103 – Settings that make no sense (proved)

compressed.Option takes any padding and block size, WithBorderWidth any widths, and nothing checks them. Compressed writer: Write panics exactly if the block size is positive and the padding p satisfies -d < p < 0, where d is the side of the symbol in pixels; with a padding of -d or below it makes a picture at negative coordinates which contains the text; with a block size of 0 or below the picture is blank whatever the text, and no error says so. Image writer: whatever the borders, as long as the picture has at least one pixel, it has the size Attribute reports and shows the picture without borders, moved by the left and the top border, so a negative border silently cuts off that many pixels of the symbol; with right and bottom borders of 1 - d the picture of every symbol is one pixel in the foreground colour.

*pictures of negative size of the image writer are not modelled*

`QR.Compressed.C103_panics` (Verif/Props/CompressedAny.lean): **C103, compressed writer, panics.** Whatever the padding and the block size, `Write` panics exactly if the blocks have an extent and the padding is negative, but not so much that the symbol lies left of and above the origin altogether.

```lean
theorem C103_panics (hE : E.Ok unsjis) (hc : CacheReachable c) (ha : Arrival arrival) (h : newWith E c arrival t text opts = .ok q)
    (padding blockSize : Int) : write (some ⟨padding, blockSize⟩) q.mat = none ↔
      0 < blockSize ∧ -(q.dimension * blockSize) < padding ∧ padding < 0
```

`QR.Compressed.C103_blank` (Verif/Props/CompressedAny.lean): **C103, compressed writer, no blocks.** With a block size of 0 or below there is no dark pixel in the picture, whatever the symbol.

```lean
theorem C103_blank (m : Matrix) (padding : Int) {blockSize : Int} (hb : blockSize ≤ 0) :
    ∃ img, write (some ⟨padding, blockSize⟩) m = some img ∧ ∀ px py, img.at' px py ≠ some 0x00
```

`QR.Compressed.C103_negative` (Verif/Props/CompressedAny.lean): **C103, compressed writer, left of and above the origin.** If the padding is so negative that nothing of the symbol is right of or below the origin, the picture is made after all, at negative coordinates, and contains the text.

```lean
theorem C103_negative (hE : E.Ok unsjis) (hc : CacheReachable c) (ha : Arrival arrival) (h : newWith E c arrival t text opts = .ok q)
    (hx : ¬ (modeIn opts = encAuto ∧ AlnumThenKanji E.sjis (nats text))) {padding blockSize : Int} (hb : 0 < blockSize)
    (hp : padding ≤ -(q.dimension * blockSize)) :
    ∃ img, write (some ⟨padding, blockSize⟩) q.mat = some img ∧ img.minX = q.dimension * blockSize + 2 * padding ∧ img.minY = img.minX ∧
      img.maxX = 0 ∧ img.maxY = 0 ∧
      ∀ s, Seen (photo (-img.minX).toNat (-img.minY).toNat fun x y => decide (img.at' (img.minX + x) (img.minY + y) = some 0x00)) s →
        decodePhoto unsjis s = some (nats text)
```

`QR.Standard.C103_cut` (Verif/Props/CompressedAny.lean): **C103, image writer.** Whatever the borders, also negative ones, as long as anything is left of the picture: the picture has the size `Attribute` reports and shows the picture without borders, moved by the left and the top border, on the background. So a negative border cuts off as many pixels of the symbol as it says.

```lean
theorem C103_cut (scale : Scaler) {o : Opts} (hp : Plain o) (m : Matrix) {dim : Nat} (hw : m.width = dim) (hh : m.height = dim)
    (hd : 0 < dim) (hpos : 0 < (o.attribute dim).w ∧ 0 < (o.attribute dim).h) :
    ∃ ops o' cv ops0 o0' cv0, draw scale o m = some (ops, o') ∧ paintAll ops = some cv ∧
      cv.w = (o.attribute dim).w ∧ cv.h = (o.attribute dim).h ∧
      draw scale o.borderless m = some (ops0, o0') ∧ paintAll ops0 = some cv0 ∧ cv0.w = dim * o.qrBlockWidth ∧ cv0.h = dim * o.qrBlockWidth ∧
      ∀ px py, 0 ≤ px → px < cv.w → 0 ≤ py → py < cv.h →
        cv.pix px py = if 0 ≤ px - o.borders.left ∧ px - o.borders.left < cv0.w ∧ 0 ≤ py - o.borders.top ∧ py - o.borders.top < cv0.h then
          cv0.pix (px - o.borders.left) (py - o.borders.top) else over o.backgroundColor.1 ⟨0, 0, 0, 0⟩
```

`QR.Standard.C103_nothing_left` (Verif/Props/CompressedAny.lean): **C103, image writer, nothing left.** With borders of `1 - d` pixels on the right and at the bottom, where `d` is the side of the symbol in pixels, and none on the left and at the top, the picture of every symbol is one pixel in the foreground colour.

```lean
theorem C103_nothing_left (hE : E.Ok unsjis) (hc : CacheReachable c) (ha : Arrival arrival) (h : newWith E c arrival t text opts = .ok q)
    (scale : Scaler) {o : Opts} (hp : Plain o) (hfg : o.qrColor.a = 255)
    (hb : o.borders = ⟨0, 1 - q.dimension * o.qrBlockWidth, 1 - q.dimension * o.qrBlockWidth, 0⟩) :
    ∃ ops o' cv, draw scale o q.mat = some (ops, o') ∧ paintAll ops = some cv ∧ cv.w = 1 ∧ cv.h = 1 ∧ cv.pix 0 0 = o.qrColor
```

## C104 – Light on dark (proved)

In the negative of a picture of a symbol (turned and mirrored in any way, any module size, any borders) there is never another symbol: the reader that is told nothing finds none there. So a reader that looks at a picture and at its negative reads exactly the text from both, and a reader that tries every colour of a picture as the dark one finds exactly one text, the right one, in the pictures of the compressed writer and of the image writer with rectangles, whatever two colours were chosen, also on a transparent background (exception as in C01).

*reading the text has the exception of C01 as a hypothesis*

`QR.C104_negative` (Verif/Props/Negative.lean): **C104, the negative.** In the negative of a picture that shows a symbol (as in C102), turned and mirrored in any way, the reader finds nothing; so the reader that looks at both reads exactly the text, from the picture and from its negative.

```lean
theorem C104_negative (hE : E.Ok unsjis) (hc : CacheReachable c) (ha : Arrival arrival) (h : newWith E c arrival t text opts = .ok q)
    (hx : ¬ (modeIn opts = encAuto ∧ AlnumThenKanji E.sjis (nats text)))
    {b left top : Nat} (hb : 0 < b) {p : List (List Bool)} (hp : Shows p left top (inflate b q.mat.bitmap))
    {s : List (List Bool)} (hs : Seen p s) :
    decodePhoto unsjis (negative s) = none ∧ decodeEither unsjis s = some (nats text) ∧ decodeEither unsjis (negative s) = some (nats text)
```

`QR.C104_compressed` (Verif/Props/Negative.lean): **C104, compressed writer.** The reader that tries every colour finds one text in the picture, the right one.

```lean
theorem C104_compressed (hE : E.Ok unsjis) (hc : CacheReachable c) (ha : Arrival arrival) (h : newWith E c arrival t text opts = .ok q)
    (hx : ¬ (modeIn opts = encAuto ∧ AlnumThenKanji E.sjis (nats text))) {padding blockSize : Nat} (hpos : 0 < blockSize) :
    ∃ img, Compressed.write (some ⟨padding, blockSize⟩) q.mat = some img ∧
      readings unsjis (coloured img.maxX.toNat img.maxY.toNat fun x y => img.at' x y) = [nats text]
```

`QR.Standard.C104_standard` (Verif/Props/Negative.lean): **C104, image writer.** With rectangles, no halftone, gradient or logo, any two colours that can be told apart (light on dark, dark on light, anything on a transparent background) and borders that are not negative: the reader that tries every colour of the picture as the dark one finds one text, the right one.

```lean
theorem C104_standard (hE : E.Ok unsjis) (hc : CacheReachable c) (ha : Arrival arrival) (h : newWith E c arrival t text opts = .ok q)
    (hx : ¬ (modeIn opts = encAuto ∧ AlnumThenKanji E.sjis (nats text)))
    (scale : Scaler) {o : Opts} (hp : Plain o) (hcol : Contrast o)
    (hb : 0 ≤ o.borders.top ∧ 0 ≤ o.borders.right ∧ 0 ≤ o.borders.bottom ∧ 0 ≤ o.borders.left) :
    ∃ ops o' cv, draw scale o q.mat = some (ops, o') ∧ paintAll ops = some cv ∧
      readings unsjis (coloured cv.w.toNat cv.h.toNat fun x y => cv.pix x y) = [nats text]
```

## C105 – Shapes computed with float64 (proved)

The functions of the shapes package compute with float64, and a compiler may fuse a multiplication with the subtraction that follows. Whatever is fused: in a block of whole pixels the rectangle, the circle, LiquidBlock, RoundedFinder and SquareFinder are computed without any error, and all others draw what exact arithmetic would draw, call by call, with every coordinate, width and radius off by at most a thousandth of a pixel; a factor given to VStripeBlock, SquareBlocks or CircleBlocks is treated by the range check as its exact value unless it is within 2^-48 of a bound without being the bound. Rounding never costs a module: with any shape whose factor in use is above two fifths, in blocks of at least 10 pixels on a picture of at most 2^30 pixels either way, with or without a gradient and a logo, a scanner that looks at one pixel at the centre of every block reads exactly the text (exceptions as in C01, conditions on the logo as in C69).

*finite numbers below 2^30 (NaN, infinities: C96); the contexts of blocks are exact integers, as draw computes them; halftone sub-blocks: C106; the rasterizer as in C83*

`QR.Standard.C105_exact` (Verif/Props/Shapes64.lean): **C105, the functions with halves only.** In blocks of whole pixels the rectangle, the circle, `LiquidBlock`, `RoundedFinder` and `SquareFinder` are computed by `float64` exactly.

```lean
theorem C105_exact (fuse : Nat → Bool) {c : Ctx} (hc : Whole c) :
    (∀ fin, LibShape.cmds64 float64Round fuse .rectangle fin c = LibShape.cmds .rectangle fin c) ∧ (∀ fin, LibShape.cmds64 float64Round fuse .circle fin c = LibShape.cmds .circle fin c) ∧
    DrawFn.cmds64 float64Round fuse .liquidBlock c = DrawFn.cmds .liquidBlock c ∧ DrawFn.cmds64 float64Round fuse .roundedFinder c = DrawFn.cmds .roundedFinder c ∧
    DrawFn.cmds64 float64Round fuse .squareFinder c = DrawFn.cmds .squareFinder c
```

`QR.Standard.C105_close` (Verif/Props/Shapes64.lean): **C105, all functions.** In blocks of whole pixels, what a drawing function draws when it computes with `float64` is what it draws when it computes exactly, call by call, with every number off by at most a thousandth of a pixel; for any factor which the range check treats as its exact value.

```lean
theorem C105_close {c : Ctx} (hc : Whole c) (fuse : Nat → Bool) {d : DrawFn} (hd : d.decides float64Round) :
    List.Forall₂ (CmdCl (1 / 1000)) (d.cmds64 float64Round fuse c) (d.cmds c)
```

`QR.Standard.C105_close_any` (Verif/Props/Shapes64.lean): For every factor, also one that rounding moves across a bound, there is an exact drawing with a factor hardly different from the one in use.

```lean
theorem C105_close_any {c : Ctx} (hc : Whole c) (fuse : Nat → Bool) (d : DrawFn) :
    ∃ d', SameKind d d' ∧ Cl (1 / 2 ^ 48) (d.factor64 float64Round) d'.factor ∧ List.Forall₂ (CmdCl (1 / 1000)) (d.cmds64 float64Round fuse c) (d'.cmds c)
```

`QR.Standard.C105_factors` (Verif/Props/Shapes64.lean): **C105, which factors.** The range check treats a factor as its exact value if it is one of the bounds or not within 2^-48 of them.

```lean
theorem C105_factors {r : Rat} (h1 : r = 1 ∨ 1 / 2 ^ 48 < |r - 1|) :
    (r = 6 / 10 ∨ 1 / 2 ^ 48 < |r - 6 / 10| → (DrawFn.vStripeBlock r).decides float64Round) ∧
    (r = 1 / 10 ∨ 1 / 2 ^ 48 < |r - 1 / 10| → (DrawFn.squareBlocks r).decides float64Round ∧ (DrawFn.circleBlocks r).decides float64Round)
```

`QR.Standard.C105_text` (Verif/Props/Shapes64.lean): **C105, readable.** C83 with shapes computed with `float64`: any shape of this library that is not too thin in blocks of at least 10 pixels, on a picture of at most 2^30 pixels either way, no halftone and no logo (or one that is too large), borders that are not negative, colours that can be told apart, with or without a gradient: drawing succeeds, and a scanner that looks at one pixel at the centre of every block reads exactly the text.

```lean
theorem C105_text {E : Ext} {unsjis : Nat → Option Nat} (hE : E.Ok unsjis) {c : AlignCache} (hc : CacheReachable c)
    {arrival : List Nat} (ha : Arrival arrival) {t : TextType} {text : Bytes} {opts : List EncodeOption} {q : QRCode}
    (h : newWith E c arrival t text opts = .ok q)
    (hx : ¬ (modeIn opts = encAuto ∧ AlnumThenKanji E.sjis (nats text)))
    (scale : Scaler) {cov : Coverage} (hcov : Rasters cov) (blend : Blend) {put : Put} (hput : PutsOver put) (direction : Rat → Rat × Rat)
    (assembled : Nat → DrawFn × DrawFn) (fuse : Shape → Bool → Ctx → Nat → Bool) {o : Opts} (hw : 10 ≤ o.qrBlockWidth) (hbold : (meaning assembled o.getShape).bold64 float64Round) (hht : o.halftone = none)
    (hcol : Contrast o) (hg : ∀ g, o.qrGradient = some g → GradientContrast o g)
    (hb : 0 ≤ o.borders.top ∧ 0 ≤ o.borders.right ∧ 0 ≤ o.borders.bottom ∧ 0 ≤ o.borders.left)
    (hsize : (o.attribute q.dimension).w ≤ 2 ^ 30 ∧ (o.attribute q.dimension).h ≤ 2 ^ 30)
    (hl : ∀ img, o.logo = some img → ¬ (o.logoSizeMultiplier * (img.maxX - img.minX) ≤ (o.attribute q.dimension).w ∧
      o.logoSizeMultiplier * (img.maxY - img.minY) ≤ (o.attribute q.dimension).h)) :
    ∃ ops o' cv, draw scale o q.mat = some (ops, o') ∧ paintAllRun cov (run64 assembled fuse) blend (plainGradient put direction) ops = some cv ∧
      ∀ pt, AtCentres o q.dimension pt → decode unsjis (seenInk o q.dimension cv pt) = some (nats text)
```

`QR.Standard.C105_text_logo` (Verif/Props/Shapes64.lean): **C105, with a logo** as in C69, for a scanner that corrects errors.

```lean
theorem C105_text_logo {E : Ext} {unsjis : Nat → Option Nat} (hE : E.Ok unsjis) (hRS : E.rs = rsEncode) {c : AlignCache} (hc : CacheReachable c)
    {arrival : List Nat} (ha : Arrival arrival) {t : TextType} {text : Bytes} {opts : List EncodeOption} {q : QRCode}
    (h : newWith E c arrival t text opts = .ok q)
    (hx : ¬ (modeIn opts = encAuto ∧ AlnumThenKanji E.sjis (nats text)))
    {v : Nat} (hv : q.dimension = 17 + 4 * v)
    (hlv : ¬ (levelIn opts = .L ∧ v ∈ [1, 2, 3, 4, 5, 6, 36] ∨ levelIn opts = .M ∧ v ∈ [2, 4]))
    (scale : Scaler) {cov : Coverage} (hcov : Rasters cov) (blend : Blend) {put : Put} (hput : PutsOver put) (direction : Rat → Rat × Rat)
    (assembled : Nat → DrawFn × DrawFn) (fuse : Shape → Bool → Ctx → Nat → Bool) {o : Opts} (hw : 10 ≤ o.qrBlockWidth) (hbold : (meaning assembled o.getShape).bold64 float64Round) (hht : o.halftone = none)
    (hcol : Contrast o) (hg : ∀ g, o.qrGradient = some g → GradientContrast o g)
    (hbx : 0 ≤ o.borders.left ∧ o.borders.left ≤ 2 * o.qrBlockWidth ∧ o.borders.right = o.borders.left)
    (hby : 0 ≤ o.borders.top ∧ o.borders.top ≤ 2 * o.qrBlockWidth ∧ o.borders.bottom = o.borders.top)
    (hsize : (o.attribute q.dimension).w ≤ 2 ^ 30 ∧ (o.attribute q.dimension).h ≤ 2 ^ 30)
    {img : Image} (hl : o.logo = some img) (hmin : img.minX = 0 ∧ img.minY = 0) (hmax : 0 ≤ img.maxX ∧ 0 ≤ img.maxY)
    (hk : 5 ≤ o.logoSizeMultiplier) :
    ∃ ops o' cv, draw scale o q.mat = some (ops, o') ∧ paintAllRun cov (run64 assembled fuse) blend (plainGradient put direction) ops = some cv ∧
      ∀ pt, AtCentres o q.dimension pt → decodeDamaged unsjis (seenInk o q.dimension cv pt) = some (nats text)
```

## C106 – Pictures as any machine computes them (proved)

With int of 32 or 64 bits, float64 coordinates, and whichever operations the compiler fuses (in the coordinates of halftone sub-blocks, in the shapes, in gradients): within the limits of C99, drawing a symbol makes one by one the calls of exact arithmetic; coordinates that are whole numbers of pixels are exact, so that without a halftone image, or with blocks whose width is a multiple of three, nothing differs, and the others are off by at most a thousandth of a pixel; it panics exactly if the picture does not fit into the machine's largest slice. The picture can be read on every machine: with any shape of the library whose factor in use is above two fifths, in blocks of at least 10 pixels, with or without a halftone image (conditions as in C84), a gradient and a logo (conditions as in C69), a scanner that looks at one pixel at the centre of every block reads exactly the text (exceptions as in C01).

*rounding to nearest as in Model/Float64; the coverage computed by gg from the coordinates, scaling of the halftone image and blending of the logo stay parameters, as in C83 and C84; the core (matrix, penalty) computes with int values far below 2^31*

`QR.Standard.C106_calls` (Verif/Props/Machine.lean): **C106, the calls.** On every machine, within the limits of C99, `draw` makes the calls of exact arithmetic, one by one; coordinates that are whole are exact, and the others (a third of a block, in halftone pictures) are off by at most a thousandth of a pixel. It panics exactly if the picture is larger than the machine's largest slice.

```lean
theorem C106_calls {E : Ext} {unsjis : Nat → Option Nat} (hE : E.Ok unsjis) {c : AlignCache} (hc : CacheReachable c)
    {arrival : List Nat} (ha : Arrival arrival) {t : TextType} {text : Bytes} {opts : List EncodeOption} {q : QRCode}
    (h : newWith E c arrival t text opts = .ok q) (scale : Scaler) {o : Opts} (hm : Small o) (M : Machine) (hA : M.arch.bits = 32 ∨ M.arch.bits = 64) :
    (¬ 4 * ((o.attribute q.dimension).w.natAbs * (o.attribute q.dimension).h.natAbs) ≤ M.arch.limit → drawM M float64Round scale o q.mat = none) ∧
    (4 * ((o.attribute q.dimension).w.natAbs * (o.attribute q.dimension).h.natAbs) ≤ M.arch.limit → ∀ ops o', draw scale o q.mat = some (ops, o') →
      ∃ ops', drawM M float64Round scale o q.mat = some (ops', o') ∧ List.Forall₂ (OpCl (1 / 1000)) ops' ops ∧ (NoThirds o → ops' = ops))
```

`QR.Standard.C106_text` (Verif/Props/Machine.lean): **C106, readable.** On every machine, whatever it fuses: within the limits of C99 and with a picture that fits, any shape of this library that is not too thin, with or without a halftone image (under the conditions of C84) and a gradient, no logo (or one that is too large), borders that are not negative, colours that can be told apart: drawing succeeds, and a scanner that looks at one pixel at the centre of every block reads exactly the text.

```lean
theorem C106_text {E : Ext} {unsjis : Nat → Option Nat} (hE : E.Ok unsjis) {c : AlignCache} (hc : CacheReachable c)
    {arrival : List Nat} (ha : Arrival arrival) {t : TextType} {text : Bytes} {opts : List EncodeOption} {q : QRCode}
    (h : newWith E c arrival t text opts = .ok q)
    (hx : ¬ (modeIn opts = encAuto ∧ AlnumThenKanji E.sjis (nats text)))
    (M : Machine) (hA : M.arch.bits = 32 ∨ M.arch.bits = 64)
    (scale : Scaler) {cov : Coverage} (hcov : Rasters cov) (blend : Blend) {put : Put} (hput : PutsOver put) (direction : Rat → Rat × Rat)
    (assembled : Nat → DrawFn × DrawFn) {o : Opts} (hm : Small o) (hw : 10 ≤ o.qrBlockWidth) (hbold : (meaning assembled o.getShape).bold64 float64Round)
    (hht : ∀ himg, o.halftone = some himg → SubPixels o (meaning assembled o.getShape))
    (hcol : Contrast o) (hg : ∀ g, o.qrGradient = some g → GradientContrast o g)
    (hb : 0 ≤ o.borders.top ∧ 0 ≤ o.borders.right ∧ 0 ≤ o.borders.bottom ∧ 0 ≤ o.borders.left)
    (hfit : 4 * ((o.attribute q.dimension).w.natAbs * (o.attribute q.dimension).h.natAbs) ≤ M.arch.limit)
    (hl : ∀ img, o.logo = some img → ¬ (o.logoSizeMultiplier * (img.maxX - img.minX) ≤ (o.attribute q.dimension).w ∧
      o.logoSizeMultiplier * (img.maxY - img.minY) ≤ (o.attribute q.dimension).h)) :
    ∃ ops o' cv, drawM M float64Round scale o q.mat = some (ops, o') ∧ M.paint cov (meaning assembled) blend put direction ops = some cv ∧
      ∀ pt, AtCentres o q.dimension pt → decode unsjis (seenInk o q.dimension cv pt) = some (nats text)
```

`QR.Standard.C106_text_logo` (Verif/Props/Machine.lean): **C106, with a logo** as in C69, for a scanner that corrects errors, with or without a safe zone.

```lean
theorem C106_text_logo {E : Ext} {unsjis : Nat → Option Nat} (hE : E.Ok unsjis) (hRS : E.rs = rsEncode) {c : AlignCache} (hc : CacheReachable c)
    {arrival : List Nat} (ha : Arrival arrival) {t : TextType} {text : Bytes} {opts : List EncodeOption} {q : QRCode}
    (h : newWith E c arrival t text opts = .ok q)
    (hx : ¬ (modeIn opts = encAuto ∧ AlnumThenKanji E.sjis (nats text)))
    {v : Nat} (hv : q.dimension = 17 + 4 * v)
    (hlv : ¬ (levelIn opts = .L ∧ v ∈ [1, 2, 3, 4, 5, 6, 36] ∨ levelIn opts = .M ∧ v ∈ [2, 4]))
    (M : Machine) (hA : M.arch.bits = 32 ∨ M.arch.bits = 64)
    (scale : Scaler) {cov : Coverage} (hcov : Rasters cov) (blend : Blend) {put : Put} (hput : PutsOver put) (direction : Rat → Rat × Rat)
    (assembled : Nat → DrawFn × DrawFn) {o : Opts} (hm : Small o) (hw : 10 ≤ o.qrBlockWidth) (hbold : (meaning assembled o.getShape).bold64 float64Round)
    (hht : ∀ himg, o.halftone = some himg → SubPixels o (meaning assembled o.getShape))
    (hcol : Contrast o) (hg : ∀ g, o.qrGradient = some g → GradientContrast o g)
    (hbx : 0 ≤ o.borders.left ∧ o.borders.left ≤ 2 * o.qrBlockWidth ∧ o.borders.right = o.borders.left)
    (hby : 0 ≤ o.borders.top ∧ o.borders.top ≤ 2 * o.qrBlockWidth ∧ o.borders.bottom = o.borders.top)
    (hfit : 4 * ((o.attribute q.dimension).w.natAbs * (o.attribute q.dimension).h.natAbs) ≤ M.arch.limit)
    {img : Image} (hl : o.logo = some img) (hmin : img.minX = 0 ∧ img.minY = 0) (hmax : 0 ≤ img.maxX ∧ 0 ≤ img.maxY)
    (hk : 5 ≤ o.logoSizeMultiplier) :
    ∃ ops o' cv, drawM M float64Round scale o q.mat = some (ops, o') ∧ M.paint cov (meaning assembled) blend put direction ops = some cv ∧
      ∀ pt, AtCentres o q.dimension pt → decodeDamaged unsjis (seenInk o q.dimension cv pt) = some (nats text)
```

## C107 – Pictures in JPEG, the default format (partial)

JPEG, the default format, ignores transparency and keeps brightness only approximately. A reader that is told nothing (it takes for dark what is below the middle between the darkest and the lightest pixel, looks at the negative too, and finds the symbol as in C102) reads exactly the text of a plain picture as long as every pixel has changed its brightness by less than a quarter of the contrast, whether dark on light or light on dark, turned or mirrored, transparent or not; the compressed writer and the command line program leave room for any change by 63 of 255. In the first picture of a writer WithBgTransparent makes no difference for JPEG, as the source says. This is false for later pictures: with a transparent background and a black foreground every later JPEG of the same writer is black all over.

*that WithBgTransparent makes no difference for JPEG holds for the first picture of a writer and is false for later ones (counterexample proved, cf. C54); everything else is proved; of image/jpeg only the conversion to brightness is modelled, its rounding is the change allowed*

`QR.C107_grey` (Verif/Props/Grey.lean): **C107, any picture.** A picture that shows the symbol (as in C102), turned and mirrored in any way, with the brightness `d` for dark and `l` for light pixels (or light on dark): if every pixel is changed by less than a quarter of the difference, the reader that is told nothing reads exactly the text.

```lean
theorem C107_grey (hE : E.Ok unsjis) (hc : CacheReachable c) (ha : Arrival arrival) (h : newWith E c arrival t text opts = .ok q)
    (hx : ¬ (modeIn opts = encAuto ∧ AlnumThenKanji E.sjis (nats text)))
    {b left top : Nat} (hb : 0 < b) {p : List (List Bool)} (hp : Shows p left top (inflate b q.mat.bitmap)) {s : List (List Bool)} (hs : Seen p s)
    {e d l : Nat} (h4 : d + 4 * e < l ∨ l + 4 * e < d) {g : List (List Nat)} (hg : Near e (greys d l s) g) : decodeGrey unsjis g = some (nats text)
```

`QR.Standard.C107_standard` (Verif/Props/Grey.lean): **C107, image writer.** With rectangles, no halftone, gradient or logo, colours that can be told apart and borders that are not negative: if the brightness of foreground and background (transparent or not) differ by more than `4 e`, and JPEG (or a printer, or a camera) changes the brightness of every pixel by `e` at most, the reader that is told nothing reads exactly the text.

```lean
theorem C107_standard (hE : E.Ok unsjis) (hc : CacheReachable c) (ha : Arrival arrival) (h : newWith E c arrival t text opts = .ok q)
    (hx : ¬ (modeIn opts = encAuto ∧ AlnumThenKanji E.sjis (nats text)))
    (scale : Scaler) {o : Opts} (hp : Plain o) (hcol : Contrast o)
    (hb : 0 ≤ o.borders.top ∧ 0 ≤ o.borders.right ∧ 0 ≤ o.borders.bottom ∧ 0 ≤ o.borders.left)
    {e d l : Nat} (hd : d = brightness o.qrColor.jpeg) (hl : l = brightness o.bgColor.jpeg) (h4 : d + 4 * e < l ∨ l + 4 * e < d) :
    ∃ ops o' cv, draw scale o q.mat = some (ops, o') ∧ paintAll ops = some cv ∧ ∀ g, Near e cv.grey g → decodeGrey unsjis g = some (nats text)
```

`QR.Standard.C107_brightness` (Verif/Props/Grey.lean): The brightness is the one of ITU-R BT.601, 0.299 red + 0.587 green + 0.114 blue, rounded: off by less than 0.504.

```lean
theorem C107_brightness (r g b a : UInt8) :
    let y := brightness (RGBA.jpeg ⟨r, g, b, a⟩)
    y ≤ 255 ∧ 1000 * y ≤ 299 * r.toNat + 587 * g.toNat + 114 * b.toNat + 504 ∧ 299 * r.toNat + 587 * g.toNat + 114 * b.toNat ≤ 1000 * y + 504
```

`QR.Standard.C107_transparent` (Verif/Props/Grey.lean): **C107, transparency.** JPEG does not show it: with a new writer, `WithBgTransparent` gives the same red, green and blue everywhere.

```lean
theorem C107_transparent (scale : Scaler) {o : Opts} (hp : Plain o) (ha : o.bgColor.a = 255) (hf : o.bgTransparent = false) {m : Matrix}
    (hw : 0 < canvasW o m) (hh : 0 < canvasH o m) :
    ∃ ops o' cv ops' o'' cv', draw scale o m = some (ops, o') ∧ paintAll ops = some cv ∧
      draw scale { o with bgTransparent := true } m = some (ops', o'') ∧ paintAll ops' = some cv' ∧ cv'.w = cv.w ∧ cv'.h = cv.h ∧
      ∀ px py, 0 ≤ px ∧ px < cv.w → 0 ≤ py ∧ py < cv.h → (cv'.pix px py).jpeg = (cv.pix px py).jpeg
```

`QR.Standard.C107_again_counterexample` (Verif/Props/Grey.lean): **C107, a writer used again.** With a transparent background and black as foreground, every picture after the first is black all over in JPEG, whatever the texts.

```lean
theorem C107_again_counterexample (hE : E.Ok unsjis) (hc : CacheReachable c) (ha : Arrival arrival) (h : newWith E c arrival t text opts = .ok q)
    (scale : Scaler) {o : Opts} (hp : Plain o) (ht : o.bgTransparent = true) (hfg : o.qrColor = ⟨0, 0, 0, 255⟩) {ops : List DrawOp} {o' : Opts} (hd : draw scale o q.mat = some (ops, o'))
    (m : Matrix) {px py : Int} (hpx : 0 ≤ px ∧ px < canvasW o m) (hpy : 0 ≤ py ∧ py < canvasH o m) :
    ∃ ops' o'' cv, draw scale o' m = some (ops', o'') ∧ paintAll ops' = some cv ∧ cv.w = canvasW o m ∧ cv.h = canvasH o m ∧ (cv.pix px py).jpeg = (0, 0, 0)
```

`QR.Compressed.C107_compressed` (Verif/Props/Grey.lean): **C107, compressed writer.** The picture of the compressed writer, each pixel changed by 63 of 255 at most (printed, photographed), contains the text for the reader that is told nothing.

```lean
theorem C107_compressed (hE : E.Ok unsjis) (hc : CacheReachable c) (ha : Arrival arrival) (h : newWith E c arrival t text opts = .ok q)
    (hx : ¬ (modeIn opts = encAuto ∧ AlnumThenKanji E.sjis (nats text))) {padding blockSize : Nat} (hpos : 0 < blockSize) :
    ∃ img, Compressed.write (some ⟨padding, blockSize⟩) q.mat = some img ∧
      ∀ g, Near 63 (coloured img.maxX.toNat img.maxY.toNat fun x y => (img.at' x y).getD 0) g → decodeGrey unsjis g = some (nats text)
```

`QR.Cli.C107_cli` (Verif/Props/Grey.lean): **C107, command line.** Without circles and halftone, with `--transparent` or without: whatever JPEG does to the brightness of the pixels, up to 63 of 255, the reader that is told nothing reads exactly the text in the file.

```lean
theorem C107_cli {E : Ext} {unsjis : Nat → Option Nat} (hE : E.Ok unsjis) {c : AlignCache} (hc : CacheReachable c)
    {arrival : List Nat} (ha : Arrival arrival) (readImage : Bytes → Option Image) (f : Flags)
    {top right bottom left : Nat} (hb : parseBorders f.borders = some [top, right, bottom, left])
    {q : QRCode} (hq : new E c arrival .string f.text = .ok q) (hx : ¬ AlnumThenKanji E.sjis (nats f.text))
    (ht : f.terminal = false) (hcirc : f.circle = false) (hh : f.halftone = [] ∨ readImage f.halftone = none) (scale : Scaler) :
    ∃ o ops o' cv, run E c arrival readImage f = .file f.output o q ∧ draw scale o q.mat = some (ops, o') ∧ paintAll ops = some cv ∧
      ∀ g, Near 63 cv.grey g → decodeGrey unsjis g = some (nats f.text)
```

## C108 – Shapes, halftone images and logos in JPEG (proved)

A scanner that knows where the blocks are and gets one approximate brightness per module (of the pixel at the centre of the block), but knows nothing about colours (the corner of a finder is dark, its neighbour on the diagonal is light), reads exactly the text if these pixels have changed their brightness by less than a quarter of the contrast: with any shape of the library that is not too thin (as in C83), any halftone image (as in C84), on any machine (as in C106), dark on light or light on dark, transparent or not; with a logo under the conditions of C69 for a scanner that corrects errors. The command line program, whose default file is a JPEG, leaves room for any change by 63 of 255. With a gradient on a background that is not transparent the same holds for a quarter of the contrast that the darkest and the lightest colours between neighbouring stops leave (if d to d' are their brightnesses and l that of the background: 2d' + 4e < d + l).

*of image/jpeg only the conversion to brightness is modelled, its rounding is the change allowed; coverage, scaling and blending are parameters as in C83 and C84; gradients on backgrounds that are not transparent*

`QR.Standard.C108_shapes` (Verif/Props/GreyShapes.lean): **C108.** Shapes in JPEG: any shape of this library that is not too thin in blocks of at least 10 pixels (as in C83), no halftone, no gradient, no logo (or one that is too large), dark on light or light on dark, transparent or not: if the pixels that the scanner looks at change their brightness by less than a quarter of the contrast, it reads exactly the text.

```lean
theorem C108_shapes
    (hE : E.Ok unsjis) (hc : CacheReachable c) (ha : Arrival arrival) (h : newWith E c arrival t text opts = .ok q)
    (hx : ¬ (modeIn opts = encAuto ∧ AlnumThenKanji E.sjis (nats text)))
    (scale : Scaler) {cov : Coverage} (hcov : Rasters cov) (blend : Blend) {put : Put} (hput : PutsOver put) (direction : Rat → Rat × Rat)
    (assembled : Nat → DrawFn × DrawFn) {o : Opts} (hw : 10 ≤ o.qrBlockWidth) (hbold : (meaning assembled o.getShape).bold) (hht : o.halftone = none)
    (hcol : Contrast o) (hgr : o.qrGradient = none)
    {e d l : Nat} (hd : d = brightness o.qrColor.jpeg) (hlt : l = brightness o.bgColor.jpeg) (h4 : d + 4 * e < l ∨ l + 4 * e < d)
    (hb : 0 ≤ o.borders.top ∧ 0 ≤ o.borders.right ∧ 0 ≤ o.borders.bottom ∧ 0 ≤ o.borders.left)
    (hl : ∀ img, o.logo = some img → ¬ (o.logoSizeMultiplier * (img.maxX - img.minX) ≤ (o.attribute q.dimension).w ∧
      o.logoSizeMultiplier * (img.maxY - img.minY) ≤ (o.attribute q.dimension).h)) :
    ∃ ops o' cv, draw scale o q.mat = some (ops, o') ∧ paintAllShapes cov (meaning assembled) blend put direction ops = some cv ∧
      ∀ pt, AtCentres o q.dimension pt → ∀ g, _root_.Spec.Near e (greysAt q.dimension cv pt) g → decode unsjis (finderHalf g) = some (nats text)
```

`QR.Standard.C108_shapes_logo` (Verif/Props/GreyShapes.lean): **C108, with a logo** under the conditions of C69, for a scanner that corrects errors, whatever the logo shows.

```lean
theorem C108_shapes_logo
    (hE : E.Ok unsjis) (hRS : E.rs = rsEncode) (hc : CacheReachable c) (ha : Arrival arrival) (h : newWith E c arrival t text opts = .ok q)
    (hx : ¬ (modeIn opts = encAuto ∧ AlnumThenKanji E.sjis (nats text)))
    {v : Nat} (hv : q.dimension = 17 + 4 * v)
    (hlv : ¬ (levelIn opts = .L ∧ v ∈ [1, 2, 3, 4, 5, 6, 36] ∨ levelIn opts = .M ∧ v ∈ [2, 4]))
    (scale : Scaler) {cov : Coverage} (hcov : Rasters cov) (blend : Blend) {put : Put} (hput : PutsOver put) (direction : Rat → Rat × Rat)
    (assembled : Nat → DrawFn × DrawFn) {o : Opts} (hw : 10 ≤ o.qrBlockWidth) (hbold : (meaning assembled o.getShape).bold) (hht : o.halftone = none)
    (hcol : Contrast o) (hgr : o.qrGradient = none)
    {e d l : Nat} (hd : d = brightness o.qrColor.jpeg) (hlt : l = brightness o.bgColor.jpeg) (h4 : d + 4 * e < l ∨ l + 4 * e < d)
    (hbx : 0 ≤ o.borders.left ∧ o.borders.left ≤ 2 * o.qrBlockWidth ∧ o.borders.right = o.borders.left)
    (hby : 0 ≤ o.borders.top ∧ o.borders.top ≤ 2 * o.qrBlockWidth ∧ o.borders.bottom = o.borders.top)
    {img : Image} (hl : o.logo = some img) (hmin : img.minX = 0 ∧ img.minY = 0) (hmax : 0 ≤ img.maxX ∧ 0 ≤ img.maxY) (hk : 5 ≤ o.logoSizeMultiplier) :
    ∃ ops o' cv, draw scale o q.mat = some (ops, o') ∧ paintAllShapes cov (meaning assembled) blend put direction ops = some cv ∧
      ∀ pt, AtCentres o q.dimension pt → ∀ g, _root_.Spec.Near e (greysAt q.dimension cv pt) g → decodeDamaged unsjis (finderHalf g) = some (nats text)
```

`QR.Standard.C108_halftone` (Verif/Props/GreyShapes.lean): **C108, halftone.** The same with a halftone image under the conditions of C84.

```lean
theorem C108_halftone
    (hE : E.Ok unsjis) (hc : CacheReachable c) (ha : Arrival arrival) (h : newWith E c arrival t text opts = .ok q)
    (hx : ¬ (modeIn opts = encAuto ∧ AlnumThenKanji E.sjis (nats text)))
    (scale : Scaler) {cov : Coverage} (hcov : Rasters cov) (blend : Blend) {put : Put} (hput : PutsOver put) (direction : Rat → Rat × Rat)
    (assembled : Nat → DrawFn × DrawFn) {o : Opts} {himg : Image} (hht : o.halftone = some himg) (hS : SubPixels o (meaning assembled o.getShape)) (hbold : (meaning assembled o.getShape).bold)
    (hcol : Contrast o) (hgr : o.qrGradient = none)
    {e d l : Nat} (hd : d = brightness o.qrColor.jpeg) (hlt : l = brightness o.bgColor.jpeg) (h4 : d + 4 * e < l ∨ l + 4 * e < d)
    (hb : 0 ≤ o.borders.top ∧ 0 ≤ o.borders.right ∧ 0 ≤ o.borders.bottom ∧ 0 ≤ o.borders.left)
    (hl : ∀ img, o.logo = some img → ¬ (o.logoSizeMultiplier * (img.maxX - img.minX) ≤ (o.attribute q.dimension).w ∧
      o.logoSizeMultiplier * (img.maxY - img.minY) ≤ (o.attribute q.dimension).h)) :
    ∃ ops o' cv, draw scale o q.mat = some (ops, o') ∧ paintAllShapes cov (meaning assembled) blend put direction ops = some cv ∧
      ∀ pt, AtCentres o q.dimension pt → ∀ g, _root_.Spec.Near e (greysAt q.dimension cv pt) g → decode unsjis (finderHalf g) = some (nats text)
```

`QR.Standard.C108_halftone_logo` (Verif/Props/GreyShapes.lean): **C108, halftone and logo.**

```lean
theorem C108_halftone_logo
    (hE : E.Ok unsjis) (hRS : E.rs = rsEncode) (hc : CacheReachable c) (ha : Arrival arrival) (h : newWith E c arrival t text opts = .ok q)
    (hx : ¬ (modeIn opts = encAuto ∧ AlnumThenKanji E.sjis (nats text)))
    {v : Nat} (hv : q.dimension = 17 + 4 * v)
    (hlv : ¬ (levelIn opts = .L ∧ v ∈ [1, 2, 3, 4, 5, 6, 36] ∨ levelIn opts = .M ∧ v ∈ [2, 4]))
    (scale : Scaler) {cov : Coverage} (hcov : Rasters cov) (blend : Blend) {put : Put} (hput : PutsOver put) (direction : Rat → Rat × Rat)
    (assembled : Nat → DrawFn × DrawFn) {o : Opts} {himg : Image} (hht : o.halftone = some himg) (hS : SubPixels o (meaning assembled o.getShape)) (hbold : (meaning assembled o.getShape).bold)
    (hcol : Contrast o) (hgr : o.qrGradient = none)
    {e d l : Nat} (hd : d = brightness o.qrColor.jpeg) (hlt : l = brightness o.bgColor.jpeg) (h4 : d + 4 * e < l ∨ l + 4 * e < d)
    (hbx : 0 ≤ o.borders.left ∧ o.borders.left ≤ 2 * o.qrBlockWidth ∧ o.borders.right = o.borders.left)
    (hby : 0 ≤ o.borders.top ∧ o.borders.top ≤ 2 * o.qrBlockWidth ∧ o.borders.bottom = o.borders.top)
    {img : Image} (hl : o.logo = some img) (hmin : img.minX = 0 ∧ img.minY = 0) (hmax : 0 ≤ img.maxX ∧ 0 ≤ img.maxY) (hk : 5 ≤ o.logoSizeMultiplier) :
    ∃ ops o' cv, draw scale o q.mat = some (ops, o') ∧ paintAllShapes cov (meaning assembled) blend put direction ops = some cv ∧
      ∀ pt, AtCentres o q.dimension pt → ∀ g, _root_.Spec.Near e (greysAt q.dimension cv pt) g → decodeDamaged unsjis (finderHalf g) = some (nats text)
```

`QR.Standard.C108_machine` (Verif/Props/GreyShapes.lean): **C108, on any machine** (C106), with or without a halftone image.

```lean
theorem C108_machine
    (hE : E.Ok unsjis) (hc : CacheReachable c) (ha : Arrival arrival) (h : newWith E c arrival t text opts = .ok q)
    (hx : ¬ (modeIn opts = encAuto ∧ AlnumThenKanji E.sjis (nats text)))
    (M : Machine) (hA : M.arch.bits = 32 ∨ M.arch.bits = 64)
    (scale : Scaler) {cov : Coverage} (hcov : Rasters cov) (blend : Blend) {put : Put} (hput : PutsOver put) (direction : Rat → Rat × Rat)
    (assembled : Nat → DrawFn × DrawFn) {o : Opts} (hm : Small o) (hw : 10 ≤ o.qrBlockWidth) (hbold : (meaning assembled o.getShape).bold64 float64Round)
    (hht : ∀ himg, o.halftone = some himg → SubPixels o (meaning assembled o.getShape))
    (hcol : Contrast o) (hgr : o.qrGradient = none)
    {e d l : Nat} (hd : d = brightness o.qrColor.jpeg) (hlt : l = brightness o.bgColor.jpeg) (h4 : d + 4 * e < l ∨ l + 4 * e < d)
    (hb : 0 ≤ o.borders.top ∧ 0 ≤ o.borders.right ∧ 0 ≤ o.borders.bottom ∧ 0 ≤ o.borders.left)
    (hfit : 4 * ((o.attribute q.dimension).w.natAbs * (o.attribute q.dimension).h.natAbs) ≤ M.arch.limit)
    (hl : ∀ img, o.logo = some img → ¬ (o.logoSizeMultiplier * (img.maxX - img.minX) ≤ (o.attribute q.dimension).w ∧
      o.logoSizeMultiplier * (img.maxY - img.minY) ≤ (o.attribute q.dimension).h)) :
    ∃ ops o' cv, drawM M float64Round scale o q.mat = some (ops, o') ∧ M.paint cov (meaning assembled) blend put direction ops = some cv ∧
      ∀ pt, AtCentres o q.dimension pt → ∀ g, _root_.Spec.Near e (greysAt q.dimension cv pt) g → decode unsjis (finderHalf g) = some (nats text)
```

`QR.Standard.C108_machine_logo` (Verif/Props/GreyShapes.lean): **C108, on any machine, with a logo.**

```lean
theorem C108_machine_logo
    (hE : E.Ok unsjis) (hRS : E.rs = rsEncode) (hc : CacheReachable c) (ha : Arrival arrival) (h : newWith E c arrival t text opts = .ok q)
    (hx : ¬ (modeIn opts = encAuto ∧ AlnumThenKanji E.sjis (nats text)))
    {v : Nat} (hv : q.dimension = 17 + 4 * v)
    (hlv : ¬ (levelIn opts = .L ∧ v ∈ [1, 2, 3, 4, 5, 6, 36] ∨ levelIn opts = .M ∧ v ∈ [2, 4]))
    (M : Machine) (hA : M.arch.bits = 32 ∨ M.arch.bits = 64)
    (scale : Scaler) {cov : Coverage} (hcov : Rasters cov) (blend : Blend) {put : Put} (hput : PutsOver put) (direction : Rat → Rat × Rat)
    (assembled : Nat → DrawFn × DrawFn) {o : Opts} (hm : Small o) (hw : 10 ≤ o.qrBlockWidth) (hbold : (meaning assembled o.getShape).bold64 float64Round)
    (hht : ∀ himg, o.halftone = some himg → SubPixels o (meaning assembled o.getShape))
    (hcol : Contrast o) (hgr : o.qrGradient = none)
    {e d l : Nat} (hd : d = brightness o.qrColor.jpeg) (hlt : l = brightness o.bgColor.jpeg) (h4 : d + 4 * e < l ∨ l + 4 * e < d)
    (hbx : 0 ≤ o.borders.left ∧ o.borders.left ≤ 2 * o.qrBlockWidth ∧ o.borders.right = o.borders.left)
    (hby : 0 ≤ o.borders.top ∧ o.borders.top ≤ 2 * o.qrBlockWidth ∧ o.borders.bottom = o.borders.top)
    (hfit : 4 * ((o.attribute q.dimension).w.natAbs * (o.attribute q.dimension).h.natAbs) ≤ M.arch.limit)
    {img : Image} (hl : o.logo = some img) (hmin : img.minX = 0 ∧ img.minY = 0) (hmax : 0 ≤ img.maxX ∧ 0 ≤ img.maxY) (hk : 5 ≤ o.logoSizeMultiplier) :
    ∃ ops o' cv, drawM M float64Round scale o q.mat = some (ops, o') ∧ M.paint cov (meaning assembled) blend put direction ops = some cv ∧
      ∀ pt, AtCentres o q.dimension pt → ∀ g, _root_.Spec.Near e (greysAt q.dimension cv pt) g → decodeDamaged unsjis (finderHalf g) = some (nats text)
```

`QR.Standard.C108_gradient` (Verif/Props/GreyShapes.lean): **C108, gradients.** With a gradient on a background that is not transparent: if the colours between any two stops that follow each other (or one below) have a brightness from `d` to `d'`, all of them on one side of the background, every change of less than a quarter of what is left of the contrast leaves the text readable.

```lean
theorem C108_gradient
    (hE : E.Ok unsjis) (hc : CacheReachable c) (ha : Arrival arrival) (h : newWith E c arrival t text opts = .ok q)
    (hx : ¬ (modeIn opts = encAuto ∧ AlnumThenKanji E.sjis (nats text)))
    (scale : Scaler) {cov : Coverage} (hcov : Rasters cov) (blend : Blend) {put : Put} (hput : PutsOver put) (direction : Rat → Rat × Rat)
    (assembled : Nat → DrawFn × DrawFn) {o : Opts} (hw : 10 ≤ o.qrBlockWidth) (hbold : (meaning assembled o.getShape).bold) (hht : o.halftone = none)
    (hcol : Contrast o) {gr : LinearGradient} (hgr : o.qrGradient = some gr) (hgc : GradientContrast o gr) (hopaque : o.bgTransparent = false)
    {e d d' l : Nat} (hd : ∀ a b, Together gr.stops a b → ∀ k, ChannelsBetween 1 a.color b.color k → d ≤ brightness k.jpeg ∧ brightness k.jpeg ≤ d')
    (hlt : l = brightness o.bgColor.jpeg) (h4 : 2 * d' + 4 * e < d + l ∨ l + d' + 4 * e < 2 * d)
    (hb : 0 ≤ o.borders.top ∧ 0 ≤ o.borders.right ∧ 0 ≤ o.borders.bottom ∧ 0 ≤ o.borders.left)
    (hl : ∀ img, o.logo = some img → ¬ (o.logoSizeMultiplier * (img.maxX - img.minX) ≤ (o.attribute q.dimension).w ∧
      o.logoSizeMultiplier * (img.maxY - img.minY) ≤ (o.attribute q.dimension).h)) :
    ∃ ops o' cv, draw scale o q.mat = some (ops, o') ∧ paintAllShapes cov (meaning assembled) blend put direction ops = some cv ∧
      ∀ pt, AtCentres o q.dimension pt → ∀ g, _root_.Spec.Near e (greysAt q.dimension cv pt) g → decode unsjis (finderHalf g) = some (nats text)
```

`QR.Standard.C108_gradient_machine` (Verif/Props/GreyShapes.lean): **C108, gradients on any machine**, with or without a halftone image.

```lean
theorem C108_gradient_machine
    (hE : E.Ok unsjis) (hc : CacheReachable c) (ha : Arrival arrival) (h : newWith E c arrival t text opts = .ok q)
    (hx : ¬ (modeIn opts = encAuto ∧ AlnumThenKanji E.sjis (nats text)))
    (M : Machine) (hA : M.arch.bits = 32 ∨ M.arch.bits = 64)
    (scale : Scaler) {cov : Coverage} (hcov : Rasters cov) (blend : Blend) {put : Put} (hput : PutsOver put) (direction : Rat → Rat × Rat)
    (assembled : Nat → DrawFn × DrawFn) {o : Opts} (hm : Small o) (hw : 10 ≤ o.qrBlockWidth) (hbold : (meaning assembled o.getShape).bold64 float64Round)
    (hht : ∀ himg, o.halftone = some himg → SubPixels o (meaning assembled o.getShape))
    (hcol : Contrast o) {gr : LinearGradient} (hgr : o.qrGradient = some gr) (hgc : GradientContrast o gr) (hopaque : o.bgTransparent = false)
    {e d d' l : Nat} (hd : ∀ a b, Together gr.stops a b → ∀ k, ChannelsBetween 1 a.color b.color k → d ≤ brightness k.jpeg ∧ brightness k.jpeg ≤ d')
    (hlt : l = brightness o.bgColor.jpeg) (h4 : 2 * d' + 4 * e < d + l ∨ l + d' + 4 * e < 2 * d)
    (hb : 0 ≤ o.borders.top ∧ 0 ≤ o.borders.right ∧ 0 ≤ o.borders.bottom ∧ 0 ≤ o.borders.left)
    (hfit : 4 * ((o.attribute q.dimension).w.natAbs * (o.attribute q.dimension).h.natAbs) ≤ M.arch.limit)
    (hl : ∀ img, o.logo = some img → ¬ (o.logoSizeMultiplier * (img.maxX - img.minX) ≤ (o.attribute q.dimension).w ∧
      o.logoSizeMultiplier * (img.maxY - img.minY) ≤ (o.attribute q.dimension).h)) :
    ∃ ops o' cv, drawM M float64Round scale o q.mat = some (ops, o') ∧ M.paint cov (meaning assembled) blend put direction ops = some cv ∧
      ∀ pt, AtCentres o q.dimension pt → ∀ g, _root_.Spec.Near e (greysAt q.dimension cv pt) g → decode unsjis (finderHalf g) = some (nats text)
```

`QR.Standard.C108_gradient_machine_logo` (Verif/Props/GreyShapes.lean): **C108, gradients on any machine, with a logo.**

```lean
theorem C108_gradient_machine_logo
    (hE : E.Ok unsjis) (hRS : E.rs = rsEncode) (hc : CacheReachable c) (ha : Arrival arrival) (h : newWith E c arrival t text opts = .ok q)
    (hx : ¬ (modeIn opts = encAuto ∧ AlnumThenKanji E.sjis (nats text)))
    {v : Nat} (hv : q.dimension = 17 + 4 * v)
    (hlv : ¬ (levelIn opts = .L ∧ v ∈ [1, 2, 3, 4, 5, 6, 36] ∨ levelIn opts = .M ∧ v ∈ [2, 4]))
    (M : Machine) (hA : M.arch.bits = 32 ∨ M.arch.bits = 64)
    (scale : Scaler) {cov : Coverage} (hcov : Rasters cov) (blend : Blend) {put : Put} (hput : PutsOver put) (direction : Rat → Rat × Rat)
    (assembled : Nat → DrawFn × DrawFn) {o : Opts} (hm : Small o) (hw : 10 ≤ o.qrBlockWidth) (hbold : (meaning assembled o.getShape).bold64 float64Round)
    (hht : ∀ himg, o.halftone = some himg → SubPixels o (meaning assembled o.getShape))
    (hcol : Contrast o) {gr : LinearGradient} (hgr : o.qrGradient = some gr) (hgc : GradientContrast o gr) (hopaque : o.bgTransparent = false)
    {e d d' l : Nat} (hd : ∀ a b, Together gr.stops a b → ∀ k, ChannelsBetween 1 a.color b.color k → d ≤ brightness k.jpeg ∧ brightness k.jpeg ≤ d')
    (hlt : l = brightness o.bgColor.jpeg) (h4 : 2 * d' + 4 * e < d + l ∨ l + d' + 4 * e < 2 * d)
    (hbx : 0 ≤ o.borders.left ∧ o.borders.left ≤ 2 * o.qrBlockWidth ∧ o.borders.right = o.borders.left)
    (hby : 0 ≤ o.borders.top ∧ o.borders.top ≤ 2 * o.qrBlockWidth ∧ o.borders.bottom = o.borders.top)
    (hfit : 4 * ((o.attribute q.dimension).w.natAbs * (o.attribute q.dimension).h.natAbs) ≤ M.arch.limit)
    {img : Image} (hl : o.logo = some img) (hmin : img.minX = 0 ∧ img.minY = 0) (hmax : 0 ≤ img.maxX ∧ 0 ≤ img.maxY) (hk : 5 ≤ o.logoSizeMultiplier) :
    ∃ ops o' cv, drawM M float64Round scale o q.mat = some (ops, o') ∧ M.paint cov (meaning assembled) blend put direction ops = some cv ∧
      ∀ pt, AtCentres o q.dimension pt → ∀ g, _root_.Spec.Near e (greysAt q.dimension cv pt) g → decodeDamaged unsjis (finderHalf g) = some (nats text)
```

`QR.Cli.C108_cli` (Verif/Props/GreyShapes.lean): **C108, the command line program** with circles and halftone pictures (as in C75): the file it writes by default is a JPEG, and every change of brightness by up to 63 of 255 leaves the text readable.

```lean
theorem C108_cli {E : Ext} {unsjis : Nat → Option Nat} (hE : E.Ok unsjis) {c : AlignCache} (hc : CacheReachable c)
    {arrival : List Nat} (ha : Arrival arrival) (readImage : Bytes → Option Image) (f : Flags)
    {top right bottom left : Nat} (hb : parseBorders f.borders = some [top, right, bottom, left])
    {q : QRCode} (hq : new E c arrival .string f.text = .ok q) (hx : ¬ AlnumThenKanji E.sjis (nats f.text))
    (ht : f.terminal = false)
    (hs : (10 ≤ usedBlock f ∧ (f.halftone = [] ∨ readImage f.halftone = none)) ∨ (12 ≤ usedBlock f ∧ f.circle = false) ∨ (30 ≤ usedBlock f ∧ usedBlock f % 3 = 0))
    (scale : Scaler) {cov : Coverage} (hcov : Rasters cov) (blend : Blend) {put : Put} (hput : PutsOver put) (direction : Rat → Rat × Rat) (assembled : Nat → DrawFn × DrawFn) :
    ∃ o ops o' cv, run E c arrival readImage f = .file f.output o q ∧ draw scale o q.mat = some (ops, o') ∧
      paintAllShapes cov (meaning assembled) blend put direction ops = some cv ∧
      ∀ pt : Nat → Nat → Int × Int, (∀ x y, x < q.dimension → y < q.dimension → CentreOf left top (usedBlock f) x y (pt x y).1 (pt x y).2) →
        ∀ g, _root_.Spec.Near 63 (greysAt q.dimension cv pt) g → decode unsjis (finderHalf g) = some (nats f.text)
```

## C109 – Damaged symbols, and symbols with a logo, are read in any direction (proved)

A scanner that corrects errors and is not told how the picture is turned or mirrored finds the right way up and reads exactly the text (exception as in C01) as long as the three finder patterns can be seen and no fourth, at most one module of the first copy of the format information and at most six of both are wrong, and in every block at most half as many codewords are damaged as it has error correction codewords. From version 2 on, any three wrong modules outside the finder patterns (at most one of them in the first copy of the format information) are harmless in every direction: a fourth finder pattern would take four. The same scanner reads every picture with a logo under the conditions of C69, and every picture with shapes, halftone image, gradient and logo under the conditions of C106, whatever the logo shows.

*the exception of C01 is a hypothesis, as are the limits of C68, C69 and C106*

`QR.C109_damage` (Verif/Props/TurnDamage.lean): **C109.** A reader that is not told how the picture is turned or mirrored recovers the text from a damaged symbol as long as the three finder patterns can be seen and no fourth, at most one module of the first copy of the format information and at most 6 of both are wrong, and in every block at most half as many codewords are damaged as the block has error correction codewords.

```lean
theorem C109_damage (h : newWith E c arrival t text opts = .ok q) (hx : ¬ (modeIn opts = encAuto ∧ AlnumThenKanji E.sjis (nats text)))
    {v : Nat} (hv : q.dimension = 17 + 4 * v) {bm : List (List Bool)} (hlen : bm.length = q.dimension) (hrow : ∀ r ∈ bm, r.length = q.dimension)
    (h1 : finderAt bm 0 0 = true) (h2 : finderAt bm 0 (q.dimension - 7) = true) (h3 : finderAt bm (q.dimension - 7) 0 = true)
    (h4 : finderAt bm (q.dimension - 7) (q.dimension - 7) = false)
    (hf1 : wrongAt q.mat.bitmap bm formatCells1 ≤ 1)
    (hfmt : wrongAt q.mat.bitmap bm formatCells1 + wrongAt q.mat.bitmap bm (formatCells2 v) ≤ 6)
    (hcw : ∀ b < numBlocks v (levelIn opts), wrongCodewords v (levelIn opts) q.mat.bitmap bm b ≤ ecPerBlock v (levelIn opts) / 2)
    {s : List (List Bool)} (hs : Seen bm s) : decodeDamagedAnyWay unsjis s = some (nats text)
```

`QR.C109_few_modules` (Verif/Props/TurnDamage.lean): **C109.** In particular, from version 2 on, up to three wrong modules do no harm if the finder patterns can be seen and at most one of the three lies in the first copy of the format information.

```lean
theorem C109_few_modules (h : newWith E c arrival t text opts = .ok q) (hx : ¬ (modeIn opts = encAuto ∧ AlnumThenKanji E.sjis (nats text)))
    {v : Nat} (hv : q.dimension = 17 + 4 * v) (hv2 : 2 ≤ v) {bm : List (List Bool)} (hlen : bm.length = q.dimension) (hrow : ∀ r ∈ bm, r.length = q.dimension)
    (h1 : finderAt bm 0 0 = true) (h2 : finderAt bm 0 (q.dimension - 7) = true) (h3 : finderAt bm (q.dimension - 7) 0 = true)
    (hf1 : wrongAt q.mat.bitmap bm formatCells1 ≤ 1) (hw : wrongAt q.mat.bitmap bm (allCells v) ≤ 3)
    {s : List (List Bool)} (hs : Seen bm s) : decodeDamagedAnyWay unsjis s = some (nats text)
```

`QR.C109_logo` (Verif/Props/TurnDamage.lean): **C109, pictures with a logo.** Under the conditions of C69 a scanner that corrects errors, looks at any one pixel of every block and is not told how the picture is turned or mirrored reads exactly the text, whatever the logo shows.

```lean
theorem C109_logo (h : newWith E c arrival t text opts = .ok q) (hx : ¬ (modeIn opts = encAuto ∧ AlnumThenKanji E.sjis (nats text)))
    {v : Nat} (hv : q.dimension = 17 + 4 * v)
    (hlv : ¬ (levelIn opts = .L ∧ v ∈ [1, 2, 3, 4, 5, 6, 36] ∨ levelIn opts = .M ∧ v ∈ [2, 4]))
    (scale : Scaler) (blend : Blend) {o : Opts} (hp : Rects o) (hcol : Contrast o)
    (hbx : 0 ≤ o.borders.left ∧ o.borders.left ≤ 2 * o.qrBlockWidth ∧ o.borders.right = o.borders.left)
    (hby : 0 ≤ o.borders.top ∧ o.borders.top ≤ 2 * o.qrBlockWidth ∧ o.borders.bottom = o.borders.top)
    {img : Image} (hl : o.logo = some img) (hmin : img.minX = 0 ∧ img.minY = 0) (hmax : 0 ≤ img.maxX ∧ 0 ≤ img.maxY)
    (hk : 5 ≤ o.logoSizeMultiplier) :
    ∃ ops o' cv, draw scale o q.mat = some (ops, o') ∧ paintAllImg blend ops = some cv ∧
      ∀ pt, InBlocks o q.dimension pt → ∀ s, Seen (seen o q.dimension cv pt) s → decodeDamagedAnyWay unsjis s = some (nats text)
```

`QR.C109_machine_logo` (Verif/Props/TurnDamage.lean): **C109, pictures with shapes, halftone images, gradients and a logo** under the conditions of C106 (any machine), a scanner as in C106 that corrects errors and is not told how the picture is turned or mirrored.

```lean
theorem C109_machine_logo (h : newWith E c arrival t text opts = .ok q) (hx : ¬ (modeIn opts = encAuto ∧ AlnumThenKanji E.sjis (nats text)))
    {v : Nat} (hv : q.dimension = 17 + 4 * v)
    (hlv : ¬ (levelIn opts = .L ∧ v ∈ [1, 2, 3, 4, 5, 6, 36] ∨ levelIn opts = .M ∧ v ∈ [2, 4]))
    (M : Machine) (hA : M.arch.bits = 32 ∨ M.arch.bits = 64)
    (scale : Scaler) {cov : Coverage} (hcov : Rasters cov) (blend : Blend) {put : Put} (hput : PutsOver put) (direction : Rat → Rat × Rat)
    (assembled : Nat → DrawFn × DrawFn) {o : Opts} (hm : Small o) (hw : 10 ≤ o.qrBlockWidth) (hbold : (meaning assembled o.getShape).bold64 float64Round)
    (hht : ∀ himg, o.halftone = some himg → SubPixels o (meaning assembled o.getShape))
    (hcol : Contrast o) (hg : ∀ g, o.qrGradient = some g → GradientContrast o g)
    (hbx : 0 ≤ o.borders.left ∧ o.borders.left ≤ 2 * o.qrBlockWidth ∧ o.borders.right = o.borders.left)
    (hby : 0 ≤ o.borders.top ∧ o.borders.top ≤ 2 * o.qrBlockWidth ∧ o.borders.bottom = o.borders.top)
    (hfit : 4 * ((o.attribute q.dimension).w.natAbs * (o.attribute q.dimension).h.natAbs) ≤ M.arch.limit)
    {img : Image} (hl : o.logo = some img) (hmin : img.minX = 0 ∧ img.minY = 0) (hmax : 0 ≤ img.maxX ∧ 0 ≤ img.maxY)
    (hk : 5 ≤ o.logoSizeMultiplier) :
    ∃ ops o' cv, drawM M float64Round scale o q.mat = some (ops, o') ∧ M.paint cov (meaning assembled) blend put direction ops = some cv ∧
      ∀ pt, AtCentres o q.dimension pt → ∀ s, Seen (seenInk o q.dimension cv pt) s → decodeDamagedAnyWay unsjis s = some (nats text)
```

## C110 – A reader that is told nothing reads pictures with a logo (proved)

A reader that corrects errors gets the pixels of a picture, dark or not, and nothing else: it cuts out what is dark, finds the size of a module from the upper edges of two finder patterns, looks at one pixel in the middle of each module, turns and mirrors the result until it is right way up, corrects the errors and reads exactly the text (exception as in C01), whatever the pixels of the modules in the middle of the symbol (about a fifth of the rows and columns) look like, and not in the cases of C69 in which the error correction is too weak. In particular it reads every picture of the image writer with rectangles and any logo under the conditions of C69, turned and mirrored in any way: the logo does not change any pixel outside the middle, so neither the edges of the symbol nor the size of a module can be mistaken. It reads the pictures of the example program createQRWithLogo for every ASCII text of up to 1273 characters and every logo.

*the exception of C01 is a hypothesis, as are the limits of C69; shapes, halftone images and gradients with a logo need a scanner that knows the blocks: C109*

`QR.C110_photo` (Verif/Props/PhotoDamage.lean): **C110.** If the dark pixels of a picture are those of a picture `x` of the symbol, every module a square of `b` by `b` pixels, in which pixels of modules in the middle (of about a fifth of the rows and columns) may be wrong, anywhere in the picture, and the picture is turned and mirrored in any way, then the reader that is told nothing but corrects errors reads exactly the text.

```lean
theorem C110_photo (h : newWith E c arrival t text opts = .ok q) (hx : ¬ (modeIn opts = encAuto ∧ AlnumThenKanji E.sjis (nats text)))
    {v : Nat} (hv : q.dimension = 17 + 4 * v)
    (hlv : ¬ (levelIn opts = .L ∧ v ∈ [1, 2, 3, 4, 5, 6, 36] ∨ levelIn opts = .M ∧ v ∈ [2, 4]))
    {b : Nat} (hb : 0 < b) {x : List (List Bool)} (hl : x.length = b * q.dimension) (hr : ∀ r ∈ x, r.length = b * q.dimension)
    (hmid : ∀ i j, i < b * q.dimension → j < b * q.dimension → pixel x i j ≠ pixel q.mat.bitmap (i / b) (j / b) →
      (4 * q.dimension - 4) / 10 ≤ i / b ∧ i / b ≤ (6 * q.dimension + 3) / 10 ∧ (4 * q.dimension - 4) / 10 ≤ j / b ∧ j / b ≤ (6 * q.dimension + 3) / 10)
    {left top : Nat} {p : List (List Bool)} (hp : Shows p left top x) {s : List (List Bool)} (hs : Seen p s) : decodePhotoDamaged unsjis s = some (nats text)
```

`QR.C110_logo` (Verif/Props/PhotoDamage.lean): **C110, pictures with a logo.** Under the conditions of C69 the picture, turned and mirrored in any way, contains the text for a reader that is told nothing but the colour of dark modules, whatever the logo shows.

```lean
theorem C110_logo (h : newWith E c arrival t text opts = .ok q) (hx : ¬ (modeIn opts = encAuto ∧ AlnumThenKanji E.sjis (nats text)))
    {v : Nat} (hv : q.dimension = 17 + 4 * v)
    (hlv : ¬ (levelIn opts = .L ∧ v ∈ [1, 2, 3, 4, 5, 6, 36] ∨ levelIn opts = .M ∧ v ∈ [2, 4]))
    (scale : Scaler) (blend : Blend) {o : Opts} (hp : Rects o) (hcol : Contrast o)
    (hbx : 0 ≤ o.borders.left ∧ o.borders.left ≤ 2 * o.qrBlockWidth ∧ o.borders.right = o.borders.left)
    (hby : 0 ≤ o.borders.top ∧ o.borders.top ≤ 2 * o.qrBlockWidth ∧ o.borders.bottom = o.borders.top)
    {img : Image} (hl : o.logo = some img) (hmin : img.minX = 0 ∧ img.minY = 0) (hmax : 0 ≤ img.maxX ∧ 0 ≤ img.maxY)
    (hk : 5 ≤ o.logoSizeMultiplier) :
    ∃ ops o' cv, draw scale o q.mat = some (ops, o') ∧ paintAllImg blend ops = some cv ∧
      ∀ s, Seen (photo cv.w.toNat cv.h.toNat fun x y => decide (cv.pix x y = o.qrColor)) s → decodePhotoDamaged unsjis s = some (nats text)
```

`QR.Examples.C110_example` (Verif/Props/PhotoDamage.lean): **C110, the example program with a logo** (`createQRWithLogo`): whatever the logo shows and whatever its size, the reader that is told nothing but the colour of dark modules reads every ASCII text.

```lean
theorem C110_example {E : Ext} {unsjis : Nat → Option Nat} (hE : E.Ok unsjis) (hRS : E.rs = rsEncode) {c : AlignCache} (hc : CacheReachable c) {arrival : List Nat} (ha : Arrival arrival)
    (scale : Scaler) (blend : Blend) {img : Image} (hmin : img.minX = 0 ∧ img.minY = 0) (hmax : 0 ≤ img.maxX ∧ 0 ≤ img.maxY) :
    Reads E c arrival (logo (some img)) (fun o _ ops text => ∃ cv, paintAllImg blend ops = some cv ∧
      ∀ s, Seen (photo cv.w.toNat cv.h.toNat fun x y => decide (cv.pix x y = o.qrColor)) s → decodePhotoDamaged unsjis s = some (nats text)) scale
```
