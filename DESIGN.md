# Design: a Lean 4 model of yeqown/go-qrcode

The plan was written before the proofs; this file is kept current with what is there now.

## Layout

* `lean/Verif/Model/*` – the model of the Go code, function by function; every definition cites the file and lines in `/repo`.
* `lean/Verif/Spec/*` – small specifications that import nothing from `Model`: the QR standard as a *reader* sees it (geometry, zig-zag
  order, mask formulas, BCH and Golay words, block structure, bit-stream parser), run and occurrence counting, character repertoires,
  GF(256) and Reed-Solomon codes, plane figures and winding numbers, Hamming distance, base64, half-block characters, hexadecimal and decimal numbers.
* `lean/Verif/Proof/*` – helper lemmas.
* `lean/Verif/Props/*` – the property theorems, one file per group, with non-vacuity examples beside them.
* `lean/Verif/Instances/*` – every theorem of the claims that has hypotheses, applied to concrete symbols, pictures, files and
  runs (`tools/instances.py` lists the theorems without an instance; those have no hypotheses, or their instance is in Props).
  `Instances/UnitTests.lean` (written by `tools/unittests.py`) runs 203 assertions of the repository's own unit tests on the model, in the kernel: a check of the
  model, not of the claims.
* `properties.jsonl`, `MANIFEST.json` – the English properties and the theorems that settle them (`tools/manifest.py` writes the manifest).
* `STATEMENTS.md` – every claim with its English statement and the statements of its theorems, copied from the sources (`tools/statements.py`).
* `seeded/LOG.jsonl` – wrong programs tried against the theorems (`tools/mutants.py` is the list, `tools/mutate.py` runs it in a scratch copy).

## Modelling conventions

* A Go function that returns `(T, error)` or panics becomes a function into `Res T` = `ok | err | panic`.
* Go `int` is `Int` or `Nat`. Sizes are bounded by the text length and 177, so no overflow is reachable (for `draw` and the compressed writer, whose sizes the caller chooses, this is C94 and C99); where a fixed width matters
  (`uint8` block widths, colour channels, base64, freetype's painter, palette distances) the model uses `UInt8`/`UInt16`/`UInt32`.
* A Go `string` is its byte list; `range` over a string is Go's UTF-8 decoding with U+FFFD for malformed bytes.
* A method that writes through a pointer returns the new value. Aliasing matters for C20, C32, C33, which have heap models of their own;
  C32 also proves that the value model and the heap model agree.
* Loops are folds over `List.range`, or recursion with explicit fuel where the Go loop has no syntactic bound; the fuel is then proved
  sufficient, so termination is a theorem (C07, C15, C29), or its insufficiency is (C48).
* Goroutines (C20): a small-step machine whose schedules are arbitrary lists of actors; it is proved to refine `masking` with an arrival
  order, and every arrival order is proved to be possible. All statements about `New`/`NewWith` quantify over the arrival order.
* `float64` (C47, C55): exact rationals with a rounding function applied after every operation; theorems hold for exact arithmetic and
  for `float64Round` (IEEE 754 round to nearest even, Model/Float64.lean).

## Properties: what is modelled, how it is proved, status

"false" means that the property, which a user would expect, does not hold of the code: the manifest calls it partial, and there is a
`_counterexample` theorem besides a `_partial` theorem that says exactly when it holds or what happens instead.

| id | model | proof | status |
|----|-------|-------|--------|
| C01 | `newWith`, spec reader `Spec.decode` | composition of C11–C17, C21–C23 | false in automatic mode for texts of alphanumeric characters followed by kanji; proved otherwise |
| C02 | `analyzeEncodeModeFromRaw` | induction over the characters, exact characterisation | false as C01; proved otherwise |
| C03 | `newWith` | from C01; two mixed texts with the same symbols | false as C01; proved otherwise |
| C04 | `analyzeVersion`, `calcVersionNumber` | first-hit lemma, monotone capacities | proved |
| C05 | `encode`, table | capacity ↔ bits over the 160 entries, lifted to all lengths by arithmetic | proved |
| C06 | `init` | case analysis | honoured: proved; error condition false as C01; proved otherwise |
| C07 | `Res` | no `panic` branch reachable, fuel sufficient | proved |
| C08 | `toBytes`, `newEncoder` | case analysis | false (two ways to panic); the exact set of panicking calls is proved |
| C09 | `validateEncodingMode` | induction over characters | proved |
| C10 | option fold | induction over option lists | proved |
| C11–C14 | `prefill`, `fillFormatInfo`, `fillVersionInfo` | value-after-writes lemmas for symbolic dimension, bits by evaluation of complete tables | proved |
| C15, C16 | `fillDataBinary` | loop invariant per column pair; number of cells per version by evaluation of all 40 | proved |
| C17 | `newMask`, `xorMask` | pointwise | proved |
| C18 | `masking` | fold invariant over arrival orders | proved |
| C19 | `masking` | tie witness evaluated by the kernel (text `19`) | false on ties; `C19_exact`: all schedules agree exactly if the minimum is unique |
| C20 | step machine | invariant over all schedules, decreasing measure | proved |
| C21, C22 | `dataEncoding`, `arrange`, `breakUpInto8bit` | loop invariants, de-interleave ∘ interleave = id | proved |
| C23 | codecs | induction on the payload | proved |
| C24, C25 | tables | complete finite tables by kernel evaluation | proved |
| C26 | `rule1` | run decomposition | proved |
| C27 | `rule2` | sums; witness | false (compares kinds too); exact count proved |
| C28 | `rule3` | with C29; witness | false (sees data modules only); exact count proved |
| C29 | `kmp` | failure-function invariant | proved |
| C30 | `rule4` | arithmetic; witness | false (integer rounding); exact condition proved |
| C31 | matrix API | list lemmas | proved |
| C32 | heap model | separation invariant over all histories | proved |
| C33 | heap model | witness through `Col` | false; proved for writers that do not write through `Col` |
| C34 | `Save` with arbitrary writer | case analysis | proved |
| C35 | file writer | list lemmas; prefix under every failure | proved |
| C36 | compressed writer | pixel invariant of nested loops | proved (padding, block size not negative) |
| C37 | file system | overwrite lemmas | standard writer and debug: proved; compressed writer: false (no O_TRUNC), exact condition proved |
| C38 | termbox cell buffer | cell invariant | proved |
| C39–C41, C53 | `draw` call list, canvas | fold invariants, tiling | proved |
| C42 | safe zone | interval arithmetic | proved (logo not empty) |
| C43 | safe zone bitmap | fold invariant | false (indices swapped); proved for symmetric geometry |
| C44 | image options | induction over option lists | proved |
| C45 | `parseFromColor` | bit arithmetic | false (low byte); exact condition proved |
| C46 | `parseFromHex`, `Sscanf` | scanning lemmas | proved |
| C47 | gradients | rational arithmetic, rounding lemmas | exact arithmetic: proved; `float64`: may be 1 too small (proved bound and witness) |
| C48 | binary search | loop invariant; witness | present keys: proved; absent keys: false (endless), exact condition proved |
| C49 | alignment cache | induction over histories | proved |
| C50 | Reed-Solomon | polynomial roots over GF(256) built from scratch | proved |
| C51, C57 | command line | parser lemmas | C57 proved; C51 false for block sizes 0 and above 255 |
| C52, C58 | WebAssembly | case analysis; base64 round trip | C58 proved; C52 false (omitted fields panic), exact panic condition proved |
| C54 | writer state | induction over histories | false with transparent background; proved otherwise |
| C55 | gradient pixels | case analysis | proved |
| C56 | logo | arithmetic | proved |
| C59 | drawing functions of `shapes`, shared path, plane figures (winding numbers) | unit block figures, scaling lemma, box and centre lemmas | false for circles one pixel wide (nothing is drawn); proved otherwise |
| C60–C62 | the same | the same | proved |
| C63 | `HStripeBlock` | the same; witness | false (the ratio is ignored); the exact height proved |
| C64 | `imgkit.Gray`, `Binaryzation` as two loops of `SetGray` on a grey image with bounds | the loops set every point once; witness | false for images that do not begin at (0, 0) (such as a `SubImage`); exact condition proved |
| C65 | `imgkit.Save` over the file system of C37 | case analysis | false (a refused name truncates the file); the rest proved |
| C66 | `debugEnabled`, `SetDebugMode` as a state machine | induction on the history | proved (for calls that do not overlap) |
| C67 | `debugDrawTo` up to the JPEG encoder | induction over the modules | proved |
| C68 | the whole of `New`; a correcting reader (Spec/Damage.lean) | minimum distance of the Reed-Solomon code (C50) and of the format words; block indices are distinct; distance read off the wrong codewords for the converse `C68_limit` | proved |
| C69 | `draw` with logo, pixels outside the logo (Model/CanvasImage.lean) | geometry of the centre square; for each version the codewords met by the square, checked by the kernel against the capacity of every block (Proof/LogoTable.lean, generated); C68; `C69_counterexample`: a logo that equals the symbol under it except for four modules in four codewords | proved, with the excepted versions and levels in the statement, and a destructive logo for version 1, level L |
| C70 | `draw` | pixel lemma of C40, C01 | proved |
| C71 | the other writers | C35, C36, C38, C01 | proved |
| C72 | `draw` with shapes or halftone, in the plane | C59; thirds of a block; C01 | proved; false for halftone in blocks of one or two pixels (nothing of the data is drawn) |
| C73 | goroutines calling `NewWith` around the shared alignment cache and its mutex (Model/Shared) | invariant over all interleavings | proved; without the precomputation at start-up it would be false (counterexample) |
| C74 | `Save` with the library's file writers on a file whose writes and close may fail (Model/Fd) | induction over the writes and over the Saves | proved |
| C75 | `cmd/qrcode` from the flags to the picture or screen | C51, C70, C71, C72 composed | proved |
| C76 | `generateQRCode` (WASM) from the JavaScript call to the text read from the base64 PNG | C52, C58, C70 composed | proved, for an encoder and decoder of PNG that agree |
| C77 | the whole of `New` against an executable reference encoder (Spec/Encoder.lean) that looks up every module on its own | the reader's parsers are inverted (payload, fill); blocks and interleaving by index arithmetic; module lookup from C12 - C16; checked on the example of Annex I of the standard | proved |
| C78 | the mask search against a score that is a function of version and colours (Spec/Score.lean) | kinds of all modules of a candidate from the geometry of the standard; rules 2 and 3 by an injective coding of (kind, colour); the schedule by the first-lowest characterisation of the fold | proved |
| C79 | the draw operations up to the gradient (Proof/Picture.lean), the gradient pixel of C47 applied to the canvas (Model/CanvasGradient.lean) | pixels of dark modules get an interpolated colour between two stops or one below (C47_float64), which differs from the background in the channel where these two stand out; then as C69/C70 | proved |
| C80 | the drawing in the plane (C59) with the calls and masks of a safe zone (C42, C43), the logo as an arbitrary colouring of its rectangle | masks ⊆ dark modules, so only dark modules paint centres of dark modules; wrong centres are in the middle (C69), then error correction (C68) | proved |
| C81 | as C80, with the nine calls per data module of C53 | a sub-block drawn without neighbours stays in its third of the block, so only the middle one reaches the centre; then as C80 | proved |
| C82 | the correcting reader of C68, Reed-Solomon and format codes of the standard | different formats are 7 bits apart in each copy; equal formats: if every block differed in at most its number of error correction codewords, the blocks would be equal (distance of the code) and C68 would read both texts from one symbol | proved |
| C83 | the calls of `draw` in pixels for all shapes (Model/CanvasShapes.lean): path, fill with coverage and freetype's mixing, gradient, logo | every figure of a shape drawn for a module is well inside, or well away from, the pixels at the centres of the blocks around it (Proof/Near.lean); mixing a pixel with colour and coverage leaves it or makes it that colour; fold over all fills (Proof/Pixels.lean); then C01, or C68 with a logo | proved |
| C84 | the same calls with a halftone image: nine sub-blocks per data module | the middle sub-block is well around the pixels at the centre of the block and the other eight are well away from them (Props/ScanHalftonePixels.lean), then as C83; the programs' own defaults meet the hypotheses (Props/ProgramsPixels.lean, for C75 and C76) | proved |
| C85 | a shape of the user's as any function of the context, its own state and the picture (Model/CanvasCustom.lean); the shape of example/with-custom-shape, with its `float64` radius | the contract `Readable` (Props/ScanCustom.lean) is what is needed of one call; fold over the modules, then gradient and logo as in C83; the example's circles contain the pixel in the middle and stay in their block, also after rounding | proved |
| C86 | the options of the example programs (Model/Examples.lean), the text left open | an ASCII text never has a kanji part and fits version 40 (Props/Ascii.lean), so `New` succeeds; the options meet the hypotheses of C70, C69, C83, C84, C85, C71 | proved |
| C87 | heap model with `Row` (new array) and `Col` (the column itself) | the ownership invariant of C32; the array of a row is referred to by its slice alone, in every history | proved |
| C88 | the two programs under .issues/ (options, replacements in the text) on top of the models of `NewWith` and the compressed writer | the replacements are the simultaneous substitution of `Spec/Json.lean`; C04/C09 for the outcome, C71 and C36 for the picture | proved |
| C89 | the default settings of all writers and of the command line (`prepareFlags`), on top of the models of the writers | `Spec/Quiet.lean` defines a quiet zone of `k` modules by the pixels around the symbol; the exact condition from the pixel theorems C35, C36, C38, C40 and the sizes of C39 | false; exact condition and counterexamples proved |
| C90 | nothing new | C04 (an error exactly if no version holds the text) and the capacities of version 40, compared with the numbers printed in the standard (`Spec/Limits.lean`) | proved |
| C91 | nothing new | C04, C11 and the monotonicity of the standard's capacities in level and length | proved |
| C92 | nothing new | C02, C04, C11; comparison of the bits each mode takes | false for an alphanumeric part followed by a kanji part; counterexample proved, and the claim for all other texts |
| C93 | nothing new; `Spec/LogoArea.lean`: which blocks meet the logo | the proof of C69 with the modules that meet the logo instead of the middle window; the sizes of the example's logo evaluated for versions 1 to 6, from 7 on it is a fifth of the picture | proved, with the condition in the statement; what happens without it (multiplier 1) is C93_counterexample |
| C94 | `Model/Draw64.lean`, `Model/Compressed64.lean`: `draw` and the compressed writer with wrapping 64-bit arithmetic and the runtime's limit for slices | every intermediate value is bounded, so wrapping changes nothing; beyond the limits direct computation | proved, the limits are in the statement |
| C95 | `Model/Special64.lean`: `float64` with NaN, infinities and overflow, and the gradient code on it | no operation overflows below the limits, so the finite model applies; beyond them NaN is followed through the code | proved |
| C96 | the same, for the tests at the head of the shape functions | case distinction | false for NaN (counterexample); proved for all other numbers |
| C97 | `Model/Alias.lean`: a heap of arrays of stops, gradients, options and writers, and the operations of a program on it | the values a writer refers to are an invariant of all operations that do not touch them; induction over the program | false; exact condition and counterexamples proved |
| C98 | `Model/Fma.lean`: the gradient code where every sum of two products may be fused in three ways, chosen at every place | the exact value of a channel is met up to a millionth in every way; corners on the axes do not depend on fusion, so the divisor is positive | proved |
| C99 | `Model/DrawArch.lean`, `Model/CompressedArch.lean`: `draw` and the compressed writer with the width of `int` and the largest slice as parameters | as C94 with narrower limits; the pixel offsets of a picture that can be allocated are below its size | proved |
| C100 | `Model/Painters.lean`: goroutines that load and store the bytes of the background colours of their writers one at a time | what a goroutine still does is described by a condition that holds whatever its loads return; stores only clear bytes, so the condition is stable under the steps of others | proved |
| C101 | `Spec/Turn.lean` (turned and mirrored pictures, right way up, reader of any direction) on the symbol of C12, C13 | the eight symmetries of the square; a finder pattern in the lower right corner contradicts the alignment pattern there or, in version 1, the first fourteen data bits under each mask; no format word read backwards is one | proved |
| C102 | `Spec/Photo.lean` (smallest rectangle around the dark pixels, module size from the first edge, the eight directions, then the reader of C01) on the pixels of C36, C40 and the command line | the first and last row and column of a symbol have a dark module, the finder's edge is exactly seven modules long (separator), so cropping and shrinking give back the symbol in every direction; then C101 | proved |
| C103 | compressed writer and image writer with any integers (`Model/Compressed.lean`, `Model/Standard.lean`, `Model/Canvas.lean`) | the first module drawn is the corner of a finder pattern, its first pixel is out of range; for very negative paddings the picture is that of a positive padding, moved; pixels of C40 without the assumption on borders. A picture of negative size (image writer) is not modelled | proved |
| C104 | `Spec/Negative.lean` (negative, all colours as the dark one) on C102 | a finder pattern in the upper left and upper right corner of the negative needs light corners of the symbol, but three corners are dark in every direction; a border makes the picture seven modules wide | proved |
| C105 | `Model/Shapes64.lean`: all drawing functions with a rounding after every operation, products subtracted possibly fused | halves of integers are exact; for the rest every operation adds at most 2^-17; the pictures of C83 for any shape whose calls keep a contract near the centres (`BlockNear`), which the rounded calls keep | proved |
| C106 | `Model/Machine.lean`: `draw` with `int` of the machine, `float64` coordinates, shapes of C105, gradients of C98, everything fused or not | call by call against C99 (`drawM_near`): a whole coordinate is exact because its product is, otherwise an error bound; the sub-blocks keep the contract near the centres, then the picture argument of C83/C84 with calls that are only close | proved |
| C107 | `Model/Jpeg.lean` (brightness, no alpha), `Spec/Grey.lean` (reader of grey pictures) | less than a quarter of the contrast leaves every pixel on its side of the middle (both colours occur: finders), then C102 and C104; transparency: pixel by pixel with C40; the second picture from the state that the first leaves (C54) | proved; "transparency does not matter" is false for later pictures of a writer (counterexample proved) |
| C108 | `Spec/Grey.lean` (`finderHalf`: corner of a finder against its neighbour), pictures of C83, C84, C106 | without a gradient the pixel at the centre has exactly the colour of its module (strengthened `CentrePictureRun`), so its brightness stays on its side of the middle; with one its colour is between two stops (C47, C98); with a logo the two finder modules are not covered and C69 corrects the rest | proved |
| C109 | `Spec/TurnDamage.lean` (`uprightNear`, `decodeDamagedAnyWay`), pictures of C69 and C106 | views of C101; a mirrored format word is at least three bits away from every format word (all 32 checked by the kernel), so one wrong module cannot hide the mirror; the alignment pattern differs in four modules from a finder pattern; a logo of allowed size touches at most one module of the first copy of the format information (versions 1 to 40 checked), and no corner |
| C110 | `Spec/PhotoDamage.lean` (`moduleSize`, `decodePhotoDamaged`), pictures of C69 as pixels | `Proof/PhotoDamage.lean`: in each of the eight views one of the two upper corners is a finder pattern, so a size of a module that is found is right; what the reader samples is a view of a symbol whose modules outside the middle are right, then C109; borders keep the background because a logo of allowed size lies within the symbol (`logo_inside`) |

## Trusted base

* Lean's kernel. Axioms used by the theorems in the manifest: `propext`, `Classical.choice`, `Quot.sound` and no others (`AXIOMS.md` lists
  them theorem by theorem). No `sorry`, no `native_decide`, no `bv_decide`; finite tables and witnesses are evaluated by the kernel
  (`decide`, `decide +kernel`, `rfl`).
* The reading of `/repo` recorded in the comments of the model. The Go code was read, not run.
* Contracts of code outside `/repo` (parameters of the model, or small models of their own):
  * `github.com/yeqown/reedsolomon` `Encode` – parameter `Ext.rs`; contract in the theorems: the data bits followed by `8 n` bits (C01–C22), or
    "systematic code with the standard's generator" (C50). `Props/ReedSolomon` builds a coder that meets the contract.
  * `github.com/yeqown/reedsolomon/binary` – a list of bits, most significant first (Model/Binary.lean).
  * `golang.org/x/text` Shift-JIS encoder – parameter `Ext.sjis`, applied character by character; contract (Spec/Repertoire): injective
    on the characters of kanji mode. Nothing else is assumed of it.
  * `fogleman/gg` and `golang/freetype` – the calls made; for rectangles with integer corners the pixels painted (Model/Canvas.lean);
    for the other figures coverage is a parameter, exact up to a quarter of a pixel (`Rasters`, Model/CanvasShapes.lean, used by C83, C84 and the pixel parts of C75 and C76 only).
    Otherwise anti-aliasing is not modelled. For C69, `DrawImage(img, x, y)` is assumed to move the image by `(x, y)` and to change no
    pixel outside its moved bounds; what it does inside is left open. For C59–C63 a fill covers the points inside the figures of the path
    (Spec/Plane.lean): coordinates are exact rationals (`float64`: C105, C106), circles exact circles (`gg` approximates them by curves), curves quadratic Bézier
    curves, and the figures of one path run in the same direction, so that the path covers their union.
  * `image/png`, `image/jpeg` – not modelled: theorems are about the image handed to the encoder. C107 assumes of JPEG that it ignores alpha and that decoding gives a
    brightness near the one of `color.RGBToYCbCr`.
  * `golang.org/x/image/draw` – parameter `scale`.
  * `termbox-go`, `go-runewidth` – a cell buffer; widths are parameters.
  * `os` – files are byte strings; `OpenFile` flags, offsets, refusals and short writes are modelled; other processes are not.
  * `fmt.Sscanf`, `strconv.ParseUint`, `strings.Split`, `filepath.Ext`, `encoding/base64`, `unicode/utf8`, `sort.Slice` – modelled from their
    documentation and source.
  * `urfave/cli` – not modelled: the command line starts from the values of the flags.
  * `syscall/js` – modelled by its documentation; getters that throw are not modelled.
  * The Go memory model: the workers of `masking` share no memory they write (proved, C20), so interleaving semantics is adequate.
* Outside C95 and C96 the numbers of gradients and shapes are finite. For C95 `math.Cos` and `math.Sin` are parameters (`Trig.Ok`: NaN for what is not a finite number, otherwise
  numbers between -1 and 1, one of them at least a half in absolute value), and so is `uint8(f)` (`Truncates`: the integer part for numbers that fit, anything for others); zeros have no sign.
* Not modelled: fused multiply-add outside C98, C105 and C106, `int` overflow in the pictures outside C94, C99 and C106, running
  out of memory (a picture below the limits of C99 may still exceed the memory there is), the output to the console and the file names of the example programs, the logging of `debug.go` (its picture and its switch are modelled).

## What the proofs found in the code

1. A text of alphanumeric characters followed by kanji is encoded in kanji mode without its first part, or with an empty payload
   (chardet.go:62-75 never goes back): C01, C02, C03, C06.
2. Texts with two masks of equal lowest penalty give different symbols from run to run (C19).
3. `New` panics for defined string types although the constraint `~string` admits them; an unsupported mode with an explicit version panics (C08).
4. Penalty rules 2 and 3 compare the kind of a module besides its colour; rule 4 rounds down first (C27, C28, C30).
5. `binarySearchVersion` does not end for an absent key that comes before some entry (C48; the function is not used by `New`).
6. `Matrix.Col` returns the internal column, so a writer can change the symbol (C33).
7. `compressed.New` opens without `O_TRUNC`: an older, longer file keeps its tail (C37).
8. With a logo safe zone, `bitMap[x][y]` should be `bitMap[y][x]` (C43).
9. `parseFromColor` takes the low byte of 16-bit channels (C45).
10. In `float64` a gradient from white to white gives 254 at some positions (C47).
11. `generateQRCode(text, {})` panics, the documented modes 0–3 are ignored, a content that is no string is encoded as its description, a width of
    256 becomes 20 (C52).
12. A writer with transparent background draws differently the second time (C54); in JPEG, the default format, that second picture is black all over if the foreground is
    black (C107), although the option is documented to affect PNG only.
13. The command line takes block sizes modulo 256 (C51).
14. `WithFgColorRGBHex("")` panics while the background option ignores it; `"# 1 2 3"` and `"#12345z"` are accepted as colours; an empty logo
    removes modules; halftone sub-blocks leave gaps unless the width is a multiple of 3; `Matrix.Row` allocates `height` entries;
    circles in blocks one pixel wide have radius 0, so the picture is blank (C59); `HStripeBlock` ignores its ratio (C63); `imgkit.Gray` and `Binaryzation` turn
    images that do not begin at (0, 0) black (C64); `imgkit.Save` truncates a file whose format it refuses (C65);
    `WithEncodingMode`'s check for an empty name never fires.
15. A logo that passes the default size check can cover more codewords than level L can correct in the versions 1 to 6 and 36, and level M in the
    versions 2 and 4 (C69); `gg` draws a logo whose bounds do not begin at the origin displaced by `Bounds().Min`, while the safe zone stays in the
    centre; a halftone picture in blocks of one or two pixels shows nothing of the data (C72).
16. With a safe zone and a layout that is not symmetric (wide logo, unequal borders), dark modules drawn by `RoundedFinder` whose mirrored place overlaps
    the logo are not drawn at all, although they are not under the logo (C80_lost; same cause as finding on C43).
17. No writer leaves the quiet zone of four modules with its default settings: the image writer leaves two, the command line none, the terminal writer one,
    the file writer none (C89).
18. `validLogoImage` multiplies without a check for overflow: with a multiplier of 2^62 every logo whose sides are multiples of four passes (C94_wraps); borders
    of 2^22 pixels on all sides make `draw` panic instead of returning an error (C94_too_large).
19. An infinite or NaN angle turns the whole symbol black, a NaN position brings out the black fall-back colour, a position of -∞ makes the colour depend on the
    platform (C95); NaN passes the range checks of all four shape functions (C96).
20. Gradients, their stops and the option of the compressed writer are kept by reference: changing them later changes the pictures, emptying the stops makes `Write`
    panic, and `NewGradient(angle, s...)` sorts the caller's slice (C97).
21. Gradient colours depend on the platform: where the compiler fuses multiplication and addition, a channel can be one larger or smaller than on amd64 (C98).
22. In the browser a version 40 symbol with blocks of 185 pixels or more needs a picture of over 4 GB: `generateQRCode` panics and the program ends, instead of reporting an
    error; on 32-bit platforms the same holds from 131 pixels on (C99).
23. A writer with a transparent background that is shared by goroutines is a data race: drawing stores to the background colour in its options (C100).
