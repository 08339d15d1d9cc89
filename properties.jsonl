{"id": "C01", "title": "A symbol decodes back to the text it was made from", "statement": "Whenever New/NewWith returns a QRCode, a standards-conforming reader that sees only the dark/light bitmap (no errors) recovers exactly the bytes that were passed in.", "quantifier": "every byte string, every list of encode options, every order in which the mask goroutines finish, every Reed-Solomon coder meeting its length contract, every Shift-JIS table meeting its contract", "why_tests_cant": "the text space is infinite and the path goes through 160 version/level configurations, 4 modes and 8 masks; sampled round-trips missed the mixed alphanumeric+kanji texts for which it fails", "anchors": ["qrcode.go: New, NewWith, build, init, dataEncoding, arrangeBits, fillDataBinary, masking", "encoder.go: Encode"]}
{"id": "C02", "title": "The automatically chosen encoding mode can represent every character of the text", "statement": "With automatic mode selection, the chosen mode is the first of numeric, alphanumeric, kanji, byte that can represent all characters of the text.", "quantifier": "every byte string (including invalid UTF-8) and every Shift-JIS repertoire", "why_tests_cant": "the property ranges over all character sequences; the scan never re-checks earlier characters so a failure needs a specific prefix/suffix shape", "anchors": ["chardet.go: analyzeEncodeModeFromRaw, analyzeNum, analyzeAlphaNum, analyzeJP, analyzeByte"]}
{"id": "C03", "title": "Different texts give different symbols", "statement": "Two different texts encoded with the same options never yield the same set of possible symbols (otherwise no reader could tell them apart).", "quantifier": "every pair of byte strings and every option list", "why_tests_cant": "a statement about all pairs of inputs", "anchors": ["qrcode.go: New, init", "encoder.go: toShiftJIS, Encode"]}
{"id": "C04", "title": "Automatic version selection is the smallest sufficient version", "statement": "With no explicit version, the symbol's version is the smallest version, not below WithMinimumVersion, whose published character capacity for the chosen mode and level holds the text; an error is returned exactly when no version holds it.", "quantifier": "every text, mode, level and minimum version", "why_tests_cant": "boundary lengths for 40 versions x 4 levels x 4 modes", "anchors": ["version.go: analyzeVersion, loadVersion", "qrcode.go: calcVersion", "encoder_option.go: WithMinimumVersion"]}
{"id": "C05", "title": "An automatically versioned text is never rejected later for lack of room", "statement": "If version selection succeeds, the encoded bit stream (mode, count, payload) fits the selected version, also when WithMinimumVersion raises it.", "quantifier": "every text, mode, level and minimum version", "why_tests_cant": "needs every capacity entry to be consistent with every codeword count for all 160 configurations and all lengths", "anchors": ["version_cfg.go: versions", "encoder.go: breakUpInto8bit", "qrcode.go: calcVersion"]}
{"id": "C06", "title": "An explicit version is honoured or rejected with an error", "statement": "NewWith(text, WithVersion(v)) with 1<=v<=40 either yields a symbol of exactly version v or returns an error; it errs exactly when the text is not representable in the mode or its bit stream exceeds version v's data capacity.", "quantifier": "every text, version 1..40, level and mode", "why_tests_cant": "quantifies over all texts and configurations", "anchors": ["qrcode.go: calcVersion, dataEncoding", "encoder.go: breakUpInto8bit", "encoder_option.go: WithVersion"]}
{"id": "C07", "title": "New/NewWith never panic for string or []byte input and supported modes", "statement": "For T = string or []byte and modes auto/numeric/alphanumeric/kanji/byte, NewWith returns a QRCode or an error and never panics.", "quantifier": "every text and every option list over supported modes", "why_tests_cant": "absence of panics for all inputs and all indexing operations cannot be sampled", "anchors": ["qrcode.go: NewWith, toBytes, build, init", "encoder.go: newEncoder, encodeAlphanumericCharacter, getEncodeModeIndicator"]}
{"id": "C08", "title": "Unsupported modes and named text types are rejected without panicking", "statement": "NewWith with an encoding mode outside the supported set, or with a text of a user-defined string/[]byte type (which the type constraint admits), returns an error or a symbol but does not panic.", "quantifier": "every mode value, every admitted dynamic type, every text", "why_tests_cant": "needs enumeration of all admissible instantiations", "anchors": ["qrcode.go: toBytes, validateEncodingMode", "encoder.go: newEncoder"]}
{"id": "C09", "title": "Characters outside an explicitly chosen mode are rejected", "statement": "With an explicit numeric, alphanumeric or kanji mode NewWith returns an error exactly when some character of the text is outside that mode's repertoire (given enough capacity); byte mode accepts every byte string.", "quantifier": "every byte string", "why_tests_cant": "all character sequences including malformed UTF-8", "anchors": ["qrcode.go: validateEncodingMode", "chardet.go: analyzeNum, analyzeAlphaNum, analyzeJP"]}
{"id": "C10", "title": "Encode options: invalid values ignored, last valid value wins, different options commute", "statement": "The effective options are determined field by field by the last in-range option; out-of-range versions, minimum versions and levels have no effect; order between options of different kinds is irrelevant.", "quantifier": "every list of encode options", "why_tests_cant": "option lists are unbounded", "anchors": ["encoder_option.go: WithEncodingMode, WithErrorCorrectionLevel, WithVersion, WithMinimumVersion, DefaultEncodingOption"]}
{"id": "C11", "title": "Symbol dimension", "statement": "Every symbol is square with side 17+4*version modules and Dimension() reports that side.", "quantifier": "every successful build", "why_tests_cant": "all configurations and texts", "anchors": ["qrcode.go: Dimension", "version.go: Dimension", "matrix.go: newMatrix, Width"]}
{"id": "C12", "title": "Function patterns are those of the standard", "statement": "In every symbol the finder patterns, separators, timing patterns, alignment patterns and dark module have exactly the dark/light values and positions prescribed for its version.", "quantifier": "every successful build and every module coordinate", "why_tests_cant": "every cell of every version for every data content and mask", "anchors": ["qrcode.go: prefillMatrix, addFinder, addSplitter, addAlignment, addTimingLine, addDarkBlock", "version.go: alignPatternLocation, calcAlignPatternLocs, valid"]}
{"id": "C13", "title": "Format information names the level and mask actually used", "statement": "Both copies of the 15-bit format information carry the BCH-encoded error correction level requested and the mask pattern that was actually applied to the data region.", "quantifier": "every successful build and schedule", "why_tests_cant": "quantifies over all texts and goroutine orders", "anchors": ["qrcode.go: fillFormatInfo, reserveFormatBlock, masking", "version.go: formatInfo, formatBitSequence"]}
{"id": "C14", "title": "Version information", "statement": "For versions 7..40 both copies of the 18-bit version information carry the Golay-encoded version number; versions below 7 carry none.", "quantifier": "every successful build", "why_tests_cant": "all versions, texts and masks", "anchors": ["qrcode.go: fillVersionInfo, reserveVersionBlock", "version.go: verInfo, versionBitSequence"]}
{"id": "C15", "title": "Every module is determined: the final bit stream exactly fills the data region", "statement": "The codewords plus remainder bits are exactly as many as the non-function modules, each of these modules receives exactly one bit, and no module of the returned symbol is left in the initial state.", "quantifier": "every version, level and text", "why_tests_cant": "counts must agree for all 160 configurations and every cell", "anchors": ["qrcode.go: fillDataBinary, init", "version_cfg.go: versions RemainderBits, Groups"]}
{"id": "C16", "title": "Data bits are placed in the standard zig-zag order", "statement": "Reading the non-function modules of the unmasked symbol in the standard two-column zig-zag order yields the interleaved codeword stream.", "quantifier": "every version, level and bit stream", "why_tests_cant": "all bit streams and all 40 traversals", "anchors": ["qrcode.go: fillDataBinary"]}
{"id": "C17", "title": "Masking flips exactly the data modules selected by the standard formula", "statement": "For mask k the symbol differs from the unmasked symbol exactly on non-function modules whose (row,column) satisfies formula k of the standard; masking twice restores the symbol.", "quantifier": "every symbol, mask pattern and coordinate", "why_tests_cant": "all coordinates and contents", "anchors": ["mask.go: newMask, masking, modulo0Func..modulo7Func", "qrcode.go: xorMask"]}
{"id": "C18", "title": "The chosen mask has the lowest penalty whatever the goroutine order", "statement": "For every completion order of the eight mask goroutines the returned symbol is one of the eight candidates and no candidate has a strictly lower penalty score.", "quantifier": "every schedule of the goroutines and every text", "why_tests_cant": "schedules cannot be enumerated by running", "anchors": ["qrcode.go: masking", "mask_evaluation.go: evaluation"]}
{"id": "C19", "title": "Determinism: the same text and options always give the same symbol", "statement": "The returned symbol is a function of text and options only, independent of goroutine scheduling.", "quantifier": "every pair of schedules", "why_tests_cant": "a race-dependent outcome shows up only on specific schedules and tied scores", "anchors": ["qrcode.go: masking"]}
{"id": "C20", "title": "Mask goroutines: every interleaving terminates with all eight scores and no cross-talk", "statement": "Under every interleaving of the eight workers none blocks on the score channel, the waiter is released only after all eight sent their score, each worker's final matrix equals its sequential result, and the channel holds each index exactly once.", "quantifier": "every interleaving of the workers' steps", "why_tests_cant": "the interleavings are combinatorially many", "anchors": ["qrcode.go: masking, xorMask"]}
{"id": "C21", "title": "Codewords are split into blocks and interleaved as the standard prescribes", "statement": "De-interleaving the codeword stream with the standard's block table gives back the data blocks (whose concatenation is the encoded stream) and for each block the error-correction codewords computed from that block.", "quantifier": "every version, level and text, every Reed-Solomon coder meeting its length contract", "why_tests_cant": "all configurations and contents; the loop's termination counter is cumulative", "anchors": ["qrcode.go: dataEncoding, errorCorrectionEncoding, arrangeBits"]}
{"id": "C22", "title": "The data bit stream has exactly the capacity of the symbol and the standard layout", "statement": "The encoded stream is mode indicator, character count, payload, terminator of at most 4 zero bits, zero bits up to a byte boundary, then alternating pad bytes 0xEC 0x11, with total length exactly 8 x data codewords.", "quantifier": "every text that fits, every mode, version and level", "why_tests_cant": "all lengths modulo everything", "anchors": ["encoder.go: Encode, breakUpInto8bit, charCountBits, getEncodeModeIndicator"]}
{"id": "C23", "title": "Payload codecs are invertible", "statement": "Numeric, alphanumeric, byte and kanji payloads decode (by the standard's rules, knowing only the character count) to the characters that were encoded, and their bit lengths follow the standard's formulas.", "quantifier": "every character sequence of the repertoire of each mode", "why_tests_cant": "unbounded sequences", "anchors": ["encoder.go: encodeNumeric, encodeAlphanumeric, encodeByte, encodeKanji, encodeShiftJIS, encodeAlphanumericCharacter"]}
{"id": "C24", "title": "Version tables agree with the standard", "statement": "For all 160 version/level pairs the block structure, remainder bits and the four character capacities equal the values derived from the symbol geometry and the standard's EC tables; the alignment table equals the standard's; format and version words equal their BCH/Golay encodings.", "quantifier": "all 160 entries, 40 alignment rows, 32 format words, 34 version words and all text lengths for the capacities", "why_tests_cant": "unit tests sample a handful of entries", "anchors": ["version_cfg.go: versions", "version.go: formatBitSequence, versionBitSequence, alignPatternLocation"]}
{"id": "C25", "title": "Format and version words are far apart", "statement": "Any two distinct format words differ in at least 7 bits and any two distinct version words in at least 8, so a reader can correct 3 wrong bits in either.", "quantifier": "all pairs of words and all 3-bit error patterns", "why_tests_cant": "pairs of table entries times error patterns", "anchors": ["version.go: formatBitSequence, versionBitSequence"]}
{"id": "C26", "title": "Penalty rule 1 scores runs", "statement": "Rule 1 equals the sum over rows and columns of (n-2) for every maximal run of n>=5 modules of equal colour.", "quantifier": "every square matrix", "why_tests_cant": "all matrices", "anchors": ["mask_evaluation.go: rule1", "utilities.go: samestate"]}
{"id": "C27", "title": "Penalty rule 2 scores same-colour 2x2 areas", "statement": "Rule 2 equals 3 times the number of 2x2 squares whose four modules have the same colour.", "quantifier": "every matrix", "why_tests_cant": "all matrices; unit tests have none for this rule", "anchors": ["mask_evaluation.go: rule2"]}
{"id": "C28", "title": "Penalty rule 3 scores finder-like patterns by colour", "statement": "Rule 3 equals 40 times the number of positions (rows and columns) at which the colour sequence 10111010000 or 00001011101 occurs, overlapping occurrences included.", "quantifier": "every square matrix", "why_tests_cant": "all matrices", "anchors": ["mask_evaluation.go: rule3", "kmp_variant.go: kmp", "utilities.go: binaryToQRValueSlice"]}
{"id": "C29", "title": "Pattern counting counts every occurrence and terminates", "statement": "The substring counter returns the number of positions at which the pattern occurs in the source, overlaps included, and terminates for every source and every non-empty pattern.", "quantifier": "every source and every non-empty pattern over any alphabet", "why_tests_cant": "unbounded strings; the algorithm re-enters its loop by goto", "anchors": ["kmp_variant.go: kmp, kmpGetNext"]}
{"id": "C30", "title": "Penalty rule 4 depends only on the dark ratio and is bounded", "statement": "Rule 4 equals the standard's step function of the percentage of dark modules: ten times the distance from 50 percent in steps of five, and lies between 0 and 100; total penalties never reach the sentinel 2^31-1 used to initialise the search.", "quantifier": "every non-empty square matrix up to 177x177", "why_tests_cant": "all matrices", "anchors": ["mask_evaluation.go: rule4, evaluation", "qrcode.go: masking"]}
{"id": "C31", "title": "Matrix views agree", "statement": "Iterate visits every module exactly once in the documented order with its value; Bitmap()[y][x] is the IsSet of the value Iterate reports at (x,y); Row and Col return the corresponding lines or nil when out of range; reads and writes outside the matrix report errors and change nothing.", "quantifier": "every matrix and coordinate", "why_tests_cant": "all matrices and coordinates", "anchors": ["matrix.go: Iterate, iter, Bitmap, Row, Col, at, set"]}
{"id": "C32", "title": "Copy is independent of the original", "statement": "After Copy, no later write to either matrix (through set or through a slice returned by Col) is visible in the other.", "quantifier": "every history of writes to two matrices in a shared heap", "why_tests_cant": "aliasing depends on histories", "anchors": ["matrix.go: Copy, Col, set"]}
{"id": "C33", "title": "A writer cannot change the QRCode it is given", "statement": "Save passes the matrix by value, so whatever the writer does with it, the QRCode's later output is unchanged.", "quantifier": "every writer behaviour", "why_tests_cant": "quantifies over arbitrary user code", "anchors": ["qrcode.go: Save", "matrix.go: Col"]}
{"id": "C34", "title": "Save calls Write once, then Close once, and returns Write's error", "statement": "For every writer, Save calls Write exactly once with the symbol and then Close exactly once even if Write fails or panics, returns Write's error and swallows Close's; a nil writer is a no-op returning nil.", "quantifier": "every writer outcome (ok, error, panic) for Write and Close", "why_tests_cant": "all combinations of failures", "anchors": ["qrcode.go: Save", "writer.go: nonWriter"]}
{"id": "C35", "title": "File writer output determines the bitmap", "statement": "The text produced by the file writer has ceil(h/2) lines of w block characters from which every module's colour can be read back; if the file is nil or a write fails the error is returned and what was written is a prefix of the full text.", "quantifier": "every matrix and every failure point", "why_tests_cant": "all matrices and crash points", "anchors": ["writer/file/writer.go: Write"]}
{"id": "C36", "title": "Compressed writer paints every pixel as its module", "statement": "Pixel (px,py) of the compressed image is foreground exactly when it lies inside the symbol area and the module covering it is dark; the image is (w*block+2*padding) square and nothing is written outside it.", "quantifier": "every square matrix, non-negative padding and positive block size, every pixel", "why_tests_cant": "all sizes and pixels", "anchors": ["writer/compressed/writer.go: Write"]}
{"id": "C37", "title": "Writing an image file replaces the previous contents", "statement": "After creating a writer for a path and saving, the file contains exactly the encoded image, whatever it contained before.", "quantifier": "every previous file content and every encoded image", "why_tests_cant": "depends on the relative lengths of old and new content", "anchors": ["writer/compressed/writer.go: New", "writer/standard/writer.go: New"]}
{"id": "C38", "title": "Terminal writer draws every module as two cells inside a one-module quiet zone", "statement": "After drawing, terminal cells (2x+2,y+1) and (2x+3,y+1) show module (x,y)'s colour and the surrounding quiet zone is white.", "quantifier": "every matrix and coordinate", "why_tests_cant": "all sizes; later draw calls could overwrite earlier ones", "anchors": ["writer/terminal/writer.go: Write, preDraw, drawBlock"]}
{"id": "C39", "title": "Standard writer: Attribute predicts the image geometry", "statement": "Attribute(dim) returns the width and height of the image Write draws, with the borders and block width in effect.", "quantifier": "every option list and every dimension", "why_tests_cant": "all option combinations", "anchors": ["writer/standard/writer.go: draw, Attribute", "writer/standard/image_option.go: preCalculateAttribute, qrBlockWidth"]}
{"id": "C40", "title": "Standard writer draws each module once, in its own cell, in its colour", "statement": "Without logo safe zone and halftone, every module is drawn exactly once at its own block position with foreground colour iff dark; blocks tile the image without the borders, so with the rectangle shape every pixel shows its module's colour and every border pixel the background.", "quantifier": "every matrix, block width, borders and pixel", "why_tests_cant": "all sizes and pixels", "anchors": ["writer/standard/writer.go: draw", "writer/standard/image_option.go: translateToRGBA", "writer/standard/image_qr_shape.go: rectangle"]}
{"id": "C41", "title": "Neighbour mask", "statement": "The neighbour bitmask passed to a shape has the bit of each of the nine directions set exactly when that cell is inside the matrix and dark.", "quantifier": "every bitmap and coordinate", "why_tests_cant": "all bitmaps", "anchors": ["writer/standard/writer.go: getNeighbours"]}
{"id": "C42", "title": "Logo safe zone: no dark module is drawn under the logo and nothing else is lost", "statement": "With a valid logo and the safe zone on, a dark module is skipped exactly when its block shares a pixel with the logo rectangle; light modules and all others are drawn.", "quantifier": "every matrix, logo size, borders and block width", "why_tests_cant": "all geometries", "anchors": ["writer/standard/writer.go: draw, blockOverlapsLogo, validLogoImage"]}
{"id": "C43", "title": "Logo safe zone: neighbour masks treat exactly the removed modules as light", "statement": "With the safe zone on, a shape's neighbour mask shows a neighbour as dark exactly when that neighbour is a dark module that is not removed by the safe zone.", "quantifier": "every matrix, logo size and borders", "why_tests_cant": "depends on asymmetric geometries", "anchors": ["writer/standard/writer.go: draw (bitMap[x][y] = false)"]}
{"id": "C44", "title": "Image options: borders, block width and unset values", "statement": "WithBorderWidth follows its documented 0/1/2/4-argument forms, block width 0 means 20, of several options for the same setting the last one counts, options for different settings do not interfere, and nil colours, gradients, logos and encoders are ignored (a nil shape means rectangles); the constructor panics only for a nil writer, a malformed hex colour or an unknown format.", "quantifier": "every option list", "why_tests_cant": "unbounded lists", "anchors": ["writer/standard/image_option_api.go", "writer/standard/image_option.go"]}
{"id": "C45", "title": "Colours given as color.Color are used faithfully", "statement": "WithFgColor/WithBgColor(c) use c's colour reduced to 8 bits per channel (the high byte of each 16-bit channel).", "quantifier": "every colour value", "why_tests_cant": "2^64 colours", "anchors": ["writer/standard/image_option.go: parseFromColor"]}
{"id": "C46", "title": "Hex colours", "statement": "WithFgColorRGBHex/WithBgColorRGBHex parse #rrggbb and #rgb (each digit doubled) to the opaque colour they denote.", "quantifier": "every well-formed hex colour string", "why_tests_cant": "2^24 strings in mixed case", "anchors": ["writer/standard/image_option.go: parseFromHex"]}
{"id": "C47", "title": "Gradient interpolation is well defined", "statement": "For sorted stops the interpolated colour is one of the two neighbouring stops' blend, never divides by zero, never reaches the fallback, lies channel-wise between the two stops, and is opaque except at or beyond the end stops, where it is the stop's colour.", "quantifier": "every non-empty sorted stop list and every position", "why_tests_cant": "all stop lists and positions, including repeated stops", "anchors": ["writer/standard/gradient.go: interpolateColor, blendColors, NewGradient"]}
{"id": "C48", "title": "Version lookup by binary search finds every present key and terminates for every key", "statement": "Searching the version table for (version, level) returns that entry when present and terminates with not-found otherwise.", "quantifier": "every key", "why_tests_cant": "unbounded keys; a non-terminating search hangs instead of failing", "anchors": ["version.go: binarySearchVersion, defaultBinaryCompare"]}
{"id": "C49", "title": "Alignment positions do not depend on call history", "statement": "Every lookup of alignment positions returns the positions computed for that version, for every earlier sequence of lookups, and after start-up no lookup for a legal version writes to the shared cache. A lookup with an empty cache finds the same positions.", "quantifier": "every history of lookups", "why_tests_cant": "histories are unbounded; an unsynchronised write would be a data race", "anchors": ["version.go: loadAlignmentPatternLocV2, loadAlignmentPatternLoc, precalculateAlignPatternLocs"]}
{"id": "C50", "title": "Error correction really corrects", "statement": "With a systematic Reed-Solomon coder over GF(256), any two distinct blocks of a symbol differ in more codewords than the block's number of error-correction codewords, so floor(n/2) wrong codewords per block are uniquely correctable.", "quantifier": "every block content and every error pattern", "why_tests_cant": "256^k contents times error patterns", "anchors": ["qrcode.go: errorCorrectionEncoding", "version_cfg.go: ECBlockwordsPerBlock"]}
{"id": "C51", "title": "Command line: borders and block size", "statement": "The command line accepts exactly four comma-separated decimal numbers 0..255 as borders, passes them in order top,right,bottom,left, and uses the given block size.", "quantifier": "every flag value", "why_tests_cant": "all strings and sizes", "anchors": ["cmd/qrcode/app.go: parseGenerateContextFrom, applyOptions"]}
{"id": "C52", "title": "WebAssembly: omitted options mean defaults", "statement": "generateQRCode(content, options) accepts any subset of the documented option fields, uses defaults for the rest, and reports failures in the result object.", "quantifier": "every options object", "why_tests_cant": "all subsets of fields and value types", "anchors": ["cmd/wasm/types.go: optionFromJSValue, encodeOptions, outputOptions", "cmd/wasm/main.go: genqrcode"]}
{"id": "C53", "title": "Halftone blocks keep the module colour in the centre", "statement": "With a halftone image every data module is drawn as nine sub-blocks whose centre has the module's colour and the other eight the colour of the corresponding halftone pixel; the nine sub-blocks lie inside the module's block.", "quantifier": "every matrix, halftone image and block width", "why_tests_cant": "all sizes and images", "anchors": ["writer/standard/writer.go: draw, halftoneColor"]}
{"id": "C54", "title": "A standard Writer can be used again", "statement": "Writing a matrix with a Writer that has already written any number of other matrices draws the same picture as a new Writer with the same options.", "quantifier": "every history of writes, every option set, every next matrix", "why_tests_cant": "all histories; the writer keeps mutable options that drawing modifies", "anchors": ["writer/standard/writer.go: Write, draw", "writer/standard/image_option.go: backgroundColor, translateToRGBA"]}
{"id": "C55", "title": "A gradient recolours the foreground only", "statement": "Applying a gradient leaves every pixel that does not have the foreground colour unchanged, gives every other pixel a colour, and never fails when the gradient has at least one stop.", "quantifier": "every image, gradient, angle and pixel", "why_tests_cant": "all images and gradients", "anchors": ["writer/standard/gradient.go: applyGradient, interpolateColor"]}
{"id": "C56", "title": "Logo size and position", "statement": "The logo is drawn exactly if its width and height times the size multiplier fit the picture; it is drawn once, last, centred to half a pixel and entirely inside the picture.", "quantifier": "every matrix, option set and logo size", "why_tests_cant": "all sizes, odd and even", "anchors": ["writer/standard/writer.go: draw, validLogoImage"]}
{"id": "C57", "title": "Command line: the format follows the file name", "statement": "The command line writes a PNG file exactly if the output file name ends in .png (in lower case) and a JPEG file otherwise.", "quantifier": "every output file name, whatever directories, dots and slashes it contains", "why_tests_cant": "all strings", "anchors": ["cmd/qrcode/app.go: parseGenerateContextFrom, applyOptions"]}
{"id": "C58", "title": "WebAssembly: the result object", "statement": "The result of generateQRCode reports success exactly if the symbol was made and saved; then base64EncodedImage decodes to exactly the bytes of the picture and the error is empty; otherwise there is an error and no picture.", "quantifier": "every list of arguments, every picture", "why_tests_cant": "all arguments and all byte strings", "anchors": ["cmd/wasm/main.go: genqrcode", "cmd/wasm/types.go: setError, setImage, JSValue"]}
{"id": "C59", "title": "Shapes keep the symbol readable", "statement": "Whatever shape of the library is chosen (rectangle, circle, or any pair of finder and block functions of the shapes package), the centre of every dark module ends up in the foreground colour and the centre of every light module in the background colour, although shapes paint into neighbouring blocks and share one drawing path.", "quantifier": "every matrix, every pair of drawing functions with every parameter, every block width and border", "why_tests_cant": "all neighbourhoods of all symbols, all parameters; a picture that looks right shows one symbol", "anchors": ["writer/standard/shapes/blocks.go", "writer/standard/shapes/finders.go", "writer/standard/shapes/constructor.go: Assemble, has", "writer/standard/image_qr_shape.go: rectangle, circle", "writer/standard/writer.go: draw, getNeighbours"]}
{"id": "C60", "title": "Shapes keep out of the quiet zone", "statement": "No shape of the library paints a point outside the symbol; a function paints out of its own block only towards dark neighbours of a dark module (only LiquidBlock and RoundedFinder do, by at most half a block), and none leaves an unfilled figure for the next module.", "quantifier": "every matrix, drawing function, parameter, block width, border and every point", "why_tests_cant": "all points and all neighbourhoods", "anchors": ["writer/standard/shapes/blocks.go", "writer/standard/shapes/finders.go", "writer/standard/writer.go: draw, getNeighbours"]}
{"id": "C61", "title": "Joining shapes join", "statement": "With LiquidBlock, HStripeBlock, ChainBlock or HChainBlock the whole line between the centres of two adjacent dark modules of a row is painted in the foreground colour in the final picture; with LiquidBlock, VStripeBlock, ChainBlock or VChainBlock that of two adjacent dark modules of a column.", "quantifier": "every matrix, pair of adjacent modules, ratio, block width and every point of the line", "why_tests_cant": "all symbols and all points", "anchors": ["writer/standard/shapes/blocks.go"]}
{"id": "C62", "title": "Sizes of blocks", "statement": "VStripeBlock(ratio) draws a stripe of ratio times the block width (0.85 outside [0.6, 1]), SquareBlocks(size) a centred square with size times the side of the block and CircleBlocks(size) a centred disc with size times its diameter (1 outside [0.1, 1]).", "quantifier": "every parameter, block and point", "why_tests_cant": "all points and parameters", "anchors": ["writer/standard/shapes/blocks.go: VStripeBlock, SquareBlocks, CircleBlocks"]}
{"id": "C63", "title": "Height of horizontal stripes", "statement": "HStripeBlock(ratio) draws a stripe of ratio times the block height (0.85 outside [0.6, 1]).", "quantifier": "every parameter, block and point", "why_tests_cant": "all points and parameters", "anchors": ["writer/standard/shapes/blocks.go: HStripeBlock"]}
{"id": "C64", "title": "Grey pictures", "statement": "imgkit.Gray keeps the bounds of an image and gives every point of it its grey value (white 255, black 0); Binaryzation makes exactly the points with a grey value above the threshold white and the others black. The halftone picture of the standard writer is coloured by it.", "quantifier": "every image (any bounds), every point and threshold", "why_tests_cant": "all images and points", "anchors": ["writer/standard/imgkit/process.go: Gray, Binaryzation", "writer/standard/image_options.go"]}
{"id": "C65", "title": "Saving an image", "statement": "imgkit.Save returns nil exactly if the file could be created, its name ends in .jpg, .jpeg or .png and the encoder succeeded, and then the file holds exactly the picture in the format of the name; otherwise no file changes.", "quantifier": "every file name, file system, image and encoder outcome", "why_tests_cant": "all file systems and names", "anchors": ["writer/standard/imgkit/io.go: Save"]}
{"id": "C66", "title": "The debug switch", "statement": "Debugging is on at some moment exactly if SetDebugMode was called before, or QRCODE_DEBUG had an enabling value the first time the library looked; later changes of the variable have no effect and it is never switched off.", "quantifier": "every history of calls and values of the variable", "why_tests_cant": "all histories", "anchors": ["debug.go: debugEnabled, SetDebugMode"]}
{"id": "C67", "title": "The debug picture", "statement": "The debug picture shows module (i, j) as ten by ten pixels beginning at (10 i + 10, 10 j + 10), black if dark and white if light, within a border of ten grey pixels.", "quantifier": "every matrix and every pixel", "why_tests_cant": "all matrices and pixels", "anchors": ["debug.go: debugDrawTo"]}
{"id": "C68", "title": "Damaged symbols can be read", "statement": "If at most 6 of the 30 format modules of a symbol and, in every Reed-Solomon block, at most half as many codewords as the block has error correction codewords are damaged, a reader that corrects errors still recovers exactly the text (for the texts of C01); in particular any three wrong modules are harmless, and any six at levels Q and H. The bound is sharp: with one codeword more damaged in a block with an odd number of error correction codewords, nothing is read.", "quantifier": "every text, options, schedule and every pattern of damage within the bounds", "why_tests_cant": "astronomically many damage patterns", "anchors": ["qrcode.go: NewWith, build, applyErrorCorrection", "encoder.go: Encode", "writer interface: Matrix.Bitmap"]}
{"id": "C69", "title": "A logo of allowed size leaves the symbol readable", "statement": "With rectangles, distinguishable colours, symmetric borders of at most two blocks and a logo accepted by the default size check (a fifth of the picture), looking at any one pixel per block of the picture and correcting errors yields exactly the text, whatever the logo shows, with or without safe zone, except at level L in versions 1-6 and 36 and level M in versions 2 and 4. At version 1, level L, some logo of a permitted size makes every symbol unreadable.", "quantifier": "every text, options, version, level, logo content and size, block width, choice of pixels", "why_tests_cant": "all texts, logos and pixels", "anchors": ["writer/standard/writer.go: draw, validLogoImage, blockOverlapsLogo", "qrcode.go: NewWith"]}
{"id": "C70", "title": "Text to picture and back", "statement": "Without a logo (or with one too large to be drawn), with rectangles, no halftone, no gradient and distinguishable colours (also transparent background), any one pixel per block of the picture drawn by the standard writer gives back exactly the text (for the texts of C01).", "quantifier": "every text, options, border, block width, colours, choice of pixels", "why_tests_cant": "all texts and pixels", "anchors": ["writer/standard/writer.go: draw", "qrcode.go: NewWith"]}
{"id": "C71", "title": "Text to the other writers and back", "statement": "The image of the compressed writer, the characters of the text file writer and the cells of the terminal writer give back exactly the text passed to New (for the texts of C01).", "quantifier": "every text, options, block size, padding, terminal large enough", "why_tests_cant": "all texts and sizes", "anchors": ["writer/compressed/writer.go: Write", "writer/file/writer.go: Write", "writer/terminal/writer.go: Write"]}
{"id": "C72", "title": "Shapes and halftone pictures keep the text", "statement": "With any shape of the library (circles in blocks of at least two pixels), and with a halftone image in blocks of at least three pixels, the centres of the blocks give back exactly the text (for the texts of C01), whatever the halftone image shows; in smaller blocks a halftone picture shows nothing of the data modules.", "quantifier": "every text, options, shape, halftone image, block width", "why_tests_cant": "all texts, shapes and images", "anchors": ["writer/standard/writer.go: draw", "writer/standard/image_qr_shape.go", "writer/standard/shapes"]}
{"id": "C73", "title": "Concurrent calls of New do not affect each other", "statement": "Any number of goroutines may call New/NewWith at the same time: in every interleaving the process is not killed by overlapping accesses to the package's shared map, no call waits for another, and each call returns exactly what it returns alone.", "quantifier": "any number of goroutines, any texts and options, every interleaving", "why_tests_cant": "a data race shows up in few schedules; all interleavings", "anchors": ["version.go: init, loadAlignmentPatternLocV2, precalculateAlignPatternLocs, alignPatternCache, alignPatternCacheMu", "qrcode.go: NewWith, prefillMatrix"]}
{"id": "C74", "title": "Save reports failed writes; reuse of a writer", "statement": "With a standard or compressed writer, Save returns nil exactly when every write to the file succeeded, and then the file has received the whole image; otherwise it returns an error and the file holds a beginning of it. The file is closed in every case, an error of closing is only logged, and every further Save with the same writer returns an error and changes nothing. The text file writer never closes the file: further Saves append.", "quantifier": "every symbol, every pattern of failing writes and closes, any number of Saves", "why_tests_cant": "all failure points and histories", "anchors": ["qrcode.go: Save", "writer/standard/writer.go: Write, Close, drawTo", "writer/compressed/writer.go: Write, Close", "writer/file/writer.go: Write, Close"]}
{"id": "C75", "title": "The command line makes a code that contains the text given", "statement": "The qrcode command panics exactly if the borders are malformed, reports an error exactly if the text has no symbol, and otherwise shows the symbol in the terminal or draws it for the file given. A scanner that looks at any one pixel of every block of the picture (of the centres, with circles in blocks of at least 2 pixels or a halftone picture in blocks of at least 3), starting at the borders given and in steps of the block size given (modulo 256, 20 for 0), reads exactly the text given, except for the texts of C01; so does a reader of the terminal's screen if it is large enough. Pixel by pixel, too: with circles in blocks of at least 10 pixels, a halftone picture in blocks of at least 12 (with circles 30 and a multiple of 3), one pixel at the centre of every block is enough, whatever the anti-aliasing does up to a quarter of a pixel.", "quantifier": "every combination of flags, every text, every schedule", "why_tests_cant": "all texts and flag values", "anchors": ["cmd/qrcode/app.go: generate, parseGenerateContextFrom, applyOptions", "writer/standard/writer.go: draw"]}
{"id": "C76", "title": "The WASM function returns a picture that contains the content", "statement": "Whenever generateQRCode reports success for a string and no options, or a complete options object (no circles, PNG, margin not negative, colours that differ or transparent background), decoding the base64 text and then the PNG gives a picture in which a scanner that looks at any one pixel of every block reads exactly the content, except for the texts of C01 when the mode is left open. With circles the same holds in blocks of at least 10 pixels for a scanner that looks at one pixel at the centre of every block.", "quantifier": "every content, every complete options object, every schedule", "why_tests_cant": "all contents and options", "anchors": ["cmd/wasm/main.go: genqrcode", "cmd/wasm/types.go: encodeOptions, outputOptions, setImage"]}
{"id": "C77", "title": "Every module is that of a reference encoder", "statement": "Whenever New or NewWith succeeds, the bitmap equals, module by module, the symbol that an encoder written directly from ISO/IEC 18004 makes of the text's payload in the chosen mode, version and level with some mask; the eight candidates are its symbols for the eight masks and none scores lower than the one returned. Mode, version and payload are determined by text and options (in the exceptional case of C01 the payload is empty).", "quantifier": "every text, option list, alignment cache and arrival order of the mask scores", "why_tests_cant": "all texts, versions, levels, masks and schedules; a test compares a few symbols", "anchors": ["qrcode.go: NewWith, init, masking, fillDataBinary", "encoder.go: Encode", "version.go", "mask.go"]}
{"id": "C78", "title": "Text, options and arrival order determine the bitmap", "statement": "Whenever New or NewWith succeeds, the bitmap is the reference encoder's symbol (C77) with the mask that comes first, in the order in which the eight scores arrive, among those whose symbol has the lowest score; the score is a fixed function of version and module colours. So the bitmaps a call can return are exactly the reference symbols of the lowest score.", "quantifier": "every text, option list, alignment cache and arrival order of the mask scores", "why_tests_cant": "all texts and all schedules; a test sees one schedule and cannot show that no other symbol is possible", "anchors": ["qrcode.go: masking", "mask_evaluation.go: evaluation, rule1, rule2, rule3, rule4", "encoder.go", "version.go"]}
{"id": "C79", "title": "Pictures with a gradient keep the text", "statement": "With WithFgGradient, rectangle modules and no halftone, if the foreground can be told from the background, all gradient stops are opaque and (unless the background is transparent) every stop, and every two stops that follow each other, are in some colour channel both below, or both more than one above, the background, then reading any one pixel of every module's block, calling it dark if it is opaque and not the background colour, gives a symbol whose text is exactly the text encoded, for every angle, number and order of stops. With a logo on the conditions of C69 the text is still read after error correction.", "quantifier": "every text, option list, arrival order, gradient angle and stops on these conditions, border, block width, choice of one pixel per module, logo picture", "why_tests_cant": "all gradients and all pixels; interpolation rounds in floating point", "anchors": ["writer/standard/writer.go: draw", "writer/standard/gradient.go: applyGradient, interpolateColor", "writer/standard/image_option_api.go: WithFgGradient"]}
{"id": "C80", "title": "Shapes with a logo keep the text", "statement": "With any shape of the library (circles in blocks of at least two pixels), no halftone, distinguishable colours, and a logo and borders as in C69, the centres of the blocks give back exactly the text after error correction, whatever the logo shows, with or without safe zone, in the versions and levels of C69. In general (any logo and borders) every light module's centre keeps the background colour and every dark module not removed by the safe zone has its centre in the foreground colour, except exactly those drawn by RoundedFinder whose mirrored place overlaps the logo: for these nothing is drawn.", "quantifier": "every text, options, version, level, shape, logo content and size, borders, block width", "why_tests_cant": "all texts, shapes and logos; the lost modules need an asymmetric layout", "anchors": ["writer/standard/writer.go: draw, blockOverlapsLogo, getNeighbours", "writer/standard/shapes/blocks.go", "writer/standard/shapes/finders.go: RoundedFinder"]}
{"id": "C81", "title": "Halftone pictures with shapes and a logo keep the text", "statement": "With a halftone image, blocks of at least three pixels and rectangles (or any other library shape except RoundedFinder as block function, in blocks whose width is a multiple of three; circles from six pixels on), distinguishable colours: the centres of the blocks give back exactly the text, whatever the halftone image shows; with a logo and borders as in C69, with or without safe zone, after error correction.", "quantifier": "every text, options, halftone image, shape, logo, block width on these conditions", "why_tests_cant": "all texts, images, shapes and logos", "anchors": ["writer/standard/writer.go: draw, halftoneColor", "writer/standard/image_qr_shape.go", "writer/standard/shapes"]}
{"id": "C82", "title": "Symbols of different texts are far apart", "statement": "Two symbols of the same size returned for different texts (whatever the options, and neither text in the exception of C01) differ in at least 7 modules of each copy of the format information, or have the same level and some block in which more codewords differ than the block has error correction codewords. So they differ in at least 14 modules at levels Q (default) and H, 11 at M, 8 at L, and no picture is within the correction limits of both.", "quantifier": "every pair of texts and option lists, both arrival orders", "why_tests_cant": "all pairs of texts; a test compares a few pairs", "anchors": ["qrcode.go: New, NewWith", "encoder.go: Encode", "qrcode.go: fillFormatInfo"]}
{"id": "C83", "title": "Pictures with shapes, pixel by pixel", "statement": "With any shape of the library (SquareBlocks and CircleBlocks with a factor above 2/5) in blocks of at least 10 pixels, no halftone, borders that are not negative, distinguishable colours, with or without a gradient that stands out from the background: drawing succeeds and one pixel at the centre of every block, wherever anti-aliasing and the order of overlapping figures leave it, is dark exactly for dark modules, so a scanner that looks at these pixels reads exactly the text; with a logo and borders as in C69, with or without safe zone, it does after error correction.", "quantifier": "every text, options, shape, gradient, logo, block width from 10 on, and every rasterizer that is exact up to a quarter of a pixel", "why_tests_cant": "all texts, shapes, gradients, logos and sizes; tests compare a few images", "anchors": ["writer/standard/writer.go: draw", "writer/standard/image_qr_shape.go", "writer/standard/shapes", "writer/standard/gradient.go"]}
{"id": "C84", "title": "Halftone pictures, pixel by pixel", "statement": "With a halftone image, rectangles in blocks of at least 12 pixels (or another shape that is not too thin and does not depend on neighbours, in blocks of at least 30 pixels whose width is a multiple of 3), borders that are not negative, distinguishable colours, with or without a gradient that stands out from the background: drawing succeeds and one pixel at the centre of every block, wherever anti-aliasing and the eight halftone sub-blocks around it leave it, is dark exactly for dark modules, whatever the image shows, so a scanner that looks at these pixels reads exactly the text; with a logo and borders as in C69, with or without safe zone, it does after error correction.", "quantifier": "every text, options, halftone image, shape, gradient, logo, block width from 12 (30) on, and every rasterizer that is exact up to a quarter of a pixel", "why_tests_cant": "all texts, images, shapes and sizes; tests compare a few images", "anchors": ["writer/standard/writer.go: draw, halftoneColor", "writer/standard/image_qr_shape.go", "writer/standard/shapes"]}
{"id": "C85", "title": "Pictures with a shape of the user's own", "statement": "WithCustomShape takes any shape. If the shape (whatever its state and whatever it is told of neighbours) always paints one fixed spot of its block in the colour it is given - it may skip light modules - and never the same spot of another block, and leaves the size of the picture alone, then with any block width, borders that are not negative, distinguishable colours, with or without a gradient that stands out, no halftone: drawing succeeds and a scanner that looks at that spot of every block reads exactly the text; with a logo and borders as in C69, with or without safe zone, it does after error correction. The shape of example/with-custom-shape is such a shape.", "quantifier": "every text, option list, arrival order, user-written shape meeting the contract, state of it, spot, colours, gradient, logo, border and block width", "why_tests_cant": "all user shapes and texts; a test runs one shape", "anchors": ["writer/standard/image_qr_shape.go: IShape, DrawContext", "writer/standard/image_option_api.go: WithCustomShape", "writer/standard/writer.go: draw", "example/with-custom-shape/main.go: smallerCircle"]}
{"id": "C86", "title": "The example programs produce symbols that can be read", "statement": "Each program and function under example/ that draws a picture (block width, circles, border, transparent background, colours, gradient, halftone with and without transparency, logo, minimum version, simple, assembled shape, custom shape, migration), run with any ASCII text of at most 1273 characters instead of its own: New succeeds, the image options are accepted, a picture is drawn, and a scanner that looks at the centres of the blocks (one pixel per block; with a logo: and corrects errors) reads exactly the text, whatever the halftone image or logo shows. The program with a minimum version gives version 9 for texts of at most 130 characters and never a smaller one. The same for the programs that use the file writer and (on a screen large enough) the terminal writer.", "quantifier": "every program, every ASCII text of at most 1273 characters, every halftone image and logo, every schedule of the mask computation, every rasterizer as in C83", "why_tests_cant": "all texts, images and schedules; the programs are not tested at all", "anchors": ["example/example.go", "example/simple/main.go", "example/with-minimum-version/main.go", "example/with-gradient-color/main.go", "example/with-halftone/main.go", "example/assemble-shape/main.go", "example/with-custom-shape/main.go", "example/migrating-from-v1/main.go: v2", "example/use-file-writer/main.go", "example/use-terminal-writer/main.go"]}
{"id": "C87", "title": "Row returns a copy, Col a window", "statement": "The slice returned by Row shows the row as it was at the call in every continuation that does not write through it, and writing through it changes no matrix. The slice returned by Col shows, at any later time, the current contents of the column asked for (nil if there is none), and writing its k-th element is the same as setting the module in that column and row.", "quantifier": "every history of operations on matrices before and after the call", "why_tests_cant": "aliasing depends on histories", "anchors": ["matrix.go: Row, Col, set, Copy"]}
{"id": "C88", "title": "The programs of issues 69 and 106", "statement": "Given any JSON text, the program of issue 69 encodes exactly the text with its characters replaced as the program says, in alphanumeric mode at the highest level, if it has at most 1852 characters, and fails with an error otherwise; given any text, the program of issue 106 encodes it if it consists of at most 1024 kanji, and reports an error otherwise. The picture written has one pixel for each module and a white frame of four pixels, and its pixels give the text.", "quantifier": "every text, every schedule", "why_tests_cant": "the programs are run by hand with one text", "anchors": [".issues/69/issue.go: main, encodeWithYeqown, encodeWithYeqownCompression", ".issues/106/issue.go: main", "writer/compressed/writer.go: Write", "qrcode.go: NewWith"]}
{"id": "C89", "title": "Quiet zone", "statement": "Every picture written has around the symbol a light margin of four modules on all sides, as ISO/IEC 18004 requires. (False with the default settings of all writers: the image writer leaves two modules, the command line none, the terminal writer one, the file writer none. Proved: the picture has a quiet zone of k modules exactly if every border (padding) is at least k modules wide.)", "quantifier": "every symbol, every writer, all borders, paddings and block sizes", "why_tests_cant": "the tests look at no margin; the claim is about all pixels around the symbol for all options", "anchors": ["writer/standard/writer.go: draw", "writer/standard/image_option.go: defaultOutputImageOption", "writer/standard/image_option_api.go: WithBorderWidth, WithQRWidth", "writer/compressed/writer.go: Write", "writer/terminal/writer.go: Write", "writer/file/file_writer.go: Write", "cmd/qrcode/app.go: prepareFlags"]}
{"id": "C90", "title": "How long a text may be", "statement": "Without an explicit version, a text is accepted if it has at most the number of characters the standard's table gives for version 40, the level asked for and the mode it is written in (7089 digits, 4296 alphanumeric characters, 2953 bytes or 1817 kanji at level L, down to 3057, 1852, 1273 and 784 at level H), and refused with an error if it has more.", "quantifier": "every text, level and mode, every schedule", "why_tests_cant": "the claim is about all lengths and all texts of each length", "anchors": ["version.go: analyzeVersionAuto, loadVersion", "version_cfg.go: versions", "qrcode.go: NewWith, init"]}
{"id": "C91", "title": "Longer texts and higher levels never give smaller symbols", "statement": "Of two calls without an explicit version that write their texts in the same mode, the one whose text has no more characters, whose level is no higher and whose minimum version is no larger succeeds if the other does, and its symbol is no larger.", "quantifier": "every pair of texts and options, every schedule", "why_tests_cant": "a relation between all pairs of calls", "anchors": ["version.go: analyzeVersionAuto", "version_cfg.go: versions", "qrcode.go: NewWith", "encode_option.go: WithErrorCorrectionLevel, WithMinimumVersion"]}
{"id": "C92", "title": "Automatic mode is never worse than an explicit one", "statement": "If a text is accepted in some mode given explicitly, it is accepted in automatic mode with the same level and minimum version, and the symbol is no larger. (False of texts of an alphanumeric part followed by a kanji part: fifty letters and a kanji give version 7 automatically and version 5 in byte mode; proved for all other texts.)", "quantifier": "every text, level and explicit mode, every schedule", "why_tests_cant": "a relation between calls for all texts and lengths", "anchors": ["chardet.go: analyzeEncodeModeFromRaw", "version.go: analyzeVersionAuto", "qrcode.go: NewWith"]}
{"id": "C93", "title": "Logos of any size", "statement": "Whatever the multiplier set with WithLogoSizeMultiplier, a picture with rectangles and a logo in the middle can be read by a scanner that looks at one pixel of every block and corrects errors, as long as the blocks that meet the logo belong, in every Reed-Solomon block, to at most half as many codewords as it has error correction codewords, and at most six of them are format information - in particular (exceptions as in C69) if the logo occupies at most a fifth of the width and height, whatever the multiplier. The program example/with-logosize-multiplier, with its own logo file, can be read for every ASCII text of at most 1273 characters. With multiplier 1 a logo may hide the whole symbol: then the pictures of all texts of the same size are the same.", "quantifier": "every text, options, logo size and content, multiplier, border widths, one pixel per block, every schedule", "why_tests_cant": "all sizes and contents of logos, all texts, all choices of pixels", "anchors": ["writer/standard/writer.go: drawAndSave, draw", "writer/standard/image_option.go: WithLogoSizeMultiplier, WithLogoImage", "writer/standard/writer.go: validLogoImage", "example/with-logosize-multiplier/main.go"]}
{"id": "C94", "title": "64 bits are enough", "statement": "Drawing a picture never overflows an int and never panics for its size as long as each border is at most 2^21 pixels, the multiplier of the logo at most 2^31 and the coordinates of the logo at most 2^30: the calls made are those of exact arithmetic. Borders of 2^22 to 2^61 pixels on all sides make Save panic, because the picture cannot be allocated. A multiplier of 2^62 does not refuse a logo whose sides are multiples of four: the product wraps around to 0 and the logo is drawn, whatever its size. The compressed writer does not overflow or panic for its size with a padding of at most 2^20 and blocks of at most 2^16 pixels; blocks of 2^20 to 2^54 pixels make Write panic.", "quantifier": "every text, options, symbol, logo, border widths, multiplier within the limits; block widths of all sizes", "why_tests_cant": "all combinations of sizes up to the limits", "anchors": ["writer/standard/writer.go: draw, validLogoImage, blockOverlapsLogo", "writer/standard/image_option.go: WithBorderWidth, WithLogoSizeMultiplier", "writer/compressed/writer.go: Write"]}
{"id": "C95", "title": "Gradients with any numbers", "statement": "Whatever float64 numbers are given as angle and positions of a gradient with at least one stop - NaN, infinities and huge numbers included, in any order -, applying it never fails, gives every pixel of the foreground colour a colour and leaves all other pixels alone. With a finite angle whose product with pi does not overflow and finite positions of at most 2^1022 nothing overflows: the colours are those of the finite model (C47, C55). With an angle that is NaN, infinite or beyond that, every pixel of the foreground colour becomes opaque black, whatever the stops are. With positions that are numbers and colours that differ from the background (black included), the picture can be read by a scanner whatever the angle is.", "quantifier": "every angle and position in float64 including NaN and the infinities, every list of stops, image size, pixel, text and options; every conversion to uint8 that Go allows for numbers out of range", "why_tests_cant": "all 2^64 values of every number, with values whose result Go leaves to the implementation", "anchors": ["writer/standard/gradient.go: applyGradient, interpolateColor, blendColors", "writer/standard/writer.go: draw"]}
{"id": "C96", "title": "Factors of shapes out of range are replaced", "statement": "Whatever float64 is given to SquareBlocks or CircleBlocks, the factor in use lies between 0.1 and 1, and whatever is given to HStripeBlock or VStripeBlock, the ratio in use lies between 0.6 and 1; a number in the range is used as it is. (False for NaN, which passes both tests of every function; proved for all other numbers, infinities included.)", "quantifier": "every float64, NaN and the infinities included", "why_tests_cant": "all values of a float64", "anchors": ["writer/standard/shapes/blocks.go: SquareBlocks, CircleBlocks, HStripeBlock, VStripeBlock"]}
{"id": "C97", "title": "A writer keeps what it was given", "statement": "What a caller does with a gradient, the slice of its stops or the option of a compressed writer after the writer has been made makes no difference to the pictures, and NewGradient leaves the caller's slice alone. (False: gradients, their stops and options are shared. Overwriting a stop of the slice given to NewGradient or a field of the gradient or option changes later pictures; emptying g.Stops makes Write panic, although WithFgGradient refuses an empty gradient; NewGradient(angle, s...) sorts s in place. Proved: as long as the program does not assign to the gradient, to the array its stops lie in or to the option, and does not call NewGradient with a slice of that array, nothing else it does matters, for every program; NewGradient with its stops listed in the call shares nothing.)", "quantifier": "every program that makes and changes slices, gradients, options and writers and draws, in any order", "why_tests_cant": "all histories of operations on shared memory", "anchors": ["writer/standard/gradient.go: NewGradient, LinearGradient", "writer/standard/image_option_api.go: WithFgGradient", "writer/standard/writer.go: draw", "writer/compressed/writer.go: New, NewWithWriter, Option"]}
{"id": "C98", "title": "Gradients on every platform", "statement": "Go may compute x*y + z with one rounding instead of two, and does on some platforms. Whatever is fused, at any corner, pixel and channel: the colour at a position is that of the first stop before it and of the last from there on, and between two neighbouring stops around the position an opaque colour with every channel between theirs, or one below; no divisor is zero, nothing panics, the fall-back colour does not occur; the colours two platforms give at the same position differ by at most one in every channel (and they do differ: no way of computing is always right); and a picture with a gradient that stands out from the background can be read by a scanner on every platform. Without fusion the colours are those of C47 and C55.", "quantifier": "every choice of fused operations, independently at every corner, pixel and channel; every list of stops, position, direction, text and options", "why_tests_cant": "tests run on one platform; all positions and stops", "anchors": ["writer/standard/gradient.go: applyGradient, interpolateColor, blendColors", "writer/standard/writer.go: draw"]}
{"id": "C99", "title": "Pictures on 32-bit platforms and in WebAssembly", "statement": "Where int has 32 bits, and in WebAssembly, drawing a picture does not overflow either as long as each border is at most 2^20 pixels, the multiplier of a logo at most 256 and the coordinates of the logo at most 2^20: either the picture needs more bytes than the platform can allocate (four a pixel) and Save panics, or the calls made are those of exact arithmetic. With equal borders the picture is made exactly if its side is at most 23170 pixels on a 32-bit platform and 32768 pixels in WebAssembly; for a version 40 symbol with the default borders that is blocks of at most 130 and 184 pixels, although the option takes up to 255. In the browser generateQRCode called with a complete options object and an encodable text panics exactly if the side of the picture exceeds 32768 pixels. The compressed writer (padding at most 2^20, blocks at most 2^16, one byte a pixel) makes its picture exactly up to 46340 pixels a side on a 32-bit platform and 65536 in WebAssembly.", "quantifier": "every text, options, symbol, logo, border widths, multiplier, block width within the limits; every complete options object", "why_tests_cant": "the tests run on one platform; all combinations of sizes", "anchors": ["writer/standard/writer.go: draw, validLogoImage, blockOverlapsLogo", "writer/standard/image_option.go: WithQRWidth, WithBorderWidth", "writer/compressed/writer.go: Write", "cmd/wasm/main.go: genqrcode"]}
{"id": "C100", "title": "Writers of pictures in several goroutines", "statement": "Any number of goroutines may draw symbols at the same time, with writers of their own or with shared ones. In every interleaving of the loads and stores of single bytes each goroutine draws exactly what it draws alone, nobody waits for anybody, and there is no data race - unless a writer with a transparent background is shared. Then there is a data race; still all calls of the drawing library but the fill of the background are those made alone, and the background is filled with alpha 0 and a red, green and blue that are each the given value or 0 (some interleavings mix them).", "quantifier": "any number of goroutines, writers, symbols and options; every interleaving", "why_tests_cant": "all interleavings; the race shows in few schedules and only in the colour of transparent pixels", "anchors": ["writer/standard/writer.go: Write, draw", "writer/standard/image_option.go: backgroundColor, translateToRGBA"]}
{"id": "C101", "title": "Symbols are read in any direction and in the mirror", "statement": "However often a symbol is turned by quarters and mirrored, in any order, the picture tells how to turn it back: the eight ways to look at it are all different, and exactly one of them, the symbol that was returned, has finder patterns in the upper left, upper right and lower left corners and a format word at its place. No text, version, level or mode ever produces a fourth finder pattern in the lower right corner, not even in version 1, which has no alignment pattern. So a reader that is not told the direction reads exactly the text (exception as in C01), and two symbols that look the same after turning and mirroring are the same.", "quantifier": "every text, option list, arrival order, and every sequence of quarter turns and mirrorings", "why_tests_cant": "all texts: a corner that looks like a finder pattern would need one text in 2^49", "anchors": ["qrcode.go: New, NewWith, prefillMatrix, addFinder, addAlignment", "encoder.go: Encode", "qrcode.go: fillFormatInfo"]}
{"id": "C102", "title": "A reader that is told nothing finds the symbol in the pixels", "statement": "A picture in which every dark module is a square of equally many dark pixels, and nothing else is dark, contains the text for a reader that gets only the pixels: it finds the rectangle that contains all that is dark, the size of a module (a seventh of the upper edge of a finder pattern, and the picture must consist of such squares), the direction, the mirroring and the version on its own. That holds for every size of a module and every border, after any quarter turns and mirrorings, and so for the pictures of the compressed writer, of the image writer with rectangles, and of the command line program (exception as in C01).", "quantifier": "every text, option list, arrival order, module size, border on each side, colours that can be told apart, and every sequence of quarter turns and mirrorings", "why_tests_cant": "all texts, sizes and borders: an outer row or column of modules without a dark one, or a finder pattern that seems longer than it is, would show only for some symbols", "anchors": ["writer/standard/writer.go: draw, drawImage", "writer/compressed/writer.go: Write", "cmd/qrcode/app.go: applyOptions", "qrcode.go: addFinder, addSplitter"]}
{"id": "C103", "title": "Settings that make no sense", "statement": "compressed.Option takes any padding and block size, WithBorderWidth any widths, and nothing checks them. Compressed writer: Write panics exactly if the block size is positive and the padding p satisfies -d < p < 0, where d is the side of the symbol in pixels; with a padding of -d or below it makes a picture at negative coordinates which contains the text; with a block size of 0 or below the picture is blank whatever the text, and no error says so. Image writer: whatever the borders, as long as the picture has at least one pixel, it has the size Attribute reports and shows the picture without borders, moved by the left and the top border, so a negative border silently cuts off that many pixels of the symbol; with right and bottom borders of 1 - d the picture of every symbol is one pixel in the foreground colour.", "quantifier": "every integer padding, block size and border, every text and option list", "why_tests_cant": "all integers; that the picture for a very negative padding is right depends on every index computed on the way", "anchors": ["writer/compressed/writer.go: Write", "writer/standard/writer.go: draw", "writer/standard/image_option_api.go: WithBorderWidth"]}
{"id": "C104", "title": "Light on dark", "statement": "In the negative of a picture of a symbol (turned and mirrored in any way, any module size, any borders) there is never another symbol: the reader that is told nothing finds none there. So a reader that looks at a picture and at its negative reads exactly the text from both, and a reader that tries every colour of a picture as the dark one finds exactly one text, the right one, in the pictures of the compressed writer and of the image writer with rectangles, whatever two colours were chosen, also on a transparent background (exception as in C01).", "quantifier": "every text, option list, module size, borders, pair of colours, quarter turns and mirrorings", "why_tests_cant": "all texts and sizes: data modules could form finder patterns in the negative", "anchors": ["writer/standard/writer.go: draw", "writer/standard/image_option_api.go: WithFgColor, WithBgColor, WithBgTransparent", "writer/compressed/writer.go: Write", "qrcode.go: addFinder, addSplitter"]}
{"id": "C105", "title": "Shapes computed with float64", "statement": "The functions of the shapes package compute with float64, and a compiler may fuse a multiplication with the subtraction that follows. Whatever is fused: in a block of whole pixels the rectangle, the circle, LiquidBlock, RoundedFinder and SquareFinder are computed without any error, and all others draw what exact arithmetic would draw, call by call, with every coordinate, width and radius off by at most a thousandth of a pixel; a factor given to VStripeBlock, SquareBlocks or CircleBlocks is treated by the range check as its exact value unless it is within 2^-48 of a bound without being the bound. Rounding never costs a module: with any shape whose factor in use is above two fifths, in blocks of at least 10 pixels on a picture of at most 2^30 pixels either way, with or without a gradient and a logo, a scanner that looks at one pixel at the centre of every block reads exactly the text (exceptions as in C01, conditions on the logo as in C69).", "quantifier": "every text, option list, shape, factor, block size, position of a block, neighbours, colours, gradient, logo, choice of fused operations", "why_tests_cant": "rounding errors depend on every size and factor; a test sees one", "anchors": ["writer/standard/shapes/blocks.go: LiquidBlock, HStripeBlock, VStripeBlock, ChainBlock, VChainBlock, HChainBlock, SquareBlocks, CircleBlocks", "writer/standard/shapes/finders.go: RoundedFinder, SquareFinder", "writer/standard/image_qr_shape.go: DrawContext, circle"]}
{"id": "C106", "title": "Pictures as any machine computes them", "statement": "With int of 32 or 64 bits, float64 coordinates, and whichever operations the compiler fuses (in the coordinates of halftone sub-blocks, in the shapes, in gradients): within the limits of C99, drawing a symbol makes one by one the calls of exact arithmetic; coordinates that are whole numbers of pixels are exact, so that without a halftone image, or with blocks whose width is a multiple of three, nothing differs, and the others are off by at most a thousandth of a pixel; it panics exactly if the picture does not fit into the machine's largest slice. The picture can be read on every machine: with any shape of the library whose factor in use is above two fifths, in blocks of at least 10 pixels, with or without a halftone image (conditions as in C84), a gradient and a logo (conditions as in C69), a scanner that looks at one pixel at the centre of every block reads exactly the text (exceptions as in C01).", "quantifier": "every machine (width of int, largest slice, choice of fused operations everywhere), text, option list, shape, halftone image, gradient, logo, size of blocks and borders", "why_tests_cant": "a test runs on one machine, with one compiler, one size and one picture", "anchors": ["writer/standard/writer.go: draw, drawTo", "writer/standard/gradient.go: applyGradient", "writer/standard/shapes/blocks.go", "writer/standard/shapes/finders.go", "writer/standard/image_qr_shape.go"]}
{"id": "C107", "title": "Pictures in JPEG, the default format", "statement": "JPEG, the default format, ignores transparency and keeps brightness only approximately. A reader that is told nothing (it takes for dark what is below the middle between the darkest and the lightest pixel, looks at the negative too, and finds the symbol as in C102) reads exactly the text of a plain picture as long as every pixel has changed its brightness by less than a quarter of the contrast, whether dark on light or light on dark, turned or mirrored, transparent or not; the compressed writer and the command line program leave room for any change by 63 of 255. In the first picture of a writer WithBgTransparent makes no difference for JPEG, as the source says. This is false for later pictures: with a transparent background and a black foreground every later JPEG of the same writer is black all over.", "quantifier": "every text, option list, size and padding, pair of colours, transparent or not, position of the picture, and every change of every pixel within the limit", "why_tests_cant": "a test compares one lossy picture; the claim is about every text and every combination of small changes of pixels", "anchors": ["writer/standard/image_format.go: jpegEncoder.Encode", "writer/standard/image_option.go: outputImageOptions, backgroundColor, translateToRGBA", "writer/standard/writer.go: draw", "writer/compressed/writer.go: Write", "cmd/qrcode/app.go: applyOptions"]}
{"id": "C108", "title": "Shapes, halftone images and logos in JPEG", "statement": "A scanner that knows where the blocks are and gets one approximate brightness per module (of the pixel at the centre of the block), but knows nothing about colours (the corner of a finder is dark, its neighbour on the diagonal is light), reads exactly the text if these pixels have changed their brightness by less than a quarter of the contrast: with any shape of the library that is not too thin (as in C83), any halftone image (as in C84), on any machine (as in C106), dark on light or light on dark, transparent or not; with a logo under the conditions of C69 for a scanner that corrects errors. The command line program, whose default file is a JPEG, leaves room for any change by 63 of 255. With a gradient on a background that is not transparent the same holds for a quarter of the contrast that the darkest and the lightest colours between neighbouring stops leave (if d to d' are their brightnesses and l that of the background: 2d' + 4e < d + l).", "quantifier": "every text, option list, shape, halftone image, gradient, logo, machine, size of blocks and borders, pair of colours, and every change of every pixel within the limit", "why_tests_cant": "a test looks at one lossy picture; the claim is about every text, shape and image and every combination of small changes", "anchors": ["writer/standard/image_format.go: jpegEncoder.Encode", "writer/standard/writer.go: draw, drawTo", "writer/standard/shapes", "writer/standard/image_option.go: translateToRGBA, backgroundColor", "cmd/qrcode/app.go: parseGenerateContextFrom, applyOptions"]}
{"id": "C109", "title": "Damaged symbols, and symbols with a logo, are read in any direction", "statement": "A scanner that corrects errors and is not told how the picture is turned or mirrored finds the right way up and reads exactly the text (exception as in C01) as long as the three finder patterns can be seen and no fourth, at most one module of the first copy of the format information and at most six of both are wrong, and in every block at most half as many codewords are damaged as it has error correction codewords. From version 2 on, any three wrong modules outside the finder patterns (at most one of them in the first copy of the format information) are harmless in every direction: a fourth finder pattern would take four. The same scanner reads every picture with a logo under the conditions of C69, and every picture with shapes, halftone image, gradient and logo under the conditions of C106, whatever the logo shows.", "quantifier": "every text, option list, arrival order, every set of damaged modules within the limits, every logo, shape and machine as in C69 and C106, and every sequence of quarter turns and mirrorings", "why_tests_cant": "all texts and all sets of damaged modules: a test damages a few symbols and looks at them from the front", "anchors": ["qrcode.go: New, NewWith, prefillMatrix, addFinder, addAlignment, fillFormatInfo", "encoder.go: Encode", "writer/standard/writer.go: draw, validLogoImage, blockOverlapsLogo"]}
{"id": "C110", "title": "A reader that is told nothing reads pictures with a logo", "statement": "A reader that corrects errors gets the pixels of a picture, dark or not, and nothing else: it cuts out what is dark, finds the size of a module from the upper edges of two finder patterns, looks at one pixel in the middle of each module, turns and mirrors the result until it is right way up, corrects the errors and reads exactly the text (exception as in C01), whatever the pixels of the modules in the middle of the symbol (about a fifth of the rows and columns) look like, and not in the cases of C69 in which the error correction is too weak. In particular it reads every picture of the image writer with rectangles and any logo under the conditions of C69, turned and mirrored in any way: the logo does not change any pixel outside the middle, so neither the edges of the symbol nor the size of a module can be mistaken. It reads the pictures of the example program createQRWithLogo for every ASCII text of up to 1273 characters and every logo.", "quantifier": "every text, option list, arrival order, logo, image and blending function, size of blocks and borders within the limits of C69, and every sequence of quarter turns and mirrorings", "why_tests_cant": "a test reads a few pictures with one logo; the claim is about all texts, logos and sizes", "anchors": ["writer/standard/writer.go: draw, validLogoImage, blockOverlapsLogo", "writer/standard/image_option_api.go: WithLogoImage, WithLogoSizeMultiplier, WithBorderWidth", "qrcode.go: New, NewWith", "encoder.go: Encode"]}
