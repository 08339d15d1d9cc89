# Wrong programs: (file under Verif/Model, definition, old text, new text, what the edit is, claim that becomes false, properties)
M = [
# --- matrix.go
("Matrix", "Matrix.setE", "if w ≥ m.width ∨ w < 0 then (m, some .outRangeOfW)", "if w > m.width ∨ w < 0 then (m, some .outRangeOfW)", "width bound `>=` becomes `>`", "set reports an error for every coordinate outside the matrix", ["C31"]),
("Matrix", "Matrix.atE", "else if h ≥ m.height ∨ h < 0 then (INIT_V0, some .outRangeOfH)", "else if h ≥ m.width + 1 ∨ h < 0 then (INIT_V0, some .outRangeOfH)", "height bound uses the width plus one", "at reports an error for every coordinate outside the matrix", ["C31"]),
("Matrix", "Matrix.bitmap", "t.modify y (fun r => r.set x s.qrbool)", "t.modify x (fun r => r.set y s.qrbool)", "indices swapped (transposed table)", "Bitmap()[y][x] is the colour of the module in column x, row y", ["C31"]),
("Matrix", "Matrix.coords", "| .row => (List.range height).flatMap fun h => (List.range width).map fun w => (w, h)", "| .row => (List.range width).flatMap fun w => (List.range height).map fun h => (w, h)", "row iteration goes column by column", "Iterate(IterDirection_ROW) visits row by row", ["C31"]),
("Matrix", "Matrix.row", "if cur ≥ m.height ∨ cur < 0 then .ok none", "if cur ≥ m.width ∨ cur < 0 then .ok none", "Row checks against the width (again, after C31_row was tightened)", "Row returns nil exactly outside the matrix", ["C31"]),
("Matrix", "Matrix.row", "if cur ≥ m.height ∨ cur < 0 then .ok none", "if cur ≥ m.width ∨ cur < 0 then .ok none", "Row checks against the width", "Row returns nil exactly outside the matrix", ["C31"]),
("Matrix", "Dir.ofByte", "if d = 1 then .row else .column", "if d = 2 then .row else .column", "direction constants swapped", "IterDirection_ROW iterates by rows", ["C31"]),
# --- kmp_variant.go
("Kmp", "kmpLoop", "(i - (pattern.length - 1)) 0 count'", "i 0 count'", "after a match the search goes on behind it", "overlapping occurrences are all counted", ["C29"]),
("Kmp", "kmpNextLoop", "(fail.set (j + 1) (k + 1)) (j + 1) (k + 1)", "(fail.set (j + 1) k) (j + 1) (k + 1)", "failure function off by one", "kmp counts every occurrence", ["C29"]),
("Kmp", "kmpLoop", "if (i : Int) - j ≥ 0 then count + 1 else count", "if (i : Int) - j > 0 then count + 1 else count", "a match at position 0 is not counted", "kmp counts every occurrence", ["C29"]),
# --- mask.go
("Mask", "getModuloFunc", "| 1 => some fun _ y => y % 2 == 0", "| 1 => some fun x _ => x % 2 == 0", "mask 1 tests the column", "mask 001 inverts even rows", ["C17"]),
("Mask", "getModuloFunc", "(x / 3 + y / 2) % 2 == 0", "(x / 2 + y / 3) % 2 == 0", "mask 4 with the divisors swapped", "mask 100 inverts by row/2 + column/3", ["C17"]),
("Mask", "maskStep", "if (m.at' p.1 p.2).qrtype ≠ .init then m.set p.1 p.2 INIT_V0", "if (m.at' p.1 p.2).qrtype = .finder then m.set p.1 p.2 INIT_V0", "only finder modules are left out of the mask", "function patterns are not masked", ["C17", "C12"]),
("Mask", "xorStep", "if v.qrtype = .init then m", "if v.qrbool = false then m.set p.1 p.2 v", "unmasked modules are overwritten by the mask", "masking inverts modules and keeps the others", ["C17"]),
# --- mask_evaluation.go
("Evaluation", "scoreLineStep", "if cnt = 5 then (s.1 + 3, cnt, s.2.2)", "if cnt = 6 then (s.1 + 3, cnt, s.2.2)", "runs start to cost at six", "five modules of one colour in a line cost 3", ["C26"]),
("Evaluation", "rule1", ".ok (scoreLine (nilSlice row) + scoreLine (nilSlice (m.col (cur : Nat))))", ".ok (scoreLine (nilSlice row) + scoreLine (nilSlice row))", "columns are never scored", "rule 1 scores rows and columns", ["C26"]),
("Evaluation", "rule2", "if s0 = s1 ∧ s2 = s3 ∧ s1 = s2 then 3 else 0", "if s0 = s1 ∧ s2 = s3 then 3 else 0", "a comparison is missing", "rule 2 counts 2x2 blocks of one value", ["C27"]),
("Evaluation", "rule2", "(List.range (m.width - 1))", "(List.range (m.width - 2))", "the last column pair is skipped", "rule 2 counts every 2x2 block", ["C27"]),
("Evaluation", "rule3", ".ok (40 * a + 40 * b + 40 * c + 40 * d)", ".ok (40 * a + 40 * b + 40 * c)", "pattern 2 is not counted in rows", "rule 3 counts both patterns in rows and columns", ["C28"]),
("Evaluation", "rule4", "let ratio := (dark * 100) / (m.width * m.width)", "let ratio := (dark * 100) / m.width", "divided by the width only", "rule 4 uses the percentage of dark modules", ["C30"]),
("Evaluation", "rule4", "(if previous < next then previous else next)", "(if previous < next then next else previous)", "the larger deviation is taken", "rule 4 takes the smaller deviation", ["C30"]),
("Evaluation", "evaluation", ".ok (s1 + rule2 m + s3 + s4)", ".ok (s1 + s3 + s4)", "rule 2 is dropped (again, after C78 was added)", "the score is the sum of the four rules", ["C78"]),
# --- version.go
("Version", "verInfo", "if v.ver < 7 then .ok none", "if v.ver < 8 then .ok none", "version information from 8 on", "symbols from version 7 on carry version information", ["C14"]),
("Version", "formatInfo", "if v.ecLevel = 1 then go 0x08\n  else if v.ecLevel = 2 then go 0x00", "if v.ecLevel = 1 then go 0x00\n  else if v.ecLevel = 2 then go 0x08", "format ids of L and M swapped", "the format information names the level used", ["C13"]),
("Version", "formatInfo", "formatBitSequence[formatID ||| (maskPattern &&& 7)]?", "formatBitSequence[formatID ||| (maskPattern &&& 3)]?", "mask number cut to two bits", "the format information names the mask used", ["C13"]),
("Version", "formatBitSequence", "0x5412, 0x5125, 0x5e7c, 0x5b4b", "0x5412, 0x5125, 0x5e7d, 0x5b4b", "one bit of a table entry", "every format word is a BCH code word", ["C24"]),
("Version", "versionBitSequence", "0x085bc, 0x09a99", "0x085bc, 0x09a9b", "one bit of a table entry", "every version word is a Golay code word", ["C24"]),
("Version", "alignPatternLocation", "(14, [6, 26, 46, 66])", "(14, [6, 26, 48, 66])", "one position in the table", "alignment patterns are where the standard puts them", ["C24", "C12"]),
("Version", "analyzeVersionLoop", "if mark ≥ want then .ok v", "if mark > want then .ok v", "a text that just fits is moved up a version", "the smallest version is chosen", ["C04"]),
("Version", "analyzeVersion", "let want := if mode = encByte then raw.length else runeCount raw", "let want := runeCount raw", "byte mode counts characters instead of bytes", "no text is put into a version it does not fit into", ["C05", "C04"]),
("Version", "capMark", "if mode = encNumeric then some c.numeric\n  else if mode = encAlphanumeric then some c.alphaNumeric", "if mode = encNumeric then some c.alphaNumeric\n  else if mode = encAlphanumeric then some c.alphaNumeric", "numeric texts use the alphanumeric capacity", "the smallest version is chosen", ["C04"]),
("Version", "loadVersion", "((lv - 1) * 4)", "(lv * 4)", "index off by one version", "the version asked for is used", ["C06", "C11"]),
("Version", "binarySearchLoop", "else if r > 0 then binarySearchLoop vs compare fuel (mid + 1) high", "else if r > 0 then binarySearchLoop vs compare fuel mid high", "lower bound is not moved past the middle", "every present key is found", ["C48"]),
("Version", "validLoc", "else if x + 2 > dimension - 7 ∧ y - 2 < 7 then false", "else if x + 2 > dimension + 7 ∧ y - 2 < 7 then false", "upper right corner not excluded", "alignment patterns do not touch finder patterns", ["C12", "C24"]),
("Version", "loadAlignmentPatternLocV2", "| some locs => .ok (locs, c)\n    | none => match calcAlignPatternLocs ver with\n      | .ok locs => .ok (locs, (ver, locs) :: c)", "| some locs => .ok (locs, (ver, []) :: c)\n    | none => match calcAlignPatternLocs ver with\n      | .ok locs => .ok (locs, (ver, locs) :: c)", "a hit overwrites the cache entry", "the cache is never written after start-up", ["C49"]),
("VersionCfg", "versions", None, None, "", "", []),
# --- chardet.go
("Chardet", "analyzeNum", "def analyzeNum (r : Nat) : Bool := decide (48 ≤ r) && decide (r ≤ 57)", "def analyzeNum (r : Nat) : Bool := decide (48 ≤ r) && decide (r ≤ 58)", "the colon counts as a digit", "numeric mode accepts exactly the digits", ["C09", "C02"]),
("Chardet", "analyzeAlphaNum", "r == 46 || r == 47 || r == 58", "r == 46 || r == 47", "the colon is missing", "alphanumeric mode accepts its 45 characters", ["C09"]),
("Chardet", "inKanjiRange", "decide (0x8140 ≤ code) && decide (code ≤ 0x9FFC)", "decide (0x8140 ≤ code) && decide (code ≤ 0x9FFF)", "upper bound of the range", "kanji mode accepts exactly the two ranges", ["C09"]),
("Chardet", "analyzeLoop", "| (mode', false) => analyzeLoop E rs mode'", "| (mode', false) => analyzeLoop E rs (encNone * 2)", "the mode is reset for each character", "the mode chosen can encode every character", ["C02"]),
# --- encoder.go
("Encoder", "getEncodeModeIndicator", "if mode = encNumeric then .ok [false, false, false, true]\n  else if mode = encAlphanumeric then .ok [false, false, true, false]", "if mode = encNumeric then .ok [false, false, true, false]\n  else if mode = encAlphanumeric then .ok [false, false, false, true]", "two mode indicators swapped", "the data stream starts with the indicator of its mode", ["C01"]),
("Encoder", "encodeNumeric", "| [a, b] => natBits 7 (digitVal a * 10 + digitVal b)", "| [a, b] => natBits 8 (digitVal a * 10 + digitVal b)", "two digits in eight bits", "a reader gets the text back", ["C01", "C23"]),
("Encoder", "encodeAlphanumericCharacter", "else if c = 36 then .ok 37\n  else if c = 37 then .ok 38", "else if c = 36 then .ok 38\n  else if c = 37 then .ok 37", "codes of $ and % swapped", "a reader gets the text back", ["C01", "C23"]),
("Encoder", "encodeAlphanumeric", "natBits 11 (va * 45 + vb)", "natBits 11 (va * 44 + vb)", "base 44", "a reader gets the text back", ["C01", "C23"]),
("Encoder", "encodeShiftJIS", "go (r - 0xC140)", "go (r - 0xE040)", "wrong offset in the second range", "a reader gets the text back", ["C01", "C23"]),
("Encoder", "charCountBits", "else if ver ≤ 26 then", "else if ver ≤ 27 then", "count width boundary", "a reader gets the text back", ["C01"]),
("Encoder", "charCount", "else if mode = encKanji then runeCount raw else 0", "else if mode = encKanji then raw.length else 0", "kanji counted in bytes", "a reader gets the text back", ["C01"]),
("Encoder", "padBytes", "if i % 2 = 1 then paddingByte1 else paddingByte2", "if i % 2 = 1 then paddingByte2 else paddingByte1", "pad bytes swapped", "the rest of the data is 11101100 00010001 repeated", ["C21", "C05"]),
("Encoder", "breakUpInto8bit", "if maxCap < dst.length then", "if maxCap ≤ dst.length then", "a full symbol is rejected", "a text that fits is accepted", ["C06", "C04"]),
("Encoder", "breakUpInto8bit", "zeroBits (if less < 4 then less else 4)", "zeroBits 4", "the terminator may exceed the capacity", "the data stream has exactly the capacity", ["C05"]),
# --- encoder_option.go
("EncodeOption", "EncodeOption.apply", "| .withVersion v => if v < 1 ∨ v > 40 then o else { o with version := v }", "| .withVersion v => if v < 0 ∨ v > 40 then o else { o with version := v }", "version 0 overwrites", "invalid options are ignored", ["C10"]),
("EncodeOption", "EncodeOption.apply", "| .withMinimumVersion v => if v < 1 ∨ v > 40 then o else { o with minimumVersion := v }", "| .withMinimumVersion v => if v < 1 ∨ v > 40 then o else { o with minimumVersion := v, version := 0 }", "the minimum clears the version", "options of different kinds do not disturb each other", ["C10"]),
# --- qrcode.go, function patterns
("Fill", "addFinder", "let m := ringWalk 4 FINDER_V0 16 0 (top + 1) (left + 1) m", "let m := ringWalk 4 FINDER_V1 16 0 (top + 1) (left + 1) m", "the light ring is dark", "finder patterns are drawn", ["C12"]),
("Fill", "timingLoop", "let v := if pos % 2 = 0 then TIMING_V1 else TIMING_V0", "let v := if pos % 2 = 1 then TIMING_V1 else TIMING_V0", "timing pattern inverted", "timing patterns alternate, dark at even positions", ["C12"]),
("Fill", "addTimingLine", "timingLoop (dimension - 16) 8 m", "timingLoop (dimension - 17) 8 m", "last timing module missing", "timing patterns join the finders", ["C12"]),
("Fill", "prefill", "let m := addDarkBlock m 8 ((4 * ver + 9 : Nat) : Int)", "let m := addDarkBlock m 8 ((4 * ver + 8 : Nat) : Int)", "dark module one row too high", "the module (8, 4v+9) is dark", ["C12"]),
("Fill", "fillLoop", "if x' = 7 ∨ x' = 6 then x' - 1 else x'", "x'", "the timing column is not skipped", "data go in the zigzag order of the standard", ["C16"]),
("Fill", "fillLoop", "let y2 := if i % 2 = 0 then y1 else if up1 then y1 - 1 else y1 + 1", "let y2 := if i % 2 = 0 then y1 else if up1 then y1 + 1 else y1 - 1", "direction inverted", "data go in the zigzag order of the standard", ["C16"]),
("Fill", "formatLoop", "let y' := if y = dimension - 8 then 8 else if y = 6 then 5 else y", "let y' := if y = dimension - 8 then 8 else y", "the timing row is not skipped", "both copies of the format information are written", ["C13"]),
("Fill", "versionCells", "([5, 4, 3, 2, 1, 0] : List Int).flatMap fun j => ([1, 2, 3] : List Int).map fun i => (i, j)", "([1, 2, 3] : List Int).flatMap fun i => ([5, 4, 3, 2, 1, 0] : List Int).map fun j => (i, j)", "version bits in another order", "both copies of the version information are written", ["C14"]),
("Fill", "addAlignment", "ringWalk 2 DATA_V0 8 0 (cx - 1) (cy - 1) m", "ringWalk 2 DATA_V0 7 0 (cx - 1) (cy - 1) m", "one module of the light ring missing", "alignment patterns are drawn", ["C12"]),
# --- qrcode.go, building
("QRCode", "validateEncodingMode", "else if mode = encKanji then check (analyzeJP E)", "else if mode = encKanji then none", "kanji mode is not validated", "texts a forced mode cannot encode are rejected", ["C09"]),
("QRCode", "calcVersionNumber", "if opt.minimumVersion > 0 ∧ (analyzed.ver : Int) < opt.minimumVersion then .ok opt.minimumVersion", "if opt.minimumVersion > 0 then .ok opt.minimumVersion", "the minimum is used even if too small", "the minimum version is a lower bound only", ["C04", "C05"]),
("QRCode", "arrangeRound", "if curIdx * 8 ≥ blk.length then", "if curIdx * 8 > blk.length then", "boundary of the short blocks", "blocks are interleaved column by column", ["C22"]),
("QRCode", "init", "let bset := dataBits ++ ecBits ++ zeroBits v.remainderBits", "let bset := dataBits ++ ecBits", "remainder bits missing", "every module is determined", ["C15"]),
("QRCode", "init", "let bset := dataBits ++ ecBits ++ zeroBits v.remainderBits", "let bset := ecBits ++ dataBits ++ zeroBits v.remainderBits", "error correction before data", "data code words come first", ["C22"]),
("QRCode", "maskWorker", "let m ← (if q.v.ver ≥ 7 then (do", "let m ← (if q.v.ver > 7 then (do", "version 7 without version information", "symbols from version 7 on carry version information", ["C14"]),
("QRCode", "maskWorker", "let fmt ← formatInfo q.v i", "let fmt ← formatInfo q.v 0", "format information always names mask 0", "the format information names the mask used", ["C13"]),
("QRCode", "selectMask", "if score < low then (score, idx) else (low, mark)", "if score > low then (score, idx) else (low, mark)", "the highest penalty wins", "the mask has the lowest score", ["C18"]),
("QRCode", "masking", "match results[selectMask scores]? with", "match results[0]? with", "mask 0 is always used", "the mask has the lowest score", ["C18"]),
("QRCode", "errorCorrectionEncoding", "match subset bset b.startOffset bset.length with", "match subset bset 0 b.startOffset with", "the data half is taken as error correction", "blocks end with their error correction", ["C21", "C50"]),
("QRCode", "splitBlocks", "(start + g.numBlocks * (g.numDataCodewords * 8))", "(start + g.numDataCodewords * 8)", "the second group starts too early", "the blocks partition the data", ["C21"]),
("QRCode", "toBytes", "| .defined => .panic .unreachableType", "| .defined => .ok raw", "defined types are accepted (a repair)", "the exact set of panicking calls", ["C08"]),
# --- goroutines
("Conc", "chanCap", "def chanCap : Nat := 8", "def chanCap : Nat := 7", "channel too small", "no schedule blocks", ["C20"]),
("Conc", "matPtr", "def matPtr (i : Nat) : Nat := 2 * i\n", "def matPtr (i : Nat) : Nat := 2 * (i / 2)\n", "two workers share a matrix", "the result does not depend on the schedule", ["C20"]),
("Conc", "stepMain", "| .wait => if s.wg = 0 then some { s with main := .close } else none", "| .wait => some { s with main := .close }", "the channel is closed without waiting", "no send on a closed channel", ["C20"]),
("Conc", "stepMain", "main := if score < low then .drain score idx else .drain low mark", "main := if score < low then .drain score idx else .drain score mark", "the lowest score is not kept", "the mask with the lowest score is selected", ["C20"]),
# --- aliasing
("Heap", "Heap.copy", "(H', ⟨m.width, m.height, a⟩)\n\n/-- `array[i] = c`", "(H', ⟨m.width, m.height, m.mat⟩)\n\n/-- `array[i] = c`", "Copy returns the same columns", "a copy is independent of the original", ["C32"]),
("Heap", "Heap.colRef", "(H.outer m.mat)[cur.toNat]?", "(H.outer m.mat)[cur.toNat + 1]?", "Col returns the next column", "Col is a window on the column asked for", ["C87"]),
("Heap", "Heap.colRef", "if cur ≥ m.width ∨ cur < 0 then none", "if cur > m.width ∨ cur < 0 then none", "bound of Col", "Col is nil outside the matrix", ["C87"]),
# --- Save and writers
("Save", "deferredClose", "| (s', .error e) => (s', pending, [.closeCall, .logWarning e])", "| (s', .error e) => (s', .returned (some e), [.closeCall, .logWarning e])", "Save returns the error of Close", "Save returns what Write returned", ["C34"]),
("Save", "saveWith", "| none => deferredClose w s .nilDeref", "| none => (s, .nilDeref, [])", "no Close when the code was not built", "Close is called exactly once", ["C34"]),
("FileWriter", "charAt", "let r := if down && !up then downRune else r", "let r := if down && !up then upRune else r", "wrong half block", "the text shows the symbol", ["C35"]),
("FileWriter", "output", "bm.length / 2 + bm.length % 2", "bm.length / 2", "the last row is dropped", "the text shows every row", ["C35"]),
("Compressed", "image", "let es := ((x : Int) + 1) * blockWidth + padding", "let es := (x : Int) * blockWidth + blockWidth", "padding forgotten at the right edge", "every module is a full block", ["C36"]),
("Compressed", "backgroundColor", "def backgroundColor : Nat := 0xff\ndef foregroundColor : Nat := 0x00", "def backgroundColor : Nat := 0x00\ndef foregroundColor : Nat := 0xff", "colours swapped", "dark modules are black", ["C36"]),
("Files", "standardFlags", "def standardFlags : Flags := { create := true, trunc := true }", "def standardFlags : Flags := { create := true, trunc := false }", "no O_TRUNC", "the file holds exactly the image", ["C37"]),
("Files", "standardName", "| .existErr => defaultFilename", "| .otherErr => defaultFilename", "wrong error tested", "the image goes to the file asked for", ["C37"]),
("Terminal", "drawBlock", "let x1 := x * 2 + 2 * padding", "let x1 := x * 2 + padding", "horizontal padding", "each module is two cells at its place", ["C38"]),
("Terminal", "render", "let fg := if state.qrbool then colorBlack else colorWhite", "let fg := if state.qrbool then colorWhite else colorBlack", "colours swapped", "dark modules are black", ["C38"]),
("Terminal", "render", "((curRow + 2 * padding + 1 + 1 : Nat) : Int)", "((curRow + padding + 1 : Nat) : Int)", "the tip is written into the last row of the border", "the tip does not overwrite the symbol", ["C38"]),
("Standard", "Opts.attribute", "w := dimension * o.qrBlockWidth + o.borders.right + o.borders.left", "w := dimension * o.qrBlockWidth + o.borders.top + o.borders.bottom", "width uses the vertical borders", "Attribute tells the size of the image", ["C39"]),
("Standard", "bordersOf", "| [a, b] => ⟨a, b, a, b⟩", "| [a, b] => ⟨a, a, b, b⟩", "two widths distributed wrongly", "two border widths mean vertical and horizontal", ["C44"]),
("Standard", "drawModule", "y := ((y * bw + o.borders.top : Int) : Rat)", "y := ((y * bw + o.borders.left : Int) : Rat)", "the left border is used vertically", "modules are drawn at their place", ["C40"]),
("Standard", "getNeighbours", "let res : UInt16 := if darkCell mtx rows cols x y then NSelf else 0", "let res : UInt16 := NSelf", "self is always set", "the neighbour flags tell the dark neighbours", ["C41"]),
("Standard", "dirs", "(-1, 0, NLeft), (1, 0, NRight)", "(-1, 0, NRight), (1, 0, NLeft)", "left and right swapped", "the neighbour flags tell the dark neighbours", ["C41"]),
("Standard", "blockOverlapsLogo", "decide (blockRight > logoLeft)", "decide (blockRight ≥ logoLeft)", "touching counts as overlapping", "exactly the modules under the logo are left out", ["C42"]),
("Standard", "draw", "ops ++ [.image img (Int.tdiv (w - lw) 2) (Int.tdiv (h - lh) 2)]", "ops ++ [.image img (Int.tdiv w 2) (Int.tdiv h 2)]", "the logo is not centred", "the logo is drawn centred", ["C42", "C56"]),
("Standard", "validLogoImage", "decide (qrWidth ≥ logoSizeMultiplier * logoWidth) && decide (qrHeight", "decide (qrWidth ≥ logoSizeMultiplier * logoWidth) || decide (qrHeight", "only one side must fit", "logos that are too big are left out", ["C56"]),
("Standard", "Opts.qrBlockWidth", "if o.qrWidth ≤ 0 ∨ o.qrWidth > 255 then 20 else o.qrWidth", "if o.qrWidth < 0 ∨ o.qrWidth > 255 then 20 else o.qrWidth", "width 0 is used", "a block width of 0 means 20", ["C44"]),
("Standard", "Opts.translateToRGBA", "if v.qrbool then (o.qrColor, o)", "if !v.qrbool then (o.qrColor, o)", "colours swapped", "dark modules have the foreground colour", ["C40"]),
("Standard", "drawModule", "(x * 3 + i) (y * 3 + j)", "(x + i) (y + j)", "halftone point of the wrong place", "halftone sub-blocks follow the picture", ["C53"]),
("Standard", "apply", "| .logoFile none => some o\n", "| .logoFile none => some { o with logo := none }\n", "a logo that cannot be read removes an earlier one", "options that fail change nothing", ["C44"]),
("Color", "parseFromHex", "⟨r * 17, g * 17, b * 17, 0xff⟩", "⟨r * 16, g * 16, b * 16, 0xff⟩", "short colours are not doubled", "#abc means #aabbcc", ["C46"]),
("Color", "parseFromColor", "⟨r.toUInt8, g.toUInt8, b.toUInt8, a.toUInt8⟩", "⟨(r >>> 8).toUInt8, (g >>> 8).toUInt8, (b >>> 8).toUInt8, (a >>> 8).toUInt8⟩", "high byte (a repair)", "what the code does with other colour types", ["C45"]),
("Gradient", "blendChan", "rnd (rnd ((a.toNat : Rat) * rnd (1 - t)) + rnd ((b.toNat : Rat) * t))", "rnd (rnd ((a.toNat : Rat) * t) + rnd ((b.toNat : Rat) * rnd (1 - t)))", "colours swapped", "the gradient runs from the first to the second colour", ["C47"]),
("Gradient", "interpLoop", "let factor := rnd (rnd (t - start.t) / den)", "let factor := rnd (t - start.t)", "no scaling", "the blend factor is the relative position", ["C47"]),
("Gradient", "gradientPixel", "if c = fg then", "if c ≠ fg then", "the background is painted", "only the foreground is painted", ["C55"]),
("Gradient", "gradientPos", "rnd (rnd (proj rnd dx dy x y - minProj ps) /", "rnd (rnd (proj rnd dx dy x y) /", "offset forgotten", "positions run from 0 to 1", ["C47"]),
# --- programs
("Cli", "extLoop", "if b = 0x2f then [] else if b = 0x2e then", "if b = 0x2e then", "slashes are ignored", "only the last path element decides the format", ["C57"]),
("Cli", "parseLoop", "if n1 > 255 then none", "if n1 > 256 then none", "256 is accepted", "borders are numbers up to 255", ["C51"]),
("Cli", "FileOutputOptions.applyOptions", "if foo.outputSuffix = png then .builtinEncoder 1 else .builtinEncoder 0", "if foo.outputSuffix = png then .builtinEncoder 0 else .builtinEncoder 1", "formats swapped", "png files hold PNG images", ["C57"]),
("Wasm", "encodeOptions", "if o.ecLevel = lit \"L\" then [.withErrorCorrectionLevel ecLow]", "if o.ecLevel = lit \"L\" then [.withErrorCorrectionLevel ecMedium]", "L means M", "the level asked for is used", ["C52"]),
("Wasm", "optionFromJSValue", "let qrWidth ← (get \"outputQrWidth\").int", "let qrWidth ← (get \"outputMargin\").int", "wrong field", "the block width asked for is used", ["C52"]),
("Wasm", "genqrcode", "| .error e => .result ⟨false, some (.save e), []⟩", "| .error e => .result ⟨true, some (.save e), []⟩", "success although saving failed", "success is true exactly when there is an image", ["C58"]),
("Base64", "encode", "[char (v / 262144 % 64), char (v / 4096 % 64), char (v / 64 % 64), 0x3d]", "[char (v / 262144 % 64), char (v / 4096 % 64), char (v / 64 % 64)]", "padding forgotten", "the image is standard base64", ["C58"]),
# --- matrix_type.go
("MatrixType", "QRValue.xor", "if v ≠ v2 then DATA_V1 else DATA_V0", "if v = v2 then DATA_V1 else DATA_V0", "comparison inverted", "masking inverts exactly the modules of the pattern", ["C17"]),
("MatrixType", "byteType", "v &&& 0xfe", "v &&& 0x0f", "wrong bit mask", "Type() of a value drops only the colour bit", ["C31"]),
# --- drawing of images
("CanvasImage", "Canvas.drawImage", "blend img (px - x) (py - y) (cv.pix px py)\n      else cv.pix px py }", "blend img (px - x) (py - y) (cv.pix px py)\n      else blend img (px - x) (py - y) (cv.pix px py) }", "the logo is drawn everywhere", "a logo covers only its own area", ["C69"]),
# --- shapes
("Shapes", "drawCircle", "let radius := Int.tdiv c.w 2\n", "let radius := c.w\n", "diameter for radius", "circles stay inside their blocks", ["C59"]),
("Shapes", "has", "mask &&& bits == bits", "mask &&& bits == mask", "test of the mask the wrong way round", "bars are drawn exactly towards dark neighbours", ["C61"]),
("Shapes", "fills", "| path, .fill :: rest => path :: fills [] rest", "| path, .fill :: rest => path :: fills path rest", "Fill keeps the path", "a module paints only its own figures", ["C60"]),
("Shapes", "chainBlock", "when (has c.neighbours (NLeft ||| NSelf)) (drawRect c.x (cy - l) (fw / 2) (2 * l)) ++\n  when (has c.neighbours (NRight ||| NSelf)) (drawRect cx (cy - l) (fw / 2) (2 * l)) ++\n  [.fill]\n\n/-- writer/standard/shapes/blocks.go:241", "when (has c.neighbours (NLeft ||| NSelf)) (drawRect cx (cy - l) (fw / 2) (2 * l)) ++\n  when (has c.neighbours (NRight ||| NSelf)) (drawRect cx (cy - l) (fw / 2) (2 * l)) ++\n  [.fill]\n\n/-- writer/standard/shapes/blocks.go:241", "bar to the left is drawn to the right", "chains join dark neighbours", ["C61"]),
("Shapes", "vStripeBlock", "(drawRect (cx - r) c.y (2 * r) (fh / 2)) ++\n  when (has c.neighbours (NBot", "(drawRect (cx - r) c.y (2 * r) fh) ++\n  when (has c.neighbours (NBot", "bar over the whole height", "what is painted", ["C62"]),
("Shapes", "blockScale", "if size < 1 / 10 ∨ size > 1 then 1 else size", "if size < 0 ∨ size > 1 then 1 else size", "sizes below a tenth are used", "sizes outside [0.1, 1] mean 1", ["C62"]),
("Shapes", "squareBlocks", "[.add (.rect (cx - fw / 2) (cy - fh / 2) fw fh), .fill]", "[.add (.rect c.x c.y fw fh), .fill]", "not centred", "the centre of a dark module is painted", ["C59"]),
("Shapes", "hStripeBlock", "[.add (.disc cx cy r)] ++\n  when (has c.neighbours (NLeft ||| NSelf)) (drawRect c.x (cy - r) (fw / 2) (2 * r)) ++\n  when (has c.neighbours (NRight ||| NSelf)) (drawRect cx (cy - r) (fw / 2) (2 * r)) ++\n  [.fill]", "[.add (.disc cx cy r)] ++\n  when (has c.neighbours (NLeft ||| NSelf)) (drawRect c.x (cy - r) (fw / 2) (2 * r)) ++\n  when (has c.neighbours (NRight ||| NSelf)) (drawRect cx (cy - r) (fw / 2) (2 * r))", "the final Fill is missing", "nothing is left in the path", ["C60"]),
("Shapes", "roundedFinder", "else [.add (.rect x y fw fh)]) ++ [.fill]", "else []) ++ [.fill]", "modules in the middle of an edge are not drawn", "every dark finder module is painted", ["C59"]),
("Shapes", "LibShape.cmds", "| .assembled f _, true, c => f.cmds c\n  | .assembled _ b, false, c => b.cmds c", "| .assembled _ b, true, c => b.cmds c\n  | .assembled f _, false, c => f.cmds c", "finder and block function swapped", "Assemble uses its first function for finders", ["C59"]),
# --- imgkit
("Imgkit", "GrayImg.set", "if g.inside x y then { g with pix", "if true then { g with pix", "no bounds check", "what Gray does with images whose bounds do not begin at 0", ["C64"]),
("Imgkit", "binaryzation", "if g.at j i > threshold then 255 else 0", "if g.at j i ≥ threshold then 255 else 0", "`>` becomes `>=`", "pixels above the threshold become white", ["C64"]),
("Imgkit", "gray", "g.set j i (grayValue (src.chan j i))", "g.set j i (grayValue (src.chan i j))", "coordinates swapped", "every pixel becomes its grey value", ["C64"]),
("Imgkit", "save", "if e = dotJpg ∨ e = dotJpeg then", "if e = dotJpg then", ".jpeg is forgotten", "both JPEG extensions are written", ["C65"]),
("Imgkit", "save", "else (fs, false)\n\nend", "else (fs, true)\n\nend", "unknown extensions succeed", "an unknown extension is an error", ["C65"]),
# --- debug.go
("Debug", "debugEnabled", "once := true }", "once := false }", "the environment is read at every call", "the environment counts once", ["C66"]),
("Debug", "setDebugMode", "{ s with debug := true }", "{ debug := true, once := false }", "SetDebugMode resets the switch", "SetDebugMode wins", ["C66"]),
("Debug", "debugPicture", "(if a.2.2.bit then 0x0000 else 0xffff)", "(if a.2.2.bit then 0xffff else 0x0000)", "colours swapped", "dark modules are black in the debug picture", ["C67"]),
("Debug", "rectangle", "(intRange y1 y2).foldl", "(intRange y1 (y2 - 1)).foldl", "one row too few", "every module fills its block", ["C67"]),
# --- concurrent calls
("Shared", "step", "| none => some { s.goto i (.write q locs) with holder := some i }\n    | some _ => none", "| none => some { s.goto i (.write q locs) with holder := some i }\n    | some _ => some { s.goto i (.write q locs) with holder := some i }", "the mutex does not exclude", "two writers never meet", ["C73"]),
("Shared", "step", "cache := (q.v.ver, locs) :: s.cache }", "cache := (q.v.ver + 1, locs) :: s.cache }", "the positions are stored under the wrong version", "calls do not disturb each other", ["C73"]),
("Shared", "step", "| .unlock q locs => some { s.goto i (.rest q locs) with holder := none }", "| .unlock q locs => some (s.goto i (.rest q locs))", "Unlock is forgotten", "no call waits for ever", ["C73"]),
# --- writers and files
("Fd", "encodeTo", "| (f', some e) => (f', some e)", "| (f', some _) => encodeTo w f' cs", "a failed write is ignored", "Save reports a failed write", ["C74"]),
("Fd", "standard", "(f', if e = some errClosed then .ok else out e)", "(f', out e)", "os.ErrClosed is reported", "a second Close is harmless", ["C74"]),
("Fd", "text", "close := fun f => (f, .ok)", "close := fun f => let (f', e) := f.close w; (f', out e)", "the text writer closes its file", "the text writer appends at every Save", ["C74"]),
# --- later additions: pictures, programs, choice of the mask
("QRCode", "selectMask", "if score < low then (score, idx) else (low, mark)", "if score ≤ low then (score, idx) else (low, mark)", "the last of equal scores wins", "the first arrival among the lowest scores is used", ["C78"]),
("Standard", "drawModule", "if safe && blockOverlapsLogo x y bw o.borders.left o.borders.top w h lw lh && v.qrbool then ([], o)", "if safe && blockOverlapsLogo x y bw o.borders.left o.borders.top w h lw lh then ([], o)", "light modules under the logo are left out, too", "light modules are drawn", ["C42"]),
("Standard", "drawModule", "if safe && blockOverlapsLogo", "if blockOverlapsLogo", "the safe zone is always on", "without the safe zone every module is drawn", ["C42", "C40"]),
("Standard", "drawModule", "color := if i = 1 ∧ j = 1 then ctx.color", "color := if i = 0 ∧ j = 0 then ctx.color", "the corner keeps the colour instead of the centre", "the centre of a halftone block has the module's colour", ["C53", "C72", "C81"]),
("Standard", "drawModule", "color := if i = 1 ∧ j = 1 then ctx.color", "color := if i = 1 then ctx.color", "a column keeps the colour", "the other eight sub-blocks follow the picture", ["C53"]),
("Standard", "drawModule", "neighbours := 0 }, o)", "neighbours := ctx.neighbours }, o)", "sub-blocks get the neighbours of the module", "sub-blocks are drawn without neighbours", ["C53"]),
("Standard", "drawModule", "w := halftoneW.floor, h := halftoneW.floor", "w := halftoneW.ceil, h := halftoneW.floor", "sub-blocks are rounded up", "the nine sub-blocks lie inside the block", ["C53"]),
("Standard", "clearedBitmap", "if blockOverlapsLogo x y o.qrBlockWidth o.borders.left o.borders.top w h lw lh then clearCell bm x y else some bm", "if blockOverlapsLogo x y o.qrBlockWidth o.borders.top o.borders.left w h lw lh then clearCell bm x y else some bm", "borders swapped", "neighbour masks show exactly the modules that are drawn", ["C43"]),
("Standard", "clearedBitmap", "  if safe then\n    (m.iterate", "  if !safe then\n    (m.iterate", "cleared without safe zone only", "neighbour masks show exactly the modules that are drawn", ["C43"]),
("Standard", "draw", "let safe := logoValid && o.logoSafeZone", "let safe := o.logoSafeZone", "a safe zone for a logo that is not drawn", "without a valid logo every module is drawn", ["C42"]),
("Standard", "draw", "let h := m.height * o.qrBlockWidth + o.borders.top + o.borders.bottom", "let h := m.height * o.qrBlockWidth + o.borders.top + o.borders.top", "the bottom border is forgotten", "the picture has the announced size", ["C39"]),
("Standard", "draw", "| none => ops\n      | some g => ops ++ [.gradient g o.qrColor]", "| none => ops\n      | some g => [.gradient g o.qrColor] ++ ops", "the gradient is applied before drawing", "the picture shows the gradient's colours", ["C79"]),
("Standard", "halftoneColor", "if transparent then ⟨0, 0, 0, 0⟩ else ⟨255, 255, 255, 255⟩", "if transparent then ⟨255, 255, 255, 255⟩ else ⟨0, 0, 0, 0⟩", "transparent and white swapped", "light halftone pixels are white, or transparent on a transparent background", ["C64"]),
("Standard", "halftoneColor", "if grayOf r g b % 256 > 60 then 255 else 0", "if grayOf r g b % 256 ≥ 60 then 255 else 0", "threshold", "halftone pixels above 60 are light", ["C64"]),
("CanvasGradient", "Canvas.applyGradient", "      | some c => put c (cv.pix x y)\n      | none => cv.pix x y", "      | some c => put c (cv.pix x y)\n      | none => put fg (cv.pix x y)", "light modules get the foreground colour", "pictures with a gradient keep the text", ["C79"]),
("CanvasGradient", "Canvas.applyGradient", "cv.w cv.h fg x y (cv.pix x y) with", "cv.w cv.h fg x y (cv.pix y x) with", "coordinates swapped", "pictures with a gradient keep the text", ["C79"]),
("Wasm", "genqrcode", "| .image bytes => .result ⟨true, none, Base64.encode bytes⟩", "| .image bytes => .result ⟨true, none, bytes⟩", "the picture is not encoded", "the result is the base64 text of the picture", ["C58", "C76"]),
("Wasm", "genqrcode", "match newWith E cache arrival .string content.str (encodeOptions opt) with", "match newWith E cache arrival .string content.str (encodeOptions none) with", "encode options are ignored", "the options given are used", ["C52"]),
("Wasm", "outputOptions", "(if o.margin ≠ 0 then [.borderWidth [o.margin]] else [])", "(if o.margin > 0 then [.borderWidth [o.margin]] else [])", "negative margins are ignored (a repair)", "what happens with margins", ["C52", "C58"]),
("Wasm", "outputOptions", "(if o.bgTransparent then [.bgTransparent] else [])", "(if !o.bgTransparent then [.bgTransparent] else [])", "transparency inverted", "the options given are used", ["C52", "C76"]),
("Wasm", "toUint8", "UInt8.ofNat (i % 256).toNat", "if i > 255 then 255 else UInt8.ofNat (i % 256).toNat", "widths above 255 become 255", "the width counts modulo 256", ["C76"]),
("Cli", "run", "if term then .terminal q", "if !term then .terminal q", "the terminal is used when a file is asked for", "the file asked for is written", ["C75"]),
("Cli", "parse", "blockSize := UInt8.ofNat f.block", "blockSize := UInt8.ofNat (f.block / 2)", "half the block size", "blocks have the size given", ["C75"]),
("Cli", "FileOutputOptions.applyOptions", "(if foo.transparent then [.bgTransparent] else [])", "(if foo.transparent then [.circleShape] else [])", "wrong option", "the flags mean what they say", ["C51"]),
("Shapes", "circleBlocks", "(fw0 / 2 * size)", "(fw0 * size)", "diameter for radius", "a module paints inside its block", ["C60"]),
("Shapes", "roundedFinder", "if mask &&& NSelf ≠ NSelf then []", "if mask &&& NSelf = NSelf then []", "test inverted", "every dark finder module is painted", ["C59", "C72"]),
("Shapes", "roundedFinder", "else [.add (.rect x y fw fh)]) ++ [.fill]", "else [.add (.rect x y (fw / 2) fh)]) ++ [.fill]", "half a module", "every dark finder module is painted", ["C62", "C59"]),
("Shapes", "vChainBlock", "drawRect (cx - l) c.y (2 * l) (fh / 2)) ++\n  when (has c.neighbours (NBot ||| NSelf)) (drawRect (cx - l) cy (2 * l) (fh / 2)) ++\n  [.fill]\n\n/-- writer/standard/shapes/blocks.go:277", "drawRect (cx - l) cy (2 * l) (fh / 2)) ++\n  when (has c.neighbours (NBot ||| NSelf)) (drawRect (cx - l) cy (2 * l) (fh / 2)) ++\n  [.fill]\n\n/-- writer/standard/shapes/blocks.go:277", "the upper bar is drawn downwards", "bars join neighbouring modules", ["C61"]),
("Canvas", "overChan", "let a : UInt32 := (m - ca * m / m) * 0x101", "let a : UInt32 := m * 0x101", "the old colour is not covered", "every pixel shows its module's colour", ["C40"]),
("Canvas", "Canvas.paintRect", "px < x + w ∧ y ≤ py", "px ≤ x + w ∧ y ≤ py", "one column too many", "every pixel shows its module's colour", ["C40"]),
("CanvasShapes", "coverChan", "let a : UInt32 := (m - ca * ma / m) * 0x101", "let a : UInt32 := m * 0x101", "the old colour shines through", "a picture with shapes can be read", ["C83"]),
("CanvasShapes", "Canvas.fillPath", "cover (cov path px py) k (cv.pix px py) else", "cover (cov path py px) k (cv.pix px py) else", "coordinates swapped", "a picture with shapes can be read", ["C83"]),
("CanvasShapes", "Sheet.cmd", "⟨s.cv.fillPath cov k s.path, []⟩", "⟨s.cv.fillPath cov k s.path, s.path⟩", "the path is kept after a fill", "a picture with shapes can be read", ["C83"]),
("CanvasShapes", "Sheet.cmd", "⟨s.cv, s.path ++ [f]⟩", "⟨s.cv, [f]⟩", "only the last figure is filled", "every dark module is painted", ["C83"]),
("CanvasShapes", "Sheet.op", "(Sheet.cmd cov ctx.color) s)", "(Sheet.cmd cov ⟨0, 0, 0, 255⟩) s)", "shapes are always black", "a picture with shapes can be read", ["C83"]),
("CanvasShapes", "Sheet.op", "(lib sh).cmds fin ctx", "(lib sh).cmds (!fin) ctx", "finder and data shapes swapped", "a picture with shapes can be read", ["C83"]),
("CanvasShapes", "Sheet.op", "⟨s.cv.drawImage blend img x y, s.path⟩", "⟨s.cv.drawImage blend img y x, s.path⟩", "logo at the wrong place", "a picture with shapes and a logo can be read", ["C83"]),
("CanvasCustom", "Desk.op", "let r := shape fin ctx d.st d.cv; some ⟨r.1, r.2⟩", "let r := shape fin ctx d.st d.cv; some ⟨r.1, d.cv⟩", "the user's shape does not draw", "a picture with a readable shape of the user's can be read", ["C85"]),
("CanvasCustom", "Desk.op", "let r := shape fin ctx d.st d.cv; some ⟨r.1, r.2⟩", "let r := shape (!fin) ctx d.st d.cv; some ⟨r.1, r.2⟩", "Draw and DrawFinder swapped", "a picture with a readable shape of the user's can be read", ["C85"]),
("CanvasCustom", "smallerRadius", "if r2 ≤ radius then r2 else radius", "if r2 ≤ radius then 0 else radius", "radius zero", "the shape of the example can be read", ["C85"]),
("CanvasCustom", "smallerCircle", "((s.1, []), cv.fillPath cov ctx.color (s.2 ++ [f]))", "((percent, []), cv.fillPath cov ctx.color (s.2 ++ [f]))", "DrawFinder does not put the field back", "the shape of the example can be read", ["C85"]),
("CanvasCustom", "smallerCircle", "(ctx.y + (ctx.h : Rat) / 2)", "(ctx.y + (ctx.h : Rat))", "circle on the lower edge", "the shape of the example can be read", ["C85"]),
("CanvasCustom", "smallerCircle", "cv.fillPath cov ctx.color (s.2 ++ [f])", "cv.fillPath cov ctx.color s.2", "the circle is not added before the fill", "the shape of the example can be read", ["C85"]),
("Examples", "qrWidth", "[.qrWidth 8]", "[.qrWidth 0]", "width 0", "the programs' pictures can be read", ["C86"]),
("Examples", "bgFgColor", ".bgColor (some (.rgba ⟨124, 252, 0, 255⟩))", ".bgColor (some (.rgba ⟨135, 206, 235, 255⟩))", "both colours equal", "the programs' pictures can be read", ["C86"]),
("Examples", "migrating", "#ffffff", "#0000ff", "both colours equal", "the programs' pictures can be read", ["C86"]),
("Heap", "Heap.rowVals", "if cur ≥ m.height ∨ cur < 0 then none\n  else if m.width > m.height", "if cur > m.height ∨ cur < 0 then none\n  else if m.width > m.height", "bound of Row", "Row is nil outside the matrix", ["C87"]),
("Heap", "Heap.row", "((H.alloc [vs]).1, some H.cols.length)", "((H.alloc [vs]).1, (H.outer m.mat)[0]?)", "Row returns the first column", "Row returns a copy of the row", ["C87"]),
("Heap", "Heap.rowVals", ").getD cur.toNat INIT_V0)", ").getD w INIT_V0)", "Row returns the diagonal", "Row returns a copy of the row", ["C87"]),
("Heap", "Heap.store", "l.set i c }", "l.set 0 c }", "writes go to the first element", "writing through a column sets that module", ["C87"]),
("Issues", "Issues.content69", "replaceByte 0x5D 0x2F content  -- \"]\" \"/\"", "replaceByte 0x5D 0x2E content  -- \"]\" \"/\"", "] becomes a full stop", "the program of issue 69 encodes the text with its characters replaced", ["C88"]),
("Issues", "Issues.content69", "replaceByte 0x22 0x2A content", "replaceByte 0x22 0x24 content", "quotation marks become $", "the program of issue 69 encodes the text with its characters replaced", ["C88"]),
("Issues", "Issues.toUpper", "b ≤ 122", "b < 122", "z stays small", "the program of issue 69 encodes the text with its characters replaced", ["C88"]),
("Issues", "Issues.writerOption", "⟨4, 1⟩", "⟨3, 1⟩", "padding 3", "a white frame of four pixels", ["C88"]),
("Issues", "Issues.options106", "encKanji", "encByte", "the program of issue 106 uses byte mode", "only kanji are accepted", ["C88"]),
("Issues", "Issues.options69", ", .withErrorCorrectionLevel ecHighest", "", "the level of issue 69 is left at Q", "at most 1852 characters", ["C88"]),
("CliFlags", "Cli.defaultFlags", "block := 5", "block := 10", "the default block size is 10", "the size of the picture without flags", ["C89"]),
("CliFlags", "Cli.defaultFlags", "borders := [0x30, 0x2C, 0x30, 0x2C, 0x30, 0x2C, 0x30]", "borders := [0x30, 0x2C, 0x30, 0x2C, 0x30]", "the default borders have three numbers", "without flags a picture is written", ["C89"]),
("Standard", "Standard.defaultOpts", "  borders := ⟨defaultPadding, defaultPadding, defaultPadding, defaultPadding⟩\n  halftone := none", "  borders := ⟨defaultPadding, defaultPadding, defaultPadding, 0⟩\n  halftone := none", "no left border by default", "a quiet zone of two modules by default", ["C89"]),
("Terminal", "Terminal.render", "let padding := 1", "let padding := 0", "no padding in the terminal", "one module of quiet zone in the terminal", ["C38", "C89"]),
]
M = [m for m in M if m[2]]
