{
 "claims": [
  {
   "property": "C01",
   "status": "partial",
   "theorems": [
    "QR.C01_roundtrip_partial",
    "QR.C01_exact",
    "QR.C01_counterexample",
    "QR.C01_ascii"
   ],
   "note": "false for alphanumeric+kanji texts in automatic mode; proved for all others"
  },
  {
   "property": "C02",
   "status": "partial",
   "theorems": [
    "QR.C02_auto_mode_partial",
    "QR.C02_counterexample"
   ],
   "note": "false for alphanumeric+kanji texts; proved for all others"
  },
  {
   "property": "C03",
   "status": "partial",
   "theorems": [
    "QR.C03_injective_partial",
    "QR.C03_collisions",
    "QR.C03_counterexample"
   ],
   "note": "false for alphanumeric+kanji texts in automatic mode; proved for all others"
  },
  {
   "property": "C04",
   "status": "proved",
   "theorems": [
    "QR.C04_smallest_version",
    "QR.C04_error_iff",
    "QR.C04_ascii"
   ],
   "note": ""
  },
  {
   "property": "C05",
   "status": "proved",
   "theorems": [
    "QR.C05_never_overfull",
    "QR.C05_stream_fits"
   ],
   "note": ""
  },
  {
   "property": "C06",
   "status": "partial",
   "theorems": [
    "QR.C06_honoured",
    "QR.C06_error_iff_partial",
    "QR.C06_counterexample"
   ],
   "note": "false for alphanumeric+kanji texts in automatic mode (never rejected); proved for all others"
  },
  {
   "property": "C07",
   "status": "proved",
   "theorems": [
    "QR.C07_newWith_no_panic",
    "QR.C07_new_no_panic"
   ],
   "note": ""
  },
  {
   "property": "C08",
   "status": "partial",
   "theorems": [
    "QR.C08_no_panic_partial",
    "QR.C08_counterexample",
    "QR.C08_defined_type_panics",
    "QR.C08_unsupported_mode"
   ],
   "note": "false; the exact set of panicking calls is proved"
  },
  {
   "property": "C09",
   "status": "proved",
   "theorems": [
    "QR.C09_rejects_iff",
    "QR.C09_fails_iff",
    "QR.C09_byte_accepts"
   ],
   "note": ""
  },
  {
   "property": "C10",
   "status": "proved",
   "theorems": [
    "QR.C10_options",
    "QR.C10_order_irrelevant",
    "QR.C10_commute",
    "QR.C10_invalid_ignored"
   ],
   "note": ""
  },
  {
   "property": "C11",
   "status": "proved",
   "theorems": [
    "QR.C11_dimension"
   ],
   "note": ""
  },
  {
   "property": "C12",
   "status": "proved",
   "theorems": [
    "QR.C12_function_patterns"
   ],
   "note": ""
  },
  {
   "property": "C13",
   "status": "proved",
   "theorems": [
    "QR.C13_format_information"
   ],
   "note": ""
  },
  {
   "property": "C14",
   "status": "proved",
   "theorems": [
    "QR.C14_version_information"
   ],
   "note": ""
  },
  {
   "property": "C15",
   "status": "proved",
   "theorems": [
    "QR.C15_every_module_determined",
    "QR.C15_symbol_unique"
   ],
   "note": ""
  },
  {
   "property": "C16",
   "status": "proved",
   "theorems": [
    "QR.C16_zigzag"
   ],
   "note": ""
  },
  {
   "property": "C17",
   "status": "proved",
   "theorems": [
    "QR.C17_mask"
   ],
   "note": ""
  },
  {
   "property": "C18",
   "status": "proved",
   "theorems": [
    "QR.C18_lowest_penalty",
    "QR.C78_lowest"
   ],
   "note": "C78_lowest has the score as a function of version and colours"
  },
  {
   "property": "C19",
   "status": "partial",
   "theorems": [
    "QR.C19_deterministic_partial",
    "QR.C19_exact",
    "QR.C19_up_to_mask",
    "QR.C19_counterexample"
   ],
   "note": "false when two masks tie for the lowest score (witness: the text 19); C19_exact: all schedules agree exactly if one mask alone has the lowest score; up to the mask in general"
  },
  {
   "property": "C20",
   "status": "proved",
   "theorems": [
    "QR.Conc.C20_terminates",
    "QR.Conc.C20_never_blocked",
    "QR.Conc.C20_wait",
    "QR.Conc.C20_channel",
    "QR.Conc.C20_result",
    "QR.Conc.C20_all_orders",
    "QR.Conc.C20_no_crosstalk",
    "QR.Conc.C20_own_memory"
   ],
   "note": "small-step machine of the goroutines; every schedule"
  },
  {
   "property": "C21",
   "status": "proved",
   "theorems": [
    "QR.C21_blocks"
   ],
   "note": ""
  },
  {
   "property": "C22",
   "status": "proved",
   "theorems": [
    "QR.C22_layout"
   ],
   "note": ""
  },
  {
   "property": "C23",
   "status": "proved",
   "theorems": [
    "QR.C23_payload_roundtrip",
    "QR.C23_payload_injective"
   ],
   "note": ""
  },
  {
   "property": "C24",
   "status": "proved",
   "theorems": [
    "QR.C24_entries",
    "QR.C24_blocks",
    "QR.C24_capacities",
    "QR.C24_alignment",
    "QR.C24_alignment_1",
    "QR.C24_format_word",
    "QR.C24_version_word"
   ],
   "note": ""
  },
  {
   "property": "C25",
   "status": "proved",
   "theorems": [
    "QR.C25_format_distance",
    "QR.C25_version_distance",
    "QR.C25_format_correctable",
    "QR.C25_version_correctable"
   ],
   "note": ""
  },
  {
   "property": "C26",
   "status": "proved",
   "theorems": [
    "QR.C26_rule1",
    "QR.C26_runCost"
   ],
   "note": ""
  },
  {
   "property": "C27",
   "status": "partial",
   "theorems": [
    "QR.C27_rule2_partial",
    "QR.C27_counterexample"
   ],
   "note": "false: the code compares module values, not colours; the exact count it computes is proved, and equality when all modules have comparable types"
  },
  {
   "property": "C28",
   "status": "partial",
   "theorems": [
    "QR.C28_rule3_partial",
    "QR.C28_counterexample"
   ],
   "note": "false: the code looks for data modules only; what it counts is proved exactly"
  },
  {
   "property": "C29",
   "status": "proved",
   "theorems": [
    "QR.C29_counts"
   ],
   "note": ""
  },
  {
   "property": "C30",
   "status": "partial",
   "theorems": [
    "QR.C30_rule4_partial",
    "QR.C30_below_sentinel",
    "QR.C30_counterexample"
   ],
   "note": "false: integer arithmetic; the exact condition for agreement with the standard is proved"
  },
  {
   "property": "C31",
   "status": "proved",
   "theorems": [
    "QR.C31_wellformed",
    "QR.C31_iterate",
    "QR.C31_direction",
    "QR.C31_bitmap",
    "QR.C31_col",
    "QR.C31_row",
    "QR.C31_access",
    "QR.C31_copy",
    "QR.C31_bytes",
    "QR.C31_string"
   ],
   "note": ""
  },
  {
   "property": "C32",
   "status": "proved",
   "theorems": [
    "QR.Heap.C32_frame",
    "QR.Heap.C32_copy_equal",
    "QR.Heap.C32_copy_independent",
    "QR.Heap.C32_refines"
   ],
   "note": ""
  },
  {
   "property": "C33",
   "status": "partial",
   "theorems": [
    "QR.Heap.C33_writer_partial",
    "QR.Heap.C33_counterexample"
   ],
   "note": "false: Col hands out the internal column; proved for writers that write through no column they were given"
  },
  {
   "property": "C34",
   "status": "proved",
   "theorems": [
    "QR.C34_calls",
    "QR.C34_result",
    "QR.C34_panics",
    "QR.C34_nil_writer",
    "QR.C34_made_by_new",
    "QR.C34_zero_code"
   ],
   "note": ""
  },
  {
   "property": "C35",
   "status": "proved",
   "theorems": [
    "QR.FileWriter.C35_picture",
    "QR.FileWriter.C35_prefix",
    "QR.FileWriter.C35_nil_file"
   ],
   "note": ""
  },
  {
   "property": "C36",
   "status": "proved",
   "theorems": [
    "QR.Compressed.C36_pixels",
    "QR.Compressed.C36_injective",
    "QR.Compressed.C36_nil_option"
   ],
   "note": "for padding and block size that are not negative; the PNG encoder is external"
  },
  {
   "property": "C37",
   "status": "partial",
   "theorems": [
    "QR.Files.C37_standard",
    "QR.Files.C37_standard_fallback",
    "QR.Files.C37_debug",
    "QR.Files.C37_open_error",
    "QR.Files.C37_compressed_partial",
    "QR.Files.C37_counterexample"
   ],
   "note": "proved for the standard writer; false for the compressed writer (no O_TRUNC), with the exact condition"
  },
  {
   "property": "C38",
   "status": "proved",
   "theorems": [
    "QR.Terminal.C38_cells",
    "QR.Terminal.C38_rest",
    "QR.Terminal.C38_tip",
    "QR.Terminal.C38_hold"
   ],
   "note": ""
  },
  {
   "property": "C39",
   "status": "proved",
   "theorems": [
    "QR.Standard.C39_attribute"
   ],
   "note": ""
  },
  {
   "property": "C40",
   "status": "proved",
   "theorems": [
    "QR.Standard.C40_calls",
    "QR.Standard.C40_pixels",
    "QR.Standard.C40_transparent"
   ],
   "note": ""
  },
  {
   "property": "C41",
   "status": "proved",
   "theorems": [
    "QR.Standard.C41_neighbours",
    "QR.Standard.C41_flags"
   ],
   "note": ""
  },
  {
   "property": "C42",
   "status": "proved",
   "theorems": [
    "QR.Standard.C42_safe_zone",
    "QR.Standard.C42_empty_logo"
   ],
   "note": "for logos that are not empty; an empty logo still removes modules"
  },
  {
   "property": "C43",
   "status": "partial",
   "theorems": [
    "QR.Standard.C43_mask_partial",
    "QR.Standard.C43_symmetric",
    "QR.Standard.C43_counterexample"
   ],
   "note": "false: the code clears the transposed entry; what it does is proved exactly, and the property when the geometry is symmetric"
  },
  {
   "property": "C44",
   "status": "proved",
   "theorems": [
    "QR.Standard.C44_options",
    "QR.Standard.C44_panics"
   ],
   "note": ""
  },
  {
   "property": "C45",
   "status": "partial",
   "theorems": [
    "QR.Standard.C45_partial",
    "QR.Standard.C45_counterexample"
   ],
   "note": "false: the low byte of each channel is used; proved for color.RGBA and exactly the colours whose channels have two equal bytes"
  },
  {
   "property": "C46",
   "status": "proved",
   "theorems": [
    "QR.Standard.C46_hex",
    "QR.Standard.C46_accepts",
    "QR.Standard.C46_sloppy"
   ],
   "note": ""
  },
  {
   "property": "C47",
   "status": "partial",
   "theorems": [
    "QR.Standard.C47_exact",
    "QR.Standard.C47_float64_partial",
    "QR.Standard.C47_no_fallback",
    "QR.Standard.C47_position",
    "QR.Standard.C47_newGradient",
    "QR.Standard.C47_counterexample"
   ],
   "note": "proved in exact arithmetic; in float64 a channel can be one too small (proved bound and witness)"
  },
  {
   "property": "C48",
   "status": "partial",
   "theorems": [
    "QR.C48_search_partial",
    "QR.C48_found",
    "QR.C48_above",
    "QR.C48_counterexample"
   ],
   "note": "every present key is found; false for absent keys: the search never ends exactly when some entry comes after the absent key"
  },
  {
   "property": "C49",
   "status": "proved",
   "theorems": [
    "QR.C49_never_written",
    "QR.C49_history_irrelevant",
    "QR.C49_reachable",
    "QR.C49_cold"
   ],
   "note": ""
  },
  {
   "property": "C50",
   "status": "proved",
   "theorems": [
    "QR.C50_codewords",
    "QR.C50_distance",
    "QR.C50_correctable",
    "QR.C50_nontrivial"
   ],
   "note": ""
  },
  {
   "property": "C51",
   "status": "partial",
   "theorems": [
    "QR.Cli.C51_borders_syntax",
    "QR.Cli.C51_run_partial",
    "QR.Cli.C51_block",
    "QR.Cli.C51_counterexample"
   ],
   "note": "false for block sizes above 255 (taken modulo 256) and 0 (20); proved for 1..255 and for the borders"
  },
  {
   "property": "C52",
   "status": "partial",
   "theorems": [
    "QR.Wasm.C52_panics_partial",
    "QR.Wasm.C52_settings_partial",
    "QR.Wasm.C52_defaults",
    "QR.Wasm.C52_counterexample",
    "QR.Wasm.C52_documented_modes",
    "QR.Wasm.C52_content"
   ],
   "note": "false: omitting a number, boolean or colour field panics; the exact panic condition is proved, and the settings of complete objects and of calls without options"
  },
  {
   "property": "C53",
   "status": "proved",
   "theorems": [
    "QR.Standard.C53_halftone",
    "QR.Standard.C53_inside"
   ],
   "note": ""
  },
  {
   "property": "C54",
   "status": "partial",
   "theorems": [
    "QR.Standard.C54_reuse_partial",
    "QR.Standard.C54_reuse_transparent",
    "QR.Standard.C54_counterexample"
   ],
   "note": "false with a transparent background (the stored background colour is overwritten); proved otherwise"
  },
  {
   "property": "C55",
   "status": "proved",
   "theorems": [
    "QR.Standard.C55_only_foreground"
   ],
   "note": ""
  },
  {
   "property": "C56",
   "status": "proved",
   "theorems": [
    "QR.Standard.C56_logo"
   ],
   "note": ""
  },
  {
   "property": "C57",
   "status": "proved",
   "theorems": [
    "QR.Cli.C57_format"
   ],
   "note": ""
  },
  {
   "property": "C58",
   "status": "proved",
   "theorems": [
    "QR.Wasm.C58_result",
    "QR.Wasm.C58_base64"
   ],
   "note": ""
  },
  {
   "property": "C59",
   "status": "partial",
   "theorems": [
    "QR.Standard.C59_centres_partial",
    "QR.Standard.C59_counterexample"
   ],
   "note": "false for the circle shape in blocks one pixel wide (nothing is drawn); proved for all other cases"
  },
  {
   "property": "C60",
   "status": "proved",
   "theorems": [
    "QR.Standard.C60_quiet_zone",
    "QR.Standard.C60_block"
   ],
   "note": "the built-in circle in blocks one pixel wide draws nothing, see C59_counterexample"
  },
  {
   "property": "C61",
   "status": "proved",
   "theorems": [
    "QR.Standard.C61_rows",
    "QR.Standard.C61_columns"
   ],
   "note": ""
  },
  {
   "property": "C62",
   "status": "proved",
   "theorems": [
    "QR.Standard.C62_v_stripe",
    "QR.Standard.C62_square",
    "QR.Standard.C62_circle"
   ],
   "note": ""
  },
  {
   "property": "C63",
   "status": "partial",
   "theorems": [
    "QR.Standard.C63_h_stripe_partial",
    "QR.Standard.C63_counterexample"
   ],
   "note": "false: the ratio is ignored, the height is always 0.9; proved exactly"
  },
  {
   "property": "C64",
   "status": "partial",
   "theorems": [
    "QR.Imgkit.C64_partial",
    "QR.Imgkit.C64_grey",
    "QR.Imgkit.C64_halftone",
    "QR.Imgkit.C64_counterexample"
   ],
   "note": "false for images that do not begin at (0, 0); proved for the others, with the exact condition"
  },
  {
   "property": "C65",
   "status": "partial",
   "theorems": [
    "QR.Imgkit.C65_save_partial",
    "QR.Imgkit.C65_counterexample"
   ],
   "note": "false: a refused name truncates the file; the rest is proved"
  },
  {
   "property": "C66",
   "status": "proved",
   "theorems": [
    "QR.Debug.C66_switch"
   ],
   "note": "for calls that do not overlap"
  },
  {
   "property": "C67",
   "status": "proved",
   "theorems": [
    "QR.Debug.C67_picture"
   ],
   "note": ""
  },
  {
   "property": "C68",
   "status": "proved",
   "theorems": [
    "QR.C68_damage",
    "QR.C68_few_modules",
    "QR.C68_margin",
    "QR.C68_limit"
   ],
   "note": "the finder, timing and alignment modules may be damaged at will: locating the symbol is not modelled"
  },
  {
   "property": "C69",
   "status": "proved",
   "theorems": [
    "QR.Standard.C69_logo",
    "QR.Standard.C69_counterexample"
   ],
   "note": "for images whose bounds begin at the origin (gg displaces others); the exceptions are in the statement, and at version 1, level L, a logo that destroys the symbol is exhibited for every text"
  },
  {
   "property": "C70",
   "status": "proved",
   "theorems": [
    "QR.Standard.C70_picture"
   ],
   "note": ""
  },
  {
   "property": "C71",
   "status": "proved",
   "theorems": [
    "QR.C71_compressed",
    "QR.C71_file",
    "QR.C71_terminal"
   ],
   "note": ""
  },
  {
   "property": "C72",
   "status": "proved",
   "theorems": [
    "QR.Standard.C72_shapes",
    "QR.Standard.C72_halftone_centres",
    "QR.Standard.C72_halftone",
    "QR.Standard.C72_counterexample"
   ],
   "note": "halftone: for the rectangle shape"
  },
  {
   "property": "C73",
   "status": "proved",
   "theorems": [
    "QR.C73_safe",
    "QR.C73_isolated",
    "QR.C73_wait_free",
    "QR.C73_completes",
    "QR.C73_counterexample",
    "QR.C73_cold"
   ],
   "note": "the counterexample is about the same code without the precomputation at start-up"
  },
  {
   "property": "C74",
   "status": "proved",
   "theorems": [
    "QR.C74_first_save",
    "QR.C74_close_error",
    "QR.C74_second_save",
    "QR.C74_only_first",
    "QR.C74_text_appends",
    "QR.C74_zero_writer"
   ],
   "note": "the bytes the PNG and JPEG encoders write are a parameter; they are assumed to stop at the first failed write and to return its error"
  },
  {
   "property": "C75",
   "status": "proved",
   "theorems": [
    "QR.Cli.C75_outcome",
    "QR.Cli.C75_picture",
    "QR.Cli.C75_shapes",
    "QR.Cli.C75_terminal",
    "QR.Cli.C75_pixels"
   ],
   "note": "parsing the command line into flags and encoding the picture as a file are not modelled"
  },
  {
   "property": "C76",
   "status": "proved",
   "theorems": [
    "QR.Wasm.C76_object",
    "QR.Wasm.C76_plain",
    "QR.Wasm.C76_pixels"
   ],
   "note": "PNG itself is an assumption (SavesPng): a picture that was saved decodes to itself where it is opaque"
  },
  {
   "property": "C77",
   "status": "proved",
   "theorems": [
    "QR.C77_reference",
    "QR.C77_bitmap",
    "QR.C77_determined"
   ],
   "note": "the Reed-Solomon package is assumed to be the coder of the standard (C50)"
  },
  {
   "property": "C78",
   "status": "proved",
   "theorems": [
    "QR.C78_mask_choice",
    "QR.C78_lowest",
    "QR.C78_all",
    "QR.demo_choice"
   ],
   "note": "the Reed-Solomon package is assumed to be the coder of the standard (C50)"
  },
  {
   "property": "C79",
   "status": "proved",
   "theorems": [
    "QR.Standard.C79_gradient",
    "QR.Standard.C79_gradient_logo"
   ],
   "note": "direction of the gradient (cos and sin) and what drawing a not opaque pixel does are left open; positions of stops are float64 numbers; C79_gradient_logo assumes the Reed-Solomon package to be the coder of the standard (C50)"
  },
  {
   "property": "C80",
   "status": "proved",
   "theorems": [
    "QR.Standard.C80_shapes_logo",
    "QR.Standard.C80_centres",
    "QR.Standard.C80_lost"
   ],
   "note": "colours given by the shapes, in the plane; a gradient recolours them afterwards and is not considered here (C79); the Reed-Solomon package is assumed to be the coder of the standard (C50)"
  },
  {
   "property": "C81",
   "status": "proved",
   "theorems": [
    "QR.Standard.C81_halftone",
    "QR.Standard.C81_halftone_logo",
    "QR.Standard.C81_centres"
   ],
   "note": "as C80; scaling of the halftone image is a parameter"
  },
  {
   "property": "C82",
   "status": "proved",
   "theorems": [
    "QR.C82_apart",
    "QR.C82_modules",
    "QR.C82_margin",
    "QR.C82_unambiguous"
   ],
   "note": "the Reed-Solomon package is assumed to be the coder of the standard (C50)"
  },
  {
   "property": "C83",
   "status": "proved",
   "theorems": [
    "QR.Standard.C83_shapes",
    "QR.Standard.C83_shapes_logo"
   ],
   "note": "assumed of the rasterizer: full coverage of a pixel a quarter of a pixel inside a figure, none outside; mixing as freetype does it; halftone pictures: C84"
  },
  {
   "property": "C84",
   "status": "proved",
   "theorems": [
    "QR.Standard.C84_halftone",
    "QR.Standard.C84_halftone_logo"
   ],
   "note": "coverage of a pixel by a figure is a parameter, exact up to a quarter of a pixel; the mixing is freetype's formula"
  },
  {
   "property": "C85",
   "status": "proved",
   "theorems": [
    "QR.Standard.C85_custom",
    "QR.Standard.C85_custom_logo",
    "QR.Standard.C85_example",
    "QR.Standard.smallerCircle_readable",
    "QR.Standard.rectangle_readable"
   ],
   "note": "shapes that panic are not included; what drawing a not opaque gradient pixel does and the direction of the gradient are left open; C85_custom_logo assumes the Reed-Solomon package to be the coder of the standard (C50); C85_example assumes the rasterizer of C83"
  },
  {
   "property": "C86",
   "status": "proved",
   "theorems": [
    "QR.Examples.C86_programs",
    "QR.Examples.C86_minimumVersion",
    "QR.Examples.C86_qrWidth",
    "QR.Examples.C86_logo",
    "QR.Examples.C86_customShape",
    "QR.Examples.C86_writers"
   ],
   "note": "assumptions as in C70, C69, C83, C84, C85 and C71; example/with-logosize-multiplier is in C93; not covered: the v1 library in example/migrating-from-v1"
  },
  {
   "property": "C87",
   "status": "proved",
   "theorems": [
    "QR.Heap.C87_row_snapshot",
    "QR.Heap.C87_row_write",
    "QR.Heap.C87_col_window"
   ],
   "note": ""
  },
  {
   "property": "C88",
   "status": "proved",
   "theorems": [
    "QR.Issues.C88_issue69",
    "QR.Issues.C88_issue106"
   ],
   "note": "assumptions as in C01 and C71; the second Close of issue 106 and the file are not part of the statement (see C37, C74)"
  },
  {
   "property": "C89",
   "status": "partial",
   "theorems": [
    "QR.Standard.C89_standard_partial",
    "QR.Standard.C89_room",
    "QR.Standard.C89_default_counterexample",
    "QR.Cli.C89_cli_partial",
    "QR.Cli.C89_cli_counterexample",
    "QR.Compressed.C89_compressed_partial",
    "QR.Terminal.C89_terminal_counterexample",
    "QR.FileWriter.C89_file_counterexample"
   ],
   "note": "false with the default settings of every writer: counterexamples for every symbol; proved: the exact condition. For shapes other than rectangles see C60_quiet_zone"
  },
  {
   "property": "C90",
   "status": "proved",
   "theorems": [
    "QR.C90_capacity"
   ],
   "note": "assumptions as in C01"
  },
  {
   "property": "C91",
   "status": "proved",
   "theorems": [
    "QR.C91_monotone"
   ],
   "note": "assumptions as in C01"
  },
  {
   "property": "C92",
   "status": "partial",
   "theorems": [
    "QR.C92_automatic_partial",
    "QR.C92_counterexample"
   ],
   "note": "false of texts of an alphanumeric part followed by a kanji part (counterexample, same cause as C01); proved for all other texts"
  },
  {
   "property": "C93",
   "status": "proved",
   "theorems": [
    "QR.Standard.C93_logo",
    "QR.Standard.C93_fifth",
    "QR.Examples.C93_program",
    "QR.Standard.C93_counterexample"
   ],
   "note": "the condition on the codewords is part of the statement; C93_counterexample shows what happens without it; assumptions as in C69"
  },
  {
   "property": "C94",
   "status": "proved",
   "theorems": [
    "QR.Standard.C94_draw",
    "QR.Standard.C94_too_large",
    "QR.Standard.C94_wraps",
    "QR.Compressed.C94_compressed",
    "QR.Compressed.C94_compressed_too_large"
   ],
   "note": "the limits are part of the statement; what happens beyond them is C94_too_large and C94_wraps. Platforms with 64-bit int; running out of memory below the limit of the runtime is not modelled"
  },
  {
   "property": "C95",
   "status": "proved",
   "theorems": [
    "QR.Standard.C95_total",
    "QR.Standard.C95_finite",
    "QR.Standard.C95_angle",
    "QR.Standard.C95_angle_special",
    "QR.Standard.C95_read",
    "QR.Standard.C95_positions",
    "QR.Standard.C95_no_zero_division"
   ],
   "note": "assumed of math.Cos and math.Sin: NaN for what is not finite (as documented), otherwise two numbers in [-1, 1] not both small; of uint8(f) nothing for numbers out of range. Signed zeros are not distinguished: C95_no_zero_division shows that they make no difference"
  },
  {
   "property": "C96",
   "status": "partial",
   "theorems": [
    "QR.Standard.C96_factors_partial",
    "QR.Standard.C96_counterexample",
    "QR.Standard.C96_blockScale"
   ],
   "note": "false for NaN (counterexample proved); proved for every other number"
  },
  {
   "property": "C97",
   "status": "partial",
   "theorems": [
    "QR.Alias.C97_untouched_partial",
    "QR.Alias.C97_given",
    "QR.Alias.C97_shared",
    "QR.Alias.C97_newGradient",
    "QR.Alias.C97_newGradient_list",
    "QR.Alias.C97_counterexample"
   ],
   "note": "false: gradients, stops and options are kept by reference (counterexamples proved); what does not touch them makes no difference, for every program"
  },
  {
   "property": "C98",
   "status": "proved",
   "theorems": [
    "QR.Standard.C98_colour",
    "QR.Standard.C98_position",
    "QR.Standard.C98_read",
    "QR.Standard.C98_separate",
    "QR.Standard.C98_differ"
   ],
   "note": "fusion of a product with the sum it is part of, which is what the Go compiler does"
  },
  {
   "property": "C99",
   "status": "proved",
   "theorems": [
    "QR.Standard.C99_draw",
    "QR.Standard.C99_limits",
    "QR.Standard.C99_largest",
    "QR.Standard.C99_browser",
    "QR.Standard.C99_same",
    "QR.Compressed.C99_compressed",
    "QR.Compressed.C99_compressed_limits",
    "QR.Compressed.C99_compressed_same"
   ],
   "note": "the limits are part of the statement; the largest slices are those of the Go runtime"
  },
  {
   "property": "C100",
   "status": "proved",
   "theorems": [
    "QR.Painters.C100_alone",
    "QR.Painters.C100_shared",
    "QR.Painters.C100_race",
    "QR.Painters.C100_finishes",
    "QR.Painters.C100_counterexample"
   ],
   "note": "the exception is part of the statement; the counterexample shows it occurs"
  },
  {
   "property": "C101",
   "status": "proved",
   "theorems": [
    "QR.C101_three_finders",
    "QR.C101_one_way_up",
    "QR.C101_any_way",
    "QR.C101_same_view"
   ],
   "note": "reading the text has the exception of C01 as a hypothesis"
  },
  {
   "property": "C102",
   "status": "proved",
   "theorems": [
    "QR.C102_photo",
    "QR.C102_compressed",
    "QR.Standard.C102_standard",
    "QR.Cli.C102_cli"
   ],
   "note": "reading the text has the exception of C01 as a hypothesis"
  },
  {
   "property": "C103",
   "status": "proved",
   "theorems": [
    "QR.Compressed.C103_panics",
    "QR.Compressed.C103_blank",
    "QR.Compressed.C103_negative",
    "QR.Standard.C103_cut",
    "QR.Standard.C103_nothing_left"
   ],
   "note": "pictures of negative size of the image writer are not modelled"
  },
  {
   "property": "C104",
   "status": "proved",
   "theorems": [
    "QR.C104_negative",
    "QR.C104_compressed",
    "QR.Standard.C104_standard"
   ],
   "note": "reading the text has the exception of C01 as a hypothesis"
  },
  {
   "property": "C105",
   "status": "proved",
   "theorems": [
    "QR.Standard.C105_exact",
    "QR.Standard.C105_close",
    "QR.Standard.C105_close_any",
    "QR.Standard.C105_factors",
    "QR.Standard.C105_text",
    "QR.Standard.C105_text_logo"
   ],
   "note": "finite numbers below 2^30 (NaN, infinities: C96); the contexts of blocks are exact integers, as draw computes them; halftone sub-blocks: C106; the rasterizer as in C83"
  },
  {
   "property": "C106",
   "status": "proved",
   "theorems": [
    "QR.Standard.C106_calls",
    "QR.Standard.C106_text",
    "QR.Standard.C106_text_logo"
   ],
   "note": "rounding to nearest as in Model/Float64; the coverage computed by gg from the coordinates, scaling of the halftone image and blending of the logo stay parameters, as in C83 and C84; the core (matrix, penalty) computes with int values far below 2^31"
  },
  {
   "property": "C107",
   "status": "partial",
   "theorems": [
    "QR.C107_grey",
    "QR.Standard.C107_standard",
    "QR.Standard.C107_brightness",
    "QR.Standard.C107_transparent",
    "QR.Standard.C107_again_counterexample",
    "QR.Compressed.C107_compressed",
    "QR.Cli.C107_cli"
   ],
   "note": "that WithBgTransparent makes no difference for JPEG holds for the first picture of a writer and is false for later ones (counterexample proved, cf. C54); everything else is proved; of image/jpeg only the conversion to brightness is modelled, its rounding is the change allowed"
  },
  {
   "property": "C108",
   "status": "proved",
   "theorems": [
    "QR.Standard.C108_shapes",
    "QR.Standard.C108_shapes_logo",
    "QR.Standard.C108_halftone",
    "QR.Standard.C108_halftone_logo",
    "QR.Standard.C108_machine",
    "QR.Standard.C108_machine_logo",
    "QR.Standard.C108_gradient",
    "QR.Standard.C108_gradient_machine",
    "QR.Standard.C108_gradient_machine_logo",
    "QR.Cli.C108_cli"
   ],
   "note": "of image/jpeg only the conversion to brightness is modelled, its rounding is the change allowed; coverage, scaling and blending are parameters as in C83 and C84; gradients on backgrounds that are not transparent"
  },
  {
   "property": "C109",
   "status": "proved",
   "theorems": [
    "QR.C109_damage",
    "QR.C109_few_modules",
    "QR.C109_logo",
    "QR.C109_machine_logo"
   ],
   "note": "the exception of C01 is a hypothesis, as are the limits of C68, C69 and C106"
  },
  {
   "property": "C110",
   "status": "proved",
   "theorems": [
    "QR.C110_photo",
    "QR.C110_logo",
    "QR.Examples.C110_example"
   ],
   "note": "the exception of C01 is a hypothesis, as are the limits of C69; shapes, halftone images and gradients with a logo need a scanner that knows the blocks: C109"
  }
 ]
}