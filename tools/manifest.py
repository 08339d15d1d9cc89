#!/usr/bin/env python3
# Writes MANIFEST.json; names are without the namespace QR.
import json, os
C = [
 ('C01', 'partial', ['C01_roundtrip_partial', 'C01_exact', 'C01_counterexample', 'C01_ascii'], 'false for alphanumeric+kanji texts in automatic mode; proved for all others'),
 ('C02', 'partial', ['C02_auto_mode_partial', 'C02_counterexample'], 'false for alphanumeric+kanji texts; proved for all others'),
 ('C03', 'partial', ['C03_injective_partial', 'C03_collisions', 'C03_counterexample'], 'false for alphanumeric+kanji texts in automatic mode; proved for all others'),
 ('C04', 'proved', ['C04_smallest_version', 'C04_error_iff', 'C04_ascii'], ''),
 ('C05', 'proved', ['C05_never_overfull', 'C05_stream_fits'], ''),
 ('C06', 'partial', ['C06_honoured', 'C06_error_iff_partial', 'C06_counterexample'], 'false for alphanumeric+kanji texts in automatic mode (never rejected); proved for all others'),
 ('C07', 'proved', ['C07_newWith_no_panic', 'C07_new_no_panic'], ''),
 ('C08', 'partial', ['C08_no_panic_partial', 'C08_counterexample', 'C08_defined_type_panics', 'C08_unsupported_mode'], 'false; the exact set of panicking calls is proved'),
 ('C09', 'proved', ['C09_rejects_iff', 'C09_fails_iff', 'C09_byte_accepts'], ''),
 ('C10', 'proved', ['C10_options', 'C10_order_irrelevant', 'C10_commute', 'C10_invalid_ignored'], ''),
 ('C11', 'proved', ['C11_dimension'], ''),
 ('C12', 'proved', ['C12_function_patterns'], ''),
 ('C13', 'proved', ['C13_format_information'], ''),
 ('C14', 'proved', ['C14_version_information'], ''),
 ('C15', 'proved', ['C15_every_module_determined', 'C15_symbol_unique'], ''),
 ('C16', 'proved', ['C16_zigzag'], ''),
 ('C17', 'proved', ['C17_mask'], ''),
 ('C18', 'proved', ['C18_lowest_penalty', 'C78_lowest'], 'C78_lowest has the score as a function of version and colours'),
 ('C19', 'partial', ['C19_deterministic_partial', 'C19_exact', 'C19_up_to_mask', 'C19_counterexample'], 'false when two masks tie for the lowest score (witness: the text 19); C19_exact: all schedules agree exactly if one mask alone has the lowest score; up to the mask in general'),
 ('C20', 'proved', ['Conc.C20_terminates', 'Conc.C20_never_blocked', 'Conc.C20_wait', 'Conc.C20_channel', 'Conc.C20_result', 'Conc.C20_all_orders', 'Conc.C20_no_crosstalk', 'Conc.C20_own_memory'], 'small-step machine of the goroutines; every schedule'),
 ('C21', 'proved', ['C21_blocks'], ''),
 ('C22', 'proved', ['C22_layout'], ''),
 ('C26', 'proved', ['C26_rule1', 'C26_runCost'], ''),
 ('C27', 'partial', ['C27_rule2_partial', 'C27_counterexample'], 'false: the code compares module values, not colours; the exact count it computes is proved, and equality when all modules have comparable types'),
 ('C28', 'partial', ['C28_rule3_partial', 'C28_counterexample'], 'false: the code looks for data modules only; what it counts is proved exactly'),
 ('C29', 'proved', ['C29_counts'], ''),
 ('C30', 'partial', ['C30_rule4_partial', 'C30_below_sentinel', 'C30_counterexample'], 'false: integer arithmetic; the exact condition for agreement with the standard is proved'),
 ('C23', 'proved', ['C23_payload_roundtrip', 'C23_payload_injective'], ''),
 ('C24', 'proved', ['C24_entries', 'C24_blocks', 'C24_capacities', 'C24_alignment', 'C24_alignment_1', 'C24_format_word', 'C24_version_word'], ''),
 ('C25', 'proved', ['C25_format_distance', 'C25_version_distance', 'C25_format_correctable', 'C25_version_correctable'], ''),
 ('C31', 'proved', ['C31_wellformed', 'C31_iterate', 'C31_direction', 'C31_bitmap', 'C31_col', 'C31_row', 'C31_access', 'C31_copy', 'C31_bytes', 'C31_string'], ''),
 ('C48', 'partial', ['C48_search_partial', 'C48_found', 'C48_above', 'C48_counterexample'], 'every present key is found; false for absent keys: the search never ends exactly when some entry comes after the absent key'),
 ('C49', 'proved', ['C49_never_written', 'C49_history_irrelevant', 'C49_reachable', 'C49_cold'], ''),
 ('C50', 'proved', ['C50_codewords', 'C50_distance', 'C50_correctable', 'C50_nontrivial'], ''),
 ('C32', 'proved', ['Heap.C32_frame', 'Heap.C32_copy_equal', 'Heap.C32_copy_independent', 'Heap.C32_refines'], ''),
 ('C33', 'partial', ['Heap.C33_writer_partial', 'Heap.C33_counterexample'], 'false: Col hands out the internal column; proved for writers that write through no column they were given'),
 ('C34', 'proved', ['C34_calls', 'C34_result', 'C34_panics', 'C34_nil_writer', 'C34_made_by_new', 'C34_zero_code'], ''),
 ('C35', 'proved', ['FileWriter.C35_picture', 'FileWriter.C35_prefix', 'FileWriter.C35_nil_file'], ''),
 ('C36', 'proved', ['Compressed.C36_pixels', 'Compressed.C36_injective', 'Compressed.C36_nil_option'], 'for padding and block size that are not negative; the PNG encoder is external'),
 ('C37', 'partial', ['Files.C37_standard', 'Files.C37_standard_fallback', 'Files.C37_debug', 'Files.C37_open_error', 'Files.C37_compressed_partial', 'Files.C37_counterexample'], 'proved for the standard writer; false for the compressed writer (no O_TRUNC), with the exact condition'),
 ('C38', 'proved', ['Terminal.C38_cells', 'Terminal.C38_rest', 'Terminal.C38_tip', 'Terminal.C38_hold'], ''),
 ('C39', 'proved', ['Standard.C39_attribute'], ''),
 ('C40', 'proved', ['Standard.C40_calls', 'Standard.C40_pixels', 'Standard.C40_transparent'], ''),
 ('C41', 'proved', ['Standard.C41_neighbours', 'Standard.C41_flags'], ''),
 ('C42', 'proved', ['Standard.C42_safe_zone', 'Standard.C42_empty_logo'], 'for logos that are not empty; an empty logo still removes modules'),
 ('C43', 'partial', ['Standard.C43_mask_partial', 'Standard.C43_symmetric', 'Standard.C43_counterexample'], 'false: the code clears the transposed entry; what it does is proved exactly, and the property when the geometry is symmetric'),
 ('C44', 'proved', ['Standard.C44_options', 'Standard.C44_panics'], ''),
 ('C45', 'partial', ['Standard.C45_partial', 'Standard.C45_counterexample'], 'false: the low byte of each channel is used; proved for color.RGBA and exactly the colours whose channels have two equal bytes'),
 ('C46', 'proved', ['Standard.C46_hex', 'Standard.C46_accepts', 'Standard.C46_sloppy'], ''),
 ('C47', 'partial', ['Standard.C47_exact', 'Standard.C47_float64_partial', 'Standard.C47_no_fallback', 'Standard.C47_position', 'Standard.C47_newGradient', 'Standard.C47_counterexample'], 'proved in exact arithmetic; in float64 a channel can be one too small (proved bound and witness)'),
 ('C51', 'partial', ['Cli.C51_borders_syntax', 'Cli.C51_run_partial', 'Cli.C51_block', 'Cli.C51_counterexample'], 'false for block sizes above 255 (taken modulo 256) and 0 (20); proved for 1..255 and for the borders'),
 ('C52', 'partial', ['Wasm.C52_panics_partial', 'Wasm.C52_settings_partial', 'Wasm.C52_defaults', 'Wasm.C52_counterexample', 'Wasm.C52_documented_modes', 'Wasm.C52_content'], 'false: omitting a number, boolean or colour field panics; the exact panic condition is proved, and the settings of complete objects and of calls without options'),
 ('C57', 'proved', ['Cli.C57_format'], ''),
 ('C58', 'proved', ['Wasm.C58_result', 'Wasm.C58_base64'], ''),
 ('C53', 'proved', ['Standard.C53_halftone', 'Standard.C53_inside'], ''),
 ('C54', 'partial', ['Standard.C54_reuse_partial', 'Standard.C54_reuse_transparent', 'Standard.C54_counterexample'], 'false with a transparent background (the stored background colour is overwritten); proved otherwise'),
 ('C55', 'proved', ['Standard.C55_only_foreground'], ''),
 ('C56', 'proved', ['Standard.C56_logo'], ''),
 ('C59', 'partial', ['Standard.C59_centres_partial', 'Standard.C59_counterexample'], 'false for the circle shape in blocks one pixel wide (nothing is drawn); proved for all other cases'),
 ('C60', 'proved', ['Standard.C60_quiet_zone', 'Standard.C60_block'], 'the built-in circle in blocks one pixel wide draws nothing, see C59_counterexample'),
 ('C61', 'proved', ['Standard.C61_rows', 'Standard.C61_columns'], ''),
 ('C62', 'proved', ['Standard.C62_v_stripe', 'Standard.C62_square', 'Standard.C62_circle'], ''),
 ('C63', 'partial', ['Standard.C63_h_stripe_partial', 'Standard.C63_counterexample'], 'false: the ratio is ignored, the height is always 0.9; proved exactly'),
 ('C64', 'partial', ['Imgkit.C64_partial', 'Imgkit.C64_grey', 'Imgkit.C64_halftone', 'Imgkit.C64_counterexample'], 'false for images that do not begin at (0, 0); proved for the others, with the exact condition'),
 ('C65', 'partial', ['Imgkit.C65_save_partial', 'Imgkit.C65_counterexample'], 'false: a refused name truncates the file; the rest is proved'),
 ('C66', 'proved', ['Debug.C66_switch'], 'for calls that do not overlap'),
 ('C67', 'proved', ['Debug.C67_picture'], ''),
 ('C68', 'proved', ['C68_damage', 'C68_few_modules', 'C68_margin', 'C68_limit'], 'the finder, timing and alignment modules may be damaged at will: locating the symbol is not modelled'),
 ('C69', 'proved', ['Standard.C69_logo', 'Standard.C69_counterexample'], 'for images whose bounds begin at the origin (gg displaces others); the exceptions are in the statement, and at version 1, level L, a logo that destroys the symbol is exhibited for every text'),
 ('C70', 'proved', ['Standard.C70_picture'], ''),
 ('C71', 'proved', ['C71_compressed', 'C71_file', 'C71_terminal'], ''),
 ('C72', 'proved', ['Standard.C72_shapes', 'Standard.C72_halftone_centres', 'Standard.C72_halftone', 'Standard.C72_counterexample'], 'halftone: for the rectangle shape'),
 ('C73', 'proved', ['C73_safe', 'C73_isolated', 'C73_wait_free', 'C73_completes', 'C73_counterexample', 'C73_cold'], 'the counterexample is about the same code without the precomputation at start-up'),
 ('C74', 'proved', ['C74_first_save', 'C74_close_error', 'C74_second_save', 'C74_only_first', 'C74_text_appends', 'C74_zero_writer'], 'the bytes the PNG and JPEG encoders write are a parameter; they are assumed to stop at the first failed write and to return its error'),
 ('C75', 'proved', ['Cli.C75_outcome', 'Cli.C75_picture', 'Cli.C75_shapes', 'Cli.C75_terminal', 'Cli.C75_pixels'], 'parsing the command line into flags and encoding the picture as a file are not modelled'),
 ('C76', 'proved', ['Wasm.C76_object', 'Wasm.C76_plain', 'Wasm.C76_pixels'], 'PNG itself is an assumption (SavesPng): a picture that was saved decodes to itself where it is opaque'),
 ('C77', 'proved', ['C77_reference', 'C77_bitmap', 'C77_determined'], 'the Reed-Solomon package is assumed to be the coder of the standard (C50)'),
 ('C78', 'proved', ['C78_mask_choice', 'C78_lowest', 'C78_all', 'demo_choice'], 'the Reed-Solomon package is assumed to be the coder of the standard (C50)'),
 ('C79', 'proved', ['Standard.C79_gradient', 'Standard.C79_gradient_logo'], 'direction of the gradient (cos and sin) and what drawing a not opaque pixel does are left open; positions of stops are float64 numbers; C79_gradient_logo assumes the Reed-Solomon package to be the coder of the standard (C50)'),
 ('C80', 'proved', ['Standard.C80_shapes_logo', 'Standard.C80_centres', 'Standard.C80_lost'], 'colours given by the shapes, in the plane; a gradient recolours them afterwards and is not considered here (C79); the Reed-Solomon package is assumed to be the coder of the standard (C50)'),
 ('C81', 'proved', ['Standard.C81_halftone', 'Standard.C81_halftone_logo', 'Standard.C81_centres'], 'as C80; scaling of the halftone image is a parameter'),
 ('C82', 'proved', ['C82_apart', 'C82_modules', 'C82_margin', 'C82_unambiguous'], 'the Reed-Solomon package is assumed to be the coder of the standard (C50)'),
 ('C83', 'proved', ['Standard.C83_shapes', 'Standard.C83_shapes_logo'], 'assumed of the rasterizer: full coverage of a pixel a quarter of a pixel inside a figure, none outside; mixing as freetype does it; halftone pictures: C84'),
 ('C84', 'proved', ['Standard.C84_halftone', 'Standard.C84_halftone_logo'], 'coverage of a pixel by a figure is a parameter, exact up to a quarter of a pixel; the mixing is freetype\'s formula'),
 ('C85', 'proved', ['Standard.C85_custom', 'Standard.C85_custom_logo', 'Standard.C85_example', 'Standard.smallerCircle_readable', 'Standard.rectangle_readable'], 'shapes that panic are not included; what drawing a not opaque gradient pixel does and the direction of the gradient are left open; C85_custom_logo assumes the Reed-Solomon package to be the coder of the standard (C50); C85_example assumes the rasterizer of C83'),
 ('C86', 'proved', ['Examples.C86_programs', 'Examples.C86_minimumVersion', 'Examples.C86_qrWidth', 'Examples.C86_logo', 'Examples.C86_customShape', 'Examples.C86_writers'], 'assumptions as in C70, C69, C83, C84, C85 and C71; example/with-logosize-multiplier is in C93; not covered: the v1 library in example/migrating-from-v1'),
 ('C87', 'proved', ['Heap.C87_row_snapshot', 'Heap.C87_row_write', 'Heap.C87_col_window'], ''),
 ('C88', 'proved', ['Issues.C88_issue69', 'Issues.C88_issue106'], 'assumptions as in C01 and C71; the second Close of issue 106 and the file are not part of the statement (see C37, C74)'),
 ('C89', 'partial', ['Standard.C89_standard_partial', 'Standard.C89_room', 'Standard.C89_default_counterexample', 'Cli.C89_cli_partial', 'Cli.C89_cli_counterexample', 'Compressed.C89_compressed_partial', 'Terminal.C89_terminal_counterexample', 'FileWriter.C89_file_counterexample'], 'false with the default settings of every writer: counterexamples for every symbol; proved: the exact condition. For shapes other than rectangles see C60_quiet_zone'),
 ('C90', 'proved', ['C90_capacity'], 'assumptions as in C01'),
 ('C91', 'proved', ['C91_monotone'], 'assumptions as in C01'),
 ('C92', 'partial', ['C92_automatic_partial', 'C92_counterexample'], 'false of texts of an alphanumeric part followed by a kanji part (counterexample, same cause as C01); proved for all other texts'),
 ('C93', 'proved', ['Standard.C93_logo', 'Standard.C93_fifth', 'Examples.C93_program', 'Standard.C93_counterexample'], 'the condition on the codewords is part of the statement; C93_counterexample shows what happens without it; assumptions as in C69'),
 ('C94', 'proved', ['Standard.C94_draw', 'Standard.C94_too_large', 'Standard.C94_wraps', 'Compressed.C94_compressed', 'Compressed.C94_compressed_too_large'], 'the limits are part of the statement; what happens beyond them is C94_too_large and C94_wraps. Platforms with 64-bit int; running out of memory below the limit of the runtime is not modelled'),
 ('C95', 'proved', ['Standard.C95_total', 'Standard.C95_finite', 'Standard.C95_angle', 'Standard.C95_angle_special', 'Standard.C95_read', 'Standard.C95_positions', 'Standard.C95_no_zero_division'], 'assumed of math.Cos and math.Sin: NaN for what is not finite (as documented), otherwise two numbers in [-1, 1] not both small; of uint8(f) nothing for numbers out of range. Signed zeros are not distinguished: C95_no_zero_division shows that they make no difference'),
 ('C96', 'partial', ['Standard.C96_factors_partial', 'Standard.C96_counterexample', 'Standard.C96_blockScale'], 'false for NaN (counterexample proved); proved for every other number'),
 ('C97', 'partial', ['Alias.C97_untouched_partial', 'Alias.C97_given', 'Alias.C97_shared', 'Alias.C97_newGradient', 'Alias.C97_newGradient_list', 'Alias.C97_counterexample'], 'false: gradients, stops and options are kept by reference (counterexamples proved); what does not touch them makes no difference, for every program'),
 ('C98', 'proved', ['Standard.C98_colour', 'Standard.C98_position', 'Standard.C98_read', 'Standard.C98_separate', 'Standard.C98_differ'], 'fusion of a product with the sum it is part of, which is what the Go compiler does'),
 ('C99', 'proved', ['Standard.C99_draw', 'Standard.C99_limits', 'Standard.C99_largest', 'Standard.C99_browser', 'Standard.C99_same', 'Compressed.C99_compressed', 'Compressed.C99_compressed_limits', 'Compressed.C99_compressed_same'], 'the limits are part of the statement; the largest slices are those of the Go runtime'),
 ('C100', 'proved', ['Painters.C100_alone', 'Painters.C100_shared', 'Painters.C100_race', 'Painters.C100_finishes', 'Painters.C100_counterexample'], 'the exception is part of the statement; the counterexample shows it occurs'),
 ('C101', 'proved', ['C101_three_finders', 'C101_one_way_up', 'C101_any_way', 'C101_same_view'], 'reading the text has the exception of C01 as a hypothesis'),
 ('C102', 'proved', ['C102_photo', 'C102_compressed', 'Standard.C102_standard', 'Cli.C102_cli'], 'reading the text has the exception of C01 as a hypothesis'),
 ('C103', 'proved', ['Compressed.C103_panics', 'Compressed.C103_blank', 'Compressed.C103_negative', 'Standard.C103_cut', 'Standard.C103_nothing_left'], 'pictures of negative size of the image writer are not modelled'),
 ('C104', 'proved', ['C104_negative', 'C104_compressed', 'Standard.C104_standard'], 'reading the text has the exception of C01 as a hypothesis'),
 ('C105', 'proved', ['Standard.C105_exact', 'Standard.C105_close', 'Standard.C105_close_any', 'Standard.C105_factors', 'Standard.C105_text', 'Standard.C105_text_logo'], 'finite numbers below 2^30 (NaN, infinities: C96); the contexts of blocks are exact integers, as draw computes them; halftone sub-blocks: C106; the rasterizer as in C83'),
 ('C106', 'proved', ['Standard.C106_calls', 'Standard.C106_text', 'Standard.C106_text_logo'], 'rounding to nearest as in Model/Float64; the coverage computed by gg from the coordinates, scaling of the halftone image and blending of the logo stay parameters, as in C83 and C84; the core (matrix, penalty) computes with int values far below 2^31'),
 ('C107', 'partial', ['C107_grey', 'Standard.C107_standard', 'Standard.C107_brightness', 'Standard.C107_transparent', 'Standard.C107_again_counterexample', 'Compressed.C107_compressed', 'Cli.C107_cli'], 'that WithBgTransparent makes no difference for JPEG holds for the first picture of a writer and is false for later ones (counterexample proved, cf. C54); everything else is proved; of image/jpeg only the conversion to brightness is modelled, its rounding is the change allowed'),
 ('C108', 'proved', ['Standard.C108_shapes', 'Standard.C108_shapes_logo', 'Standard.C108_halftone', 'Standard.C108_halftone_logo', 'Standard.C108_machine', 'Standard.C108_machine_logo', 'Standard.C108_gradient', 'Standard.C108_gradient_machine', 'Standard.C108_gradient_machine_logo', 'Cli.C108_cli'], 'of image/jpeg only the conversion to brightness is modelled, its rounding is the change allowed; coverage, scaling and blending are parameters as in C83 and C84; gradients on backgrounds that are not transparent'),
 ('C109', 'proved', ['C109_damage', 'C109_few_modules', 'C109_logo', 'C109_machine_logo'], 'the exception of C01 is a hypothesis, as are the limits of C68, C69 and C106'),
 ('C110', 'proved', ['C110_photo', 'C110_logo', 'Examples.C110_example'], 'the exception of C01 is a hypothesis, as are the limits of C69; shapes, halftone images and gradients with a logo need a scanner that knows the blocks: C109'),
]
C.sort(key=lambda c: int(c[0][1:]))
out = {'claims': [{'property': p, 'status': s, 'theorems': ['QR.' + t for t in th], 'note': n} for p, s, th, n in C]}
json.dump(out, open(os.path.join(os.path.dirname(__file__), '..', 'MANIFEST.json'), 'w'), indent=1)
