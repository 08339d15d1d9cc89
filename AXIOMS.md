# Axioms

What `#print axioms` reports for every theorem in the manifest.

| property | theorem | axioms |
|---|---|---|
| C01 | `QR.C01_roundtrip_partial` | propext, Classical.choice, Quot.sound |
| C01 | `QR.C01_exact` | propext, Classical.choice, Quot.sound |
| C01 | `QR.C01_counterexample` | propext, Classical.choice, Quot.sound |
| C01 | `QR.C01_ascii` | propext, Classical.choice, Quot.sound |
| C02 | `QR.C02_auto_mode_partial` | propext, Classical.choice, Quot.sound |
| C02 | `QR.C02_counterexample` | propext, Classical.choice, Quot.sound |
| C03 | `QR.C03_injective_partial` | propext, Classical.choice, Quot.sound |
| C03 | `QR.C03_collisions` | propext, Classical.choice, Quot.sound |
| C03 | `QR.C03_counterexample` | propext, Classical.choice, Quot.sound |
| C04 | `QR.C04_smallest_version` | propext, Classical.choice, Quot.sound |
| C04 | `QR.C04_error_iff` | propext, Classical.choice, Quot.sound |
| C04 | `QR.C04_ascii` | propext, Classical.choice, Quot.sound |
| C05 | `QR.C05_never_overfull` | propext, Classical.choice, Quot.sound |
| C05 | `QR.C05_stream_fits` | propext, Classical.choice, Quot.sound |
| C06 | `QR.C06_honoured` | propext, Classical.choice, Quot.sound |
| C06 | `QR.C06_error_iff_partial` | propext, Classical.choice, Quot.sound |
| C06 | `QR.C06_counterexample` | propext, Classical.choice, Quot.sound |
| C07 | `QR.C07_newWith_no_panic` | propext, Classical.choice, Quot.sound |
| C07 | `QR.C07_new_no_panic` | propext, Classical.choice, Quot.sound |
| C08 | `QR.C08_no_panic_partial` | propext, Classical.choice, Quot.sound |
| C08 | `QR.C08_counterexample` | propext, Classical.choice, Quot.sound |
| C08 | `QR.C08_defined_type_panics` | propext, Classical.choice, Quot.sound |
| C08 | `QR.C08_unsupported_mode` | propext, Classical.choice, Quot.sound |
| C09 | `QR.C09_rejects_iff` | propext, Classical.choice, Quot.sound |
| C09 | `QR.C09_fails_iff` | propext, Classical.choice, Quot.sound |
| C09 | `QR.C09_byte_accepts` | propext, Classical.choice, Quot.sound |
| C10 | `QR.C10_options` | propext, Classical.choice, Quot.sound |
| C10 | `QR.C10_order_irrelevant` | propext, Classical.choice, Quot.sound |
| C10 | `QR.C10_commute` | propext, Classical.choice, Quot.sound |
| C10 | `QR.C10_invalid_ignored` | propext, Classical.choice, Quot.sound |
| C11 | `QR.C11_dimension` | propext, Classical.choice, Quot.sound |
| C12 | `QR.C12_function_patterns` | propext, Classical.choice, Quot.sound |
| C13 | `QR.C13_format_information` | propext, Classical.choice, Quot.sound |
| C14 | `QR.C14_version_information` | propext, Classical.choice, Quot.sound |
| C15 | `QR.C15_every_module_determined` | propext, Classical.choice, Quot.sound |
| C15 | `QR.C15_symbol_unique` | propext, Classical.choice, Quot.sound |
| C16 | `QR.C16_zigzag` | propext, Classical.choice, Quot.sound |
| C17 | `QR.C17_mask` | propext, Classical.choice, Quot.sound |
| C18 | `QR.C18_lowest_penalty` | propext, Classical.choice, Quot.sound |
| C18 | `QR.C78_lowest` | propext, Classical.choice, Quot.sound |
| C19 | `QR.C19_deterministic_partial` | propext, Classical.choice, Quot.sound |
| C19 | `QR.C19_exact` | propext, Classical.choice, Quot.sound |
| C19 | `QR.C19_up_to_mask` | propext, Classical.choice, Quot.sound |
| C19 | `QR.C19_counterexample` | propext, Classical.choice, Quot.sound |
| C20 | `QR.Conc.C20_terminates` | propext, Classical.choice, Quot.sound |
| C20 | `QR.Conc.C20_never_blocked` | propext, Classical.choice, Quot.sound |
| C20 | `QR.Conc.C20_wait` | propext, Classical.choice, Quot.sound |
| C20 | `QR.Conc.C20_channel` | propext, Classical.choice, Quot.sound |
| C20 | `QR.Conc.C20_result` | propext, Classical.choice, Quot.sound |
| C20 | `QR.Conc.C20_all_orders` | propext, Classical.choice, Quot.sound |
| C20 | `QR.Conc.C20_no_crosstalk` | propext, Classical.choice, Quot.sound |
| C20 | `QR.Conc.C20_own_memory` | propext, Classical.choice, Quot.sound |
| C21 | `QR.C21_blocks` | propext, Classical.choice, Quot.sound |
| C22 | `QR.C22_layout` | propext, Classical.choice, Quot.sound |
| C23 | `QR.C23_payload_roundtrip` | propext, Classical.choice, Quot.sound |
| C23 | `QR.C23_payload_injective` | propext, Classical.choice, Quot.sound |
| C24 | `QR.C24_entries` | propext, Classical.choice, Quot.sound |
| C24 | `QR.C24_blocks` | propext, Classical.choice, Quot.sound |
| C24 | `QR.C24_capacities` | propext, Quot.sound |
| C24 | `QR.C24_alignment` | propext, Classical.choice, Quot.sound |
| C24 | `QR.C24_alignment_1` | propext, Quot.sound |
| C24 | `QR.C24_format_word` | propext, Quot.sound |
| C24 | `QR.C24_version_word` | propext, Quot.sound |
| C25 | `QR.C25_format_distance` | propext, Quot.sound |
| C25 | `QR.C25_version_distance` | propext, Quot.sound |
| C25 | `QR.C25_format_correctable` | propext, Classical.choice, Quot.sound |
| C25 | `QR.C25_version_correctable` | propext, Classical.choice, Quot.sound |
| C26 | `QR.C26_rule1` | propext, Classical.choice, Quot.sound |
| C26 | `QR.C26_runCost` | propext, Quot.sound |
| C27 | `QR.C27_rule2_partial` | propext, Classical.choice, Quot.sound |
| C27 | `QR.C27_counterexample` | propext, Classical.choice, Quot.sound |
| C28 | `QR.C28_rule3_partial` | propext, Classical.choice, Quot.sound |
| C28 | `QR.C28_counterexample` | propext, Classical.choice, Quot.sound |
| C29 | `QR.C29_counts` | propext, Classical.choice, Quot.sound |
| C30 | `QR.C30_rule4_partial` | propext, Classical.choice, Quot.sound |
| C30 | `QR.C30_below_sentinel` | propext, Classical.choice, Quot.sound |
| C30 | `QR.C30_counterexample` | propext, Classical.choice, Quot.sound |
| C31 | `QR.C31_wellformed` | propext, Classical.choice, Quot.sound |
| C31 | `QR.C31_iterate` | propext, Classical.choice, Quot.sound |
| C31 | `QR.C31_direction` | propext |
| C31 | `QR.C31_bitmap` | propext, Classical.choice, Quot.sound |
| C31 | `QR.C31_col` | propext, Classical.choice, Quot.sound |
| C31 | `QR.C31_row` | propext, Classical.choice, Quot.sound |
| C31 | `QR.C31_access` | propext, Classical.choice, Quot.sound |
| C31 | `QR.C31_copy` | propext, Quot.sound |
| C31 | `QR.C31_bytes` | propext, Quot.sound |
| C31 | `QR.C31_string` | propext |
| C32 | `QR.Heap.C32_frame` | propext, Classical.choice, Quot.sound |
| C32 | `QR.Heap.C32_copy_equal` | propext, Classical.choice, Quot.sound |
| C32 | `QR.Heap.C32_copy_independent` | propext, Classical.choice, Quot.sound |
| C32 | `QR.Heap.C32_refines` | propext, Classical.choice, Quot.sound |
| C33 | `QR.Heap.C33_writer_partial` | propext, Classical.choice, Quot.sound |
| C33 | `QR.Heap.C33_counterexample` | propext, Classical.choice, Quot.sound |
| C34 | `QR.C34_calls` | propext, Quot.sound |
| C34 | `QR.C34_result` | propext, Quot.sound |
| C34 | `QR.C34_panics` | propext |
| C34 | `QR.C34_nil_writer` | none |
| C34 | `QR.C34_made_by_new` | propext, Classical.choice, Quot.sound |
| C34 | `QR.C34_zero_code` | propext, Quot.sound |
| C35 | `QR.FileWriter.C35_picture` | propext, Classical.choice, Quot.sound |
| C35 | `QR.FileWriter.C35_prefix` | propext, Classical.choice, Quot.sound |
| C35 | `QR.FileWriter.C35_nil_file` | propext |
| C36 | `QR.Compressed.C36_pixels` | propext, Classical.choice, Quot.sound |
| C36 | `QR.Compressed.C36_injective` | propext, Classical.choice, Quot.sound |
| C36 | `QR.Compressed.C36_nil_option` | propext |
| C37 | `QR.Files.C37_standard` | propext, Quot.sound |
| C37 | `QR.Files.C37_standard_fallback` | propext, Quot.sound |
| C37 | `QR.Files.C37_debug` | propext, Quot.sound |
| C37 | `QR.Files.C37_open_error` | propext |
| C37 | `QR.Files.C37_compressed_partial` | propext, Quot.sound |
| C37 | `QR.Files.C37_counterexample` | propext, Quot.sound |
| C38 | `QR.Terminal.C38_cells` | propext, Classical.choice, Quot.sound |
| C38 | `QR.Terminal.C38_rest` | propext, Classical.choice, Quot.sound |
| C38 | `QR.Terminal.C38_tip` | propext, Classical.choice, Quot.sound |
| C38 | `QR.Terminal.C38_hold` | propext, Quot.sound |
| C39 | `QR.Standard.C39_attribute` | propext, Classical.choice, Quot.sound |
| C40 | `QR.Standard.C40_calls` | propext, Classical.choice, Quot.sound |
| C40 | `QR.Standard.C40_pixels` | propext, Classical.choice, Quot.sound |
| C40 | `QR.Standard.C40_transparent` | propext, Classical.choice, Quot.sound |
| C41 | `QR.Standard.C41_neighbours` | propext, Classical.choice, Quot.sound |
| C41 | `QR.Standard.C41_flags` | propext |
| C42 | `QR.Standard.C42_safe_zone` | propext, Classical.choice, Quot.sound |
| C42 | `QR.Standard.C42_empty_logo` | propext, Classical.choice, Quot.sound |
| C43 | `QR.Standard.C43_mask_partial` | propext, Classical.choice, Quot.sound |
| C43 | `QR.Standard.C43_symmetric` | none |
| C43 | `QR.Standard.C43_counterexample` | propext, Classical.choice, Quot.sound |
| C44 | `QR.Standard.C44_options` | propext, Quot.sound |
| C44 | `QR.Standard.C44_panics` | propext, Quot.sound |
| C45 | `QR.Standard.C45_partial` | propext, Quot.sound |
| C45 | `QR.Standard.C45_counterexample` | propext |
| C46 | `QR.Standard.C46_hex` | propext, Classical.choice, Quot.sound |
| C46 | `QR.Standard.C46_accepts` | propext, Classical.choice, Quot.sound |
| C46 | `QR.Standard.C46_sloppy` | propext |
| C47 | `QR.Standard.C47_exact` | propext, Classical.choice, Quot.sound |
| C47 | `QR.Standard.C47_float64_partial` | propext, Classical.choice, Quot.sound |
| C47 | `QR.Standard.C47_no_fallback` | propext, Classical.choice, Quot.sound |
| C47 | `QR.Standard.C47_position` | propext, Classical.choice, Quot.sound |
| C47 | `QR.Standard.C47_newGradient` | propext, Classical.choice, Quot.sound |
| C47 | `QR.Standard.C47_counterexample` | propext, Classical.choice, Quot.sound |
| C48 | `QR.C48_search_partial` | propext, Classical.choice, Quot.sound |
| C48 | `QR.C48_found` | propext, Classical.choice, Quot.sound |
| C48 | `QR.C48_above` | propext, Classical.choice, Quot.sound |
| C48 | `QR.C48_counterexample` | propext, Classical.choice, Quot.sound |
| C49 | `QR.C49_never_written` | propext, Classical.choice, Quot.sound |
| C49 | `QR.C49_history_irrelevant` | propext, Classical.choice, Quot.sound |
| C49 | `QR.C49_reachable` | none |
| C49 | `QR.C49_cold` | propext, Classical.choice, Quot.sound |
| C50 | `QR.C50_codewords` | propext, Classical.choice, Quot.sound |
| C50 | `QR.C50_distance` | propext, Classical.choice, Quot.sound |
| C50 | `QR.C50_correctable` | propext, Classical.choice, Quot.sound |
| C50 | `QR.C50_nontrivial` | propext, Quot.sound |
| C51 | `QR.Cli.C51_borders_syntax` | propext, Quot.sound |
| C51 | `QR.Cli.C51_run_partial` | propext, Classical.choice, Quot.sound |
| C51 | `QR.Cli.C51_block` | propext, Classical.choice, Quot.sound |
| C51 | `QR.Cli.C51_counterexample` | propext, Classical.choice, Quot.sound |
| C52 | `QR.Wasm.C52_panics_partial` | propext, Classical.choice, Quot.sound |
| C52 | `QR.Wasm.C52_settings_partial` | propext, Classical.choice, Quot.sound |
| C52 | `QR.Wasm.C52_defaults` | propext, Classical.choice, Quot.sound |
| C52 | `QR.Wasm.C52_counterexample` | propext, Classical.choice, Quot.sound |
| C52 | `QR.Wasm.C52_documented_modes` | propext, Quot.sound |
| C52 | `QR.Wasm.C52_content` | propext, Classical.choice, Quot.sound |
| C53 | `QR.Standard.C53_halftone` | propext, Classical.choice, Quot.sound |
| C53 | `QR.Standard.C53_inside` | propext, Classical.choice, Quot.sound |
| C54 | `QR.Standard.C54_reuse_partial` | propext, Classical.choice, Quot.sound |
| C54 | `QR.Standard.C54_reuse_transparent` | propext, Classical.choice, Quot.sound |
| C54 | `QR.Standard.C54_counterexample` | propext, Classical.choice, Quot.sound |
| C55 | `QR.Standard.C55_only_foreground` | propext, Classical.choice, Quot.sound |
| C56 | `QR.Standard.C56_logo` | propext, Classical.choice, Quot.sound |
| C57 | `QR.Cli.C57_format` | propext, Classical.choice, Quot.sound |
| C58 | `QR.Wasm.C58_result` | propext, Classical.choice, Quot.sound |
| C58 | `QR.Wasm.C58_base64` | propext, Classical.choice, Quot.sound |
| C59 | `QR.Standard.C59_centres_partial` | propext, Classical.choice, Quot.sound |
| C59 | `QR.Standard.C59_counterexample` | propext, Classical.choice, Quot.sound |
| C60 | `QR.Standard.C60_quiet_zone` | propext, Classical.choice, Quot.sound |
| C60 | `QR.Standard.C60_block` | propext, Classical.choice, Quot.sound |
| C61 | `QR.Standard.C61_rows` | propext, Classical.choice, Quot.sound |
| C61 | `QR.Standard.C61_columns` | propext, Classical.choice, Quot.sound |
| C62 | `QR.Standard.C62_v_stripe` | propext, Classical.choice, Quot.sound |
| C62 | `QR.Standard.C62_square` | propext, Classical.choice, Quot.sound |
| C62 | `QR.Standard.C62_circle` | propext, Classical.choice, Quot.sound |
| C63 | `QR.Standard.C63_h_stripe_partial` | propext, Classical.choice, Quot.sound |
| C63 | `QR.Standard.C63_counterexample` | propext, Classical.choice, Quot.sound |
| C64 | `QR.Imgkit.C64_partial` | propext, Classical.choice, Quot.sound |
| C64 | `QR.Imgkit.C64_grey` | propext |
| C64 | `QR.Imgkit.C64_halftone` | propext, Classical.choice, Quot.sound |
| C64 | `QR.Imgkit.C64_counterexample` | none |
| C65 | `QR.Imgkit.C65_save_partial` | propext, Quot.sound |
| C65 | `QR.Imgkit.C65_counterexample` | propext |
| C66 | `QR.Debug.C66_switch` | propext |
| C67 | `QR.Debug.C67_picture` | propext, Classical.choice, Quot.sound |
| C68 | `QR.C68_damage` | propext, Classical.choice, Quot.sound |
| C68 | `QR.C68_few_modules` | propext, Classical.choice, Quot.sound |
| C68 | `QR.C68_margin` | propext, Quot.sound |
| C68 | `QR.C68_limit` | propext, Classical.choice, Quot.sound |
| C69 | `QR.Standard.C69_logo` | propext, Classical.choice, Quot.sound |
| C69 | `QR.Standard.C69_counterexample` | propext, Classical.choice, Quot.sound |
| C70 | `QR.Standard.C70_picture` | propext, Classical.choice, Quot.sound |
| C71 | `QR.C71_compressed` | propext, Classical.choice, Quot.sound |
| C71 | `QR.C71_file` | propext, Classical.choice, Quot.sound |
| C71 | `QR.C71_terminal` | propext, Classical.choice, Quot.sound |
| C72 | `QR.Standard.C72_shapes` | propext, Classical.choice, Quot.sound |
| C72 | `QR.Standard.C72_halftone_centres` | propext, Classical.choice, Quot.sound |
| C72 | `QR.Standard.C72_halftone` | propext, Classical.choice, Quot.sound |
| C72 | `QR.Standard.C72_counterexample` | propext, Classical.choice, Quot.sound |
| C73 | `QR.C73_safe` | propext, Classical.choice, Quot.sound |
| C73 | `QR.C73_isolated` | propext, Classical.choice, Quot.sound |
| C73 | `QR.C73_wait_free` | propext, Classical.choice, Quot.sound |
| C73 | `QR.C73_completes` | propext, Classical.choice, Quot.sound |
| C73 | `QR.C73_counterexample` | propext, Classical.choice, Quot.sound |
| C73 | `QR.C73_cold` | propext, Classical.choice, Quot.sound |
| C74 | `QR.C74_first_save` | propext, Classical.choice, Quot.sound |
| C74 | `QR.C74_close_error` | propext, Classical.choice, Quot.sound |
| C74 | `QR.C74_second_save` | propext |
| C74 | `QR.C74_only_first` | propext, Classical.choice, Quot.sound |
| C74 | `QR.C74_text_appends` | propext, Classical.choice, Quot.sound |
| C74 | `QR.C74_zero_writer` | none |
| C75 | `QR.Cli.C75_outcome` | propext, Classical.choice, Quot.sound |
| C75 | `QR.Cli.C75_picture` | propext, Classical.choice, Quot.sound |
| C75 | `QR.Cli.C75_shapes` | propext, Classical.choice, Quot.sound |
| C75 | `QR.Cli.C75_terminal` | propext, Classical.choice, Quot.sound |
| C75 | `QR.Cli.C75_pixels` | propext, Classical.choice, Quot.sound |
| C76 | `QR.Wasm.C76_object` | propext, Classical.choice, Quot.sound |
| C76 | `QR.Wasm.C76_plain` | propext, Classical.choice, Quot.sound |
| C76 | `QR.Wasm.C76_pixels` | propext, Classical.choice, Quot.sound |
| C77 | `QR.C77_reference` | propext, Classical.choice, Quot.sound |
| C77 | `QR.C77_bitmap` | propext, Classical.choice, Quot.sound |
| C77 | `QR.C77_determined` | propext, Classical.choice, Quot.sound |
| C78 | `QR.C78_mask_choice` | propext, Classical.choice, Quot.sound |
| C78 | `QR.C78_lowest` | propext, Classical.choice, Quot.sound |
| C78 | `QR.C78_all` | propext, Classical.choice, Quot.sound |
| C78 | `QR.demo_choice` | propext, Classical.choice, Quot.sound |
| C79 | `QR.Standard.C79_gradient` | propext, Classical.choice, Quot.sound |
| C79 | `QR.Standard.C79_gradient_logo` | propext, Classical.choice, Quot.sound |
| C80 | `QR.Standard.C80_shapes_logo` | propext, Classical.choice, Quot.sound |
| C80 | `QR.Standard.C80_centres` | propext, Classical.choice, Quot.sound |
| C80 | `QR.Standard.C80_lost` | propext, Classical.choice, Quot.sound |
| C81 | `QR.Standard.C81_halftone` | propext, Classical.choice, Quot.sound |
| C81 | `QR.Standard.C81_halftone_logo` | propext, Classical.choice, Quot.sound |
| C81 | `QR.Standard.C81_centres` | propext, Classical.choice, Quot.sound |
| C82 | `QR.C82_apart` | propext, Classical.choice, Quot.sound |
| C82 | `QR.C82_modules` | propext, Classical.choice, Quot.sound |
| C82 | `QR.C82_margin` | propext, Quot.sound |
| C82 | `QR.C82_unambiguous` | propext, Classical.choice, Quot.sound |
| C83 | `QR.Standard.C83_shapes` | propext, Classical.choice, Quot.sound |
| C83 | `QR.Standard.C83_shapes_logo` | propext, Classical.choice, Quot.sound |
| C84 | `QR.Standard.C84_halftone` | propext, Classical.choice, Quot.sound |
| C84 | `QR.Standard.C84_halftone_logo` | propext, Classical.choice, Quot.sound |
| C85 | `QR.Standard.C85_custom` | propext, Classical.choice, Quot.sound |
| C85 | `QR.Standard.C85_custom_logo` | propext, Classical.choice, Quot.sound |
| C85 | `QR.Standard.C85_example` | propext, Classical.choice, Quot.sound |
| C85 | `QR.Standard.smallerCircle_readable` | propext, Classical.choice, Quot.sound |
| C85 | `QR.Standard.rectangle_readable` | propext, Classical.choice, Quot.sound |
| C86 | `QR.Examples.C86_programs` | propext, Classical.choice, Quot.sound |
| C86 | `QR.Examples.C86_minimumVersion` | propext, Classical.choice, Quot.sound |
| C86 | `QR.Examples.C86_qrWidth` | propext, Classical.choice, Quot.sound |
| C86 | `QR.Examples.C86_logo` | propext, Classical.choice, Quot.sound |
| C86 | `QR.Examples.C86_customShape` | propext, Classical.choice, Quot.sound |
| C86 | `QR.Examples.C86_writers` | propext, Classical.choice, Quot.sound |
| C87 | `QR.Heap.C87_row_snapshot` | propext, Classical.choice, Quot.sound |
| C87 | `QR.Heap.C87_row_write` | propext, Classical.choice, Quot.sound |
| C87 | `QR.Heap.C87_col_window` | propext, Classical.choice, Quot.sound |
| C88 | `QR.Issues.C88_issue69` | propext, Classical.choice, Quot.sound |
| C88 | `QR.Issues.C88_issue106` | propext, Classical.choice, Quot.sound |
| C89 | `QR.Standard.C89_standard_partial` | propext, Classical.choice, Quot.sound |
| C89 | `QR.Standard.C89_room` | propext, Classical.choice, Quot.sound |
| C89 | `QR.Standard.C89_default_counterexample` | propext, Classical.choice, Quot.sound |
| C89 | `QR.Cli.C89_cli_partial` | propext, Classical.choice, Quot.sound |
| C89 | `QR.Cli.C89_cli_counterexample` | propext, Classical.choice, Quot.sound |
| C89 | `QR.Compressed.C89_compressed_partial` | propext, Classical.choice, Quot.sound |
| C89 | `QR.Terminal.C89_terminal_counterexample` | propext, Classical.choice, Quot.sound |
| C89 | `QR.FileWriter.C89_file_counterexample` | propext, Classical.choice, Quot.sound |
| C90 | `QR.C90_capacity` | propext, Classical.choice, Quot.sound |
| C91 | `QR.C91_monotone` | propext, Classical.choice, Quot.sound |
| C92 | `QR.C92_automatic_partial` | propext, Classical.choice, Quot.sound |
| C92 | `QR.C92_counterexample` | propext, Classical.choice, Quot.sound |
| C93 | `QR.Standard.C93_logo` | propext, Classical.choice, Quot.sound |
| C93 | `QR.Standard.C93_fifth` | propext, Classical.choice, Quot.sound |
| C93 | `QR.Examples.C93_program` | propext, Classical.choice, Quot.sound |
| C93 | `QR.Standard.C93_counterexample` | propext, Classical.choice, Quot.sound |
| C94 | `QR.Standard.C94_draw` | propext, Classical.choice, Quot.sound |
| C94 | `QR.Standard.C94_too_large` | propext, Classical.choice, Quot.sound |
| C94 | `QR.Standard.C94_wraps` | propext, Classical.choice, Quot.sound |
| C94 | `QR.Compressed.C94_compressed` | propext, Classical.choice, Quot.sound |
| C94 | `QR.Compressed.C94_compressed_too_large` | propext, Classical.choice, Quot.sound |
| C95 | `QR.Standard.C95_total` | propext, Classical.choice, Quot.sound |
| C95 | `QR.Standard.C95_finite` | propext, Classical.choice, Quot.sound |
| C95 | `QR.Standard.C95_angle` | propext, Classical.choice, Quot.sound |
| C95 | `QR.Standard.C95_angle_special` | propext, Classical.choice, Quot.sound |
| C95 | `QR.Standard.C95_read` | propext, Classical.choice, Quot.sound |
| C95 | `QR.Standard.C95_positions` | propext, Classical.choice, Quot.sound |
| C95 | `QR.Standard.C95_no_zero_division` | propext, Classical.choice, Quot.sound |
| C96 | `QR.Standard.C96_factors_partial` | propext, Classical.choice, Quot.sound |
| C96 | `QR.Standard.C96_counterexample` | propext, Classical.choice, Quot.sound |
| C96 | `QR.Standard.C96_blockScale` | propext, Classical.choice, Quot.sound |
| C97 | `QR.Alias.C97_untouched_partial` | propext, Classical.choice, Quot.sound |
| C97 | `QR.Alias.C97_given` | propext, Quot.sound |
| C97 | `QR.Alias.C97_shared` | propext, Classical.choice, Quot.sound |
| C97 | `QR.Alias.C97_newGradient` | propext, Classical.choice, Quot.sound |
| C97 | `QR.Alias.C97_newGradient_list` | propext, Classical.choice, Quot.sound |
| C97 | `QR.Alias.C97_counterexample` | propext, Classical.choice, Quot.sound |
| C98 | `QR.Standard.C98_colour` | propext, Classical.choice, Quot.sound |
| C98 | `QR.Standard.C98_position` | propext, Classical.choice, Quot.sound |
| C98 | `QR.Standard.C98_read` | propext, Classical.choice, Quot.sound |
| C98 | `QR.Standard.C98_separate` | propext, Classical.choice, Quot.sound |
| C98 | `QR.Standard.C98_differ` | propext, Classical.choice, Quot.sound |
| C99 | `QR.Standard.C99_draw` | propext, Classical.choice, Quot.sound |
| C99 | `QR.Standard.C99_limits` | propext, Classical.choice, Quot.sound |
| C99 | `QR.Standard.C99_largest` | propext, Classical.choice, Quot.sound |
| C99 | `QR.Standard.C99_browser` | propext, Classical.choice, Quot.sound |
| C99 | `QR.Standard.C99_same` | propext, Classical.choice, Quot.sound |
| C99 | `QR.Compressed.C99_compressed` | propext, Classical.choice, Quot.sound |
| C99 | `QR.Compressed.C99_compressed_limits` | propext, Classical.choice, Quot.sound |
| C99 | `QR.Compressed.C99_compressed_same` | propext |
| C100 | `QR.Painters.C100_alone` | propext, Classical.choice, Quot.sound |
| C100 | `QR.Painters.C100_shared` | propext, Classical.choice, Quot.sound |
| C100 | `QR.Painters.C100_race` | propext, Classical.choice, Quot.sound |
| C100 | `QR.Painters.C100_finishes` | propext, Classical.choice, Quot.sound |
| C100 | `QR.Painters.C100_counterexample` | propext, Classical.choice, Quot.sound |
| C101 | `QR.C101_three_finders` | propext, Classical.choice, Quot.sound |
| C101 | `QR.C101_one_way_up` | propext, Classical.choice, Quot.sound |
| C101 | `QR.C101_any_way` | propext, Classical.choice, Quot.sound |
| C101 | `QR.C101_same_view` | propext, Classical.choice, Quot.sound |
| C102 | `QR.C102_photo` | propext, Classical.choice, Quot.sound |
| C102 | `QR.C102_compressed` | propext, Classical.choice, Quot.sound |
| C102 | `QR.Standard.C102_standard` | propext, Classical.choice, Quot.sound |
| C102 | `QR.Cli.C102_cli` | propext, Classical.choice, Quot.sound |
| C103 | `QR.Compressed.C103_panics` | propext, Classical.choice, Quot.sound |
| C103 | `QR.Compressed.C103_blank` | propext, Quot.sound |
| C103 | `QR.Compressed.C103_negative` | propext, Classical.choice, Quot.sound |
| C103 | `QR.Standard.C103_cut` | propext, Classical.choice, Quot.sound |
| C103 | `QR.Standard.C103_nothing_left` | propext, Classical.choice, Quot.sound |
| C104 | `QR.C104_negative` | propext, Classical.choice, Quot.sound |
| C104 | `QR.C104_compressed` | propext, Classical.choice, Quot.sound |
| C104 | `QR.Standard.C104_standard` | propext, Classical.choice, Quot.sound |
| C105 | `QR.Standard.C105_exact` | propext, Classical.choice, Quot.sound |
| C105 | `QR.Standard.C105_close` | propext, Classical.choice, Quot.sound |
| C105 | `QR.Standard.C105_close_any` | propext, Classical.choice, Quot.sound |
| C105 | `QR.Standard.C105_factors` | propext, Classical.choice, Quot.sound |
| C105 | `QR.Standard.C105_text` | propext, Classical.choice, Quot.sound |
| C105 | `QR.Standard.C105_text_logo` | propext, Classical.choice, Quot.sound |
| C106 | `QR.Standard.C106_calls` | propext, Classical.choice, Quot.sound |
| C106 | `QR.Standard.C106_text` | propext, Classical.choice, Quot.sound |
| C106 | `QR.Standard.C106_text_logo` | propext, Classical.choice, Quot.sound |
| C107 | `QR.C107_grey` | propext, Classical.choice, Quot.sound |
| C107 | `QR.Standard.C107_standard` | propext, Classical.choice, Quot.sound |
| C107 | `QR.Standard.C107_brightness` | propext, Classical.choice, Quot.sound |
| C107 | `QR.Standard.C107_transparent` | propext, Classical.choice, Quot.sound |
| C107 | `QR.Standard.C107_again_counterexample` | propext, Classical.choice, Quot.sound |
| C107 | `QR.Compressed.C107_compressed` | propext, Classical.choice, Quot.sound |
| C107 | `QR.Cli.C107_cli` | propext, Classical.choice, Quot.sound |
| C108 | `QR.Standard.C108_shapes` | propext, Classical.choice, Quot.sound |
| C108 | `QR.Standard.C108_shapes_logo` | propext, Classical.choice, Quot.sound |
| C108 | `QR.Standard.C108_halftone` | propext, Classical.choice, Quot.sound |
| C108 | `QR.Standard.C108_halftone_logo` | propext, Classical.choice, Quot.sound |
| C108 | `QR.Standard.C108_machine` | propext, Classical.choice, Quot.sound |
| C108 | `QR.Standard.C108_machine_logo` | propext, Classical.choice, Quot.sound |
| C108 | `QR.Standard.C108_gradient` | propext, Classical.choice, Quot.sound |
| C108 | `QR.Standard.C108_gradient_machine` | propext, Classical.choice, Quot.sound |
| C108 | `QR.Standard.C108_gradient_machine_logo` | propext, Classical.choice, Quot.sound |
| C108 | `QR.Cli.C108_cli` | propext, Classical.choice, Quot.sound |
| C109 | `QR.C109_damage` | propext, Classical.choice, Quot.sound |
| C109 | `QR.C109_few_modules` | propext, Classical.choice, Quot.sound |
| C109 | `QR.C109_logo` | propext, Classical.choice, Quot.sound |
| C109 | `QR.C109_machine_logo` | propext, Classical.choice, Quot.sound |
| C110 | `QR.C110_photo` | propext, Classical.choice, Quot.sound |
| C110 | `QR.C110_logo` | propext, Classical.choice, Quot.sound |
| C110 | `QR.Examples.C110_example` | propext, Classical.choice, Quot.sound |
