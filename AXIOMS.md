# Axioms of each theorem

Written by `tools/axioms.py` from `#print axioms`.
P = `propext`, C = `Classical.choice`, Q = `Quot.sound`, – = none.

| property | theorem | axioms |
|---|---|---|
| C01 | `Props.CharRange.c01_iteration_exact` | P C Q |
| C02 | `Props.CharRange.c02_double_ended` | P C Q |
| C02 | `Props.CharRange.c02_fused` | P |
| C02 | `Props.CharRange.c02_progress` | P C Q |
| C03 | `Props.CharRange.c03_exact_size` | P C Q |
| C03 | `Props.CharRange.c03_range_len` | P C Q |
| C04 | `Props.CharRange.c04_constructors` | P C Q |
| C04 | `Props.CharRange.c04_bound` | P C Q |
| C04 | `Props.CharRange.c04_contains_iff_iterated` | P C Q |
| C05 | `Props.CharRange.c05_eq_iff_same_contents` | P C Q |
| C05 | `Props.CharRange.c05_cmp_char` | P C Q |
| C05 | `Props.CharRange.c05_cmp_char_panics_iff` | P |
| C06 | `Props.ParIter.c06_schedules_partial` | P C Q |
| C06 | `Props.ParIter.c06_exact` | P C Q |
| C06 | `Props.ParIter.c06_items_valid` | P C Q |
| C06 | `Props.CharRange.c06_par_iter_partial` | P C Q |
| C06 | `Props.CharRange.c06_par_iter_false` | P C Q |
| C06 | `Props.CharRange.c06_par_iter_above_gap` | P C Q |
| C07 | `Props.Derived.c07_noncharacter` | P C Q |
| C07 | `Props.Derived.c07_noncharacter_count` | – |
| C07 | `Props.Derived.c07_private_use` | P C Q |
| C07 | `Props.Derived.c07_private_use_category` | P C Q |
| C07 | `Props.Derived.c07_disjoint` | P C Q |
| C08 | `Props.Tables.c08_find` | P C Q |
| C08 | `Props.Tables.c08_contains` | P C Q |
| C08 | `Props.Tables.c08_find_or_default` | P C Q |
| C08 | `Props.Tables.c08_find_with_range` | P C Q |
| C08 | `Props.Tables.c08_iter` | P Q |
| C09 | `Props.Shipped.c09_shipped_tables` | P C Q |
| C09 | `Props.Shipped.c09_inner_composition_tables` | P C Q |
| C09 | `Props.Name.c09_name_tables` | P C Q |
| C10 | `Props.Gen.c10_range` | P C Q |
| C10 | `Props.Gen.c10_range_maximal` | P C Q |
| C10 | `Props.Gen.c10_direct` | P C Q |
| C10 | `Props.Gen.c10_set` | P C Q |
| C11 | `Props.Hangul.c11_is_syllable` | P C Q |
| C11 | `Props.Hangul.c11_decompose` | P Q |
| C11 | `Props.Hangul.c11_recompose` | P C Q |
| C11 | `Props.Hangul.c11_compose_exact_partial` | P C Q |
| C11 | `Props.Hangul.c11_compose_exact_false` | P Q |
| C11 | `Props.Hangul.c11_compose_11a7` | P C Q |
| C12 | `Props.Normal.c12_terminates` | P C Q |
| C12 | `Props.Normal.c12_canonical` | P C Q |
| C12 | `Props.Normal.c12_compatible` | P C Q |
| C12 | `Props.Normal.c12_fixed_point` | P C Q |
| C12 | `Props.Normal.c12_decomposition_type` | P C Q |
| C13 | `Props.Normal.c13_nfd` | P C Q |
| C13 | `Props.Normal.c13_nfkd` | P C Q |
| C13 | `Props.Normal.c13_calls` | P C Q |
| C14 | `Props.Normal.c14_nfc` | P C Q |
| C14 | `Props.Normal.c14_calls` | P C Q |
| C14 | `Props.Normal.c14_compose_partial` | P C Q |
| C14 | `Props.Normal.c14_compose_false` | P C Q |
| C14 | `Props.Normal.c14_standard_partial` | P C Q |
| C14 | `Props.Normal.c14_standard_false` | P C Q |
| C15 | `Props.Normal.c15_idempotent` | P C Q |
| C16 | `Props.Normal.c16_idempotent` | P C Q |
| C17 | `Props.Normal.c17_partial` | P C Q |
| C17 | `Props.Normal.c17_false` | P C Q |
| C17 | `Props.Normal.c17_loss` | P C Q |
| C18 | `Props.Normal.c18_decomposed` | P C Q |
| C18 | `Props.Normal.c18_composed` | P C Q |
| C18 | `Props.Normal.c18_equivalent` | P C Q |
| C18 | `Props.Normal.c18_equivalent_forms` | P C Q |
| C19 | `Props.Normal.c19_ordered` | P C Q |
| C19 | `Props.Normal.c19_nonempty` | P C Q |
| C19 | `Props.Normal.c19_ascii` | P C Q |
| C20 | `Props.Punycode.c20_partial` | P C Q |
| C20 | `Props.Punycode.c20_never_wrong` | P C Q |
| C20 | `Props.Punycode.c20_false` | P C Q |
| C21 | `Props.Punycode.c21` | P C Q |
| C21 | `Props.Punycode.c21_injective` | P C Q |
| C21 | `Props.Punycode.c21_basic_needed` | – |
| C22 | `Props.Punycode.c22` | P C Q |
| C22 | `Props.Punycode.c22_digit_range` | P C Q |
| C22 | `Props.IdnaInjective.c22_length` | P C Q |
| C23 | `Props.Punycode.c23_decode_partial` | P C Q |
| C23 | `Props.Punycode.c23_decode_false` | P Q |
| C23 | `Props.Punycode.c23_encode` | P C Q |
| C23 | `Props.Punycode.c23_encode_limit` | – |
| C24 | `Props.Idna.c24_total` | P C Q |
| C24 | `Props.Idna.c24_replacement` | P C Q |
| C24 | `Props.Idna.c24_stable` | P C Q |
| C25 | `Props.Idna.c25_ascii` | P C Q |
| C25 | `Props.Idna.c25_dns` | P C Q |
| C26 | `Props.Idna.c26_reports` | P C Q |
| C26 | `Props.Idna.c26_result` | P C Q |
| C26 | `Props.Idna.c26_ldh` | P C Q |
| C27 | `Props.Bidi.c27_exists` | P Q |
| C27 | `Props.Bidi.c27_unique` | P |
| C27 | `Props.Bidi.c27_paragraphs` | P C Q |
| C28 | `Props.Bidi.c28_per_byte` | P C Q |
| C29 | `Props.Bidi.c29_total` | P C Q |
| C29 | `Props.Bidi.c29_default_126` | P C Q |
| C30 | `Props.Bidi.c30_explicit` | P C Q |
| C30 | `Props.Bidi.c30_removed` | P C Q |
| C30 | `Props.Bidi.c30_stack` | P C Q |
| C31 | `Props.Bidi.c31_level_runs` | P C Q |
| C31 | `Props.Bidi.c31_sequences` | P C Q |
| C32 | `Props.Bidi.c32_visual_runs` | P C Q |
| C32 | `Props.Bidi.c32_no_panic` | P C Q |
| C32 | `Props.Bidi.c32_reorder_partial` | P C Q |
| C32 | `Props.Bidi.c32_reorder_lines_partial` | P C Q |
| C32 | `Props.Bidi.c32_not_reorder` | P C Q |
| C32 | `Props.Bidi.c32_panic` | P C Q |
| C33 | `Props.Bidi.c33_ltr` | P C Q |
| C33 | `Props.Bidi.c33_zero` | P C Q |
| C33 | `Props.Bidi.c33_has_rtl` | P Q |
| C34 | `Props.Level.c34_new` | P C Q |
| C34 | `Props.Level.c34_raise_lower` | P Q |
| C34 | `Props.Level.c34_next_ltr` | P C Q |
| C34 | `Props.Level.c34_next_rtl` | P C Q |
| C34 | `Props.Level.c34_lowest_ge_rtl` | P C Q |
| C34 | `Props.Level.c34_history` | P C Q |
| C34 | `Props.Level.c34_parity` | P C Q |
| C34 | `Props.Level.c34_has_rtl` | P C Q |
| C34 | `Props.Level.c34_vec` | P Q |
| C35 | `Props.Grapheme.c35_iteration` | P C Q |
| C35 | `Props.Grapheme.c35_unique` | P Q |
| C36 | `Props.Grapheme.c36_cursor` | P C Q |
| C37 | `Props.GraphemeChunk.c37_query_partial` | P C Q |
| C37 | `Props.GraphemeChunk.c37_query_panics` | P C Q |
| C37 | `Props.GraphemeChunk.c37_query_false` | P C Q |
| C37 | `Props.GraphemeChunk.c37_next_partial` | P C Q |
| C37 | `Props.GraphemeChunk.c37_next_false` | P C Q |
| C37 | `Props.GraphemeChunk.c37_prev_partial` | P C Q |
| C37 | `Props.GraphemeChunk.c37_prev_necessary` | P C Q |
| C37 | `Props.GraphemeChunk.c37_prev_false` | P |
| C37 | `Props.GraphemeAsk.c37_asks` | P C Q |
| C37 | `Props.GraphemeAsk.c37_query_prepend` | P C Q |
| C38 | `Props.Word.c38_partition` | P C Q |
| C38 | `Props.Word.c38_words` | P C Q |
| C38 | `Props.Word.c38_words_forward` | P C Q |
| C38 | `Props.Word.c38_words_backward` | P C Q |
| C38 | `Props.Word.c38_table` | P C Q |
| C39 | `Props.Word.c39_boundaries_partial` | P C Q |
| C39 | `Props.Word.c39_no_zwj_partial` | P C Q |
| C39 | `Props.Word.c39_forward_false` | P C Q |
| C39 | `Props.Word.c39_forward_false'` | P C Q |
| C39 | `Props.Word.c39_backward_false` | P C Q |
| C40 | `Props.Property.c40_general_category` | P C Q |
| C40 | `Props.Property.c40_bidi_class` | P C Q |
| C40 | `Props.Property.c40_grapheme_cluster_break` | P C Q |
| C40 | `Props.Property.c40_word_break` | P C Q |
| C40 | `Props.Property.c40_sentence_break` | P C Q |
| C40 | `Props.Property.c40_decomposition_type` | P C Q |
| C41 | `Props.Property.c41_binary_parse` | P C Q |
| C41 | `Props.Property.c41_binary_roundtrip` | P C Q |
| C42 | `Props.Derived.c42_alphanumeric` | P C Q |
| C42 | `Props.Derived.c42_numeric` | P C Q |
| C42 | `Props.Derived.c42_control` | P C Q |
| C42 | `Props.Derived.c42_combining_mark` | P C Q |
| C42 | `Props.Derived.c42_lowercase_cased` | P C Q |
| C42 | `Props.Derived.c42_uppercase_cased` | P C Q |
| C42 | `Props.Derived.c42_case_disjoint` | P C Q |
| C42 | `Props.Derived.c42_id_start_continue` | P C Q |
| C42 | `Props.Derived.c42_xid_start_continue` | P C Q |
| C42 | `Props.Derived.c42_xid_start_id` | P C Q |
| C42 | `Props.Derived.c42_xid_continue_id` | P C Q |
| C42 | `Props.Derived.c42_pattern_disjoint` | P C Q |
| C42 | `Props.Derived.c42_pattern_not_ident` | P C Q |
| C42 | `Props.Derived.c42_emoji_modifier` | P C Q |
| C42 | `Props.Derived.c42_emoji_modifier_base` | P C Q |
| C42 | `Props.Derived.c42_emoji_presentation` | P C Q |
| C42 | `Props.Derived.c42_bidi_control_format` | P C Q |
| C42 | `Props.Derived.c42_alphabetic_letter` | P C Q |
| C42 | `Props.Derived.c42_cased_letter` | P C Q |
| C42 | `Props.Derived.c42_separator_space` | P C Q |
| C42 | `Props.Derived.c42_ccc_mark` | P C Q |
| C42 | `Props.Derived.c42_casemapped` | P C Q |
| C42 | `Props.Derived.c42_combining_mark_features` | P C Q |
| C42 | `Props.Derived.c42_category_groups` | P |
| C42 | `Props.Derived.c42_groups_by_name` | P C Q |
| C43 | `Props.Version.c43_version_cmp` | P C Q |
| C43 | `Props.Version.c43_version_total` | P C Q |
| C43 | `Props.Version.c43_age_partial_reversed` | P C Q |
| C43 | `Props.Version.c43_age_orders_partial` | P C Q |
| C43 | `Props.Version.c43_age_orders_agree_false` | P |
| C43 | `Props.Version.c43_age_values` | P C Q |
| C44 | `Props.Derived.c44_age_iff` | P C Q |
| C44 | `Props.Blocks.c44_block_iter` | P Q |
| C44 | `Props.Blocks.c44_block_of` | P C Q |
| C44 | `Props.Blocks.c44_blocks_disjoint` | P Q |
| C44 | `Props.Blocks.c44_assigned_in_block` | P C Q |
| C45 | `Props.Name.c45_len` | P C Q |
| C45 | `Props.Name.c45_order` | P C Q |
| C45 | `Props.Name.c45_trans` | P C Q |
| C45 | `Props.Name.c45_distinct` | P C Q |
| C45 | `Props.Name.c45_not_constructed` | P C Q |
| C46 | `Props.Blocks.c46_name_aliases` | P C Q |
| C46 | `Props.Blocks.c46_types_nonempty` | P C Q |
| C47 | `Props.Cli.c47_codepoints` | P C Q |
| C47 | `Props.Cli.c47_utf8_hex` | P C Q |
| C47 | `Props.Cli.c47_utf16_hex` | P C Q |
| C47 | `Props.Cli.c47_empty_panics` | P |
| C48 | `Props.Direction.c48_has_rtl` | P Q |
| C48 | `Props.Direction.c48_has_bidi_explicit` | P Q |
| C48 | `Props.Direction.c48_has_ltr_partial` | P Q |
| C48 | `Props.Direction.c48_has_ltr_false` | P C Q |
| C48 | `Props.Direction.c48_classes` | P |
| C49 | `Props.Cli.c49_notation` | P C Q |
| C49 | `Props.Cli.c49_notation_injective` | P C Q |
| C50 | `Props.Normal.c50_concat` | P C Q |
| C50 | `Props.Normal.c50_concat_forms` | P C Q |
| C50 | `Props.NormalText.c50_concat_composed` | P C Q |
| C50 | `Props.NormalText.c50_ascii` | P C Q |
| C51 | `Props.Idna.c51_partial` | P C Q |
| C51 | `Props.Idna.c51_ascii_partial` | P C Q |
| C51 | `Props.Idna.c51_false` | P C Q |
| C51 | `Props.Idna.c51_false_ace` | P C Q |
| C52 | `Props.Idna.c52_to_unicode` | P C Q |
| C52 | `Props.Idna.c52_to_ascii` | P C Q |
| C53 | `Props.Idna.c53_partial` | P C Q |
| C53 | `Props.Idna.c53_input` | P C Q |
| C53 | `Props.Idna.c53_false` | P C Q |
| C54 | `Props.Idna.c54_to_unicode` | P C Q |
| C54 | `Props.Idna.c54_to_ascii_release` | P C Q |
| C54 | `Props.Idna.c54_to_ascii_partial` | P C Q |
| C54 | `Props.Idna.c54_to_ascii_false` | P C Q |
| C55 | `Props.PunycodeRfc.c55_decode_partial` | P C Q |
| C55 | `Props.PunycodeRfc.c55_decode_complete` | P C Q |
| C55 | `Props.PunycodeRfc.c55_encode` | P C Q |
| C55 | `Props.PunycodeRfc.c55_decode_false` | P Q |
| C56 | `Props.Bidi.c56_strong` | P C Q |
| C56 | `Props.Bidi.c56_bounds` | P C Q |
| C56 | `Props.Bidi.c56_removed` | P C Q |
| C57 | `Props.Bidi.c57_l1_partial` | P C Q |
| C57 | `Props.Bidi.c57_not_l1` | P C Q |
| C57 | `Props.Bidi.c57_l2_partial` | P C Q |
| C57 | `Props.Bidi.c57_not_l2` | P C Q |
| C57 | `Props.Bidi.c57_per_char` | P C Q |
| C58 | `Props.Name.c58_named` | P C Q |
| C58 | `Props.Name.c58_unique` | P C Q |
| C58 | `Props.Name.c58_text` | P C Q |
| C58 | `Props.Name.c58_hangul` | P C Q |
| C58 | `Props.Name.c58_ideograph` | P C Q |
| C58 | `Props.Name.c58_ascii` | P C Q |
| C59 | `Props.Bidi.c59_covered` | P C Q |
| C59 | `Props.Bidi.c59_once` | P C Q |
| C59 | `Props.Bidi.c59_sequences_partial` | P C Q |
| C59 | `Props.Bidi.c59_levels_partial` | P C Q |
| C59 | `Props.Bidi.c59_plain_partial` | P C Q |
| C59 | `Props.Bidi.c59_not_number` | P C Q |
| C59 | `Props.Bidi.c59_not_separator` | P C Q |
| C59 | `Props.Bidi.c59_not_wide` | P C Q |
| C59 | `Props.Bidi.c59_not_mark` | P C Q |
| C59 | `Props.Bidi.c59_not_terminator` | P C Q |
| C59 | `Props.Bidi.c59_not_end` | P C Q |
| C59 | `Props.Bidi.c59_not_gap` | P C Q |
| C59 | `Props.Bidi.c59_not_initiator` | P C Q |
| C60 | `Props.Relations.c60_case_ignorable` | P C Q |
| C60 | `Props.Relations.c60_cased` | P C Q |
| C60 | `Props.Relations.c60_changes_cased` | P C Q |
| C60 | `Props.Relations.c60_changes_lowercased` | P C Q |
| C60 | `Props.Relations.c60_changes_uppercased` | P C Q |
| C60 | `Props.Relations.c60_case_letters` | P C Q |
| C60 | `Props.Relations.c60_white_space` | P C Q |
| C60 | `Props.Relations.c60_id_start` | P C Q |
| C60 | `Props.Relations.c60_id_continue` | P C Q |
| C60 | `Props.Relations.c60_bidi_control` | P C Q |
| C60 | `Props.Relations.c60_bidi_mirrored` | P C Q |
| C60 | `Props.Relations.c60_bidi_nsm` | P C Q |
| C60 | `Props.Relations.c60_emoji_component` | P C Q |
| C60 | `Props.Relations.c60_emoji_break` | P C Q |
| C60 | `Props.Relations.c60_regional` | P C Q |
| C60 | `Props.Relations.c60_gcb_control` | P C Q |
| C60 | `Props.Relations.c60_gcb_format` | P C Q |
| C60 | `Props.Relations.c60_gcb_marks` | P C Q |
| C60 | `Props.Relations.c60_wb_gcb` | P C Q |
| C60 | `Props.Relations.c60_wb_extend` | P C Q |
| C60 | `Props.Relations.c60_wb_newline` | P C Q |
| C60 | `Props.Relations.c60_wb_numeric` | P C Q |
| C60 | `Props.Relations.c60_wb_connector` | P C Q |
| C60 | `Props.Relations.c60_sb_wb` | P C Q |
| C60 | `Props.Relations.c60_sb_space` | P C Q |
| C60 | `Props.Relations.c60_sb_case` | P C Q |
| C60 | `Props.Relations.c60_sb_letter` | P C Q |
| C60 | `Props.Relations.c60_sb_close` | P C Q |
| C60 | `Props.Relations.c60_hangul` | P C Q |
| C60 | `Props.Relations.c60_jamo` | P C Q |
| C61 | `Props.WordGrapheme.c61_boundaries_partial` | P C Q |
| C61 | `Props.WordGrapheme.c61_words_partial` | P C Q |
| C61 | `Props.WordGrapheme.c61_not_prepend` | P |
| C61 | `Props.WordGrapheme.c61_not_vowel` | P |
| C61 | `Props.WordGrapheme.c61_not_flags` | P |
| C62 | `Props.GenFiles.c62_breaks` | P C Q |
| C62 | `Props.GenFiles.c62_blocks` | P C Q |
| C62 | `Props.GenFiles.c62_ages` | P C Q |
| C62 | `Props.GenFiles.c62_idna` | P C Q |
| C63 | `Props.GenFiles.c63_prop_list` | P C Q |
| C63 | `Props.GenFiles.c63_derived` | P C Q |
| C63 | `Props.GenFiles.c63_emoji` | P C Q |
| C64 | `Props.GenUcd.c64_category` | P C Q |
| C64 | `Props.GenUcd.c64_bidi_class` | P C Q |
| C64 | `Props.GenUcd.c64_combining_class` | P C Q |
| C64 | `Props.GenUcd.c64_mirrored` | P C Q |
| C64 | `Props.GenUcd.c64_categories` | P C Q |
| C64 | `Props.GenUcd.c64_alphanumeric` | P C Q |
| C65 | `Props.GenUcd.c65_canonical` | P C Q |
| C65 | `Props.GenUcd.c65_compatibility` | P C Q |
| C65 | `Props.GenUcd.c65_composition` | P C Q |
| C65 | `Props.GenUcd.c65_long_mapping` | P C Q |
| C66 | `Props.GenUcd.c66_names` | P C Q |
| C66 | `Props.GenUcd.c66_jamo` | P C Q |
| C67 | `Props.GenUcd.c67_aliases` | P C Q |
| C67 | `Props.GenUcd.c67_types` | P C Q |
| C68 | `Props.GenUcd.c68_unicode` | P C Q |
| C68 | `Props.GenUcd.c68_emoji` | P C Q |
| C68 | `Props.GenUcd.c68_no_version` | P C Q |
| C69 | `Props.BidiDefaults.c69_unassigned_partial` | P C Q |
| C69 | `Props.BidiDefaults.c69_boundary_neutral_false` | P C Q |
| C69 | `Props.BidiDefaults.c69_all_wrong` | P C Q |
| C69 | `Props.BidiDefaults.c69_noncharacters` | P Q |
| C70 | `Props.SegmentNormal.c70_equivalent_partial` | P C Q |
| C70 | `Props.SegmentNormal.c70_nfd_partial` | P C Q |
| C70 | `Props.SegmentNormal.c70_iteration_partial` | P C Q |
| C70 | `Props.SegmentNormal.c70_nfc_partial` | P C Q |
| C70 | `Props.SegmentNormal.c70_false` | P C Q |
| C70 | `Props.SegmentNormal.c70_legacy_false` | P C Q |
| C71 | `Props.WordNormal.c71_equivalent` | P C Q |
| C71 | `Props.WordNormal.c71_nfd` | P C Q |
| C71 | `Props.WordNormal.c71_iteration` | P C Q |
| C71 | `Props.WordNormal.c71_iteration_nfd` | P C Q |
| C71 | `Props.WordNormal.c71_clean` | P C Q |
| C71 | `Props.WordNormal.c71_nfc_partial` | P C Q |
| C71 | `Props.WordNormal.c71_iteration_nfc_partial` | P C Q |
| C71 | `Props.SegmentShape.c71_words` | P C Q |
| C72 | `Props.Echo.c72_literal` | P C Q |
| C72 | `Props.Echo.c72_literal_unique` | P C Q |
| C72 | `Props.Echo.c72_literal_injective` | P C Q |
| C72 | `Props.Echo.c72_escaped` | P C Q |
| C72 | `Props.Echo.c72_aliases` | P C Q |
| C72 | `Props.Echo.c72_ascii` | P C Q |
| C72 | `Props.Echo.c72_codepoints` | P C Q |
| C72 | `Props.Echo.c72_utf8_hex` | P C Q |
| C72 | `Props.Echo.c72_utf16_hex` | P C Q |
| C72 | `Props.Echo.c72_newline` | P C Q |
| C72 | `Props.Echo.c72_names` | P C Q |
| C72 | `Props.Echo.c72_help` | P C Q |
| C72 | `Props.Echo.c72_convert` | P C Q |
| C72 | `Props.Echo.c72_total` | P C Q |
| C72 | `Props.Echo.c72_newline_switch` | P C Q |
| C73 | `Props.Inspector.c73_row` | P C Q |
| C73 | `Props.Inspector.c73_run` | P C Q |
| C73 | `Props.Inspector.c73_names_differ` | P C Q |
| C74 | `Props.GenTests.c74_normalization` | P C Q |
| C74 | `Props.GenTests.c74_grapheme` | P C Q |
| C74 | `Props.GenTests.c74_word` | P C Q |
| C74 | `Props.GenTests.c74_parts` | P C Q |
| C74 | `Props.GenTests.c74_values` | P C Q |
| C74 | `Props.GenTests.c74_values_panic` | P C Q |
| C75 | `Props.SegmentConcat.c75_concat` | P C Q |
| C75 | `Props.SegmentConcat.c75_concat_conv` | P C Q |
| C75 | `Props.SegmentConcat.c75_prefix` | P C Q |
| C75 | `Props.SegmentConcat.c75_infix` | P C Q |
| C75 | `Props.SegmentConcat.c75_one` | P C Q |
| C75 | `Props.SegmentConcat.c75_restart` | P C Q |
| C76 | `Props.SegmentConcat.c76_restart` | P C Q |
| C76 | `Props.SegmentConcat.c76_concat_partial` | P C Q |
| C76 | `Props.SegmentConcat.c76_prefix_partial` | P C Q |
| C76 | `Props.SegmentConcat.c76_infix_partial` | P C Q |
| C76 | `Props.SegmentConcat.c76_concat_false` | P C Q |
| C77 | `Props.BidiConcat.c77_concat` | P C Q |
| C77 | `Props.BidiConcat.c77_paragraphs` | P C Q |
| C78 | `Props.NormalText.c78_chars` | P C Q |
| C78 | `Props.NormalText.c78_bytes` | P C Q |
| C78 | `Props.NormalText.c78_composed` | P C Q |
| C78 | `Props.NormalText.c78_buffer` | P C Q |
| C79 | `Props.NormalText.c79_parts` | P C Q |
| C79 | `Props.NormalText.c79_cut` | P C Q |
| C79 | `Props.NormalText.c79_chars` | P C Q |
| C80 | `Props.IdnaSpelling.c80_replacement_partial` | P C Q |
| C80 | `Props.IdnaSpelling.c80_replacement_false` | P C Q |
| C80 | `Props.IdnaSpelling.c80_case` | P C Q |
| C80 | `Props.IdnaSpelling.c80_dots` | P C Q |
| C80 | `Props.IdnaSpelling.c80_equivalent_partial` | P C Q |
| C80 | `Props.IdnaSpelling.c80_equivalent_false_ideograph` | P C Q |
| C80 | `Props.IdnaSpelling.c80_equivalent_false_iota` | P C Q |
| C81 | `Props.BidiEquiv.c81_paragraphs` | P C Q |
| C81 | `Props.BidiEquiv.c81_levels` | P C Q |
| C81 | `Props.BidiEquiv.c81_predicates` | P C Q |
| C82 | `Props.BidiRtl.c82_rtl` | P C Q |
| C82 | `Props.BidiRtl.c82_whole` | P C Q |
| C83 | `Props.IdnaErrors.c83_to_unicode` | P C Q |
| C83 | `Props.IdnaErrors.c83_to_ascii` | P C Q |
| C83 | `Props.IdnaErrors.c83_kinds` | P C Q |
| C84 | `Props.NormalStream.c84_size_hint` | P C Q |
| C84 | `Props.NormalStream.c84_display` | P C Q |
| C84 | `Props.NormalStream.c84_decomposed_reads` | P C Q |
| C84 | `Props.NormalStream.c84_composed_reads` | P C Q |
| C84 | `Props.NormalStream.c84_composed_held` | P C Q |
| C84 | `Props.NormalReads.c84_decomposition_shape` | P C Q |
| C84 | `Props.NormalReads.c84_nfd_reads` | P C Q |
| C85 | `Props.Identifier.c85_xid` | P C Q |
| C85 | `Props.Identifier.c85_id` | P C Q |
| C85 | `Props.Identifier.c85_equivalent` | P C Q |
| C85 | `Props.Identifier.c85_compatible` | P C Q |
| C85 | `Props.Identifier.c85_id_compatible_false` | P C Q |
| C85 | `Props.Identifier.c85_compatible_converse_false` | P C Q |
| C86 | `Props.BidiShape.c86_analysis_partial` | P Q |
| C86 | `Props.BidiShape.c86_display_partial` | P Q |
| C86 | `Props.BidiShape.c86_replace_partial` | P Q |
| C86 | `Props.BidiShape.c86_false` | P C Q |
| C87 | `Props.SegmentShape.c87_word_bounds` | P C Q |
| C87 | `Props.SegmentShape.c87_words` | P C Q |
| C87 | `Props.SegmentShape.c87_graphemes` | P C Q |
| C87 | `Props.SegmentShape.c87_grapheme_indices` | P C Q |
| C87 | `Props.SegmentShape.c87_map` | P C Q |
| C87 | `Props.SegmentShape.c87_upper` | P Q |
| C88 | `Props.BidiIsolate.c88_paragraph` | P C Q |
| C88 | `Props.BidiIsolate.c88_letters` | P C Q |
| C88 | `Props.BidiIsolate.c88_all_partial` | P C Q |
| C88 | `Props.BidiIsolate.c88_false` | P C Q |
| C88 | `Props.BidiIsolate.c88_depth_false` | P C Q |
| C89 | `Props.IdnaLabels.c89_to_unicode` | P C Q |
| C89 | `Props.IdnaLabels.c89_success` | P C Q |
| C89 | `Props.IdnaLabels.c89_bidi_false` | P C Q |
| C89 | `Props.IdnaLabels.c89_to_ascii` | P C Q |
| C89 | `Props.IdnaLabels.c89_lengths` | P C Q |
| C90 | `Props.IdnaInjective.c90_partial` | P C Q |
| C90 | `Props.IdnaInjective.c90_dns_partial` | P C Q |
| C90 | `Props.IdnaInjective.c90_ascii` | P C Q |
| C90 | `Props.IdnaInjective.c90_false` | P C Q |
| C91 | `Props.RelationsMore.c91_pattern_syntax` | P C Q |
| C91 | `Props.RelationsMore.c91_pattern_white_space` | P C Q |
| C91 | `Props.RelationsMore.c91_titlecase_letters` | P C Q |
| C91 | `Props.RelationsMore.c91_digraphs` | P C Q |
| C91 | `Props.RelationsMore.c91_marks_nsm` | P C Q |
| C91 | `Props.RelationsMore.c91_aletter` | P C Q |
| C91 | `Props.RelationsMore.c91_brackets` | P C Q |
| C91 | `Props.RelationsMore.c91_extend` | P C Q |
| C91 | `Props.RelationsMore.c91_blocks_aligned` | P Q |
