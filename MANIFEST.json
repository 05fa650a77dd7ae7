{
 "claims": [
  {
   "property": "C01",
   "status": "proved",
   "theorems": [
    "Props.CharRange.c01_iteration_exact"
   ],
   "note": ""
  },
  {
   "property": "C02",
   "status": "proved",
   "theorems": [
    "Props.CharRange.c02_double_ended",
    "Props.CharRange.c02_fused",
    "Props.CharRange.c02_progress"
   ],
   "note": ""
  },
  {
   "property": "C03",
   "status": "proved",
   "theorems": [
    "Props.CharRange.c03_exact_size",
    "Props.CharRange.c03_range_len"
   ],
   "note": ""
  },
  {
   "property": "C04",
   "status": "proved",
   "theorems": [
    "Props.CharRange.c04_constructors",
    "Props.CharRange.c04_bound",
    "Props.CharRange.c04_contains_iff_iterated"
   ],
   "note": ""
  },
  {
   "property": "C05",
   "status": "proved",
   "theorems": [
    "Props.CharRange.c05_eq_iff_same_contents",
    "Props.CharRange.c05_cmp_char",
    "Props.CharRange.c05_cmp_char_panics_iff"
   ],
   "note": ""
  },
  {
   "property": "C06",
   "status": "partial",
   "theorems": [
    "Props.ParIter.c06_schedules_partial",
    "Props.ParIter.c06_exact",
    "Props.ParIter.c06_items_valid",
    "Props.CharRange.c06_par_iter_partial",
    "Props.CharRange.c06_par_iter_false",
    "Props.CharRange.c06_par_iter_above_gap"
   ],
   "note": "The full claim is false of the code: ranges starting at or above U+E000 yield shifted items (c06_par_iter_false). Proved under every schedule for every range starting below the surrogates and every empty range; c06_exact shows that the claim holds for no other range."
  },
  {
   "property": "C08",
   "status": "proved",
   "theorems": [
    "Props.Tables.c08_find",
    "Props.Tables.c08_contains",
    "Props.Tables.c08_find_or_default",
    "Props.Tables.c08_find_with_range",
    "Props.Tables.c08_iter"
   ],
   "note": ""
  },
  {
   "property": "C07",
   "status": "proved",
   "theorems": [
    "Props.Derived.c07_noncharacter",
    "Props.Derived.c07_noncharacter_count",
    "Props.Derived.c07_private_use",
    "Props.Derived.c07_private_use_category",
    "Props.Derived.c07_disjoint"
   ],
   "note": ""
  },
  {
   "property": "C09",
   "status": "proved",
   "theorems": [
    "Props.Shipped.c09_shipped_tables",
    "Props.Shipped.c09_inner_composition_tables",
    "Props.Name.c09_name_tables"
   ],
   "note": "All tables of the library: 46 tables, the tables of names, and the tables nested in the composition table."
  },
  {
   "property": "C11",
   "status": "partial",
   "theorems": [
    "Props.Hangul.c11_is_syllable",
    "Props.Hangul.c11_decompose",
    "Props.Hangul.c11_recompose",
    "Props.Hangul.c11_compose_exact_partial",
    "Props.Hangul.c11_compose_exact_false",
    "Props.Hangul.c11_compose_11a7"
   ],
   "note": "The exactness of compose_syllable is false of the code: it accepts LV + U+11A7 (c11_compose_exact_false). Proved for every pair whose second character is not U+11A7."
  },
  {
   "property": "C34",
   "status": "proved",
   "theorems": [
    "Props.Level.c34_new",
    "Props.Level.c34_raise_lower",
    "Props.Level.c34_next_ltr",
    "Props.Level.c34_next_rtl",
    "Props.Level.c34_lowest_ge_rtl",
    "Props.Level.c34_history",
    "Props.Level.c34_parity",
    "Props.Level.c34_has_rtl",
    "Props.Level.c34_vec"
   ],
   "note": ""
  },
  {
   "property": "C40",
   "status": "proved",
   "theorems": [
    "Props.Property.c40_general_category",
    "Props.Property.c40_bidi_class",
    "Props.Property.c40_grapheme_cluster_break",
    "Props.Property.c40_word_break",
    "Props.Property.c40_sentence_break",
    "Props.Property.c40_decomposition_type"
   ],
   "note": ""
  },
  {
   "property": "C41",
   "status": "proved",
   "theorems": [
    "Props.Property.c41_binary_parse",
    "Props.Property.c41_binary_roundtrip"
   ],
   "note": ""
  },
  {
   "property": "C42",
   "status": "proved",
   "theorems": [
    "Props.Derived.c42_alphanumeric",
    "Props.Derived.c42_numeric",
    "Props.Derived.c42_control",
    "Props.Derived.c42_combining_mark",
    "Props.Derived.c42_lowercase_cased",
    "Props.Derived.c42_uppercase_cased",
    "Props.Derived.c42_case_disjoint",
    "Props.Derived.c42_id_start_continue",
    "Props.Derived.c42_xid_start_continue",
    "Props.Derived.c42_xid_start_id",
    "Props.Derived.c42_xid_continue_id",
    "Props.Derived.c42_pattern_disjoint",
    "Props.Derived.c42_pattern_not_ident",
    "Props.Derived.c42_emoji_modifier",
    "Props.Derived.c42_emoji_modifier_base",
    "Props.Derived.c42_emoji_presentation",
    "Props.Derived.c42_bidi_control_format",
    "Props.Derived.c42_alphabetic_letter",
    "Props.Derived.c42_cased_letter",
    "Props.Derived.c42_separator_space",
    "Props.Derived.c42_ccc_mark",
    "Props.Derived.c42_casemapped",
    "Props.Derived.c42_combining_mark_features",
    "Props.Derived.c42_category_groups",
    "Props.Derived.c42_groups_by_name"
   ],
   "note": ""
  },
  {
   "property": "C43",
   "status": "partial",
   "theorems": [
    "Props.Version.c43_version_cmp",
    "Props.Version.c43_version_total",
    "Props.Version.c43_age_partial_reversed",
    "Props.Version.c43_age_orders_partial",
    "Props.Version.c43_age_orders_agree_false",
    "Props.Version.c43_age_values"
   ],
   "note": "The agreement of the partial and total orders of Age is false of the code (c43_age_orders_agree_false); everything else is proved."
  },
  {
   "property": "C44",
   "status": "proved",
   "theorems": [
    "Props.Derived.c44_age_iff",
    "Props.Blocks.c44_block_iter",
    "Props.Blocks.c44_block_of",
    "Props.Blocks.c44_blocks_disjoint",
    "Props.Blocks.c44_assigned_in_block"
   ],
   "note": ""
  },
  {
   "property": "C46",
   "status": "proved",
   "theorems": [
    "Props.Blocks.c46_name_aliases",
    "Props.Blocks.c46_types_nonempty"
   ],
   "note": ""
  },
  {
   "property": "C48",
   "status": "partial",
   "theorems": [
    "Props.Direction.c48_has_rtl",
    "Props.Direction.c48_has_bidi_explicit",
    "Props.Direction.c48_has_ltr_partial",
    "Props.Direction.c48_has_ltr_false",
    "Props.Direction.c48_classes"
   ],
   "note": "has_ltr computes the same as has_rtl (c48_has_ltr_false refutes the claim for it); the rest is proved."
  },
  {
   "property": "C47",
   "status": "proved",
   "theorems": [
    "Props.Cli.c47_codepoints",
    "Props.Cli.c47_utf8_hex",
    "Props.Cli.c47_utf16_hex",
    "Props.Cli.c47_empty_panics"
   ],
   "note": ""
  },
  {
   "property": "C49",
   "status": "proved",
   "theorems": [
    "Props.Cli.c49_notation",
    "Props.Cli.c49_notation_injective"
   ],
   "note": ""
  },
  {
   "property": "C12",
   "status": "proved",
   "theorems": [
    "Props.Normal.c12_terminates",
    "Props.Normal.c12_canonical",
    "Props.Normal.c12_compatible",
    "Props.Normal.c12_fixed_point",
    "Props.Normal.c12_decomposition_type"
   ],
   "note": ""
  },
  {
   "property": "C13",
   "status": "proved",
   "theorems": [
    "Props.Normal.c13_nfd",
    "Props.Normal.c13_nfkd",
    "Props.Normal.c13_calls"
   ],
   "note": ""
  },
  {
   "property": "C14",
   "status": "partial",
   "theorems": [
    "Props.Normal.c14_nfc",
    "Props.Normal.c14_calls",
    "Props.Normal.c14_compose_partial",
    "Props.Normal.c14_compose_false",
    "Props.Normal.c14_standard_partial",
    "Props.Normal.c14_standard_false"
   ],
   "note": "The composition algorithm with the crate's own pairwise compose is proved for all texts (c14_nfc). The pairwise compose is the standard's except that LV + U+11A7 composes; hence equality with the standard's NFC is proved for texts without U+11A7 and refuted in general."
  },
  {
   "property": "C15",
   "status": "proved",
   "theorems": [
    "Props.Normal.c15_idempotent"
   ],
   "note": ""
  },
  {
   "property": "C16",
   "status": "proved",
   "theorems": [
    "Props.Normal.c16_idempotent"
   ],
   "note": ""
  },
  {
   "property": "C17",
   "status": "partial",
   "theorems": [
    "Props.Normal.c17_partial",
    "Props.Normal.c17_false",
    "Props.Normal.c17_loss"
   ],
   "note": "False of the code for U+11A7 after an LV syllable (c17_false); proved for all texts without U+11A7, and c17_loss bounds the loss for all texts."
  },
  {
   "property": "C18",
   "status": "proved",
   "theorems": [
    "Props.Normal.c18_decomposed",
    "Props.Normal.c18_composed",
    "Props.Normal.c18_equivalent",
    "Props.Normal.c18_equivalent_forms"
   ],
   "note": ""
  },
  {
   "property": "C19",
   "status": "proved",
   "theorems": [
    "Props.Normal.c19_ordered",
    "Props.Normal.c19_nonempty",
    "Props.Normal.c19_ascii"
   ],
   "note": ""
  },
  {
   "property": "C50",
   "status": "proved",
   "theorems": [
    "Props.Normal.c50_concat",
    "Props.Normal.c50_concat_forms",
    "Props.NormalText.c50_concat_composed",
    "Props.NormalText.c50_ascii"
   ],
   "note": ""
  },
  {
   "property": "C20",
   "status": "partial",
   "theorems": [
    "Props.Punycode.c20_partial",
    "Props.Punycode.c20_never_wrong",
    "Props.Punycode.c20_false"
   ],
   "note": "False of the code for texts of 3856 characters or more (c20_false: encode succeeds, decode overflows and rejects). Proved for all texts of at most 3855 characters; for all texts below 2^32 characters the result never decodes to a different text."
  },
  {
   "property": "C21",
   "status": "proved",
   "theorems": [
    "Props.Punycode.c21",
    "Props.Punycode.c21_injective",
    "Props.Punycode.c21_basic_needed"
   ],
   "note": "The 'redundant delimiter' of the claim does not occur: the equality is exact up to letter case."
  },
  {
   "property": "C22",
   "status": "proved",
   "theorems": [
    "Props.Punycode.c22",
    "Props.Punycode.c22_digit_range",
    "Props.IdnaInjective.c22_length"
   ],
   "note": ""
  },
  {
   "property": "C23",
   "status": "partial",
   "theorems": [
    "Props.Punycode.c23_decode_partial",
    "Props.Punycode.c23_decode_false",
    "Props.Punycode.c23_encode",
    "Props.Punycode.c23_encode_limit"
   ],
   "note": "decode panics on inputs of more than 2^32 bytes (c23_decode_false); proved for all shorter inputs. The encode part is proved in full, with the sharp limit 3855."
  },
  {
   "property": "C24",
   "status": "proved",
   "theorems": [
    "Props.Idna.c24_total",
    "Props.Idna.c24_replacement",
    "Props.Idna.c24_stable"
   ],
   "note": ""
  },
  {
   "property": "C25",
   "status": "proved",
   "theorems": [
    "Props.Idna.c25_ascii",
    "Props.Idna.c25_dns"
   ],
   "note": ""
  },
  {
   "property": "C26",
   "status": "proved",
   "theorems": [
    "Props.Idna.c26_reports",
    "Props.Idna.c26_result",
    "Props.Idna.c26_ldh"
   ],
   "note": ""
  },
  {
   "property": "C51",
   "status": "partial",
   "theorems": [
    "Props.Idna.c51_partial",
    "Props.Idna.c51_ascii_partial",
    "Props.Idna.c51_false",
    "Props.Idna.c51_false_ace"
   ],
   "note": "False of the code in general: c51_false (U+2135 maps to a Hebrew letter past the Bidi check) and c51_false_ace (a label that decodes to an ASCII label beginning with xn--). Proved for names without U+2135..2138 whose Unicode form has no ASCII label beginning with xn-- and no label above 3855 characters."
  },
  {
   "property": "C52",
   "status": "proved",
   "theorems": [
    "Props.Idna.c52_to_unicode",
    "Props.Idna.c52_to_ascii"
   ],
   "note": "The Bidi-name test of the specification is the program's (right-to-left character in the input or in a decoded label); the difference to RFC 5893 is C53."
  },
  {
   "property": "C53",
   "status": "partial",
   "theorems": [
    "Props.Idna.c53_partial",
    "Props.Idna.c53_input",
    "Props.Idna.c53_false"
   ],
   "note": "False of the code for U+2135..2138 (c53_false), proved for all other names."
  },
  {
   "property": "C54",
   "status": "partial",
   "theorems": [
    "Props.Idna.c54_to_unicode",
    "Props.Idna.c54_to_ascii_release",
    "Props.Idna.c54_to_ascii_partial",
    "Props.Idna.c54_to_ascii_false"
   ],
   "note": "to_unicode in both builds and to_ascii in release builds: proved. A debug build of to_ascii panics on a label of 3855 letters and one private-use character (c54_to_ascii_false); proved for labels of at most 3855 characters."
  },
  {
   "property": "C35",
   "status": "proved",
   "theorems": [
    "Props.Grapheme.c35_iteration",
    "Props.Grapheme.c35_unique"
   ],
   "note": ""
  },
  {
   "property": "C36",
   "status": "proved",
   "theorems": [
    "Props.Grapheme.c36_cursor"
   ],
   "note": ""
  },
  {
   "property": "C37",
   "status": "partial",
   "theorems": [
    "Props.GraphemeChunk.c37_query_partial",
    "Props.GraphemeChunk.c37_query_panics",
    "Props.GraphemeChunk.c37_query_false",
    "Props.GraphemeChunk.c37_next_partial",
    "Props.GraphemeChunk.c37_next_false",
    "Props.GraphemeChunk.c37_prev_partial",
    "Props.GraphemeChunk.c37_prev_necessary",
    "Props.GraphemeChunk.c37_prev_false",
    "Props.GraphemeAsk.c37_asks",
    "Props.GraphemeAsk.c37_query_prepend"
   ],
   "note": "False of the code. Queries: c37_query_partial and c37_query_panics together say at exactly which positions a fresh cursor answers rightly and where it panics. Forward iteration: proved for all chunkings whose chunks start cleanly, refuted for a chunk starting with a regional indicator. Backward iteration from the end: c37_prev_partial proves it for the chunkings that can be read backward (last chunk of at least two characters, no later chunk starting with a run of regional indicators or of Extend before an emoji modifier), c37_prev_necessary that every other chunking ends in an error or a panic, c37_prev_false gives witnesses."
  },
  {
   "property": "C38",
   "status": "proved",
   "theorems": [
    "Props.Word.c38_partition",
    "Props.Word.c38_words",
    "Props.Word.c38_words_forward",
    "Props.Word.c38_words_backward",
    "Props.Word.c38_table"
   ],
   "note": ""
  },
  {
   "property": "C39",
   "status": "partial",
   "theorems": [
    "Props.Word.c39_boundaries_partial",
    "Props.Word.c39_no_zwj_partial",
    "Props.Word.c39_forward_false",
    "Props.Word.c39_forward_false'",
    "Props.Word.c39_backward_false"
   ],
   "note": "False of the code: three sequences with ZWJ or emoji modifiers are mishandled by next and one by next_back, with witnesses from the real property table, on which the two directions disagree. For every text without those sequences (NextClean, NextBackClean) any mix of calls is proved to follow rules WB1-WB999."
  },
  {
   "property": "C55",
   "status": "partial",
   "theorems": [
    "Props.PunycodeRfc.c55_decode_partial",
    "Props.PunycodeRfc.c55_decode_complete",
    "Props.PunycodeRfc.c55_encode",
    "Props.PunycodeRfc.c55_decode_false"
   ],
   "note": "Against a separate transcription of RFC 3492 over unbounded integers. decode: exact for all ASCII texts below 2^32 bytes; for others it accepts what the RFC rejects (c55_decode_false). encode: texts of at most 3855 characters, beyond which it can overflow (C23)."
  },
  {
   "property": "C27",
   "status": "proved",
   "theorems": [
    "Props.Bidi.c27_exists",
    "Props.Bidi.c27_unique",
    "Props.Bidi.c27_paragraphs"
   ],
   "note": "Default levels up to 125 or none; Level::new(126) as default is C29."
  },
  {
   "property": "C28",
   "status": "proved",
   "theorems": [
    "Props.Bidi.c28_per_byte"
   ],
   "note": ""
  },
  {
   "property": "C29",
   "status": "proved",
   "theorems": [
    "Props.Bidi.c29_total",
    "Props.Bidi.c29_default_126"
   ],
   "note": "c29_default_126 shows that the bound 125 on the default level is needed."
  },
  {
   "property": "C30",
   "status": "proved",
   "theorems": [
    "Props.Bidi.c30_explicit",
    "Props.Bidi.c30_removed",
    "Props.Bidi.c30_stack"
   ],
   "note": ""
  },
  {
   "property": "C31",
   "status": "proved",
   "theorems": [
    "Props.Bidi.c31_level_runs",
    "Props.Bidi.c31_sequences"
   ],
   "note": ""
  },
  {
   "property": "C60",
   "status": "proved",
   "theorems": [
    "Props.Relations.c60_case_ignorable",
    "Props.Relations.c60_cased",
    "Props.Relations.c60_changes_cased",
    "Props.Relations.c60_changes_lowercased",
    "Props.Relations.c60_changes_uppercased",
    "Props.Relations.c60_case_letters",
    "Props.Relations.c60_white_space",
    "Props.Relations.c60_id_start",
    "Props.Relations.c60_id_continue",
    "Props.Relations.c60_bidi_control",
    "Props.Relations.c60_bidi_mirrored",
    "Props.Relations.c60_bidi_nsm",
    "Props.Relations.c60_emoji_component",
    "Props.Relations.c60_emoji_break",
    "Props.Relations.c60_regional",
    "Props.Relations.c60_gcb_control",
    "Props.Relations.c60_gcb_format",
    "Props.Relations.c60_gcb_marks",
    "Props.Relations.c60_wb_gcb",
    "Props.Relations.c60_wb_extend",
    "Props.Relations.c60_wb_newline",
    "Props.Relations.c60_wb_numeric",
    "Props.Relations.c60_wb_connector",
    "Props.Relations.c60_sb_wb",
    "Props.Relations.c60_sb_space",
    "Props.Relations.c60_sb_case",
    "Props.Relations.c60_sb_letter",
    "Props.Relations.c60_sb_close",
    "Props.Relations.c60_hangul",
    "Props.Relations.c60_jamo"
   ],
   "note": "Each theorem is about every number. A relation is checked on every piece on which all its tables are constant and lifted to every character by a proved merge of step functions."
  },
  {
   "property": "C61",
   "status": "partial",
   "theorems": [
    "Props.WordGrapheme.c61_boundaries_partial",
    "Props.WordGrapheme.c61_words_partial",
    "Props.WordGrapheme.c61_not_prepend",
    "Props.WordGrapheme.c61_not_vowel",
    "Props.WordGrapheme.c61_not_flags"
   ],
   "note": "False in general, with the rules of UAX #29 as well: each c61_not_... gives a text. Proved for every text without the three causes (a regional indicator directly before a character that WB4 skips; for extended clusters, prepended characters and the two letters U+0E33 and U+0EB3)."
  },
  {
   "property": "C59",
   "status": "partial",
   "theorems": [
    "Props.Bidi.c59_covered",
    "Props.Bidi.c59_once",
    "Props.Bidi.c59_sequences_partial",
    "Props.Bidi.c59_levels_partial",
    "Props.Bidi.c59_plain_partial",
    "Props.Bidi.c59_not_number",
    "Props.Bidi.c59_not_separator",
    "Props.Bidi.c59_not_wide",
    "Props.Bidi.c59_not_mark",
    "Props.Bidi.c59_not_terminator",
    "Props.Bidi.c59_not_end",
    "Props.Bidi.c59_not_gap",
    "Props.Bidi.c59_not_initiator"
   ],
   "note": "False of the code in general: each c59_not_... gives a text where the one pass of the code differs from the passes of the annex. Proved for paragraphs without isolate initiators directly before removed characters and without neutrals directly after them, for all sequences in which W1, W2, W4 and W5 do not meet in these ways (OnePass); in particular for all paragraphs without separators, terminators, marks and removed characters. Rule N0 is not in the code and not in the specification."
  },
  {
   "property": "C32",
   "status": "partial",
   "theorems": [
    "Props.Bidi.c32_visual_runs",
    "Props.Bidi.c32_no_panic",
    "Props.Bidi.c32_reorder_partial",
    "Props.Bidi.c32_reorder_lines_partial",
    "Props.Bidi.c32_not_reorder",
    "Props.Bidi.c32_panic"
   ],
   "note": "visual_runs: proved for every non-empty line (it panics exactly if all levels of the line are 126). reorder_line: false in general (c32_not_reorder: it panics on the second line of a text, since rule L1 is applied at offsets relative to the line); proved for every line on which visual_runs does not give the bytes of a character different levels, in particular the first line and lines not longer than what precedes them."
  },
  {
   "property": "C33",
   "status": "proved",
   "theorems": [
    "Props.Bidi.c33_ltr",
    "Props.Bidi.c33_zero",
    "Props.Bidi.c33_has_rtl"
   ],
   "note": ""
  },
  {
   "property": "C56",
   "status": "proved",
   "theorems": [
    "Props.Bidi.c56_strong",
    "Props.Bidi.c56_bounds",
    "Props.Bidi.c56_removed"
   ],
   "note": ""
  },
  {
   "property": "C57",
   "status": "partial",
   "theorems": [
    "Props.Bidi.c57_l1_partial",
    "Props.Bidi.c57_not_l1",
    "Props.Bidi.c57_l2_partial",
    "Props.Bidi.c57_not_l2",
    "Props.Bidi.c57_per_char"
   ],
   "note": "False of the code in general: L1 is applied at line-relative offsets (c57_not_l1) and L2 uses the levels before L1 (c57_not_l2). Proved: L1 for the first line, L2 for lines on which L1 changes nothing."
  },
  {
   "property": "C45",
   "status": "proved",
   "theorems": [
    "Props.Name.c45_len",
    "Props.Name.c45_order",
    "Props.Name.c45_trans",
    "Props.Name.c45_distinct",
    "Props.Name.c45_not_constructed"
   ],
   "note": "For the names of characters. c45_not_constructed shows that values of the public enum which Name::of never returns lack these properties."
  },
  {
   "property": "C58",
   "status": "proved",
   "theorems": [
    "Props.Name.c58_named",
    "Props.Name.c58_unique",
    "Props.Name.c58_text",
    "Props.Name.c58_hangul",
    "Props.Name.c58_ideograph",
    "Props.Name.c58_ascii"
   ],
   "note": ""
  },
  {
   "property": "C10",
   "status": "proved",
   "theorems": [
    "Props.Gen.c10_range",
    "Props.Gen.c10_range_maximal",
    "Props.Gen.c10_direct",
    "Props.Gen.c10_set"
   ],
   "note": "The text written is read back by a separate reader of table literals (Spec.TableText). Values must be written without line breaks, as all writers of the generator do."
  },
  {
   "property": "C62",
   "status": "proved",
   "theorems": [
    "Props.GenFiles.c62_breaks",
    "Props.GenFiles.c62_blocks",
    "Props.GenFiles.c62_ages",
    "Props.GenFiles.c62_idna"
   ],
   "note": "End to end: text of the data file, regular expression of the code with backtracking, map, text of the table, reader, lookup. Hypotheses on the files (Spec.UcdFile): lines that are not rows do not start with a hexadecimal digit, every line ends with a line feed, a range in IdnaMappingTable.txt has both ends characters or both surrogates; before and after the semicolon of break properties and ages there is a blank."
  },
  {
   "property": "C63",
   "status": "proved",
   "theorems": [
    "Props.GenFiles.c63_prop_list",
    "Props.GenFiles.c63_derived",
    "Props.GenFiles.c63_emoji"
   ],
   "note": "End to end as C62, for every assignment of word characters and white space beyond ASCII by the crate regex. The labels of the rows are the properties of Unicode 10; with other labels the code panics."
  },
  {
   "property": "C64",
   "status": "proved",
   "theorems": [
    "Props.GenUcd.c64_category",
    "Props.GenUcd.c64_bidi_class",
    "Props.GenUcd.c64_combining_class",
    "Props.GenUcd.c64_mirrored",
    "Props.GenUcd.c64_categories",
    "Props.GenUcd.c64_alphanumeric"
   ],
   "note": "End to end as C62. A file is any ascending sequence of lines and of ranges whose two lines are named `<label, First>` and `<label, Last>` and agree in their other fields."
  },
  {
   "property": "C65",
   "status": "proved",
   "theorems": [
    "Props.GenUcd.c65_canonical",
    "Props.GenUcd.c65_compatibility",
    "Props.GenUcd.c65_composition",
    "Props.GenUcd.c65_long_mapping"
   ],
   "note": "Compatibility tags are those of UAX #44. The table of compositions needs mappings of one or two characters, else the code panics (c65_long_mapping), and that two characters with one mapping are not both composed."
  },
  {
   "property": "C66",
   "status": "proved",
   "theorems": [
    "Props.GenUcd.c66_names",
    "Props.GenUcd.c66_jamo"
   ],
   "note": "Names are words of capital letters, digits and hyphens with one space between them, as the standard requires. The table and the constants are read by Spec.UcdNames."
  },
  {
   "property": "C67",
   "status": "proved",
   "theorems": [
    "Props.GenUcd.c67_aliases",
    "Props.GenUcd.c67_types"
   ],
   "note": "The five types of aliases of Unicode 10; another type makes the code panic."
  },
  {
   "property": "C68",
   "status": "proved",
   "theorems": [
    "Props.GenUcd.c68_unicode",
    "Props.GenUcd.c68_emoji",
    "Props.GenUcd.c68_no_version"
   ],
   "note": "For every assignment of digits beyond ASCII by the crate regex; the numbers fit the types of the code (16 bits, 8 bits for emoji)."
  },
  {
   "property": "C69",
   "status": "partial",
   "theorems": [
    "Props.BidiDefaults.c69_unassigned_partial",
    "Props.BidiDefaults.c69_boundary_neutral_false",
    "Props.BidiDefaults.c69_all_wrong",
    "Props.BidiDefaults.c69_noncharacters"
   ],
   "note": "The full claim is false: the generator has no default BN, so that all noncharacters and unassigned default ignorable characters get L (c69_boundary_neutral_false, c69_all_wrong). Proved for all other unassigned characters."
  },
  {
   "property": "C70",
   "status": "partial",
   "theorems": [
    "Props.SegmentNormal.c70_equivalent_partial",
    "Props.SegmentNormal.c70_nfd_partial",
    "Props.SegmentNormal.c70_iteration_partial",
    "Props.SegmentNormal.c70_nfc_partial",
    "Props.SegmentNormal.c70_false",
    "Props.SegmentNormal.c70_legacy_false"
   ],
   "note": "Proved for extended clusters and all texts in which no emoji modifier follows an emoji base through a spacing mark; false without that condition (c70_false) and for legacy clusters (c70_legacy_false). The NFC form excludes U+11A7 (C17)."
  },
  {
   "property": "C71",
   "status": "proved",
   "theorems": [
    "Props.WordNormal.c71_equivalent",
    "Props.WordNormal.c71_nfd",
    "Props.WordNormal.c71_iteration",
    "Props.WordNormal.c71_iteration_nfd",
    "Props.WordNormal.c71_clean",
    "Props.WordNormal.c71_nfc_partial",
    "Props.WordNormal.c71_iteration_nfc_partial",
    "Props.SegmentShape.c71_words"
   ],
   "note": "Proved for the boundaries of the rules (UAX #29: c71_equivalent, c71_nfd) and, for all texts and all sequences of calls, for the iterators (c71_iteration, c71_iteration_nfd), including the texts on which these depart from the rules (C39). The NFC forms, beyond the claim, exclude U+11A7 (C17)."
  },
  {
   "property": "C72",
   "status": "proved",
   "theorems": [
    "Props.Echo.c72_literal",
    "Props.Echo.c72_literal_unique",
    "Props.Echo.c72_literal_injective",
    "Props.Echo.c72_escaped",
    "Props.Echo.c72_aliases",
    "Props.Echo.c72_ascii",
    "Props.Echo.c72_codepoints",
    "Props.Echo.c72_utf8_hex",
    "Props.Echo.c72_utf16_hex",
    "Props.Echo.c72_newline",
    "Props.Echo.c72_names",
    "Props.Echo.c72_help",
    "Props.Echo.c72_convert",
    "Props.Echo.c72_total",
    "Props.Echo.c72_newline_switch"
   ],
   "note": "For every set of characters shown by char::escape_debug that leaves out U+2028 and U+2029, and every notion of word character beyond ASCII of the crate regex. c72_convert is for texts that are not empty (C47); c72_newline shows that the newline written without -n is refused."
  },
  {
   "property": "C73",
   "status": "proved",
   "theorems": [
    "Props.Inspector.c73_row",
    "Props.Inspector.c73_run",
    "Props.Inspector.c73_names_differ"
   ],
   "note": "The rows, not their layout by the crate prettytable."
  },
  {
   "property": "C74",
   "status": "proved",
   "theorems": [
    "Props.GenTests.c74_normalization",
    "Props.GenTests.c74_grapheme",
    "Props.GenTests.c74_word",
    "Props.GenTests.c74_parts",
    "Props.GenTests.c74_values",
    "Props.GenTests.c74_values_panic"
   ],
   "note": "The crate regex by its documented meaning; the signs \u00f7 and \u00d7 are assumed to be neither word characters nor white space for it."
  },
  {
   "property": "C75",
   "status": "proved",
   "theorems": [
    "Props.SegmentConcat.c75_concat",
    "Props.SegmentConcat.c75_concat_conv",
    "Props.SegmentConcat.c75_prefix",
    "Props.SegmentConcat.c75_infix",
    "Props.SegmentConcat.c75_one",
    "Props.SegmentConcat.c75_restart"
   ],
   "note": ""
  },
  {
   "property": "C76",
   "status": "partial",
   "theorems": [
    "Props.SegmentConcat.c76_restart",
    "Props.SegmentConcat.c76_concat_partial",
    "Props.SegmentConcat.c76_prefix_partial",
    "Props.SegmentConcat.c76_infix_partial",
    "Props.SegmentConcat.c76_concat_false"
   ],
   "note": "Replacing an iterator by a new one is proved for all texts. The rest is proved for texts without the sequences that the iterator mishandles (C39), and is false with them (c76_concat_false)."
  },
  {
   "property": "C77",
   "status": "proved",
   "theorems": [
    "Props.BidiConcat.c77_concat",
    "Props.BidiConcat.c77_paragraphs"
   ],
   "note": ""
  },
  {
   "property": "C78",
   "status": "proved",
   "theorems": [
    "Props.NormalText.c78_chars",
    "Props.NormalText.c78_bytes",
    "Props.NormalText.c78_composed",
    "Props.NormalText.c78_buffer"
   ],
   "note": "The factors of UAX #15 for characters and UTF-8 bytes (those of NFC and NFKC in characters follow from NFD and NFKD)."
  },
  {
   "property": "C79",
   "status": "proved",
   "theorems": [
    "Props.NormalText.c79_parts",
    "Props.NormalText.c79_cut",
    "Props.NormalText.c79_chars"
   ],
   "note": ""
  },
  {
   "property": "C80",
   "status": "partial",
   "theorems": [
    "Props.IdnaSpelling.c80_replacement_partial",
    "Props.IdnaSpelling.c80_replacement_false",
    "Props.IdnaSpelling.c80_case",
    "Props.IdnaSpelling.c80_dots",
    "Props.IdnaSpelling.c80_equivalent_partial",
    "Props.IdnaSpelling.c80_equivalent_false_ideograph",
    "Props.IdnaSpelling.c80_equivalent_false_iota"
   ],
   "note": "False as stated for U+2135 to U+2138 (Bidi is decided before mapping), for five compatibility ideographs that are disallowed while their canonical mapping is not, and where U+0345 precedes another mark (mapping comes before normalization); witnesses proved. Everything else is proved; ASCII case and the full stops without exception."
  },
  {
   "property": "C81",
   "status": "proved",
   "theorems": [
    "Props.BidiEquiv.c81_paragraphs",
    "Props.BidiEquiv.c81_levels",
    "Props.BidiEquiv.c81_predicates"
   ],
   "note": ""
  },
  {
   "property": "C82",
   "status": "proved",
   "theorems": [
    "Props.BidiRtl.c82_rtl",
    "Props.BidiRtl.c82_whole"
   ],
   "note": ""
  },
  {
   "property": "C83",
   "status": "proved",
   "theorems": [
    "Props.IdnaErrors.c83_to_unicode",
    "Props.IdnaErrors.c83_to_ascii",
    "Props.IdnaErrors.c83_kinds"
   ],
   "note": ""
  },
  {
   "property": "C84",
   "status": "proved",
   "theorems": [
    "Props.NormalStream.c84_size_hint",
    "Props.NormalStream.c84_display",
    "Props.NormalStream.c84_decomposed_reads",
    "Props.NormalStream.c84_composed_reads",
    "Props.NormalStream.c84_composed_held",
    "Props.NormalReads.c84_decomposition_shape",
    "Props.NormalReads.c84_nfd_reads"
   ],
   "note": ""
  },
  {
   "property": "C85",
   "status": "proved",
   "theorems": [
    "Props.Identifier.c85_xid",
    "Props.Identifier.c85_id",
    "Props.Identifier.c85_equivalent",
    "Props.Identifier.c85_compatible",
    "Props.Identifier.c85_id_compatible_false",
    "Props.Identifier.c85_compatible_converse_false"
   ],
   "note": ""
  },
  {
   "property": "C86",
   "status": "partial",
   "theorems": [
    "Props.BidiShape.c86_analysis_partial",
    "Props.BidiShape.c86_display_partial",
    "Props.BidiShape.c86_replace_partial",
    "Props.BidiShape.c86_false"
   ],
   "note": "proved for texts whose characters agree in class and in length in UTF-8, for every relation of such characters; false of the code for classes alone (c86_false: a two-byte common separator between numbers gets another level than a one-byte one)"
  },
  {
   "property": "C87",
   "status": "proved",
   "theorems": [
    "Props.SegmentShape.c87_word_bounds",
    "Props.SegmentShape.c87_words",
    "Props.SegmentShape.c87_graphemes",
    "Props.SegmentShape.c87_grapheme_indices",
    "Props.SegmentShape.c87_map",
    "Props.SegmentShape.c87_upper"
   ],
   "note": ""
  },
  {
   "property": "C88",
   "status": "partial",
   "theorems": [
    "Props.BidiIsolate.c88_paragraph",
    "Props.BidiIsolate.c88_letters",
    "Props.BidiIsolate.c88_all_partial",
    "Props.BidiIsolate.c88_false",
    "Props.BidiIsolate.c88_depth_false"
   ],
   "note": "Proved without restriction for the paragraph level and for letters and Arabic numbers; for all characters in paragraphs of letters, numbers, neutrals and LRI/RLI isolates nested at most 61 deep. False of the code in general (c88_false: a soft hyphen after the initiator changes the level of the PDI), and false of the annex too where levels overflow (c88_depth_false)."
  },
  {
   "property": "C89",
   "status": "proved",
   "theorems": [
    "Props.IdnaLabels.c89_to_unicode",
    "Props.IdnaLabels.c89_success",
    "Props.IdnaLabels.c89_bidi_false",
    "Props.IdnaLabels.c89_to_ascii",
    "Props.IdnaLabels.c89_lengths"
   ],
   "note": "c89_bidi_false shows that the condition on Bidi names is needed."
  },
  {
   "property": "C90",
   "status": "partial",
   "theorems": [
    "Props.IdnaInjective.c90_partial",
    "Props.IdnaInjective.c90_dns_partial",
    "Props.IdnaInjective.c90_ascii",
    "Props.IdnaInjective.c90_false"
   ],
   "note": "False of the code (c90_false): a label that decodes to an ASCII label beginning with xn-- is accepted, so that U+00FC and xn--xn--tda- share the ASCII form xn--tda. Proved for all names whose Unicode forms have no such label, up to 3855 characters a label, or with the check of lengths. The converse is proved for all names."
  },
  {
   "property": "C91",
   "status": "proved",
   "theorems": [
    "Props.RelationsMore.c91_pattern_syntax",
    "Props.RelationsMore.c91_pattern_white_space",
    "Props.RelationsMore.c91_titlecase_letters",
    "Props.RelationsMore.c91_digraphs",
    "Props.RelationsMore.c91_marks_nsm",
    "Props.RelationsMore.c91_aletter",
    "Props.RelationsMore.c91_brackets",
    "Props.RelationsMore.c91_extend",
    "Props.RelationsMore.c91_blocks_aligned"
   ],
   "note": "Found from edits of tables that no theorem noticed. The two Pattern sets are from memory of the standard; the lists of exceptions in the other theorems were read off the shipped tables, so these fix the tables but are not a comparison with the standard."
  }
 ]
}