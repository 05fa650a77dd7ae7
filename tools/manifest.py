#!/usr/bin/env python3
"""Writes MANIFEST.json from the claim list below."""
import json, os
C = []
def claim(p, status, thms, note=""):
    C.append({"property": p, "status": status, "theorems": thms.split(), "note": note})
R = "Props.CharRange."
def q(ns, names): return " ".join(ns + n for n in names.split())
claim("C01", "proved", q(R, "c01_iteration_exact"))
claim("C02", "proved", q(R, "c02_double_ended c02_fused c02_progress"))
claim("C03", "proved", q(R, "c03_exact_size c03_range_len"))
claim("C04", "proved", q(R, "c04_constructors c04_bound c04_contains_iff_iterated"))
claim("C05", "proved", q(R, "c05_eq_iff_same_contents c05_cmp_char c05_cmp_char_panics_iff"))
claim("C06", "partial", q("Props.ParIter.", "c06_schedules_partial c06_exact c06_items_valid") + " " + q(R, "c06_par_iter_partial c06_par_iter_false c06_par_iter_above_gap"),
      "The full claim is false of the code: ranges starting at or above U+E000 yield shifted items (c06_par_iter_false). Proved under every schedule for every range starting below the surrogates and every empty range; c06_exact shows that the claim holds for no other range.")
T = "Props.Tables."
claim("C08", "proved", q(T, "c08_find c08_contains c08_find_or_default c08_find_with_range c08_iter"))
D = "Props.Derived."
claim("C07", "proved", q(D, "c07_noncharacter c07_noncharacter_count c07_private_use c07_private_use_category c07_disjoint"))
claim("C09", "proved", q("Props.Shipped.", "c09_shipped_tables c09_inner_composition_tables") + " Props.Name.c09_name_tables",
      "All tables of the library: 46 tables, the tables of names, and the tables nested in the composition table.")
claim("C11", "partial", q("Props.Hangul.", "c11_is_syllable c11_decompose c11_recompose c11_compose_exact_partial c11_compose_exact_false c11_compose_11a7"),
      "The exactness of compose_syllable is false of the code: it accepts LV + U+11A7 (c11_compose_exact_false). Proved for every pair whose second character is not U+11A7.")
claim("C34", "proved", q("Props.Level.", "c34_new c34_raise_lower c34_next_ltr c34_next_rtl c34_lowest_ge_rtl c34_history c34_parity c34_has_rtl c34_vec"))
claim("C40", "proved", q("Props.Property.", "c40_general_category c40_bidi_class c40_grapheme_cluster_break c40_word_break c40_sentence_break c40_decomposition_type"))
claim("C41", "proved", q("Props.Property.", "c41_binary_parse c41_binary_roundtrip"))
claim("C42", "proved", q(D, "c42_alphanumeric c42_numeric c42_control c42_combining_mark c42_lowercase_cased c42_uppercase_cased c42_case_disjoint c42_id_start_continue c42_xid_start_continue c42_xid_start_id c42_xid_continue_id c42_pattern_disjoint c42_pattern_not_ident c42_emoji_modifier c42_emoji_modifier_base c42_emoji_presentation c42_bidi_control_format c42_alphabetic_letter c42_cased_letter c42_separator_space c42_ccc_mark c42_casemapped c42_combining_mark_features c42_category_groups c42_groups_by_name"))
claim("C43", "partial", q("Props.Version.", "c43_version_cmp c43_version_total c43_age_partial_reversed c43_age_orders_partial c43_age_orders_agree_false c43_age_values"),
      "The agreement of the partial and total orders of Age is false of the code (c43_age_orders_agree_false); everything else is proved.")
claim("C44", "proved", q(D, "c44_age_iff") + " " + q("Props.Blocks.", "c44_block_iter c44_block_of c44_blocks_disjoint c44_assigned_in_block"))
claim("C46", "proved", q("Props.Blocks.", "c46_name_aliases c46_types_nonempty"))
claim("C48", "partial", q("Props.Direction.", "c48_has_rtl c48_has_bidi_explicit c48_has_ltr_partial c48_has_ltr_false c48_classes"),
      "has_ltr computes the same as has_rtl (c48_has_ltr_false refutes the claim for it); the rest is proved.")
claim("C47", "proved", q("Props.Cli.", "c47_codepoints c47_utf8_hex c47_utf16_hex c47_empty_panics"))
claim("C49", "proved", q("Props.Cli.", "c49_notation c49_notation_injective"))
N = "Props.Normal."
claim("C12", "proved", q(N, "c12_terminates c12_canonical c12_compatible c12_fixed_point c12_decomposition_type"))
claim("C13", "proved", q(N, "c13_nfd c13_nfkd c13_calls"))
claim("C14", "partial", q(N, "c14_nfc c14_calls c14_compose_partial c14_compose_false c14_standard_partial c14_standard_false"),
      "The composition algorithm with the crate's own pairwise compose is proved for all texts (c14_nfc). The pairwise compose is the standard's except that LV + U+11A7 composes; hence equality with the standard's NFC is proved for texts without U+11A7 and refuted in general.")
claim("C15", "proved", q(N, "c15_idempotent"))
claim("C16", "proved", q(N, "c16_idempotent"))
claim("C17", "partial", q(N, "c17_partial c17_false c17_loss"),
      "False of the code for U+11A7 after an LV syllable (c17_false); proved for all texts without U+11A7, and c17_loss bounds the loss for all texts.")
claim("C18", "proved", q(N, "c18_decomposed c18_composed c18_equivalent c18_equivalent_forms"))
claim("C19", "proved", q(N, "c19_ordered c19_nonempty c19_ascii"))
claim("C50", "proved", q(N, "c50_concat c50_concat_forms") + " " + q("Props.NormalText.", "c50_concat_composed c50_ascii"))
PY = "Props.Punycode."
claim("C20", "partial", q(PY, "c20_partial c20_never_wrong c20_false"),
      "False of the code for texts of 3856 characters or more (c20_false: encode succeeds, decode overflows and rejects). Proved for all texts of at most 3855 characters; for all texts below 2^32 characters the result never decodes to a different text.")
claim("C21", "proved", q(PY, "c21 c21_injective c21_basic_needed"),
      "The 'redundant delimiter' of the claim does not occur: the equality is exact up to letter case.")
claim("C22", "proved", q(PY, "c22 c22_digit_range") + " " + q("Props.IdnaInjective.", "c22_length"))
claim("C23", "partial", q(PY, "c23_decode_partial c23_decode_false c23_encode c23_encode_limit"),
      "decode panics on inputs of more than 2^32 bytes (c23_decode_false); proved for all shorter inputs. The encode part is proved in full, with the sharp limit 3855.")
ID = "Props.Idna."
claim("C24", "proved", q(ID, "c24_total c24_replacement c24_stable"))
claim("C25", "proved", q(ID, "c25_ascii c25_dns"))
claim("C26", "proved", q(ID, "c26_reports c26_result c26_ldh"))
claim("C51", "partial", q(ID, "c51_partial c51_ascii_partial c51_false c51_false_ace"),
      "False of the code in general: c51_false (U+2135 maps to a Hebrew letter past the Bidi check) and c51_false_ace (a label that decodes to an ASCII label beginning with xn--). Proved for names without U+2135..2138 whose Unicode form has no ASCII label beginning with xn-- and no label above 3855 characters.")
claim("C52", "proved", q(ID, "c52_to_unicode c52_to_ascii"),
      "The Bidi-name test of the specification is the program's (right-to-left character in the input or in a decoded label); the difference to RFC 5893 is C53.")
claim("C53", "partial", q(ID, "c53_partial c53_input c53_false"),
      "False of the code for U+2135..2138 (c53_false), proved for all other names.")
claim("C54", "partial", q(ID, "c54_to_unicode c54_to_ascii_release c54_to_ascii_partial c54_to_ascii_false"),
      "to_unicode in both builds and to_ascii in release builds: proved. A debug build of to_ascii panics on a label of 3855 letters and one private-use character (c54_to_ascii_false); proved for labels of at most 3855 characters.")
GR = "Props.Grapheme."
claim("C35", "proved", q(GR, "c35_iteration c35_unique"))
claim("C36", "proved", q(GR, "c36_cursor"))
claim("C37", "partial", q("Props.GraphemeChunk.", "c37_query_partial c37_query_panics c37_query_false c37_next_partial c37_next_false c37_prev_partial c37_prev_necessary c37_prev_false") + " " + q("Props.GraphemeAsk.", "c37_asks c37_query_prepend"),
      "False of the code. Queries: c37_query_partial and c37_query_panics together say at exactly which positions a fresh cursor answers rightly and where it panics. Forward iteration: proved for all chunkings whose chunks start cleanly, refuted for a chunk starting with a regional indicator. Backward iteration from the end: c37_prev_partial proves it for the chunkings that can be read backward (last chunk of at least two characters, no later chunk starting with a run of regional indicators or of Extend before an emoji modifier), c37_prev_necessary that every other chunking ends in an error or a panic, c37_prev_false gives witnesses.")
WD = "Props.Word."
claim("C38", "proved", q(WD, "c38_partition c38_words c38_words_forward c38_words_backward c38_table"))
claim("C39", "partial", q(WD, "c39_boundaries_partial c39_no_zwj_partial c39_forward_false c39_forward_false' c39_backward_false"),
      "False of the code: three sequences with ZWJ or emoji modifiers are mishandled by next and one by next_back, with witnesses from the real property table, on which the two directions disagree. For every text without those sequences (NextClean, NextBackClean) any mix of calls is proved to follow rules WB1-WB999.")
claim("C55", "partial", q("Props.PunycodeRfc.", "c55_decode_partial c55_decode_complete c55_encode c55_decode_false"),
      "Against a separate transcription of RFC 3492 over unbounded integers. decode: exact for all ASCII texts below 2^32 bytes; for others it accepts what the RFC rejects (c55_decode_false). encode: texts of at most 3855 characters, beyond which it can overflow (C23).")
BI = "Props.Bidi."
claim("C27", "proved", q(BI, "c27_exists c27_unique c27_paragraphs"), "Default levels up to 125 or none; Level::new(126) as default is C29.")
claim("C28", "proved", q(BI, "c28_per_byte"))
claim("C29", "proved", q(BI, "c29_total c29_default_126"), "c29_default_126 shows that the bound 125 on the default level is needed.")
claim("C30", "proved", q(BI, "c30_explicit c30_removed c30_stack"))
claim("C31", "proved", q(BI, "c31_level_runs c31_sequences"))
claim("C60", "proved", q("Props.Relations.", "c60_case_ignorable c60_cased c60_changes_cased c60_changes_lowercased c60_changes_uppercased c60_case_letters c60_white_space c60_id_start c60_id_continue c60_bidi_control c60_bidi_mirrored c60_bidi_nsm c60_emoji_component c60_emoji_break c60_regional c60_gcb_control c60_gcb_format c60_gcb_marks c60_wb_gcb c60_wb_extend c60_wb_newline c60_wb_numeric c60_wb_connector c60_sb_wb c60_sb_space c60_sb_case c60_sb_letter c60_sb_close c60_hangul c60_jamo"),
  "Each theorem is about every number. A relation is checked on every piece on which all its tables are constant and lifted to every character by a proved merge of step functions.")
claim("C61", "partial", q("Props.WordGrapheme.", "c61_boundaries_partial c61_words_partial c61_not_prepend c61_not_vowel c61_not_flags"),
  "False in general, with the rules of UAX #29 as well: each c61_not_... gives a text. Proved for every text without the three causes (a regional indicator directly before a character that WB4 skips; for extended clusters, prepended characters and the two letters U+0E33 and U+0EB3).")
claim("C59", "partial", q(BI, "c59_covered c59_once c59_sequences_partial c59_levels_partial c59_plain_partial c59_not_number c59_not_separator c59_not_wide c59_not_mark c59_not_terminator c59_not_end c59_not_gap c59_not_initiator"),
      "False of the code in general: each c59_not_... gives a text where the one pass of the code differs from the passes of the annex. Proved for paragraphs without isolate initiators directly before removed characters and without neutrals directly after them, for all sequences in which W1, W2, W4 and W5 do not meet in these ways (OnePass); in particular for all paragraphs without separators, terminators, marks and removed characters. Rule N0 is not in the code and not in the specification.")
claim("C32", "partial", q(BI, "c32_visual_runs c32_no_panic c32_reorder_partial c32_reorder_lines_partial c32_not_reorder c32_panic"),
      "visual_runs: proved for every non-empty line (it panics exactly if all levels of the line are 126). reorder_line: false in general (c32_not_reorder: it panics on the second line of a text, since rule L1 is applied at offsets relative to the line); proved for every line on which visual_runs does not give the bytes of a character different levels, in particular the first line and lines not longer than what precedes them.")
claim("C33", "proved", q(BI, "c33_ltr c33_zero c33_has_rtl"))
claim("C56", "proved", q(BI, "c56_strong c56_bounds c56_removed"))
claim("C57", "partial", q(BI, "c57_l1_partial c57_not_l1 c57_l2_partial c57_not_l2 c57_per_char"),
      "False of the code in general: L1 is applied at line-relative offsets (c57_not_l1) and L2 uses the levels before L1 (c57_not_l2). Proved: L1 for the first line, L2 for lines on which L1 changes nothing.")
NM = "Props.Name."
claim("C45", "proved", q(NM, "c45_len c45_order c45_trans c45_distinct c45_not_constructed"),
      "For the names of characters. c45_not_constructed shows that values of the public enum which Name::of never returns lack these properties.")
claim("C58", "proved", q(NM, "c58_named c58_unique c58_text c58_hangul c58_ideograph c58_ascii"))
claim("C10", "proved", q("Props.Gen.", "c10_range c10_range_maximal c10_direct c10_set"),
      "The text written is read back by a separate reader of table literals (Spec.TableText). Values must be written without line breaks, as all writers of the generator do.")
claim("C62", "proved", q("Props.GenFiles.", "c62_breaks c62_blocks c62_ages c62_idna"),
      "End to end: text of the data file, regular expression of the code with backtracking, map, text of the table, reader, lookup. Hypotheses on the files (Spec.UcdFile): lines that are not rows do not start with a hexadecimal digit, every line ends with a line feed, a range in IdnaMappingTable.txt has both ends characters or both surrogates; before and after the semicolon of break properties and ages there is a blank.")
claim("C63", "proved", q("Props.GenFiles.", "c63_prop_list c63_derived c63_emoji"),
      "End to end as C62, for every assignment of word characters and white space beyond ASCII by the crate regex. The labels of the rows are the properties of Unicode 10; with other labels the code panics.")
claim("C64", "proved", q("Props.GenUcd.", "c64_category c64_bidi_class c64_combining_class c64_mirrored c64_categories c64_alphanumeric"),
      "End to end as C62. A file is any ascending sequence of lines and of ranges whose two lines are named `<label, First>` and `<label, Last>` and agree in their other fields.")
claim("C65", "proved", q("Props.GenUcd.", "c65_canonical c65_compatibility c65_composition c65_long_mapping"),
      "Compatibility tags are those of UAX #44. The table of compositions needs mappings of one or two characters, else the code panics (c65_long_mapping), and that two characters with one mapping are not both composed.")
claim("C66", "proved", q("Props.GenUcd.", "c66_names c66_jamo"),
      "Names are words of capital letters, digits and hyphens with one space between them, as the standard requires. The table and the constants are read by Spec.UcdNames.")
claim("C67", "proved", q("Props.GenUcd.", "c67_aliases c67_types"), "The five types of aliases of Unicode 10; another type makes the code panic.")
claim("C68", "proved", q("Props.GenUcd.", "c68_unicode c68_emoji c68_no_version"), "For every assignment of digits beyond ASCII by the crate regex; the numbers fit the types of the code (16 bits, 8 bits for emoji).")
claim("C69", "partial", q("Props.BidiDefaults.", "c69_unassigned_partial c69_boundary_neutral_false c69_all_wrong c69_noncharacters"),
      "The full claim is false: the generator has no default BN, so that all noncharacters and unassigned default ignorable characters get L (c69_boundary_neutral_false, c69_all_wrong). Proved for all other unassigned characters.")
claim("C70", "partial", q("Props.SegmentNormal.", "c70_equivalent_partial c70_nfd_partial c70_iteration_partial c70_nfc_partial c70_false c70_legacy_false"),
      "Proved for extended clusters and all texts in which no emoji modifier follows an emoji base through a spacing mark; false without that condition (c70_false) and for legacy clusters (c70_legacy_false). The NFC form excludes U+11A7 (C17).")
claim("C71", "proved", q("Props.WordNormal.", "c71_equivalent c71_nfd c71_iteration c71_iteration_nfd c71_clean c71_nfc_partial c71_iteration_nfc_partial") + " " + q("Props.SegmentShape.", "c71_words"),
      "Proved for the boundaries of the rules (UAX #29: c71_equivalent, c71_nfd) and, for all texts and all sequences of calls, for the iterators (c71_iteration, c71_iteration_nfd), including the texts on which these depart from the rules (C39). The NFC forms, beyond the claim, exclude U+11A7 (C17).")
claim("C72", "proved", q("Props.Echo.", "c72_literal c72_literal_unique c72_literal_injective c72_escaped c72_aliases c72_ascii c72_codepoints c72_utf8_hex c72_utf16_hex c72_newline c72_names c72_help c72_convert c72_total c72_newline_switch"),
      "For every set of characters shown by char::escape_debug that leaves out U+2028 and U+2029, and every notion of word character beyond ASCII of the crate regex. c72_convert is for texts that are not empty (C47); c72_newline shows that the newline written without -n is refused.")
claim("C73", "proved", q("Props.Inspector.", "c73_row c73_run c73_names_differ"), "The rows, not their layout by the crate prettytable.")
claim("C74", "proved", q("Props.GenTests.", "c74_normalization c74_grapheme c74_word c74_parts c74_values c74_values_panic"), "The crate regex by its documented meaning; the signs ÷ and × are assumed to be neither word characters nor white space for it.")
claim("C75", "proved", q("Props.SegmentConcat.", "c75_concat c75_concat_conv c75_prefix c75_infix c75_one c75_restart"))
claim("C76", "partial", q("Props.SegmentConcat.", "c76_restart c76_concat_partial c76_prefix_partial c76_infix_partial c76_concat_false"),
      "Replacing an iterator by a new one is proved for all texts. The rest is proved for texts without the sequences that the iterator mishandles (C39), and is false with them (c76_concat_false).")
claim("C77", "proved", q("Props.BidiConcat.", "c77_concat c77_paragraphs"))
claim("C78", "proved", q("Props.NormalText.", "c78_chars c78_bytes c78_composed c78_buffer"), "The factors of UAX #15 for characters and UTF-8 bytes (those of NFC and NFKC in characters follow from NFD and NFKD).")
claim("C79", "proved", q("Props.NormalText.", "c79_parts c79_cut c79_chars"))
claim("C80", "partial", q("Props.IdnaSpelling.", "c80_replacement_partial c80_replacement_false c80_case c80_dots c80_equivalent_partial c80_equivalent_false_ideograph c80_equivalent_false_iota"),
  "False as stated for U+2135 to U+2138 (Bidi is decided before mapping), for five compatibility ideographs that are disallowed while their canonical mapping is not, and where U+0345 precedes another mark (mapping comes before normalization); witnesses proved. Everything else is proved; ASCII case and the full stops without exception.")
claim("C81", "proved", q("Props.BidiEquiv.", "c81_paragraphs c81_levels c81_predicates"))
claim("C82", "proved", q("Props.BidiRtl.", "c82_rtl c82_whole"))
claim("C83", "proved", q("Props.IdnaErrors.", "c83_to_unicode c83_to_ascii c83_kinds"))
claim("C84", "proved", q("Props.NormalStream.", "c84_size_hint c84_display c84_decomposed_reads c84_composed_reads c84_composed_held") + " " + q("Props.NormalReads.", "c84_decomposition_shape c84_nfd_reads"))

claim("C85", "proved", q("Props.Identifier.", "c85_xid c85_id c85_equivalent c85_compatible c85_id_compatible_false c85_compatible_converse_false"))
claim("C86", "partial", q("Props.BidiShape.", "c86_analysis_partial c86_display_partial c86_replace_partial c86_false"),
      "proved for texts whose characters agree in class and in length in UTF-8, for every relation of such characters; false of the code for classes alone (c86_false: a two-byte common separator between numbers gets another level than a one-byte one)")

claim("C87", "proved", q("Props.SegmentShape.", "c87_word_bounds c87_words c87_graphemes c87_grapheme_indices c87_map c87_upper"))

claim("C88", "partial", q("Props.BidiIsolate.", "c88_paragraph c88_letters c88_all_partial c88_false c88_depth_false"),
      "Proved without restriction for the paragraph level and for letters and Arabic numbers; for all characters in paragraphs of letters, numbers, neutrals and LRI/RLI isolates nested at most 61 deep. False of the code in general (c88_false: a soft hyphen after the initiator changes the level of the PDI), and false of the annex too where levels overflow (c88_depth_false).")

claim("C89", "proved", q("Props.IdnaLabels.", "c89_to_unicode c89_success c89_bidi_false c89_to_ascii c89_lengths"),
      "c89_bidi_false shows that the condition on Bidi names is needed.")

claim("C90", "partial", q("Props.IdnaInjective.", "c90_partial c90_dns_partial c90_ascii c90_false"),
      "False of the code (c90_false): a label that decodes to an ASCII label beginning with xn-- is accepted, so that U+00FC and xn--xn--tda- share the ASCII form xn--tda. Proved for all names whose Unicode forms have no such label, up to 3855 characters a label, or with the check of lengths. The converse is proved for all names.")

claim("C91", "proved", q("Props.RelationsMore.", "c91_pattern_syntax c91_pattern_white_space c91_titlecase_letters c91_digraphs c91_marks_nsm c91_aletter c91_brackets c91_extend c91_blocks_aligned"),
      "Found from edits of tables that no theorem noticed. The two Pattern sets are from memory of the standard; the lists of exceptions in the other theorems were read off the shipped tables, so these fix the tables but are not a comparison with the standard.")


if __name__ == "__main__":
    p = os.path.join(os.path.dirname(os.path.abspath(__file__)), "..", "MANIFEST.json")
    json.dump({"claims": C}, open(p, "w"), indent=1)
