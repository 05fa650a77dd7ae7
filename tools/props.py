#!/usr/bin/env python3
"""Writes /verif/properties.jsonl.  (id, title, statement, quantifier, why_tests_cant, anchors)"""
import json
P=[]
def p(id,title,statement,quantifier,why,anchors):
    P.append(dict(id=id,title=title,statement=statement,quantifier=quantifier,why_tests_cant=why,anchors=anchors))

R="unic/char/range/src/"
p("C01","Range iteration is exact and ordered",
  "Iterating any character range forward yields every Unicode scalar value between its two ends, each exactly once, in ascending order, never a surrogate and never a value outside the range.",
  "all pairs of scalar values (low, high), including empty ranges and ranges touching U+0000, U+10FFFF and the surrogate gap",
  "About 6*10^11 ranges; unit tests only iterate the full range and a few short ones.",
  [R+"iter.rs: CharIter::next, step_forward",R+"step.rs: forward",R+"range.rs: CharRange::iter"])
p("C02","Double-ended iteration never loses, repeats or reorders a character",
  "For every interleaving of next() and next_back() on a range iterator, the values taken from the front form a prefix and the values taken from the back (reversed) a suffix of the full ascending sequence, they never overlap, and once the iterator has returned None it returns None forever from both ends.",
  "all ranges and all finite call histories over {next, next_back}",
  "The number of call histories is unbounded.",
  [R+"iter.rs: CharIter::next, next_back, step_forward, step_backward, is_finished"])
p("C03","Exact-size reporting is exact in every reachable state",
  "After any history of calls, len() and size_hint() equal the number of characters still to be produced; last()/max() and min() return the greatest and the least of them, and None exactly when there is none.",
  "all ranges and all finite call histories",
  "The surrogate correction depends on where both ends are after partial consumption; tests look at fresh ranges only.",
  [R+"iter.rs: ExactSizeIterator::len, size_hint, last, max, min",R+"range.rs: CharRange::len"])
p("C04","Range constructors denote the intervals they name",
  "closed, open_right, open_left, open, bound, all and the chars! forms contain exactly the scalar values of the mathematical interval they denote; contains() agrees with membership in iteration.",
  "all pairs of scalar values and every constructor",
  "The empty-interval normalisation and the steps across the surrogate gap and the two ends of the code space are corner cases over a huge domain.",
  [R+"range.rs: closed, open_right, open_left, open, bound, all, assigned_normal_planes, contains"])
p("C05","Range equality is equality of contents, comparison is positional",
  "Two ranges compare equal exactly when they contain the same characters (all empty ranges are equal); on a non-empty range, cmp_char says Equal exactly for members, Greater exactly when the needle is below every member, Less when it is above, and it never panics.",
  "all pairs of ranges, all needles",
  "Quantifies over pairs of ranges.",
  [R+"range.rs: PartialEq, cmp_char, is_empty"])
p("C06","Parallel iteration produces the same sequence as sequential iteration",
  "The indexed parallel iterator of a range yields exactly the sequence of the sequential iterator.",
  "all ranges, all ways in which the work is split among threads",
  "The only existing test is the full range; ranges that start above the surrogate gap behave differently.",
  [R+"par_iter.rs: compact_range, into_par_iter"])
p("C07","Noncharacter and private-use predicates are exact",
  "is_noncharacter holds exactly for U+FDD0..U+FDEF and the last two code points of each of the 17 planes (66 in total); is_private_use exactly for U+E000..U+F8FF and planes 15/16 without their noncharacters; no character is both, and general category Private_Use coincides with is_private_use.",
  "all Unicode scalar values",
  "Needs a statement about every scalar value and about agreement of independently generated data.",
  ["unic/char/basics/src/noncharacter.rs: is_noncharacter","unic/char/basics/src/private_use.rs: is_private_use","unic/ucd/category/tables/general_category.rsv"])
T="unic/char/property/src/"
p("C08","Character table lookup agrees with the table's meaning",
  "On any table whose entries are in ascending, disjoint order, find / contains / find_with_range / find_or_default return precisely the entry covering the character, and nothing when no entry covers it; iter() enumerates every entry once, in order.",
  "all well-ordered direct and range tables, all value types, all needles",
  "Binary search over every possible table.",
  [T+"tables.rs: CharDataTable::{contains,find,find_with_range,find_or_default,iter}"])
p("C09","Every shipped data table is well-formed",
  "Every data table shipped with the library is strictly ascending, pairwise disjoint, has only non-empty ranges of scalar values, so that lookups are exact and never panic for any character.",
  "every entry of every shipped table, and every character looked up in it",
  "Tests probe a few characters per table; a single misplaced entry silently breaks binary search for others.",
  ["unic/ucd/*/tables/*.rsv","unic/idna/mapping/tables/idna_mapping.rsv","unic/emoji/char/tables/*.rsv",T+"tables.rs"])
p("C10","Table generation and lookup are inverse",
  "For any character map (or set), the table text generated from it describes a table on which lookup returns exactly the map's value for mapped characters and nothing for others; range compression never merges across a gap or across different values, and never asserts.",
  "all finite maps from scalar values to values, all finite sets of scalar values",
  "Unbounded family of maps.",
  ["gen/src/writer/utils/tables/range.rs: to_range_char_table","gen/src/writer/utils/tables/set.rs: to_range_char_set","gen/src/writer/utils/tables/direct.rs: to_direct_char_table"])
p("C11","Hangul composition and decomposition are mutually inverse",
  "decompose_syllable of every precomposed syllable yields an L V or L V T sequence of conjoining jamo that composes back to it; compose_syllable succeeds exactly on (L,V) and (LV,T) pairs as defined by the standard and its result decomposes to the canonical decomposition of the pair.",
  "all pairs of characters",
  "10^12 pairs; boundary U+11A7 is exactly what existing tests miss.",
  ["unic/ucd/hangul/src/hangul.rs: decompose_syllable, compose_syllable, is_syllable"])
D="unic/ucd/normal/src/"
p("C12","Full decomposition terminates and reaches a fixed point",
  "Canonical and compatibility decomposition of any character terminate, emit at least one character, and every emitted character decomposes to itself.",
  "all characters, both decomposition kinds",
  "Recursive expansion through tables of several thousand entries.",
  [D+"decomposition.rs: decompose_canonical, decompose_compatible",D+"decomposition.rs: canonical_decomposition"])
N="unic/normal/src/"
p("C13","NFD and NFKD are the standard's normalization forms",
  "Collecting the nfd()/nfkd() iterator of a string gives the canonical ordering (stable sort by combining class of every maximal run of non-starters) of the full canonical/compatibility decompositions of its characters.",
  "all strings",
  "The iterator interleaves buffering, sorting and emission; strings and run lengths are unbounded.",
  [N+"decompose.rs: Decompositions::next, canonical_sort",N+"lib.rs: StrNormalForm"])
p("C14","NFC and NFKC are the canonical composition of NFD and NFKD",
  "Collecting nfc()/nfkc() gives the result of the canonical composition algorithm (D117: each character is merged with the last starter unless blocked) applied to the NFD/NFKD form.",
  "all strings",
  "The recomposition state machine has four states and an unbounded buffer.",
  [N+"recompose.rs: Recompositions::next",D+"lib.rs: compose",D+"composition.rs: canonical_composition"])
p("C15","NFD and NFKD are idempotent","nfd(nfd(s)) = nfd(s) and nfkd(nfkd(s)) = nfkd(s).","all strings","Unbounded inputs.",
  [N+"decompose.rs",D+"decomposition.rs"])
p("C16","NFC and NFKC are idempotent","nfc(nfc(s)) = nfc(s) and nfkc(nfkc(s)) = nfkc(s).","all strings","Unbounded inputs; depends on consistency of composition and decomposition data.",
  [N+"recompose.rs",D+"composition.rs"])
p("C17","NFC preserves canonical equivalence",
  "nfd(nfc(s)) = nfd(s) and nfkd(nfkc(s)) = nfkd(s): composing never loses or changes characters.",
  "all strings","Unbounded inputs; the conformance suite has no U+11A7 after an LV syllable.",
  [N+"recompose.rs","unic/ucd/hangul/src/hangul.rs: compose_syllable"])
p("C18","Normalization forms absorb each other",
  "nfkd(nfd(s)) = nfkd(s) = nfd(nfkd(s)), nfc(nfd(s)) = nfc(s), nfkc(nfkd(s)) = nfkc(s), nfkc(nfc(s)) = nfkc(s); canonically equivalent strings have equal NFC.",
  "all strings","Unbounded inputs.",
  [N+"decompose.rs",N+"recompose.rs"])
p("C19","Normalized text is canonically ordered and pure ASCII is untouched",
  "In the output of nfd/nfkd no non-starter follows one of greater combining class; all four forms leave ASCII strings unchanged and never produce an empty output from a non-empty input.",
  "all strings","Unbounded inputs.",
  [N+"decompose.rs: canonical_sort",N+"recompose.rs"])
K="unic/idna/punycode/src/lib.rs"
p("C20","Punycode decoding inverts encoding",
  "Whenever encode(s) returns a string, decode of that string returns s.",
  "all sequences of scalar values","Unbounded inputs, variable-length integers with adaptive bias.",
  [K+": encode, decode, adapt, value_to_digit"])
p("C21","Punycode encoding inverts decoding up to letter case",
  "If decode(p) = s for a p whose basic part is ASCII, encode(s) returns p up to the case of the extended digits and a redundant delimiter; so two Punycode strings decode to the same text only if they are the same modulo that.",
  "all ASCII strings accepted by decode","Unbounded inputs.",
  [K+": decode, encode"])
p("C22","Punycode output alphabet",
  "encode returns only ASCII; after the copied ASCII characters and the delimiter it emits only lower-case letters and digits; value_to_digit is never called out of range.",
  "all sequences of scalar values","Unbounded inputs.",
  [K+": encode, value_to_digit"])
p("C23","Punycode never panics, and succeeds on label-sized input",
  "decode returns a value for every string without arithmetic overflow, division by zero or out-of-range insertion; encode succeeds, without overflow, for every input of at most 3854 characters (where (length+1) * 0x10FFFF fits in u32).",
  "all strings / all bounded-length inputs","Unbounded inputs and accumulated u32 arithmetic.",
  [K+": encode, decode, adapt"])
I="unic/idna/"
p("C24","IDNA mapping is total and stable",
  "Mapping::of returns a status for every character without panicking; mapping a character's replacement again leaves it unchanged (every replacement character is itself valid or disallowed only by STD3).",
  "all characters","Requires the 7600-entry table to tile the whole code space.",
  [I+"mapping/src/mapping.rs: Mapping::of",I+"mapping/tables/idna_mapping.rsv"])
p("C25","IDNA to_ascii success means a DNS-safe result",
  "When to_ascii succeeds the result is pure ASCII, and with length verification every label is 1..63 bytes and the whole name at most 253 bytes (a trailing root dot aside).",
  "all strings, all flag combinations","Unbounded inputs through mapping, normalization, validation and Punycode.",
  [I+"src/process.rs: to_ascii, processing, validate"])
p("C26","IDNA conversion errors are complete",
  "to_unicode / to_ascii report an error whenever a label contains a character whose mapping status is disallowed under the given flags; pure lower-case ASCII letter-digit domain names with no 'xn--' label are returned unchanged without errors.",
  "all strings, all flag combinations","Unbounded inputs.",
  [I+"src/process.rs: processing, map_char, validate, passes_bidi"])
B="unic/bidi/src/"
p("C27","Bidi paragraphs partition the text",
  "BidiInfo::new splits the text into consecutive, non-empty, non-overlapping paragraphs that cover it exactly, each ending at (and including) a paragraph separator or at the end of text, always on character boundaries.",
  "all strings, all default levels","Unbounded inputs.",
  [B+"bidi_info.rs: InitialInfo::new"])
p("C28","Bidi analysis is per-byte complete and uniform per character",
  "levels and original_classes have exactly one entry per byte of text, and all bytes of one character carry the same level and class.",
  "all strings, all default levels","Unbounded inputs; multi-byte bookkeeping is spread over five passes.",
  [B+"bidi_info.rs: BidiInfo::new",B+"explicit.rs: compute",B+"implicit.rs",B+"prepare.rs"])
p("C29","Embedding levels stay in range and analysis never panics",
  "For every text and every default level up to 125 (or none), BidiInfo::new returns without panicking and every level is at most 126.",
  "all strings, all default levels","Unbounded inputs, nested embeddings beyond the depth limit.",
  [B+"bidi_info.rs",B+"explicit.rs",B+"implicit.rs",B+"level.rs"])
p("C30","Explicit levels follow UAX #9 X1-X8",
  "Explicit levels and directional overrides assigned to every character equal those of rules X1-X8 stated over an abstract directional-status stack, for any nesting of embeddings, overrides and isolates, including overflow and unmatched closers; the stack never empties and never exceeds 127 entries.",
  "all sequences of bidi classes, all paragraph levels","Nesting depth and interleaving of openers/closers are unbounded.",
  [B+"explicit.rs: compute"])
p("C31","Isolating run sequences partition the paragraph",
  "Level runs are the maximal runs of equal level and tile the paragraph; every level run belongs to exactly one isolating run sequence.",
  "all strings","Unbounded inputs.",
  [B+"prepare.rs: level_runs, isolating_run_sequences"])
p("C32","Visual runs are a permutation of the line",
  "For every line, visual_runs returns runs that tile the line exactly once; reordering a line outputs every character of the line exactly once.",
  "all texts, paragraphs and lines inside them","Unbounded inputs.",
  [B+"bidi_info.rs: visual_runs, reorder_line"])
p("C33","Left-to-right text is left alone",
  "A text containing only characters of left-to-right or neutral classes has all levels 0 under an automatic base direction, has_rtl() is false and reorder_line returns the line unchanged; has_rtl() is true exactly when some level is odd.",
  "all strings of such characters, all lines","Unbounded inputs.",
  [B+"bidi_info.rs: has_rtl, reorder_line, visual_runs"])
p("C34","Level arithmetic keeps its invariants",
  "Every Level obtained through the public constructors and operations is at most 126; next_rtl / next_ltr give the least greater odd / even level; operations that would leave the range fail without modifying the level.",
  "all levels and amounts, all operation histories","Operation histories are unbounded (finite state, unbounded schedule).",
  [B+"level.rs: Level::*"])
S="unic/segment/src/"
p("C35","Grapheme iteration partitions the text",
  "Graphemes yields non-empty pieces whose concatenation is the input, in extended and legacy mode, from the front, from the back, or mixed; GraphemeIndices reports their byte offsets.",
  "all strings, all call histories","Unbounded inputs and histories.",
  [S+"grapheme.rs: Graphemes, GraphemeIndices, GraphemeCursor::next_boundary, prev_boundary"])
p("C36","Grapheme boundaries are exactly those of UAX #29",
  "is_boundary(offset) is true exactly when rules GB1-GB999 allow a break there, for every text and every character offset, and next_boundary / prev_boundary move to the nearest such offset; so forward and backward iteration produce the same clusters.",
  "all strings and offsets","Regional-indicator parity and emoji sequences need unbounded look-back.",
  [S+"grapheme.rs: check_pair, is_boundary, next_boundary, prev_boundary, handle_regional, handle_emoji"])
p("C37","Chunked grapheme segmentation agrees with whole-text segmentation",
  "Feeding the text to a GraphemeCursor in arbitrary chunks, answering its context requests, gives the same boundaries as the whole text.",
  "all strings, all chunkings","All chunkings of all strings.",
  [S+"grapheme.rs: provide_context, is_boundary"])
p("C38","Word iteration partitions the text",
  "split_word_bounds yields non-empty pieces whose concatenation is the input, forward and backward; Words yields exactly the filtered pieces; word_bound_indices reports byte offsets.",
  "all strings","Unbounded inputs.",
  [S+"word.rs: WordBounds::next, next_back, Words, WordBoundIndices"])
p("C39","Word boundaries are those of UAX #29 and direction-independent",
  "The boundaries produced going forward are exactly the WB rule boundaries and equal those produced going backward.",
  "all strings","Unbounded look-ahead / look-back.",
  [S+"word.rs: WordBounds::next, next_back"])
p("C40","Property value names parse back",
  "For every enumerated character property, parsing any value's abbreviated or long name, in any ASCII letter case, returns that value; no other string parses; all_values lists every value once.",
  "all property values, all strings","All strings and all case variants.",
  [T+"macros.rs: char_property! FromStr","unic/ucd/*/src/*.rs enums"])
p("C41","Binary properties parse and print consistently",
  "For every binary character property the strings y/yes/t/true and n/no/f/false in any ASCII case, and only those, parse; the printed form parses back.",
  "all strings","All strings.",
  [T+"macros.rs: char_property! (bool)",T+"property.rs: BinaryCharProperty"])
p("C42","Derived character properties agree with each other",
  "For every character: alphanumeric = alphabetic or numeric; numeric = general category N*; control = Cc; the combining-mark predicate = general category M*; uppercase/lowercase imply cased, and are disjoint; ID/XID start implies continue, XID implies ID; pattern syntax and pattern white space are disjoint and never identifier characters; changes-when-casemapped is the union of its three parts; emoji presentation/modifier/modifier-base imply emoji.",
  "all characters","Agreement of independently generated tables over the whole code space.",
  ["unic/ucd/common/tables","unic/ucd/ident/tables","unic/ucd/case/tables","unic/ucd/category/tables","unic/ucd/normal/tables/general_category_mark.rsv","unic/emoji/char/tables"])
p("C43","Age and version ordering",
  "UnicodeVersion comparison is the lexicographic total order; Age reverses it, and its partial and total orders agree.",
  "all versions","All triples.",
  ["unic/common/src/version.rs","unic/ucd/age/src/age.rs: Ord, PartialOrd"])
p("C44","Age, category and block cover the assigned characters consistently",
  "A character has an age exactly when it is assigned or a noncharacter; every assigned character lies in a block; Block::of(ch).range contains ch and blocks are disjoint with unique names; iterating blocks yields exactly those ranges.",
  "all characters","Agreement of tables over the whole code space.",
  ["unic/ucd/age","unic/ucd/block/src/block.rs","unic/ucd/category"])
p("C45","Character names: display length and total order",
  "For every character with a name, Name::len equals the byte length of its displayed form and displaying never panics; comparison of names is a total order consistent with equality.",
  "all characters; all pairs and triples of names","All characters and pairs.",
  ["unic/ucd/name/src/name.rs: of, len, Display, Ord"])
p("C46","Name alias index is complete",
  "NameAliasType::of(ch) lists a type exactly when name_aliases_of(ch, type) returns aliases, and those lists are non-empty.",
  "all characters and alias types","Agreement of six tables over the whole code space.",
  ["unic/ucd/name_aliases/src/name_aliases.rs"])
p("C47","Command-line formats round-trip",
  "Writing a non-empty string as code points, UTF-8 hex or UTF-16 hex and parsing the output with the matching parser returns the string.",
  "all non-empty strings","Unbounded inputs.",
  ["apps/cli/src/writers.rs","apps/cli/src/parsers.rs","apps/cli/src/bin/unic-echo.rs"])
p("C48","String direction predicates",
  "has_rtl / has_ltr / has_bidi_explicit hold exactly when some character has the corresponding direction or category; category partitions all bidi classes.",
  "all strings","Unbounded inputs.",
  ["unic/ucd/bidi/src/bidi_class.rs: StrBidiClass, category, is_ltr, is_rtl"])
p("C49","Code point notation is faithful",
  "The U+XXXX notation of a character has at least four upper-case hex digits without superfluous zeros and determines the character.",
  "all characters","All characters.",
  ["unic/char/basics/src/notation.rs"])
p("C50","Normalizing a concatenation",
  "NFD/NFKD of a concatenation is the concatenation of the forms when the second form begins with a starter; the same holds of NFC/NFKC if moreover this starter never composes with a character before it, as before any ASCII character; in general all four forms of s+t depend only on the decomposed forms of s and t.",
  "all pairs of strings","Unbounded inputs; reordering across the boundary.",
  ["unic/normal/src/decompose.rs","unic/normal/src/recompose.rs"])
p("C51","IDNA conversions are stable",
  "The ASCII form that to_ascii returns is a fixed point of to_ascii, and to_unicode of it gives the same Unicode form as to_unicode of the original name, without errors.",
  "all strings for which both conversions succeed, all flag combinations","Unbounded inputs through mapping, normalization, validation and Punycode both ways.",
  ["unic/idna/src/process.rs: to_ascii, to_unicode"])
p("C52","IDNA conversions succeed exactly when UTS #46 says so",
  "to_unicode (to_ascii) returns no error exactly when the steps of UTS #46 processing all succeed: no disallowed character, and after mapping, NFC and breaking, every label (decoded if it begins with xn--) is in NFC, has no hyphen at either end, does not begin with a mark, has only characters of an allowed status, and obeys the Bidi rule in a Bidi name; the result then consists of those labels (of their ASCII forms).",
  "all strings, all flag combinations","Unbounded inputs; an equivalence.",
  ["unic/idna/src/process.rs: processing, validate, passes_bidi, to_ascii, to_unicode"])
p("C53","IDNA enforces the Bidi rule",
  "If an accepted name contains a right-to-left character (class R, AL or AN), every non-empty label of it obeys the six conditions of RFC 5893.",
  "all strings, all flag combinations","Unbounded inputs; the rule concerns every label of the result.",
  ["unic/idna/src/process.rs: passes_bidi, processing"])
p("C54","IDNA conversions never panic",
  "to_ascii and to_unicode return on every string, in debug and release builds, and what to_unicode returns consists of valid characters.",
  "all strings shorter than 2^23 characters, all flag combinations, both build modes","Arithmetic overflow deep inside Punycode, table lookups that unwrap.",
  ["unic/idna/src/process.rs","unic/idna/punycode/src/lib.rs","unic/idna/mapping/src/mapping.rs"])
p("C55","Punycode is the encoding of RFC 3492",
  "decode accepts exactly the ASCII strings that the decoding procedure of RFC 3492 (with 32-bit integers) accepts and returns what the procedure returns; encode returns the string, unique up to the letter case of the digits, that the procedure decodes to its argument.",
  "all strings, debug and release builds","Unbounded inputs; agreement with an external standard, not only of the two functions with each other.",
  ["unic/idna/punycode/src/lib.rs: decode, encode, adapt"])
p("C56","Resolved levels of strong characters follow UAX #9",
  "Every letter (class L, R or AL), every Arabic number and every character under a directional override gets the level rules W3, I1 and I2 give it from its explicit level; every other character that rule X9 does not remove gets its explicit level raised by at most two; a removed character gets the level of the character before it.",
  "all strings, all default levels up to 125","Unbounded inputs; five passes over shared arrays.",
  ["unic/bidi/src/implicit.rs","unic/bidi/src/bidi_info.rs: assign_levels_to_removed_chars"])
p("C57","Lines are laid out by rules L1 and L2 of UAX #9",
  "For every line, reordered_levels gives separators, and white space and isolate formatting characters before them or at the end of the line, the paragraph level and keeps all other levels (L1); reorder_line puts out the characters of the line in the order rule L2 makes of these levels; reordered_levels_per_char gives one level per character, the one at its first byte.",
  "all texts, paragraphs and lines","Unbounded inputs; reversal of nested runs.",
  ["unic/bidi/src/bidi_info.rs: visual_runs, reorder_line, reordered_levels"])
p("C58","Names are unique, well formed and exist for the right characters",
  "Name::of returns a name exactly for the characters whose general category is not Control, Surrogate, Private_Use or Unassigned, and never panics. No two characters have names with the same text. Every name is words of upper-case letters, digits and hyphens separated by single spaces. Hangul syllables and ideographs have the names rules NR1 and NR2 of the Unicode Standard give them; the ASCII characters have the names of the standard.",
  "all characters; all pairs of characters","A million characters and all pairs of them; agreement of generated tables with code.",
  ["unic/ucd/name/src/name.rs: of, Display","unic/ucd/name/tables"])
p("C59","Implicit levels follow rules BD13, X10, W1-W7, N1, N2, I1 and I2 of UAX #9",
  "BidiInfo::new resolves each isolating run sequence (BD13) of the characters that rule X9 keeps with the sos and eos of rule X10, and gives every character in it the level of the rules W1 to W7, N1, N2, I1 and I2, each taken as one pass over the sequence.",
  "all texts and default levels; all sequences and characters","Unbounded inputs; nesting of isolates; seven passes folded into one loop over bytes.",
  [B+"prepare.rs: isolating_run_sequences",B+"implicit.rs: resolve_weak, resolve_neutral, resolve_levels",B+"bidi_info.rs: BidiInfo::new"])
p("C60","Character properties stand in the relations the standard derives them by",
  "For every character: Case_Ignorable, Cased, ID_Start, ID_Continue, White_Space, Bidi_Control, Emoji_Component and the classes Extend, Numeric, Newline, Upper, Lower, OLetter, Sep, Sp, ... of the word and sentence rules are exactly what the standard derives from General_Category and each other; the classes that grapheme cluster, word and sentence rules share contain the same characters; the Hangul syllables without and with a trailing consonant are LV and LVT; a mirrored character is neutral; case mappings change only cased characters.",
  "all characters","1,114,112 characters and a dozen tables, each from a different data file; a test samples a few.",
  ["unic/ucd/case/src/*.rs","unic/ucd/segment/src/*.rs","unic/ucd/bidi/src/*.rs","unic/ucd/ident/src/*.rs","unic/ucd/common/src/white_space.rs","unic/emoji/char/src/*.rs","their tables"])
p("C61","Words are made of whole grapheme clusters",
  "No boundary of split_word_bounds is inside a grapheme cluster: the pieces of a text are the concatenations of groups of its grapheme clusters, whichever ends the two iterators are read from.",
  "all texts, legacy and extended clusters, all sequences of calls from both ends","Two rule sets, three tables and two iterators must agree on every text; the exceptions (prepended characters, two vowels, flags with marks) are not found by sampling.",
  ["unic/segment/src/grapheme.rs","unic/segment/src/word.rs","unic/ucd/segment/src/*.rs","their tables"])
p("C62","Generated tables of values say what the data files say",
  "From the text of any GraphemeBreakProperty.txt, WordBreakProperty.txt, SentenceBreakProperty.txt, Blocks.txt, DerivedAge.txt or IdnaMappingTable.txt, with any comments, blanks, ranges and order of rows, the generator writes, without panicking, the text of a table on which lookup gives each character the value of the last row that covers it and nothing to the other characters.",
  "all data files of the given form, all characters","Only the files of one Unicode version are ever generated from; a dropped row or a range cut by one is one value in a million.",
  ["gen/src/source/ucd/{grapheme_break_property,word_break_property,sentence_break_property,blocks,derived_age}.rs: from_str","gen/src/source/idna/idna_mapping_table.rs: from_str","gen/src/writer/ucd/{segment,blocks,age}.rs","gen/src/writer/idna/mapping.rs: emit_idna_mapping"])
p("C63","Generated sets say what the data files say",
  "From the text of any PropList.txt, DerivedCoreProperties.txt or emoji-data.txt the generator writes, without panicking, for each property it has a table for, exactly the characters that some row of the file gives that property.",
  "all data files of the given form, all tables of binary properties, all characters","A label sent to the wrong field or a skipped row is invisible to the tests of the library, which run on the tables produced.",
  ["gen/src/source/ucd/mod.rs: BINARY_PROPERTIES_REGEX","gen/src/source/ucd/{prop_list,derived_core_properties}.rs: from_str","gen/src/source/emoji/emoji_data.rs: from_str","gen/src/writer/ucd/{case,common,ident,bidi}.rs","gen/src/writer/emoji/char.rs"])
p("C64","Tables from UnicodeData.txt say what the file says",
  "From the text of any UnicodeData.txt (single lines, and ranges on two lines) the generator writes, without panicking, tables that give every character the general category, bidirectional class (or the default class of an unassigned character) and combining class of its line, and sets of exactly the mirrored, control, numeric, combining and alphanumeric characters.",
  "all data files of the given form, all characters","A range expanded one character short, or a field taken from the wrong column, gives tables that the tests of the library take for the truth.",
  ["gen/src/source/ucd/unicode_data.rs: from_str","gen/src/writer/ucd/{category,bidi,common,normal}.rs"])
p("C65","Generated decompositions and compositions are those of the data files",
  "From the text of any UnicodeData.txt and DerivedNormalizationProps.txt the generator writes a table of the canonical mappings, a table of the compatibility mappings with their types, and a table of compositions in which two characters give a third exactly if they are its canonical mapping and it is not excluded from composition. A canonical mapping of three or more characters makes it panic.",
  "all data files of the given form, all characters and pairs of characters","Composition tables are nested and keyed by the first character; a lost or extra pair is seen only for the texts that contain it.",
  ["gen/src/writer/ucd/normal.rs: decomposition_map, emit_canonical_decomposition_mapping, emit_canonical_composition_mapping, emit_compatibility_decomposition_mapping","gen/src/source/ucd/derived_normalization_props.rs: from_str"])
p("C66","Generated names are those of the data files",
  "From the text of any UnicodeData.txt the generator writes a file of constants, none defined twice, and a table of slices of these constants which together give every character its name, and none to characters with a label; from Jamo.txt a table of the short names.",
  "all data files of the given form, all characters","Names are cut into shared words and put together again; two words that become one identifier would change names far away.",
  ["gen/src/writer/ucd/name.rs: emit_name_tables, emit_jamo_tables","gen/src/source/ucd/jamo.rs: from_str"])
p("C67","Generated name aliases are those of the data file",
  "From the text of any NameAliases.txt the generator writes five tables that give every character its aliases of one type, in the order of the file and each once, and a table of the types of its aliases.",
  "all data files of the given form, all types, all characters","The order and the repetitions depend on the whole history of rows of a character.",
  ["gen/src/source/ucd/name_aliases.rs: from_str","gen/src/writer/ucd/name_aliases.rs"])
p("C68","Generated versions are those of the data files",
  "The Unicode version and the emoji version written beside the tables are the first ones the ReadMe.txt of the data names; a file that names none makes the generator panic.",
  "all texts of a ReadMe.txt","An unanchored search over free text: only a proof covers every text before and after the version.",
  ["gen/src/source/common/unicode_version.rs: from_str","gen/src/source/emoji/readme.rs: from_str","gen/src/writer/common/mod.rs: emit_unicode_version"])
p("C69","Unassigned characters have their default bidirectional class",
  "The bidirectional class of every unassigned character is the default of DerivedBidiClass.txt: R, AL or ET in the listed ranges, BN for noncharacters and default ignorable code points, L elsewhere.",
  "all unassigned characters","There are hundreds of thousands of unassigned characters and no test names them; the claim is in fact false for those whose default is BN.",
  ["gen/src/writer/ucd/bidi.rs: BIDI_CLASS_DEFAULTS","unic/ucd/bidi/src/bidi_class.rs: BidiClass::of","unic/ucd/bidi/tables/bidi_class.rsv"])
p("C70","Grapheme clusters respect canonical equivalence",
  "Canonically equivalent texts have equally many grapheme clusters and these are canonically equivalent one by one; in particular the clusters of the NFD (or NFC) of a text are the NFD (equivalent to the) clusters of the text, from whichever ends they are taken.",
  "all pairs of canonically equivalent texts; all sequences of next and next_back calls","The claim relates three shipped tables on unboundedly long texts, and it depends on every canonical decomposition; it is in fact false for two families of texts that no test contains.",
  ["unic/segment/src/grapheme.rs: Graphemes","unic/normal/src/lib.rs: StrNormalForm::nfd","unic/ucd/segment/tables/grapheme_cluster_break.rsv","unic/ucd/normal/tables/canonical_decomposition_mapping.rsv"])
p("C71","Word boundaries respect canonical equivalence",
  "Canonically equivalent texts are divided into equally many words, and these are canonically equivalent one by one; in particular the words of the NFD of a text are the NFD of its words, from whichever ends they are taken. The same holds of words() with a filter that accepts canonically equivalent pieces alike.",
  "all pairs of canonically equivalent texts; all sequences of next and next_back calls","The claim relates three shipped tables on unboundedly long texts, and it depends on every canonical decomposition.",
  ["unic/segment/src/word.rs: WordBounds","unic/normal/src/lib.rs: StrNormalForm::nfd","unic/ucd/segment/tables/word_break.rsv","unic/ucd/normal/tables/canonical_decomposition_mapping.rsv"])
p("C72","unic-echo writes what it says, and reads back what it writes",
  "The escape formats write a string literal, of Rust and of ECMAScript 6, that denotes the text; braces-escape and -all write printable ASCII only. The formats codepoints, utf8-hex and utf16-hex read exactly the lists of hexadecimal numbers (optional prefix, one separator between them) of scalar values or of the bytes or units of a text, and refuse everything else. The output of -n -o F given as input with -i F stands for the text it was made from, whatever the output format. A format name is accepted up to hyphens and letter case.",
  "all texts, arguments, format names and combinations of switches; any set of characters that escape_debug shows","Quoting, prefixes, separators and surrogate pairs interact over all texts; samples of the formats say nothing on the texts refused.",
  ["apps/cli/src/bin/unic-echo.rs: run","apps/cli/src/writers.rs: write_with_control_n_unicode_braces_escape, write_with_control_braces_escape, write_with_all_braces_escape","apps/cli/src/parsers.rs: codepoints, utf8_hex, utf16_hex","apps/cli/src/clap_macros.rs: unic_arg_enum"])
p("C73","unic-inspector shows a row for every character",
  "The command never panics and shows, for every character of its arguments in order, the character, its U+ notation, a name and its general category. The name is the character's name, for a control character its first abbreviation, and <none> exactly for characters that are unassigned or for private use; no two characters are shown with the same name other than <none>.",
  "all lists of arguments, all characters","The index into the list of abbreviations and the display of names depend on four tables over the whole code space.",
  ["apps/cli/src/bin/unic-inspector.rs: main","unic/ucd/name/src/name.rs: Name","unic/ucd/name_aliases/src/name_aliases.rs: name_aliases_of","unic/ucd/category/src/category.rs: GeneralCategory"])
p("C74","Test data says what the test files say",
  "From every NormalizationTest.txt, GraphemeBreakTest.txt and WordBreakTest.txt of the published form, the generator writes the Rust arrays of tests with exactly the texts of the file, in order: the five forms of each row; the text and the parts of each break test whose code points are all characters, cut exactly at the signs ÷, and the parts in legacy grapheme clusters exactly where a rule of extended clusters is used. The table of property values has exactly the values the tests name, and the generator panics exactly if they contradict each other.",
  "all files of the form, with any comments and empty lines between the tests","Regular expressions with greedy wildcards over unbounded lines, steps over alternating items, and escapes; one misread line silently weakens the conformance tests of the library.",
  ["gen/src/source/ucd/test/normalization_test.rs: NormalizationTests","gen/src/source/ucd/test/grapheme_break_test.rs: GraphemeBreakTests","gen/src/source/ucd/test/word_break_test.rs: WordBreakTests","gen/src/writer/normal/normal_tests.rs: generate","gen/src/writer/segment/segment_tests.rs: generate","gen/src/writer/ucd/segment_tests.rs: generate"])
p("C75","Grapheme clusters on the two sides of a boundary do not depend on each other",
  "If there is a cluster boundary where t is appended to s, the clusters of s ++ t are those of s and then those of t, and conversely. Whatever is appended to a text, only its last cluster can change (it can get longer). Consecutive clusters taken out of a text are cut into the same clusters; a cluster by itself is one cluster. An iterator stopped anywhere, from either end, can be replaced by a new one over its as_str.",
  "all texts, extended and legacy clusters, all sequences of next and next_back calls","Regional indicators and emoji sequences look back arbitrarily far, so that what lies before a boundary could matter after it; the claim is about all pairs of texts.",
  ["unic/segment/src/grapheme.rs: Graphemes, GraphemeCursor"])
p("C76","Word pieces on the two sides of a boundary do not depend on each other",
  "An iterator of split_word_bounds stopped anywhere, from either end, can be replaced by a new one over its as_str. If there is a word boundary where t is appended to s, the pieces of s ++ t are those of s and then those of t. Whatever is appended to a text, only its last two pieces can change. Consecutive pieces taken out of a text are cut into the same pieces.",
  "all texts, all sequences of next and next_back calls","The iterator keeps the class of a character between calls, and the rules look across any number of skipped characters on both sides.",
  ["unic/segment/src/word.rs: WordBounds"])
p("C77","A text is analysed paragraph by paragraph",
  "If s is empty or ends with a paragraph separator, BidiInfo::new of s ++ t has the classes, levels and paragraphs of BidiInfo::new of s followed by those of BidiInfo::new of t, with the offsets of the latter moved by the length of s. So the analysis of a text is that of its paragraphs one by one: embeddings, isolates and levels never cross a paragraph separator.",
  "all texts, all default levels up to 125","The analysis keeps stacks of embeddings and isolates and a level while it walks the text; a leak across a separator needs a particular unclosed sequence before it.",
  ["unic/bidi/src/bidi_info.rs: InitialInfo::new, BidiInfo::new","unic/bidi/src/explicit.rs: compute","unic/bidi/src/implicit.rs"])
p("C78","How much normalization can lengthen a text",
  "NFD has at most 4 times and NFKD at most 18 times as many characters as the text, and neither has fewer than the text. In UTF-8, NFD and NFC have at most 3 times, NFKD and NFKC at most 11 times as many bytes as the text. NFC and NFKC are never longer than NFD and NFKD, in characters and in bytes.",
  "all texts","Buffers are sized by these factors; a single entry of the tables, at any depth of the recursion, could exceed them, and composition could lengthen some pair.",
  ["unic/normal/src/decompose.rs: Decompositions","unic/normal/src/recompose.rs: Recompositions","unic/ucd/normal/src/decompose.rs","unic/ucd/normal/src/compose.rs","unic/ucd/normal/tables/*.rsv"])
p("C79","Parts of a normalized text are normalized",
  "For each of the four forms: every contiguous part of the normal form of a text is in that form; in particular the two sides of any cut of a normalized text, and each of its characters alone.",
  "all texts, all cuts","Composition depends on an unbounded context on the left, and on marks that reordering brings between a letter and its marks.",
  ["unic/normal/src/decompose.rs: Decompositions","unic/normal/src/recompose.rs: Recompositions"])
p("C80","IDNA does not distinguish spellings of a name",
  "to_ascii and to_unicode treat different spellings of a name alike. Replacing a character anywhere in the name by its replacement in the IDNA mapping table (for mapped and ignored characters; for to_ascii with transitional processing also the deviation characters) changes no outcome, errors included; in particular ASCII case and the choice among the four full stops do not matter. Canonically equivalent names are accepted alike and give the same result.",
  "all names, all flags, all characters with a replacement, all pairs of canonically equivalent names","The conversions look at the name before mapping (Bidi) and map before normalizing, so that two equivalent spellings follow different paths through the tables; the exceptions are single characters among tens of thousands.",
  ["unic/idna/src/process.rs: processing, to_ascii, to_unicode, map_char","unic/idna/mapping/src/mapping.rs","unic/normal/src/*.rs"])
p("C81","Canonically equivalent texts have the same paragraphs and base directions",
  "For canonically equivalent texts, BidiInfo::new finds the same number of paragraphs, pairwise canonically equivalent and with equal levels, for every default level; has_rtl, has_ltr and has_bidi_explicit of StrBidi give the same answers.",
  "all pairs of canonically equivalent texts, all default levels","It needs the Bidi classes of every character to agree with those of its decomposition, and of all marks that can be reordered, in every context of isolates and separators.",
  ["unic/bidi/src/bidi_info.rs: InitialInfo::new, BidiInfo::new","unic/ucd/bidi/src/bidi_class.rs: StrBidi","unic/ucd/bidi/tables/bidi_class.rsv","unic/ucd/normal/tables/*.rsv"])
p("C82","Right-to-left text comes out reversed",
  "For a text without left-to-right letters, numbers, embeddings, overrides and isolates, laid out from right to left (at an odd default level up to 125, or without default level and with a right-to-left letter in every paragraph), the analysis succeeds, every level and every paragraph level is that one level, has_rtl is true unless the text is empty, and reorder_line returns every line, wherever it is broken, as its characters in reverse order.",
  "every such text, default level, paragraph and line of it",
  "a claim about every combination of letters, marks, punctuation and separators, through the weak and neutral rules and the reordering",
  ["unic/bidi/src/bidi_info.rs: BidiInfo::new, BidiInfo::reorder_line, BidiInfo::visual_runs, BidiInfo::has_rtl","unic/bidi/src/explicit.rs","unic/bidi/src/implicit.rs","unic/bidi/src/prepare.rs"])
p("C83","The errors of the IDNA conversions are exactly those found",
  "Whenever to_unicode or to_ascii returns, what it returns is determined by UTS #46 processing, in the case of errors too. The errors are, in this order: one per disallowed character of the name, in order, of the kind that tells why; one per label that cannot be decoded or is not valid, in order; for to_ascii one per label without ASCII form, and, if lengths are checked, TooShortForDns for an empty label and TooLongForDns for a label over 63 bytes or a name over 253. The string to_unicode returns has all labels, undecodable ones empty. to_ascii succeeds exactly if there is no error.",
  "all names and all flags",
  "tests look at the verdict of a list of names; which errors are found, how many and in which order depends on every character and label of the name",
  ["unic/idna/src/process.rs: processing, validate, map_char, to_ascii, to_unicode, Errors"])
p("C84","Normalizing as one reads",
  "The iterators nfd(), nfkd(), nfc(), nfkc() can be used on the fly. After any number of calls, Display writes the characters still to come, and the lower bound of size_hint does not exceed their number. A call of nfd() or nfkd() reads at most one character with a starter in its decomposition, besides marks, and nfd() reads only when it holds no starter: of such characters it has read at most one more than the starters it has returned. As long as the source has more, what was returned does not depend on what was not read. After n calls nfc() and nfkc() have taken some beginning of the decomposed text, reading no more than that needs, and have returned the composition of it except for one starter at most and marks.",
  "all texts, all numbers of calls, all continuations of the part read","The iterators hold characters back in buffers and return early in one of three states; how far they read depends on the whole text before.",
  ["unic/normal/src/decompose.rs: Decompositions::next, size_hint, Display","unic/normal/src/recompose.rs: Recompositions::next, Display"])
p("C85","Identifiers stay identifiers when they are normalized",
  "A text is an identifier if its first character satisfies is_xid_start and all others is_xid_continue (or is_id_start and is_id_continue). A text is an identifier exactly when its NFD is and when its NFC is; of canonically equivalent texts both are identifiers or neither is. With the XID properties the NFKD and NFKC of an identifier are identifiers; with the ID properties they need not be.",
  "all texts, all pairs of canonically equivalent texts","It needs the identifier tables, the decomposition tables and the combining classes, three crates, to fit together for every character and every order of marks.",
  ["unic/ucd/ident/src/id.rs","unic/ucd/ident/src/xid.rs","unic/ucd/ident/tables/*.rsv","unic/normal/src/*.rs","unic/ucd/normal/tables/*.rsv"])
p("C86","The Bidi analysis sees classes, not characters",
  "The analysis of a text by BidiInfo::new depends on the Bidi classes of its characters only: when the characters of two texts have the same classes one by one, the levels of the characters, the paragraphs and their levels, the visual runs and the order in which reorder_line shows the characters of a line are the same.",
  "all pairs of texts, default levels, paragraphs and lines; every relation between characters that keeps the class",
  "a claim about pairs of texts; the code works on arrays with an entry per byte, so that the length of a character in UTF-8 can leak into every rule",
  ["unic/bidi/src/bidi_info.rs: BidiInfo::new, visual_runs, reorder_line, reordered_levels, reordered_levels_per_char","unic/bidi/src/explicit.rs","unic/bidi/src/implicit.rs","unic/bidi/src/prepare.rs"])
p("C87","Segmentation sees classes, not characters",
  "Where Graphemes and WordBounds cut a text depends only on the break classes of its characters: when the characters of two texts have the same classes one by one, every sequence of next and next_back calls gives pieces of the same characters of both, whatever their lengths in UTF-8; the offsets of grapheme_indices agree too if the lengths do. The same holds of words() with filters that accept corresponding pieces alike. In particular a map of characters that keeps the classes, like changing the case of ASCII letters, can be applied before or after cutting.",
  "all pairs of texts, all sequences of calls from both ends, every relation between characters that keeps the class",
  "a claim about pairs of texts; the iterators work with byte offsets and remember classes across calls",
  ["unic/segment/src/grapheme.rs: Graphemes, GraphemeIndices, GraphemeCursor","unic/segment/src/word.rs: WordBounds, Words"])
p("C88","What is inside an isolate does not matter outside",
  "When the text between an isolate initiator (LRI, RLI or FSI) and its PDI is replaced by any other text in which isolates are closed, the level of the paragraph and the levels BidiInfo::new gives the characters outside, the initiator and the PDI included, stay the same.",
  "all paragraphs with an isolate, all replacements of its content, all default levels, all characters outside",
  "a claim about pairs of texts with unboundedly nested isolates and embeddings, through the stack of rules X1-X8, the matching of isolates and the sequences of level runs",
  ["unic/bidi/src/bidi_info.rs: InitialInfo::new, BidiInfo::new","unic/bidi/src/explicit.rs: compute","unic/bidi/src/prepare.rs: isolating_run_sequences","unic/bidi/src/implicit.rs"])
p("C89","A name is converted label by label",
  "If to_unicode converts two names, it converts the name made of them with any of the four label separators between: the text is that of the two with a full stop between, and no error of either is lost; if both are taken for Bidi names or neither is, the errors are exactly those of the two. The same for to_ascii without the check of lengths, and with it when the first name has no final full stop and the result fits in 253 bytes.",
  "all pairs of names, all four separators, all flags, builds with and without overflow checks",
  "a claim about unboundedly many labels of unbounded length, through mapping, normalization across the separator, Punycode and the Bidi rule, which looks at the whole name",
  ["unic/idna/src/process.rs: processing, to_ascii, to_unicode"])
p("C90","Names with the same ASCII form are the same name",
  "If to_ascii gives two names the same result, to_unicode gives them the same result too (without errors and without transitional processing); and names with the same Unicode form have the same ASCII form.",
  "all pairs of names that convert without errors, all flags without transitional processing",
  "a claim about pairs of names: no two of infinitely many may collide; it needs that Punycode is injective and cannot be mistaken for an ASCII label",
  ["unic/idna/src/process.rs: to_ascii, to_unicode","unic/idna/punycode/src/lib.rs: encode"])
p("C91","Fixed sets and further relations of the shipped properties",
  "Pattern_Syntax and Pattern_White_Space are the sets the standard fixes for all versions; titlecase letters are the characters that change when uppercased and not when titlecased; marks, brackets, ALetter and Extend follow from the other properties but for listed exceptions; blocks begin at multiples of 16 and end before one.",
  "all code points and all blocks",
  "a claim about every code point, relating tables that are generated from different files; unit tests look at a few characters",
  ["unic/ucd/ident/src/pattern.rs","unic/ucd/case/src/changes_when_titlecased.rs","unic/ucd/case/src/changes_when_uppercased.rs","unic/ucd/bidi/src/bidi_class.rs","unic/ucd/bidi/src/bidi_mirrored.rs","unic/ucd/segment/src","unic/ucd/block/src/block.rs: BlockIter"])
import sys
with open('/verif/properties.jsonl','w') as f:
    for x in P: f.write(json.dumps(x)+"\n")
print(len(P))
