# Formal model of open-i18n/rust-unic in Lean 4 — design

## Conventions

* A Rust `char` is a natural number `c` with `Spec.IsScalar c` (`c < 0xD800 ∨ 0xE000 ≤ c ∧ c < 0x110000`).
  Functions of the model are total on `Nat`; theorems assume `IsScalar` where the Rust type guarantees it.
* A Rust `&str` / `String` is the `List Nat` of its scalar values.  Where the code indexes by byte the model
  uses the UTF-8 length function `len_utf8` and byte offsets explicitly.
* Machine integers (`u8`, `u32`) are naturals with explicit range checks.  Overflow and every panic
  (`unwrap`, `expect`, slice index, `assert!`) is an explicit outcome (`Model.Outcome.panic`), never silently dropped.
  Where debug and release builds differ (Punycode, IDNA) the Boolean `chk` says whether overflow checks are on, and theorems quantify over it.
* Iterators are state machines with the state of the Rust struct; "collect" runs them to the end with a proof of termination.
* Functions that consult a character table take the lookup as a parameter where theorems hold for any table
  (grapheme, word and bidi classes; normalization data; the record `Model.Idna.Deps`), and are instantiated with the
  shipped table in the statements that need it.
* Data tables (`*.rsv`) are translated literally by `tools/gen_tables.py` into modules
  `Verif/Data/*.lean` (same entries in the same order; names are stored as one number per string, whose bytes are the string).
  Facts about whole tables are established by evaluating a Boolean checker in the kernel (`decide +kernel`)
  over the *entire* table and lifted to "for every character" by a proved lemma.  This is a proof about a finite object, not a sample.
* Layout: `Verif/Model/*` (code), `Verif/Data/*` (generated tables), `Verif/Spec/*` (independent
  specifications), `Verif/Proofs/*` (lemmas), `Verif/Props/*` (the property theorems, with non-vacuity examples beside them).
* Known deviations of the code from a property are kept: the negation is proved with a concrete
  witness (`..._false`, `..._not_...`) and the strongest true restriction found is proved with suffix `_partial`.

## Trusted base

* Lean 4.33.0's kernel.
* Axioms: `propext`, `Classical.choice`, `Quot.sound` at most.  `AXIOMS.md` lists them for each theorem of the
  manifest (written by `tools/axioms.py` from `#print axioms`).  No `sorry`, `native_decide`, `bv_decide` or axiom of our own.
* The transcription of the Rust functions into `Verif/Model` (each definition cites file and lines) and of the
  tables by `tools/gen_tables.py`. (`Data/SegTree.lean` holds search trees written by `tools/gen_segtree.py`; they are not trusted: their agreement with the tables is proved.)
* The meaning given to the Rust standard library: slice `binary_search_by` (the halving loop is modelled and proved), `Vec`,
  `String`, `str::split`/`find`/`rfind`/`char_indices`, slicing on character boundaries, `char` conversions, UTF-8 and UTF-16 coding
  (`Model.Utf`), `{:04X}` and `from_str_radix` (`Model.Hex`), `sort_by_key` as a stable sort, derived `Ord`/`PartialOrd`.
* The specifications in `Verif/Spec` as transcriptions of the standards:

| file | standard |
|------|----------|
| `Scalar` | Unicode scalar values, intervals |
| `Table` | what a lookup table means |
| `TableText` | a reader for Rust table literals |
| `Hangul` | The Unicode Standard 3.12 |
| `Normal` | D68, D108–D118: decomposition, canonical ordering, blocking, composition |
| `Punycode`, `Rfc3492` | the decoder's meaning on unbounded integers; RFC 3492 sections 3, 6.1–6.3 |
| `Idna` | UTS #46 section 4, RFC 5893 section 2, DNS lengths |
| `Segment` | UAX #29 GB rules |
| `Word` | UAX #29 WB rules, rewritten as "look past Extend, Format, ZWJ" |
| `Bidi` | UAX #9 BD2, P1–P3, X1–X8, X9, W3, I1, I2, L1, L2 |
| `BidiImplicit` | UAX #9 BD8, BD9, BD13, X10, W1–W7, N1, N2, I1, I2 |
| `Name` | The Unicode Standard 4.8, NR1, NR2 |

## What is modelled

| source | model | remarks |
|--------|-------|---------|
| `unic/char/range/src/{step,iter,range,macros,par_iter}.rs` | `CharRange`, `ParIter` | `par_iter` under every tree of splits that rayon may choose; rayon itself is not modelled |
| `unic/char/basics/src/{noncharacter,private_use,notation}.rs` | `Ucd`, `Cli` | |
| `unic/char/property/src/tables.rs` | `Tables` | binary search loop included |
| `unic/char/property/src/macros.rs`, `range_types.rs` | `Property` | `FromStr`, `Display`, names, of the macro's three kinds of property |
| `unic/common/src/version.rs`, `unic/ucd/age/src/age.rs` | `Version`, `Ucd` | |
| `unic/ucd/{age,bidi,block,case,category,common,ident,segment}`, `unic/emoji/char` | `Ucd`, `BidiClass`, `Data/*` | every accessor and every table |
| `unic/ucd/hangul/src/hangul.rs` | `Hangul` | |
| `unic/ucd/normal/src/*` | `UcdNormal` | composition, decomposition, decomposition type, combining class, marks |
| `unic/normal/src/{decompose,recompose,lib}.rs` | `Normal` | the buffers and states of both iterators |
| `unic/ucd/name`, `unic/ucd/name_aliases` | `Name`, `Ucd` | |
| `unic/idna/mapping`, `unic/idna/punycode`, `unic/idna/src/process.rs` | `IdnaMapping`, `Punycode`, `Idna` | both build modes |
| `unic/bidi/src/{bidi_info,explicit,prepare,implicit,level}.rs` | `Bidi`, `BidiClass`, `Level` | `Cow` is its contents |
| `unic/segment/src/{grapheme,word}.rs` | `Grapheme`, `Word`; `GraphemeClient` is a client of the cursor | |
| `apps/cli/src/{parsers,writers}.rs` | `Cli` | the regular expression of the parser as a scanner |
| `apps/cli/src/bin/unic-echo.rs`, `apps/cli/src/clap_macros.rs` (`from_str`), escaping writers | `Echo` | clap by its outcome (strings, optional format names, switch); the characters that `escape_debug` shows are a parameter |
| `apps/cli/src/bin/unic-inspector.rs` | `Inspector` | clap by its outcome; the rows, not their layout |
| `gen/src/writer/utils/tables/*` | `Gen` | text written, character by character |
| `gen/src/source/ucd/{mod,grapheme_break_property,word_break_property,sentence_break_property,blocks,derived_age,derived_normalization_props,prop_list,derived_core_properties}.rs`, `gen/src/source/idna/idna_mapping_table.rs`, `gen/src/source/emoji/emoji_data.rs` | `GenSource`, `Regex` | `from_str` of each parser, with its regular expression; `read` (file access) left out; the crate `regex` is modelled by its documented meaning (leftmost match, alternatives in order), `\w` and `\s` beyond ASCII are parameters |
| `gen/src/writer/ucd/{segment,blocks,age,case,common,ident,bidi}.rs`, `gen/src/writer/idna/mapping.rs`, `gen/src/writer/emoji/char.rs` | `GenWriter` | text passed to `write`; the two comment lines `write` puts before it are left out |
| `gen/src/source/ucd/{unicode_data,jamo,name_aliases,derived_normalization_props}.rs` | `GenUnicodeData` | `from_str` with its regular expression; the iteration over ranges of two lines, with its panics |
| `gen/src/writer/ucd/{category,bidi,common,normal,name,name_aliases}.rs` | `GenUcdWriter` | as `GenWriter` |
| `gen/src/source/common/unicode_version.rs`, `gen/src/source/{ucd,idna,emoji}/readme.rs`, `gen/src/writer/common/mod.rs`, version part of `gen/src/writer/emoji/char.rs` | `GenVersion` | `\d` beyond ASCII is a parameter |
| `gen/src/source/ucd/test/{normalization_test,grapheme_break_test,word_break_test}.rs`, `gen/src/writer/normal/normal_tests.rs`, `gen/src/writer/segment/segment_tests.rs`, `gen/src/writer/ucd/segment_tests.rs` | `GenTests` | as `GenSource` and `GenWriter` |

## Checks of the model against the repository's test data

`python3 tools/conformance.py` runs the model, with Lean's interpreter and outside the kernel, on the test data that /repo
ships for the code: the conformance tables of `unic/segment` (2814 texts, forward and backward, extended and legacy, with
offsets), of `unic/normal` (18746 rows, four forms of five columns each) and of `unic/ucd/segment` (58 characters), and the unit
tests of `unic/idna/src/process.rs` and `unic/bidi/src/bidi_info.rs`. All 21675 cases pass. This is evidence that the
model is the code's, and no part of any proof.

## What is not modelled

* `unsafe` memory safety itself (only the values computed), allocation failure, time and memory use.
* `no_std`/feature switches, `pkg_info.rs`, re-export modules, documentation macros.
* rayon beyond the trees of splits of C06.
* The crates clap and prettytable behind `apps/cli/src/bin`, and `gen/src/main.rs`; file input and output.
* Texts so long that `usize` offsets or the `u32` counters in `explicit.rs` overflow (`2 ^ 32` isolate initiators).

## Per property: what is modelled, how it is proved

| id | modelled | proof method |
|----|----------|--------------|
| C01–C05 | `char/range`: step, CharIter, CharRange | state machine; simulation with a sorted list of scalars (invariant: remaining = filter of interval) |
| C06 | `par_iter.rs` under any tree of splits | induction over the tree; exact characterisation of the ranges for which the claim holds |
| C07 | `char/basics` | decision logic, kernel check against the general category table |
| C08 | `tables.rs` | binary search on arbitrary sorted tables; loop invariant |
| C09 | all `.rsv` | kernel-evaluated well-formedness of each table, lifted by C08 |
| C10 | `gen/.../tables/{range,set,direct}.rs` | the text written is read by a separate reader; induction over the sorted association list; lookup∘read∘write = map lookup |
| C11 | `ucd/hangul` | arithmetic; negation for U+11A7 |
| C12 | `ucd/normal` decomposition with the real tables | fuel recursion; rank check on the tables in the kernel |
| C13, C15, C19 | `normal/decompose.rs` | refinement of the iterator to `sortRuns ∘ flatMap decomp` |
| C14, C16–C18 | `normal/recompose.rs` | refinement of the state machine to D117; equivalence preservation with table facts |
| C50 | `normal/*` | ordering of a concatenation |
| C20–C23 | `idna/punycode` | simulation of the decoder by encoder states; variable-length integer round trip; bounds on every `u32`; both build modes |
| C55 | `idna/punycode` | against `Spec.Rfc3492`, over unbounded integers with an explicit overflow limit |
| C24–C26, C51–C54 | `idna/mapping`, `idna/process.rs` | table tiling and replacement strings checked entry by entry in the kernel; `processing` shown equivalent to a relational UTS #46 specification, everything else derived from it |
| C27, C28 | `bidi_info.rs` | induction over the characters; one entry per byte |
| C29 | `bidi/*` | bounds carried through each pass |
| C30 | `explicit.rs` | simulation with an abstract directional status stack and isolate/overflow counters |
| C31 | `prepare.rs` | level runs by induction; the stack of pending sequences as an invariant |
| C56 | `implicit.rs` | per character invariants of the pass |
| C59 | `prepare.rs`, `implicit.rs` | the single pass of the code is shown equal to the passes of the annex on a sequence under `OnePass`; sequences are matched with BD13; eight witnesses where the code deviates. Rule N0 is not in the code and is left out of the specification |
| C60 | every property table of `unic/ucd/{case,segment,bidi,ident,common,category}` and `unic/emoji/char` | each table as a step function; the relation is evaluated by the kernel on every piece of the merged step functions and lifted to every character |
| C61 | `grapheme.rs`, `word.rs` of `unic/segment` | the pairs that GB rules keep together are kept together by WB rules, by the joint table of both properties; the list of word pieces is then a grouping of the list of clusters; three witnesses where the two rule sets disagree |
| C62, C63 | `gen/src/source`, `gen/src/writer` | the regular expressions are run by a backtracking matcher with continuations; each row of a file of the form in `Spec.UcdFile` is shown to give one match with known groups, the lines between give none; the map built is the last row that covers a character; then C10 |
| C64, C65 | `gen/src/source/ucd/unicode_data.rs`, `gen/src/writer/ucd/{category,bidi,common,normal}.rs` | the fifteen fields of a line are matched one after the other; the entries of a file are exactly the pairs of `itemOf`; maps and sets are collected from them and written (C10); inner tables of compositions are read back by a reader of their own |
| C66, C67 | `gen/src/writer/ucd/{name,name_aliases}.rs` | names are split at white space; constants are sorted and so defined once; lists are read back; aliases by an invariant of the loop (each map holds the values of the rows so far, each once) |
| C68 | `gen/src/source/common/unicode_version.rs`, `readme.rs` | a match starts with its literal text, so the first occurrence of the literal decides |
| C69 | `bidi_class.rsv` | step functions over the shipped tables; negation for the characters whose default is BN |
| C70 | `Graphemes`, `nfd`, shipped tables | one step of the equivalence (a mapping, a swap) keeps the boundary relation outside the replaced part: automaton of 11 states for the rules; classes of all mappings checked against the tables; negation by witness |
| C71 | `WordBounds`, `nfd`, shipped tables | for the rules: the same with the summaries of WordSpec; for the iterators, on all texts: the piece they cut off is a function of the word classes (`cutF`, `cutB`), and inserting an Extend, or a letter after a letter, moves the cut by that character only |
| C32, C57 | `bidi_info.rs` (`visual_runs`, `reorder_line`, `reordered_levels`) | reversal algorithm as permutation of runs; L1 by passes; negations where the code mixes line and text offsets |
| C33 | `bidi/*` | classes of left-to-right texts through all passes |
| C34 | `level.rs` | arithmetic with `omega` |
| C35, C36 | `segment/grapheme.rs` | cursor model; specification as GB rules over the list of classes |
| C37 | `segment/grapheme.rs` with a client | relation between cursor states and positions; exact characterisation of the positions where it fails |
| C38 | `segment/word.rs` | partition by progress measure |
| C39 | `segment/word.rs` | automaton against the WB rules; three forbidden patterns for `next`, one for `next_back`, with witnesses |
| C40, C41 | `char_property!` macro | generic `FromStr` model; kernel check of name distinctness per enum |
| C42, C44, C46 | all property tables | verified set algebra on range tables, evaluated in the kernel |
| C43 | `version.rs`, `age.rs` | order laws; negation for `Ord`/`PartialOrd` agreement |
| C45, C58 | `ucd/name` | display and length; names compared as byte strings; sortedness of the whole name table checked in the kernel for uniqueness |
| C47, C49 | `apps/cli` writers/parsers, `notation.rs` | hexadecimal round trip |
| C72 | `unic-echo`: formats, format names, `run` | literals by a grammar given as an inductive relation with a proof that it is unambiguous; parsers by exactness: cutting, numerals, and the converse of the UTF-8 and UTF-16 round trips |
| C73 | `unic-inspector`: rows | step functions for category against abbreviations; names by C45 and C58; names of up to four letters against the abbreviations |
| C74 | producers of test data of the generator | runs of the regular expressions, with backtracking, on every file of the form of the test files; the text written is read by a separate reader |
| C75 | the grapheme iterators of C35 | a boundary forgets what is before it (parity of regional indicators, emoji base) and sees one character after it; from this, lemmas on divisions of a text |
| C76 | the word iterators of C38, C39 | the same with the summary of the text before a position; the cached class equals the class of the next character, so that it can be dropped |
| C77 | `BidiInfo::new` of C30–C32 | the model equals the concatenation over paragraphs (C30); the paragraphs of `s ++ t` are those of `s` and of `t` when `s` ends one, offsets move by the length of `s` |
| C78 | the forms of C12–C14 | weights of full decompositions computed by levels and checked over the whole tables in the kernel, lifted by induction over levels; composition adds no weight |
| C79 | the forms of C13, C14 | invariant of the composition walk: every part of the text so far is composed; its state is determined by the text, and the largest class after the last starter is that of the decomposition |
| C80 | the IDNA conversions of C51–C55 with the tables | replacement: the walk over the name equals the walk over the replaced name, Bidi classes of characters and replacements compared over the whole table; equivalence: an invariant kept by each expansion and each reordering step of canonical equivalence, checked over mapping, decomposition and combining class tables |
| C81 | `BidiInfo::new` of C27, `StrBidi` of C48 | the same invariant method for Bidi classes: expansion and reordering stay within one paragraph and keep the first strong direction |
| C82 | the whole of `BidiInfo::new` and `reorder_line`, of C27–C33 and C57 | an invariant of the weak and neutral rules (no L, EN or AN appears when sos and the embedding direction are R), so implicit levels keep the odd level; then L2 on a line of one odd level |
| C83 | the functions of C52, with the error lists they pass on | Spec/IdnaErrors.lean says which error each character, label, ASCII form and length causes; induction over the three loops carries the list so far |
| C84 | the iterators of C13, C14 with `size_hint`, `Display` and the part of the source they have read | the state after n calls; two runs on sources with a common start stay equal until it is used up; the composing iterator is run beside one on a truncated decomposed text, what is left there is what is kept; for `nfd()` a potential (starters returned plus one if a starter is held) bounds what is read, because a canonical decomposition is starters followed by marks (table check) |
| C85 | nothing new: the identifier properties of C44 and the normalization of C12-C18 | kernel check over all rows that a character and its canonical mapping are alike (start, continue), that a compatibility mapping keeps XID, that no start character is a mark; invariance under each mapping and each reordering gives NFD and NFKD; NFC by what it keeps of NFD (U+11A7 is a continue character); NFKC is NFC of NFKD; counterexamples for ID |
| C86 | nothing new: the Bidi model of C27-C33 | every function is shown to give equal or pointwise related outcomes on pointwise related texts, for any relation that keeps class and UTF-8 length; a counterexample for classes alone |
| C87 | nothing new: the segmentation model of C34-C39 | words: the piece cut off is a function of the word classes (`next_cut`, `cutL`), so two iterators over related texts stay related; clusters: a segmentation is carried along the relation and is unique |
| C88 | nothing new: the Bidi model; specification of closed isolates (Spec/BidiIsolate) | X1-X8: the state after the PDI is the state before the initiator; with C56 this settles letters. For the rest the isolating run sequences outside are those of the text with the empty isolate (BD9, BD13, X10), and C59 gives their levels; counterexamples for the other texts |
| C89 | nothing new: the IDNA model; specification of the separators and of what is taken for a Bidi name (Spec/IdnaLabels) | normalization does not act across a full stop (D117: it composes with nothing on either side); the loops over labels as a map over the list of labels; the flag for Bidi names of the whole is the disjunction of those of the parts, and setting it only adds errors |
| C90 | nothing new: the IDNA and Punycode models | the labels of the ASCII form are determined by it; `encode` is injective because `decode` inverts it (C20), and writes at least one character for each (for the bound from the DNS lengths); a colliding pair as counterexample |
| C91 | nothing new: the shipped tables; sets in Spec/NamedSets (two from the standard, the others lists of exceptions read off the tables) | as C60: tables as step functions, compared segment by segment in the kernel and lifted to all code points |
| C48 | `bidi_class.rs` | decision logic; negation for `has_ltr` |

## Testing the theorems

`tools/mutate.py` applies the edits in `seeded/edits/*.py` to a scratch copy of the model, rebuilds and records in
`seeded/LOG.jsonl` which theorems failed.  `tools/refute.py` instead evaluates the theorems' statements on the edited
model over sample inputs.  A counterexample shows that the statement is false of the edited program.  No counterexample
shows nothing by itself.

Every attempt has a line, also those that nothing noticed (`survived`).  A survivor has a reason in `method`, which is an
argument and not a proof, or it has `open: true`: then it is not known whether the edit is harmless or a theorem is too
weak.  Until 16 November, 19:30, the tools left out survivors without a reason and called all others edits that "do not
change the behaviour", which was too strong for some.  The wording was corrected, and survivals found in the outputs
that were kept were entered afterwards; survivals of runs whose output was not kept are missing.  The files in
`seeded/edits` also hold edits that have not been tried; they have no line.

Edits of single rows of the shipped tables (`seeded/edits/tables.py`) led to C91.  Six of 68 are still noticed by no
theorem (TB23, TB24, TB28, TB46, TB57, TB58): rows that no other table determines.  For such values the theorems say
nothing, and that the tables in `Verif/Data` are those of /repo rests on the generator.
