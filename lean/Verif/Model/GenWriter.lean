import Verif.Model.GenSource

/-! # Model of the writers of tables, `gen/src/writer`: from the text of data files to the text of tables

Each function gives the contents passed to `write` (gen/src/writer/utils/mod.rs L37-47), which puts two comment lines before them; file access is left out. -/
namespace Model.GenWriter
open Model Model.Gen Model.GenSource

/-! ## Tables of one property -/

/-- gen/src/writer/ucd/segment.rs L29-37 (`emit_grapheme_cluster_break`) -/
def graphemeClusterBreak (file : List Nat) : Outcome (List Nat) := do toRangeCharTable (fun v => str "GCB::" ++ v) (← breakFromStr file)
/-- gen/src/writer/ucd/segment.rs L39-47 (`emit_word_break`) -/
def wordBreak (file : List Nat) : Outcome (List Nat) := do toRangeCharTable (fun v => str "WB::" ++ v) (← breakFromStr file)
/-- gen/src/writer/ucd/segment.rs L49-57 (`emit_sentence_break`) -/
def sentenceBreak (file : List Nat) : Outcome (List Nat) := do toRangeCharTable (fun v => str "SB::" ++ v) (← breakFromStr file)
/-- gen/src/writer/ucd/blocks.rs L25-33 (`emit_blocks`) -/
def blocks (file : List Nat) : Outcome (List Nat) := do toRangeCharTable (fun v => str "\"" ++ v ++ str "\"") (← blocksFromStr file)
/-- gen/src/writer/ucd/age.rs L26-32 (`emit_age_values`) -/
def ageValues (file : List Nat) : Outcome (List Nat) := do toRangeCharTable (fun v => v) (← ageFromStr file)

/-- gen/src/writer/ucd/common.rs L40-46, ident.rs L63-77, bidi.rs L83-89: the name of a file and the field of `PROP_LIST` written to it -/
def propListTables : List (String × String) :=
  [("white_space.rsv", "white_space"), ("pattern_syntax.rsv", "pattern_syntax"), ("pattern_white_space.rsv", "pattern_white_space"), ("bidi_control.rsv", "bidi_control")]

/-- gen/src/writer/ucd/common.rs L32-38, case.rs L33-113, ident.rs L31-61: the name of a file and the field of `DERIVED_CORE_PROPERTIES` written to it -/
def derivedTables : List (String × String) :=
  [("alphabetic.rsv", "alphabetic"), ("lowercase.rsv", "lowercase"), ("uppercase.rsv", "uppercase"), ("cased.rsv", "cased"), ("case_ignorable.rsv", "case_ignorable"),
   ("changes_when_lowercased.rsv", "changes_when_lowercased"), ("changes_when_uppercased.rsv", "changes_when_uppercased"),
   ("changes_when_titlecased.rsv", "changes_when_titlecased"), ("changes_when_casefolded.rsv", "changes_when_casefolded"),
   ("changes_when_casemapped.rsv", "changes_when_casemapped"), ("id_start.rsv", "id_start"), ("id_continue.rsv", "id_continue"), ("xid_start.rsv", "xid_start"),
   ("xid_continue.rsv", "xid_continue")]

/-- gen/src/writer/emoji/char.rs L39-73: the name of a file and the field of `EMOJI_DATA` written to it -/
def emojiTables : List (String × String) :=
  [("emoji.rsv", "emoji"), ("emoji_presentation.rsv", "emoji_presentation"), ("emoji_modifier.rsv", "emoji_modifier"), ("emoji_modifier_base.rsv", "emoji_modifier_base"),
   ("emoji_component.rsv", "emoji_component")]

/-- `write(dir, name, &SOURCE.field.to_range_char_set())`: the contents of the file `name`; `.panic` if no such file is written -/
def binaryTable (w sp : Nat → Bool) (arms : Arms) (tables : List (String × String)) (name : String) (file : List Nat) : Outcome (List Nat) :=
  match tables.lookup name with
  | none => .panic
  | some field => do toRangeCharSet ((← binaryFromStr w sp arms file) field)

/-- gen/src/writer/idna/mapping.rs L26-41: the closure that writes a value -/
def idnaDisplay (e : IdnaEntry) : List Nat :=
  str e.status ++
    if e.status = "Mapped" ∨ e.status = "Deviation" ∨ e.status = "DisallowedStd3Mapped" then
      str "(\"" ++ (match e.mapping with
        | some s => s.flatMap escapeUnicode
        | none => []) ++ str "\")"
    else []

/-- gen/src/writer/idna/mapping.rs L25-45 (`emit_idna_mapping`) -/
def idnaMapping (file : List Nat) : Outcome (List Nat) := do toRangeCharTable idnaDisplay (← idnaFromStr file)

end Model.GenWriter
