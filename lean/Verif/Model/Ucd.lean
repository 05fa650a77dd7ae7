import Verif.Model.Tables
import Verif.Data.Enums
import Verif.Data.GeneralCategory
import Verif.Data.BidiClass
import Verif.Data.GraphemeBreak
import Verif.Data.WordBreak
import Verif.Data.SentenceBreak
import Verif.Data.CombiningClass
import Verif.Data.Age
import Verif.Data.Blocks
import Verif.Data.CaseSets
import Verif.Data.CommonSets
import Verif.Data.IdentSets
import Verif.Data.BidiSets
import Verif.Data.EmojiSets
import Verif.Data.NameAliases

/-!
# The character properties: shipped tables and the accessors over them

Accessors use `findVal` / `containsVal`, the value of the lookup where it does not panic;
`Props.Shipped.c09_shipped_tables` shows that the lookups on these tables never panic.
-/
namespace Model.Ucd
open Model Data

/-! ## General category -/
/-- unic/ucd/category/src/category.rs L255-256 -/
def generalCategoryTable : CharDataTable GeneralCategory := .ofRange Data.generalCategory
/-- unic/ucd/category/src/category.rs L246-249, L261-263 (`GeneralCategory::of`, default `Unassigned`) -/
def generalCategory (c : Nat) : GeneralCategory := (generalCategoryTable.findVal c).getD .Unassigned

/-- unic/ucd/category/src/category.rs L268-271 -/
def isCasedLetter (g : GeneralCategory) : Bool := g ∈ [.UppercaseLetter, .LowercaseLetter, .TitlecaseLetter]
/-- unic/ucd/category/src/category.rs L274-277 -/
def isLetter (g : GeneralCategory) : Bool :=
  g ∈ [.UppercaseLetter, .LowercaseLetter, .TitlecaseLetter, .ModifierLetter, .OtherLetter]
/-- unic/ucd/category/src/category.rs L280-283 -/
def isMark (g : GeneralCategory) : Bool := g ∈ [.NonspacingMark, .SpacingMark, .EnclosingMark]
/-- unic/ucd/category/src/category.rs L286-289 -/
def isNumber (g : GeneralCategory) : Bool := g ∈ [.DecimalNumber, .LetterNumber, .OtherNumber]
/-- unic/ucd/category/src/category.rs L292-295 -/
def isPunctuation (g : GeneralCategory) : Bool :=
  g ∈ [.ConnectorPunctuation, .DashPunctuation, .OpenPunctuation, .ClosePunctuation, .InitialPunctuation,
    .FinalPunctuation, .OtherPunctuation]
/-- unic/ucd/category/src/category.rs L298-301 -/
def isSymbol (g : GeneralCategory) : Bool := g ∈ [.MathSymbol, .CurrencySymbol, .ModifierSymbol, .OtherSymbol]
/-- unic/ucd/category/src/category.rs L304-307 -/
def isSeparator (g : GeneralCategory) : Bool := g ∈ [.SpaceSeparator, .LineSeparator, .ParagraphSeparator]
/-- unic/ucd/category/src/category.rs L310-313 -/
def isOther (g : GeneralCategory) : Bool := g ∈ [.Control, .Format, .Surrogate, .PrivateUse, .Unassigned]

/-! ## Noncharacter and private use -/
/-- The or-pattern of unic/char/basics/src/noncharacter.rs, `is_noncharacter`. -/
def noncharacterRanges : List (Nat × Nat) := [
  (0xfdd0, 0xfdef), (0xfffe, 0xffff), (0x1fffe, 0x1ffff), (0x2fffe, 0x2ffff), (0x3fffe, 0x3ffff),
  (0x4fffe, 0x4ffff), (0x5fffe, 0x5ffff), (0x6fffe, 0x6ffff), (0x7fffe, 0x7ffff), (0x8fffe, 0x8ffff),
  (0x9fffe, 0x9ffff), (0xAfffe, 0xAffff), (0xBfffe, 0xBffff), (0xCfffe, 0xCffff), (0xDfffe, 0xDffff),
  (0xEfffe, 0xEffff), (0xFfffe, 0xFffff), (0x10fffe, 0x10ffff)]
/-- unic/char/basics/src/noncharacter.rs L26-48 (`is_noncharacter`) -/
def isNoncharacter (c : Nat) : Bool := noncharacterRanges.any fun r => decide (r.1 ≤ c) && decide (c ≤ r.2)

/-- The or-pattern of unic/char/basics/src/private_use.rs L29-31. -/
def privateUseRanges : List (Nat × Nat) := [(0xe000, 0xf8ff), (0xf0000, 0xffffd), (0x100000, 0x10fffd)]
/-- unic/char/basics/src/private_use.rs L27-37 (`is_private_use`) -/
def isPrivateUse (c : Nat) : Bool := privateUseRanges.any fun r => decide (r.1 ≤ c) && decide (c ≤ r.2)

/-! ## Binary properties: `char_property!`, unic/char/property/src/macros.rs L194-214 -/
/-- unic/ucd/common/tables/alphabetic.rsv -/
def alphabeticTable : CharDataTable Unit := .ofRange Data.alphabetic
/-- unic/ucd/common/src/alphabetic.rs -/
def isAlphabetic (c : Nat) : Bool := alphabeticTable.containsVal c
/-- unic/ucd/common/tables/alphanumeric.rsv -/
def alphanumericTable : CharDataTable Unit := .ofRange Data.alphanumeric
/-- unic/ucd/common/src/alphanumeric.rs L19-38 -/
def isAlphanumeric (c : Nat) : Bool := alphanumericTable.containsVal c
/-- unic/ucd/common/tables/control.rsv -/
def controlTable : CharDataTable Unit := .ofRange Data.control
/-- unic/ucd/common/src/control.rs -/
def isControl (c : Nat) : Bool := controlTable.containsVal c
/-- unic/ucd/common/tables/numeric.rsv -/
def numericTable : CharDataTable Unit := .ofRange Data.numeric
/-- unic/ucd/common/src/numeric.rs -/
def isNumeric (c : Nat) : Bool := numericTable.containsVal c
/-- unic/ucd/common/tables/white_space.rsv -/
def whiteSpaceTable : CharDataTable Unit := .ofRange Data.whiteSpace
/-- unic/ucd/common/src/white_space.rs -/
def isWhiteSpace (c : Nat) : Bool := whiteSpaceTable.containsVal c

/-- unic/ucd/case/tables/case_ignorable.rsv -/
def caseIgnorableTable : CharDataTable Unit := .ofRange Data.caseIgnorable
/-- unic/ucd/case/src/case_ignorable.rs -/
def isCaseIgnorable (c : Nat) : Bool := caseIgnorableTable.containsVal c
/-- unic/ucd/case/tables/cased.rsv -/
def casedTable : CharDataTable Unit := .ofRange Data.cased
/-- unic/ucd/case/src/cased.rs -/
def isCased (c : Nat) : Bool := casedTable.containsVal c
/-- unic/ucd/case/tables/changes_when_casefolded.rsv -/
def changesWhenCasefoldedTable : CharDataTable Unit := .ofRange Data.changesWhenCasefolded
/-- unic/ucd/case/src/changes_when_casefolded.rs -/
def changesWhenCasefolded (c : Nat) : Bool := changesWhenCasefoldedTable.containsVal c
/-- unic/ucd/case/tables/changes_when_casemapped.rsv -/
def changesWhenCasemappedTable : CharDataTable Unit := .ofRange Data.changesWhenCasemapped
/-- unic/ucd/case/src/changes_when_casemapped.rs -/
def changesWhenCasemapped (c : Nat) : Bool := changesWhenCasemappedTable.containsVal c
/-- unic/ucd/case/tables/changes_when_lowercased.rsv -/
def changesWhenLowercasedTable : CharDataTable Unit := .ofRange Data.changesWhenLowercased
/-- unic/ucd/case/src/changes_when_lowercased.rs -/
def changesWhenLowercased (c : Nat) : Bool := changesWhenLowercasedTable.containsVal c
/-- unic/ucd/case/tables/changes_when_titlecased.rsv -/
def changesWhenTitlecasedTable : CharDataTable Unit := .ofRange Data.changesWhenTitlecased
/-- unic/ucd/case/src/changes_when_titlecased.rs -/
def changesWhenTitlecased (c : Nat) : Bool := changesWhenTitlecasedTable.containsVal c
/-- unic/ucd/case/tables/changes_when_uppercased.rsv -/
def changesWhenUppercasedTable : CharDataTable Unit := .ofRange Data.changesWhenUppercased
/-- unic/ucd/case/src/changes_when_uppercased.rs -/
def changesWhenUppercased (c : Nat) : Bool := changesWhenUppercasedTable.containsVal c
/-- unic/ucd/case/tables/lowercase.rsv -/
def lowercaseTable : CharDataTable Unit := .ofRange Data.lowercase
/-- unic/ucd/case/src/lowercase.rs -/
def isLowercase (c : Nat) : Bool := lowercaseTable.containsVal c
/-- unic/ucd/case/tables/uppercase.rsv -/
def uppercaseTable : CharDataTable Unit := .ofRange Data.uppercase
/-- unic/ucd/case/src/uppercase.rs -/
def isUppercase (c : Nat) : Bool := uppercaseTable.containsVal c

/-- unic/ucd/ident/tables/id_start.rsv -/
def idStartTable : CharDataTable Unit := .ofRange Data.idStart
/-- unic/ucd/ident/src/id.rs -/
def isIdStart (c : Nat) : Bool := idStartTable.containsVal c
/-- unic/ucd/ident/tables/id_continue.rsv -/
def idContinueTable : CharDataTable Unit := .ofRange Data.idContinue
/-- unic/ucd/ident/src/id.rs -/
def isIdContinue (c : Nat) : Bool := idContinueTable.containsVal c
/-- unic/ucd/ident/tables/xid_start.rsv -/
def xidStartTable : CharDataTable Unit := .ofRange Data.xidStart
/-- unic/ucd/ident/src/xid.rs -/
def isXidStart (c : Nat) : Bool := xidStartTable.containsVal c
/-- unic/ucd/ident/tables/xid_continue.rsv -/
def xidContinueTable : CharDataTable Unit := .ofRange Data.xidContinue
/-- unic/ucd/ident/src/xid.rs -/
def isXidContinue (c : Nat) : Bool := xidContinueTable.containsVal c
/-- unic/ucd/ident/tables/pattern_syntax.rsv -/
def patternSyntaxTable : CharDataTable Unit := .ofRange Data.patternSyntax
/-- unic/ucd/ident/src/pattern.rs -/
def isPatternSyntax (c : Nat) : Bool := patternSyntaxTable.containsVal c
/-- unic/ucd/ident/tables/pattern_white_space.rsv -/
def patternWhiteSpaceTable : CharDataTable Unit := .ofRange Data.patternWhiteSpace
/-- unic/ucd/ident/src/pattern.rs -/
def isPatternWhiteSpace (c : Nat) : Bool := patternWhiteSpaceTable.containsVal c

/-- unic/ucd/bidi/tables/bidi_control.rsv -/
def bidiControlTable : CharDataTable Unit := .ofRange Data.bidiControl
/-- unic/ucd/bidi/src/bidi_control.rs -/
def isBidiControl (c : Nat) : Bool := bidiControlTable.containsVal c
/-- unic/ucd/bidi/tables/bidi_mirrored.rsv -/
def bidiMirroredTable : CharDataTable Unit := .ofRange Data.bidiMirrored
/-- unic/ucd/bidi/src/bidi_mirrored.rs -/
def isBidiMirrored (c : Nat) : Bool := bidiMirroredTable.containsVal c

/-- unic/emoji/char/tables/emoji.rsv -/
def emojiTable : CharDataTable Unit := .ofRange Data.emoji
/-- unic/emoji/char/src/emoji.rs -/
def isEmoji (c : Nat) : Bool := emojiTable.containsVal c
/-- unic/emoji/char/tables/emoji_component.rsv -/
def emojiComponentTable : CharDataTable Unit := .ofRange Data.emojiComponent
/-- unic/emoji/char/src/emoji_component.rs -/
def isEmojiComponent (c : Nat) : Bool := emojiComponentTable.containsVal c
/-- unic/emoji/char/tables/emoji_modifier.rsv -/
def emojiModifierTable : CharDataTable Unit := .ofRange Data.emojiModifier
/-- unic/emoji/char/src/emoji_modifier.rs -/
def isEmojiModifier (c : Nat) : Bool := emojiModifierTable.containsVal c
/-- unic/emoji/char/tables/emoji_modifier_base.rsv -/
def emojiModifierBaseTable : CharDataTable Unit := .ofRange Data.emojiModifierBase
/-- unic/emoji/char/src/emoji_modifier_base.rs -/
def isEmojiModifierBase (c : Nat) : Bool := emojiModifierBaseTable.containsVal c
/-- unic/emoji/char/tables/emoji_presentation.rsv -/
def emojiPresentationTable : CharDataTable Unit := .ofRange Data.emojiPresentation
/-- unic/emoji/char/src/emoji_presentation.rs -/
def isEmojiPresentation (c : Nat) : Bool := emojiPresentationTable.containsVal c

/-! ## Normalization support -/
/-- unic/ucd/normal/src/canonical_combining_class.rs L56-57 -/
def combiningClassTable : CharDataTable Nat := .ofRange Data.canonicalCombiningClass
/-- unic/ucd/normal/src/canonical_combining_class.rs L62-66 (`of`, default `NotReordered = 0`) -/
def combiningClass (c : Nat) : Nat := (combiningClassTable.findVal c).getD 0
/-- unic/ucd/normal/tables/general_category_mark.rsv -/
def generalCategoryMarkTable : CharDataTable Unit := .ofRange Data.generalCategoryMark
/-- unic/ucd/normal/src/gen_cat.rs L12-23 (`is_combining_mark` without feature `unic-ucd-category`) -/
def isCombiningMark (c : Nat) : Bool := (generalCategoryMarkTable.findVal c).isSome
/-- unic/ucd/normal/src/gen_cat.rs L25-33 (`is_combining_mark` with feature `unic-ucd-category`) -/
def isCombiningMarkViaCategory (c : Nat) : Bool := isMark (generalCategory c)

/-! ## Bidi class and segmentation classes -/
/-- unic/ucd/bidi/src/bidi_class.rs (`BIDI_CLASS_TABLE`) -/
def bidiClassTable : CharDataTable BidiClass := .ofRange Data.bidiClass
/-- unic/ucd/bidi/src/bidi_class.rs (`BidiClass::of`, default `LeftToRight`) -/
def bidiClass (c : Nat) : BidiClass := (bidiClassTable.findVal c).getD .LeftToRight
/-- unic/ucd/segment/tables/grapheme_cluster_break.rsv -/
def graphemeClusterBreakTable : CharDataTable GraphemeClusterBreak := .ofRange Data.graphemeClusterBreak
/-- unic/ucd/segment/src/grapheme_cluster_break.rs (`of`, default `Other`) -/
def graphemeClusterBreak (c : Nat) : GraphemeClusterBreak := (graphemeClusterBreakTable.findVal c).getD .Other
/-- unic/ucd/segment/tables/word_break.rsv -/
def wordBreakTable : CharDataTable WordBreak := .ofRange Data.wordBreak
/-- unic/ucd/segment/src/word_break.rs (`of`, default `Other`) -/
def wordBreak (c : Nat) : WordBreak := (wordBreakTable.findVal c).getD .Other
/-- unic/ucd/segment/tables/sentence_break.rsv -/
def sentenceBreakTable : CharDataTable SentenceBreak := .ofRange Data.sentenceBreak
/-- unic/ucd/segment/src/sentence_break.rs (`of`, default `Other`) -/
def sentenceBreak (c : Nat) : SentenceBreak := (sentenceBreakTable.findVal c).getD .Other

/-! ## Age and blocks -/
/-- unic/ucd/age/src/age.rs L71; values are (major, minor, micro). -/
def ageTable : CharDataTable (Nat × Nat × Nat) := .ofRange Data.age
/-- unic/ucd/age/src/age.rs L76-78 (`Age::of`, as the wrapped version) -/
def age (c : Nat) : Option (Nat × Nat × Nat) := ageTable.findVal c

/-- unic/ucd/block/src/block.rs L84 -/
def blocksTable : CharDataTable String := .ofRange Data.blocks
/-- unic/ucd/block/src/block.rs L33-38 (`Block::of`): the range and the name -/
def block (c : Nat) : Option (CharRange.CharRange × String) :=
  match blocksTable.findWithRange c with
  | .ok o => o
  | .panic => none
/-- unic/ucd/block/src/block.rs L56-80 (`BlockIter`), collected -/
def blockIter : List (CharRange.CharRange × String) := blocksTable.iter

/-! ## Name aliases -/
/-- unic/ucd/name_aliases/src/name_aliases.rs L56 -/
def correctionsTable : CharDataTable (List String) := .ofDirect Data.aliasCorrections
/-- unic/ucd/name_aliases/src/name_aliases.rs L57 -/
def controlsTable : CharDataTable (List String) := .ofDirect Data.aliasControls
/-- unic/ucd/name_aliases/src/name_aliases.rs L58 -/
def alternatesTable : CharDataTable (List String) := .ofDirect Data.aliasAlternates
/-- unic/ucd/name_aliases/src/name_aliases.rs L59 -/
def figmentsTable : CharDataTable (List String) := .ofDirect Data.aliasFigments
/-- unic/ucd/name_aliases/src/name_aliases.rs L60 -/
def abbreviationsTable : CharDataTable (List String) := .ofDirect Data.aliasAbbreviations
/-- unic/ucd/name_aliases/src/name_aliases.rs L71 -/
def nameAliasTypesTable : CharDataTable (List NameAliasType) := .ofDirect Data.nameAliasTypes
/-- unic/ucd/name_aliases/src/name_aliases.rs L33-38 (`NameAliasType::of`) -/
def nameAliasTypes (c : Nat) : Option (List NameAliasType) := nameAliasTypesTable.findVal c
/-- unic/ucd/name_aliases/src/name_aliases.rs L41-52 (`name_aliases_of`) -/
def nameAliasesOf (c : Nat) (ty : NameAliasType) : Option (List String) :=
  match ty with
  | .NameCorrections => correctionsTable.findVal c
  | .ControlCodeNames => controlsTable.findVal c
  | .AlternateNames => alternatesTable.findVal c
  | .Figments => figmentsTable.findVal c
  | .NameAbbreviations => abbreviationsTable.findVal c

end Model.Ucd
