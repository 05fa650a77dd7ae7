import Verif.Spec.Scalar
import Verif.Spec.TableText

/-! # Specification: the data files of the Unicode Character Database

UAX #44, section 4.2: a file is a sequence of lines; a line is a comment, empty, or a row. A row has code points in hexadecimal, four to six digits, a semicolon and a value;
a range of code points is written `XXXX..YYYY`. What follows a `#` is a comment. Texts are lists of characters. -/
namespace Spec.UcdFile
open Spec Spec.TableText

/-- the number written by hexadecimal digits -/
def hexValue (s : List Nat) : Nat := (readHex 0 s).1

/-- four to six hexadecimal digits -/
def IsHex (s : List Nat) : Prop := 4 ≤ s.length ∧ s.length ≤ 6 ∧ ∀ c ∈ s, (digit c).isSome = true

/-- A line of a file with rows of the type `R`. -/
inductive Line (R : Type) where
  | row (r : R)
  /-- a comment or an empty line -/
  | other (t : List Nat)

/-- the text of a line; `text` writes a row -/
def lineText {R : Type} (text : R → List Nat) : Line R → List Nat
  | .row r => text r
  | .other t => t

/-- the text of a file: each line is followed by a line feed -/
def fileText {R : Type} (text : R → List Nat) (ls : List (Line R)) : List Nat := ls.flatMap fun l => lineText text l ++ [10]

/-- the rows of a file -/
def rowsOf {R : Type} (ls : List (Line R)) : List R :=
  ls.filterMap fun
    | .row r => some r
    | .other _ => none

/-- the lines are rows of the right form, and other lines that do not start with a hexadecimal digit -/
def FileOk {R : Type} (ok : R → Prop) (ls : List (Line R)) : Prop :=
  ∀ l ∈ ls, match l with
    | .row r => ok r
    | .other t => 10 ∉ t ∧ ∀ c, t.head? = some c → digit c = none

/-- `XXXX` or `XXXX..YYYY` -/
structure Range where
  lo : List Nat
  hi : Option (List Nat)

namespace Range
def text (r : Range) : List Nat :=
  r.lo ++ match r.hi with
    | none => []
    | some h => TableText.text ".." ++ h
/-- the first and the last code point -/
def first (r : Range) : Nat := hexValue r.lo
def last (r : Range) : Nat := hexValue (r.hi.getD r.lo)
def Ok (r : Range) : Prop := IsHex r.lo ∧ ∀ h, r.hi = some h → IsHex h
end Range

/-- a blank: a space or a tabulator -/
def IsBlank (c : Nat) : Prop := c = 9 ∨ c = 32

/-- a letter, a digit or a low line, in ASCII -/
def IsWord (c : Nat) : Prop := (48 ≤ c ∧ c ≤ 57) ∨ (65 ≤ c ∧ c ≤ 90) ∨ (97 ≤ c ∧ c ≤ 122) ∨ c = 95

/-- A row: a range, a semicolon between blanks, a value and what follows it on the line. -/
structure Row where
  range : Range
  pad : List Nat
  pad2 : List Nat
  value : List Nat
  tail : List Nat

namespace Row
def text (r : Row) : List Nat := r.range.text ++ (r.pad ++ 59 :: (r.pad2 ++ (r.value ++ r.tail)))

/-- a row with a word as its value -/
structure Ok (r : Row) : Prop where
  range : r.range.Ok
  pad : r.pad ≠ [] ∧ ∀ c ∈ r.pad, IsBlank c
  pad2 : r.pad2 ≠ [] ∧ ∀ c ∈ r.pad2, IsBlank c
  value : r.value ≠ [] ∧ ∀ c ∈ r.value, IsWord c
  tail : 10 ∉ r.tail ∧ ∀ c, r.tail.head? = some c → ¬ IsWord c ∧ c < 128

/-- first code point, last code point, value -/
def triple (r : Row) : Nat × Nat × List Nat := (r.range.first, r.range.last, r.value)
end Row

/-- What some rows (first code point, last code point, value) say about a character: the last one that covers it counts. -/
def valueOf {α : Type} (rows : List (Nat × Nat × α)) (c : Nat) : Option α :=
  if IsScalar c then ((rows.filter fun r => decide (r.1 ≤ c ∧ c ≤ r.2.1)).getLast?).map (·.2.2) else none

/-- Where rows do not overlap, the value of a character is that of the row that covers it. -/
theorem valueOf_of_mem {α : Type} (rows : List (Nat × Nat × α)) (c : Nat) (hc : IsScalar c) (r : Nat × Nat × α) (hr : r ∈ rows) (h : r.1 ≤ c ∧ c ≤ r.2.1)
    (ho : ∀ r' ∈ rows, r'.1 ≤ c ∧ c ≤ r'.2.1 → r' = r) : valueOf rows c = some r.2.2 := by
  rw [valueOf, if_pos hc]
  have h1 : r ∈ rows.filter fun r => decide (r.1 ≤ c ∧ c ≤ r.2.1) := List.mem_filter.2 ⟨hr, by simpa using h⟩
  cases hl : (rows.filter fun r => decide (r.1 ≤ c ∧ c ≤ r.2.1)).getLast? with
  | none =>
    rw [List.getLast?_eq_none_iff] at hl
    rw [hl] at h1
    cases h1
  | some x =>
    have h2 := List.mem_of_getLast? hl
    rw [List.mem_filter] at h2
    rw [ho x h2.1 (by simpa using h2.2)]
    rfl

/-! ## `Blocks.txt` -/

/-- `XXXX..YYYY; Name` -/
structure BlockRow where
  lo : List Nat
  hi : List Nat
  pad : List Nat
  pad2 : List Nat
  name : List Nat

namespace BlockRow
def text (r : BlockRow) : List Nat := r.lo ++ (TableText.text ".." ++ (r.hi ++ (r.pad ++ 59 :: (r.pad2 ++ r.name))))
structure Ok (r : BlockRow) : Prop where
  lo : IsHex r.lo
  hi : IsHex r.hi
  pad : ∀ c ∈ r.pad, IsBlank c
  pad2 : ∀ c ∈ r.pad2, IsBlank c
  name : 10 ∉ r.name ∧ ∀ c, r.name.head? = some c → ¬ IsBlank c
def triple (r : BlockRow) : Nat × Nat × List Nat := (hexValue r.lo, hexValue r.hi, r.name)
end BlockRow

/-! ## `DerivedAge.txt` -/

/-- the number written by decimal digits -/
def decValue (s : List Nat) : Nat := s.foldl (fun n c => n * 10 + (c - 48)) 0

/-- decimal digits of a number of 16 bits -/
def IsDec (s : List Nat) : Prop := s ≠ [] ∧ (∀ c ∈ s, 48 ≤ c ∧ c ≤ 57) ∧ decValue s < 65536

/-- `XXXX..YYYY ; major.minor` or `XXXX..YYYY ; major.minor.micro` -/
structure AgeRow where
  range : Range
  pad : List Nat
  pad2 : List Nat
  major : List Nat
  minor : List Nat
  micro : Option (List Nat)
  tail : List Nat

namespace AgeRow
def microText (r : AgeRow) : List Nat := match r.micro with
  | none => []
  | some m => 46 :: m
def text (r : AgeRow) : List Nat := r.range.text ++ (r.pad ++ 59 :: (r.pad2 ++ (r.major ++ 46 :: (r.minor ++ (r.microText ++ r.tail)))))
structure Ok (r : AgeRow) : Prop where
  range : r.range.Ok
  pad : r.pad ≠ [] ∧ ∀ c ∈ r.pad, IsBlank c
  pad2 : r.pad2 ≠ [] ∧ ∀ c ∈ r.pad2, IsBlank c
  major : IsDec r.major
  minor : IsDec r.minor
  micro : ∀ m, r.micro = some m → IsDec m
  tail : 10 ∉ r.tail ∧ ∀ c, r.tail.head? = some c → c ≠ 46 ∧ ¬ (48 ≤ c ∧ c ≤ 57)
/-- first code point, last code point, version -/
def triple (r : AgeRow) : Nat × Nat × (Nat × Nat × Nat) := (r.range.first, r.range.last, decValue r.major, decValue r.minor, (r.micro.map decValue).getD 0)
end AgeRow

/-- a version as a Rust expression -/
def versionLiteral (v : Nat × Nat × Nat) : List Nat :=
  text ("UnicodeVersion { major: " ++ toString v.1 ++ ", minor: " ++ toString v.2.1 ++ ", micro: " ++ toString v.2.2 ++ " }")

/-! ## `IdnaMappingTable.txt` -/

/-- code points with a space between them -/
def pointsText : List (List Nat) → List Nat
  | [] => []
  | [p] => p
  | p :: r => p ++ 32 :: pointsText r

/-- the statuses of a character (UTS #46, section 5): how the file writes them, how the tables do, and whether a mapping belongs to them -/
def idnaStatuses : List (String × String × Bool) :=
  [("valid", "Valid", false), ("ignored", "Ignored", false), ("mapped", "Mapped", true), ("deviation", "Deviation", true), ("disallowed", "Disallowed", false),
   ("disallowed_STD3_valid", "DisallowedStd3Valid", false), ("disallowed_STD3_mapped", "DisallowedStd3Mapped", true)]

/-- `XXXX..YYYY ; status`, `XXXX..YYYY ; status ; XXXX XXXX` or `XXXX..YYYY ; status ; XXXX XXXX ; NV8`, and a comment -/
structure IdnaRow where
  range : Range
  pad : List Nat
  pad2 : List Nat
  /-- a member of `idnaStatuses` -/
  status : String × String × Bool
  pad3 : List Nat
  /-- blanks, the code points of the mapping (none if there is no mapping) and blanks -/
  mapping : Option (List Nat × List (List Nat) × List Nat)
  /-- blanks, the status in IDNA2008 and blanks; only after a field for the mapping -/
  flag : Option (List Nat × List Nat × List Nat)
  comment : List Nat

namespace IdnaRow
def flagText (r : IdnaRow) : List Nat := match r.flag with
  | none => []
  | some (d, f, d') => 59 :: (d ++ (f ++ d'))
def mappingText (r : IdnaRow) : List Nat := match r.mapping with
  | none => []
  | some (b, ps, b') => 59 :: (b ++ (pointsText ps ++ (b' ++ r.flagText)))
def text (r : IdnaRow) : List Nat := r.range.text ++ (r.pad ++ 59 :: (r.pad2 ++ (TableText.text r.status.1 ++ (r.pad3 ++ (r.mappingText ++ 35 :: r.comment)))))
structure Ok (r : IdnaRow) : Prop where
  range : r.range.Ok
  /-- the two ends are characters, or both are surrogates -/
  ends : r.range.first ≤ r.range.last ∧ ((IsScalar r.range.first ∧ IsScalar r.range.last) ∨ (0xD800 ≤ r.range.first ∧ r.range.last ≤ 0xDFFF))
  pad : ∀ c ∈ r.pad, IsBlank c
  pad2 : ∀ c ∈ r.pad2, IsBlank c
  status : r.status ∈ idnaStatuses
  pad3 : ∀ c ∈ r.pad3, IsBlank c
  mapping : ∀ b ps b', r.mapping = some (b, ps, b') → (∀ c ∈ b, IsBlank c) ∧ (∀ p ∈ ps, IsHex p ∧ IsScalar (hexValue p)) ∧ (∀ c ∈ b', IsBlank c) ∧ (ps = [] → b' = [])
  flag : ∀ d f d', r.flag = some (d, f, d') → (∀ c ∈ d, IsBlank c) ∧ (f = TableText.text "NV8" ∨ f = TableText.text "XV8") ∧ (∀ c ∈ d', IsBlank c)
  comment : 10 ∉ r.comment
/-- the characters of the mapping -/
def chars (r : IdnaRow) : List Nat := match r.mapping with
  | none => []
  | some (_, ps, _) => ps.map hexValue
/-- first code point, last code point, the status and, where one belongs to it, the mapping -/
def triple (r : IdnaRow) : Nat × Nat × (List Nat × Option (List Nat)) :=
  (r.range.first, r.range.last, TableText.text r.status.2.1, if r.status.2.2 then some r.chars else none)
end IdnaRow

/-- the characters of a string literal written with escapes, up to `")` at the end -/
def readEscapes : Nat → List Nat → Option (List Nat)
  | 0, _ => none
  | n + 1, s => if s = text "\")" then some [] else do
    let s ← after (text "\\u{") s
    let s' ← after (text "}") (readHex 0 s).2
    return (readHex 0 s).1 :: (← readEscapes n s')

/-- `Name` or `Name("\u{…}…")` -/
def readIdna (s : List Nat) : Option (List Nat × Option (List Nat)) :=
  match s.dropWhile (· ≠ 40) with
  | [] => some (s, none)
  | r => do return (s.takeWhile (· ≠ 40), some (← readEscapes (r.length) (← after (text "(\"") r)))

/-! ## `PropList.txt`, `DerivedCoreProperties.txt`, `emoji-data.txt` -/

/-- a row that gives the characters of a range a property -/
def PropertyRow (labels : List String) (r : Row) : Prop := r.Ok ∧ IsScalar r.range.first ∧ IsScalar r.range.last ∧ ∃ l ∈ labels, r.value = text l

/-- some row gives the character the property -/
def HasProperty (rows : List Row) (label : String) (c : Nat) : Prop := IsScalar c ∧ ∃ r ∈ rows, r.value = text label ∧ r.range.first ≤ c ∧ c ≤ r.range.last

/-- the properties of `PropList.txt` (Unicode 10) -/
def propListLabels : List String :=
  ["White_Space", "Bidi_Control", "Join_Control", "Dash", "Hyphen", "Quotation_Mark", "Terminal_Punctuation", "Other_Math", "Hex_Digit", "ASCII_Hex_Digit", "Other_Alphabetic",
   "Ideographic", "Diacritic", "Extender", "Other_Lowercase", "Other_Uppercase", "Noncharacter_Code_Point", "Other_Grapheme_Extend", "IDS_Binary_Operator",
   "IDS_Trinary_Operator", "Radical", "Unified_Ideograph", "Other_Default_Ignorable_Code_Point", "Deprecated", "Soft_Dotted", "Logical_Order_Exception", "Other_ID_Start",
   "Other_ID_Continue", "Sentence_Terminal", "Variation_Selector", "Pattern_White_Space", "Pattern_Syntax", "Prepended_Concatenation_Mark", "Regional_Indicator"]

/-- the properties of `DerivedCoreProperties.txt` -/
def derivedLabels : List String :=
  ["Math", "Alphabetic", "Lowercase", "Uppercase", "Cased", "Case_Ignorable", "Changes_When_Lowercased", "Changes_When_Uppercased", "Changes_When_Titlecased",
   "Changes_When_Casefolded", "Changes_When_Casemapped", "ID_Start", "ID_Continue", "XID_Start", "XID_Continue", "Default_Ignorable_Code_Point", "Grapheme_Extend",
   "Grapheme_Base", "Grapheme_Link"]

/-- the properties of `emoji-data.txt` -/
def emojiLabels : List String := ["Emoji", "Emoji_Presentation", "Emoji_Modifier", "Emoji_Modifier_Base", "Emoji_Component"]

/-- the tables and the properties they are for -/
def propListFiles : List (String × String) :=
  [("white_space.rsv", "White_Space"), ("bidi_control.rsv", "Bidi_Control"), ("pattern_white_space.rsv", "Pattern_White_Space"), ("pattern_syntax.rsv", "Pattern_Syntax")]
def derivedFiles : List (String × String) :=
  [("alphabetic.rsv", "Alphabetic"), ("lowercase.rsv", "Lowercase"), ("uppercase.rsv", "Uppercase"), ("cased.rsv", "Cased"), ("case_ignorable.rsv", "Case_Ignorable"),
   ("changes_when_lowercased.rsv", "Changes_When_Lowercased"), ("changes_when_uppercased.rsv", "Changes_When_Uppercased"),
   ("changes_when_titlecased.rsv", "Changes_When_Titlecased"), ("changes_when_casefolded.rsv", "Changes_When_Casefolded"),
   ("changes_when_casemapped.rsv", "Changes_When_Casemapped"), ("id_start.rsv", "ID_Start"), ("id_continue.rsv", "ID_Continue"), ("xid_start.rsv", "XID_Start"),
   ("xid_continue.rsv", "XID_Continue")]
def emojiFiles : List (String × String) :=
  [("emoji.rsv", "Emoji"), ("emoji_presentation.rsv", "Emoji_Presentation"), ("emoji_modifier.rsv", "Emoji_Modifier"), ("emoji_modifier_base.rsv", "Emoji_Modifier_Base"),
   ("emoji_component.rsv", "Emoji_Component")]

end Spec.UcdFile
