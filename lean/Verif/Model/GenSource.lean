import Verif.Model.Regex
import Verif.Model.Hex
import Verif.Model.Cli
import Verif.Model.Punycode
import Verif.Model.Gen

/-! # Model of the parsers of the Unicode data files, `gen/src/source`

A text is the list of its characters; `read` (file access) is left out. `BTreeMap<char, T>` and `BTreeSet<char>` are lists in ascending order of the keys.
The classes `\w` and `\s` of the crate `regex` beyond ASCII are the parameters `w` and `sp`. -/
namespace Model.GenSource
open Model Model.Regex Model.Gen Model.Utf Model.Hex

/-- `unwrap` and `expect` (std) -/
def unwrap {α : Type} : Option α → Outcome α
  | some a => .ok a
  | none => .panic

/-- `&capture[i]` of the crate `regex`: panics if the group has not matched -/
def group (c : Caps) (i : Nat) : Outcome (List Nat) := unwrap (capGet c i)

/-- `u32::from_str_radix(s, 16).unwrap()` -/
def hexU32 (s : List Nat) : Outcome Nat := unwrap (fromStrRadix16 0xFFFFFFFF s)

/-- `Option<_>::map` with a function that may panic -/
def mapOpt {α β : Type} (f : α → Outcome β) : Option α → Outcome (Option β)
  | none => .ok none
  | some a => (f a).map some

/-- all results, or a panic -/
def mapAll {α β : Type} (f : α → Outcome β) : List α → Outcome (List β)
  | [] => .ok []
  | a :: r => (f a).bind fun b => (mapAll f r).map (b :: ·)

/-- a loop whose body may panic -/
def foldOutcome {α σ : Type} (f : σ → α → Outcome σ) : σ → List α → Outcome σ
  | s, [] => .ok s
  | s, a :: r => (f s a).bind fun s' => foldOutcome f s' r

/-- `BTreeMap::insert` (std) -/
def put {V : Type} (k : Nat) (v : V) : List (Nat × V) → List (Nat × V)
  | [] => [(k, v)]
  | (k', v') :: r => if k < k' then (k, v) :: (k', v') :: r else if k = k' then (k, v) :: r else (k', v') :: put k v r

/-- `BTreeMap::get` (std) -/
def find {V : Type} (k : Nat) (m : List (Nat × V)) : Option V := m.lookup k

/-- collecting pairs into a `BTreeMap`, or inserting them one after the other -/
def insertAll {V : Type} (m : List (Nat × V)) (l : List (Nat × V)) : List (Nat × V) := l.foldl (fun m e => put e.1 e.2 m) m

/-- `BTreeSet::insert` (std) -/
def insertSet (k : Nat) : List Nat → List Nat
  | [] => [k]
  | k' :: r => if k < k' then k :: k' :: r else if k = k' then k :: r else k' :: insertSet k r

/-- `BTreeSet::extend` (std), and collecting into a `BTreeSet` -/
def extendSet (s l : List Nat) : List Nat := l.foldl (fun s c => insertSet c s) s

/-- the characters met by `for point in low..(high + 1) { if let Some(c) = char::from_u32(point) …` -/
def points (low high : Nat) : List Nat := (List.range' low (high + 1 - low)).filterMap charFromU32

/-! ## `GraphemeBreakProperty.txt`, `WordBreakProperty.txt`, `SentenceBreakProperty.txt` -/

/-- gen/src/source/ucd/{grapheme,word,sentence}_break_property.rs L40-46: the groups of code points at the start of a line -/
def rangeRe : List Re := [.cap 1 hex46, .opt (cat [dot, dot, .cap 2 hex46]), .star (.cls blank), chr 59, .star (.cls blank)]
/-- gen/src/source/ucd/{grapheme,word,sentence}_break_property.rs L39-48 (`REGEX`) -/
def breakRe : Re := .seq .bol (cat (rangeRe ++ [.cap 3 (plus (.cls word))]))

/-- gen/src/source/ucd/{grapheme,word,sentence}_break_property.rs L51-54: `start` and `end` -/
def startEnd (c : Caps) : Outcome (Nat × Nat) := do
  let start ← (group c 1).bind hexU32
  let stop ← mapOpt hexU32 (capGet c 2)
  return (start, stop.getD start)

/-- gen/src/source/ucd/{grapheme,word,sentence}_break_property.rs L50-61: the body of the loop -/
def breakStep (m : List (Nat × List Nat)) (c : Caps) : Outcome (List (Nat × List Nat)) := do
  let (start, stop) ← startEnd c
  let v ← group c 3
  return insertAll m ((points start stop).map fun p => (p, v))

/-- gen/src/source/ucd/{grapheme,word,sentence}_break_property.rs L35-64 (`from_str`) -/
def breakFromStr (s : List Nat) : Outcome (List (Nat × List Nat)) := foldOutcome breakStep [] (capturesIter breakRe s)

/-! ## `Blocks.txt` -/

/-- gen/src/source/ucd/blocks.rs L39-48 (`REGEX`) -/
def blocksRe : Re := .seq .bol (cat [.cap 1 hex46, dot, dot, .cap 2 hex46, .star (.cls blank), chr 59, .star (.cls blank), .cap 3 (.star dot)])

/-- gen/src/source/ucd/blocks.rs L51-60: the body of the loop -/
def blocksStep (m : List (Nat × List Nat)) (c : Caps) : Outcome (List (Nat × List Nat)) := do
  let start ← (group c 1).bind hexU32
  let stop ← (group c 2).bind hexU32
  let v ← group c 3
  return insertAll m ((points start stop).map fun p => (p, v))

/-- gen/src/source/ucd/blocks.rs L35-63 (`from_str`) -/
def blocksFromStr (s : List Nat) : Outcome (List (Nat × List Nat)) := foldOutcome blocksStep [] (capturesIter blocksRe s)

/-! ## `DerivedAge.txt` -/

/-- the digit loop of `str::parse` for an unsigned type with the given maximum (std) -/
def decLoop (max : Nat) : Nat → List Nat → Option Nat
  | acc, [] => some acc
  | acc, c :: cs => if digit c then (if acc * 10 + (c - 48) ≤ max then decLoop max (acc * 10 + (c - 48)) cs else none) else none

/-- `str::parse` for an unsigned type with the given maximum (std); only called on texts of digits, so that a sign is left out -/
def parseDec (max : Nat) (s : List Nat) : Option Nat := if s = [] then none else decLoop max 0 s

/-- decimal digits, most significant first, at least one: `Display` of an unsigned integer (std) -/
def decFmt : Nat → Nat → List Nat
  | 0, n => [48 + n % 10]
  | fuel + 1, n => if n < 10 then [48 + n] else decFmt fuel (n / 10) ++ [48 + n % 10]

/-- gen/src/source/ucd/derived_age.rs L37-48 (`REGEX`) -/
def ageRe : Re := .seq .bol (cat (rangeRe ++ [.cap 3 (plus (.cls digit)), chr 46, .cap 4 (plus (.cls digit)), .opt (cat [chr 46, .cap 5 (plus (.cls digit))])]))

/-- gen/src/source/ucd/derived_age.rs L66-69: `format!("UnicodeVersion {{ major: {}, minor: {}, micro: {} }}", …)` -/
def versionText (major minor micro : Nat) : List Nat :=
  str "UnicodeVersion { major: " ++ decFmt major major ++ str ", minor: " ++ decFmt minor minor ++ str ", micro: " ++ decFmt micro micro ++ str " }"

/-- gen/src/source/ucd/derived_age.rs L51-73: the body of the loop -/
def ageStep (m : List (Nat × List Nat)) (c : Caps) : Outcome (List (Nat × List Nat)) := do
  let (start, stop) ← startEnd c
  let major ← (group c 3).bind fun t => unwrap (parseDec 0xFFFF t)
  let minor ← (group c 4).bind fun t => unwrap (parseDec 0xFFFF t)
  let micro ← mapOpt (fun t => unwrap (parseDec 0xFFFF t)) (capGet c 5)
  return insertAll m ((points start stop).map fun p => (p, versionText major minor (micro.getD 0)))

/-- gen/src/source/ucd/derived_age.rs L35-76 (`from_str`) -/
def ageFromStr (s : List Nat) : Outcome (List (Nat × List Nat)) := foldOutcome ageStep [] (capturesIter ageRe s)

/-! ## `DerivedNormalizationProps.txt` -/

/-- gen/src/source/ucd/derived_normalization_props.rs L36-44 (`REGEX`) -/
def exclusionsRe : Re :=
  .seq .bol (cat [.cap 1 hex46, .opt (cat [chr 46, chr 46, .cap 2 hex46]), .star (.cls space), chr 59, lit " Full_Composition_Exclusion #"])

/-- gen/src/source/ucd/derived_normalization_props.rs L34-61 (`from_str`) -/
def exclusionsFromStr (s : List Nat) : Outcome (List Nat) :=
  foldOutcome (fun m c => do
    let (low, high) ← startEnd c
    return extendSet m (points low high)) [] (capturesIter exclusionsRe s)

/-! ## `PropList.txt`, `DerivedCoreProperties.txt`, `emoji-data.txt` -/

/-- `\w` -/
def uword (w : Nat → Bool) (c : Nat) : Bool := if c < 128 then word c else w c
/-- `\s` -/
def uspace (sp : Nat → Bool) (c : Nat) : Bool := if c < 128 then space c else sp c

/-- gen/src/source/ucd/mod.rs L28-37 (`BINARY_PROPERTIES_REGEX`) -/
def binaryRe (w sp : Nat → Bool) : Re :=
  .seq .bol (cat [.cap 1 hex46, .opt (cat [dot, dot, .cap 2 hex46]), plus (.cls (uspace sp)), chr 59, plus (.cls (uspace sp)), .cap 3 (plus (.cls (uword w)))])

/-- The arms of a `match` on the label of a property: the label and the field it extends, `none` where the arm does nothing. A label without an arm panics. -/
abbrev Arms := List (String × Option String)

/-- The fields of the struct, each with its set. -/
abbrev Fields := String → List Nat

/-- gen/src/source/ucd/prop_list.rs L197-235 -/
def propListArms : Arms :=
  [("White_Space", some "white_space"), ("Bidi_Control", some "bidi_control"), ("Join_Control", some "join_control"), ("Dash", some "dash"), ("Hyphen", some "dash"),
   ("Quotation_Mark", some "quotation_mark"), ("Terminal_Punctuation", some "terminal_punctuation"), ("Other_Math", some "other_math"), ("Hex_Digit", some "hex_digit"),
   ("ASCII_Hex_Digit", some "ascii_hex_digit"), ("Other_Alphabetic", some "other_alphabetic"), ("Ideographic", some "ideographic"), ("Diacritic", some "diacritic"),
   ("Extender", some "extender"), ("Other_Lowercase", some "other_lowercase"), ("Other_Uppercase", some "other_uppercase"),
   ("Noncharacter_Code_Point", some "noncharacter_code_point"), ("Other_Grapheme_Extend", some "other_grapheme_extend"),
   ("IDS_Binary_Operator", some "ids_binary_operator"), ("IDS_Trinary_Operator", some "ids_trinary_operator"), ("Radical", some "radical"),
   ("Unified_Ideograph", some "unified_ideograph"), ("Other_Default_Ignorable_Code_Point", some "other_default_ignorable_code_point"), ("Deprecated", some "deprecated"),
   ("Soft_Dotted", some "soft_dotted"), ("Logical_Order_Exception", some "logical_order_exception"), ("Other_ID_Start", some "other_id_start"),
   ("Other_ID_Continue", some "other_id_continue"), ("Sentence_Terminal", some "sentence_terminal"), ("Variation_Selector", some "variation_selector"),
   ("Pattern_White_Space", some "pattern_white_space"), ("Pattern_Syntax", some "pattern_syntax"),
   ("Prepended_Concatenation_Mark", some "prepended_concatenation_mark"), ("Regional_Indicator", some "regional_indicator")]

/-- gen/src/source/ucd/derived_core_properties.rs L204-225 -/
def derivedArms : Arms :=
  [("Lowercase", some "lowercase"), ("Uppercase", some "uppercase"), ("Cased", some "cased"), ("Case_Ignorable", some "case_ignorable"),
   ("Changes_When_Lowercased", some "changes_when_lowercased"), ("Changes_When_Uppercased", some "changes_when_uppercased"),
   ("Changes_When_Titlecased", some "changes_when_titlecased"), ("Changes_When_Casefolded", some "changes_when_casefolded"),
   ("Changes_When_Casemapped", some "changes_when_casemapped"), ("Alphabetic", some "alphabetic"),
   ("Default_Ignorable_Code_Point", some "default_ignorable_code_point"), ("Grapheme_Extend", some "grapheme_extend"), ("Grapheme_Base", some "grapheme_base"),
   ("Grapheme_Link", none), ("Math", some "math"), ("ID_Start", some "id_start"), ("ID_Continue", some "id_continue"), ("XID_Start", some "xid_start"),
   ("XID_Continue", some "xid_continue")]

/-- gen/src/source/emoji/emoji_data.rs L63-70 -/
def emojiArms : Arms :=
  [("Emoji", some "emoji"), ("Emoji_Presentation", some "emoji_presentation"), ("Emoji_Modifier", some "emoji_modifier"),
   ("Emoji_Modifier_Base", some "emoji_modifier_base"), ("Emoji_Component", some "emoji_component")]

/-- the arm of a label -/
def arm (arms : Arms) (label : List Nat) : Outcome (Option String) := unwrap ((arms.find? fun a => str a.1 = label).map (·.2))

/-- gen/src/source/ucd/prop_list.rs L188-236, derived_core_properties.rs L195-226, gen/src/source/emoji/emoji_data.rs L54-71: the body of the loop -/
def binaryStep (arms : Arms) (f : Fields) (c : Caps) : Outcome Fields := do
  let low ← ((group c 1).bind hexU32).bind fun u => unwrap (charFromU32 u)
  let high ← mapOpt (fun t => (hexU32 t).bind fun u => unwrap (charFromU32 u)) (capGet c 2)
  let range := CharRange.collect (CharRange.CharRange.closed low (high.getD low)).iter
  let a ← (group c 3).bind (arm arms)
  match a with
  | none => return f
  | some field => return fun x => if x = field then extendSet (f x) range else f x

/-- gen/src/source/ucd/prop_list.rs L185-239, derived_core_properties.rs L192-229, gen/src/source/emoji/emoji_data.rs L51-74 (`from_str`) -/
def binaryFromStr (w sp : Nat → Bool) (arms : Arms) (s : List Nat) : Outcome Fields :=
  foldOutcome (binaryStep arms) (fun _ => []) (capturesIter (binaryRe w sp) s)

/-! ## `IdnaMappingTable.txt` -/

/-- gen/src/source/idna/idna_mapping_table.rs L28-37 (`IdnaMappingEntry`); `status` is the name of the variant. -/
structure IdnaEntry where
  status : String
  mapping : Option (List Nat)
deriving DecidableEq

/-- code points in hexadecimal, one space between them: `([[:xdigit:]]{4,6}(?:\x20[[:xdigit:]]{4,6})*)` -/
def hexListRe : Re := .seq hex46 (.star (.seq (chr 32) hex46))

/-- gen/src/source/idna/idna_mapping_table.rs L48-68 (`REGEX`); `(NV8|XV8)` as a class and two characters -/
def idnaRe : Re :=
  .seq .bol (cat [.cap 1 hex46, .opt (cat [chr 46, chr 46, .cap 2 hex46]), .star (.cls space), chr 59, .star (.cls space), .cap 3 (.star (.cls word)), .star (.cls space),
    .opt (cat [chr 59, .star (.cls space), .opt (.cap 4 hexListRe), .star (.cls space),
      .opt (cat [chr 59, .star (.cls space), .cap 5 (cat [.cls fun c => c == 78 || c == 88, chr 86, chr 56]), .star (.cls space)])]),
    chr 35])

/-- gen/src/source/idna/idna_mapping_table.rs L80-89 -/
def idnaStatus (s : List Nat) : Outcome String :=
  if s = str "valid" then .ok "Valid"
  else if s = str "ignored" then .ok "Ignored"
  else if s = str "mapped" then .ok "Mapped"
  else if s = str "deviation" then .ok "Deviation"
  else if s = str "disallowed" then .ok "Disallowed"
  else if s = str "disallowed_STD3_valid" then .ok "DisallowedStd3Valid"
  else if s = str "disallowed_STD3_mapped" then .ok "DisallowedStd3Mapped"
  else .panic

/-- `m.as_str().split(' ').map(|s| u32::from_str_radix(s, 16).unwrap()).map(|u| char::from_u32(u).unwrap())` -/
def hexList (t : List Nat) : Outcome (List Nat) :=
  mapAll (fun s => (hexU32 s).bind fun u => unwrap (charFromU32 u)) (Cli.split (fun c => c == 32) t)

/-- gen/src/source/idna/idna_mapping_table.rs L72-103: the body of the loop -/
def idnaStep (m : List (Nat × IdnaEntry)) (c : Caps) : Outcome (List (Nat × IdnaEntry)) := do
  let u ← (group c 1).bind hexU32
  match charFromU32 u with
  | none => return m
  | some low =>
    let high ← mapOpt (fun t => (hexU32 t).bind fun u => unwrap (charFromU32 u)) (capGet c 2)
    let high := high.getD low
    let status ← (group c 3).bind idnaStatus
    let mapping ← mapOpt hexList (capGet c 4)
    let entry : IdnaEntry := ⟨status, mapping⟩
    let m := insertAll m ((CharRange.collect (CharRange.CharRange.openRight low high).iter).map fun ch => (ch, entry))
    return put high entry m

/-- gen/src/source/idna/idna_mapping_table.rs L46-106 (`from_str`) -/
def idnaFromStr (s : List Nat) : Outcome (List (Nat × IdnaEntry)) := foldOutcome idnaStep [] (capturesIter idnaRe s)

end Model.GenSource
