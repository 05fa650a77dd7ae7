import Verif.Model.GenWriter
import Verif.Model.GenUnicodeData

/-! # Model of the writers of tables made from `UnicodeData.txt`, `Jamo.txt`, `NameAliases.txt` and `ReadMe.txt`, `gen/src/writer/ucd`

As in `Model.GenWriter`, each function gives the contents passed to `write`; the arguments are the texts of the data files. -/
namespace Model.GenUcdWriter
open Model Model.Regex Model.Gen Model.GenSource Model.GenUnicodeData

/-! ## Values and sets -/

/-- collecting pairs into a `BTreeMap` -/
def collectMap {V : Type} (l : List (Nat × V)) : List (Nat × V) := insertAll [] l
/-- collecting characters into a `BTreeSet` -/
def collectSet (l : List Nat) : List Nat := extendSet [] l

/-- `BTreeMap::entry(k).or_insert(v)` (std) -/
def orInsert {V : Type} (k : Nat) (v : V) (m : List (Nat × V)) : List (Nat × V) := match find k m with
  | some _ => m
  | none => put k v m

/-- gen/src/writer/ucd/category.rs L28-40 (`emit_general_category`) -/
def generalCategory (file : List Nat) : Outcome (List Nat) := do
  let es ← unicodeDataFromStr file
  toRangeCharTable (fun v => v) (collectMap (es.map fun x => (x.character, x.generalCategory)))

/-- gen/src/writer/ucd/bidi.rs L34-48 (`BIDI_CLASS_DEFAULTS`) -/
def bidiClassDefaults : List (Nat × Nat × String) :=
  [(0x0600, 0x07BF, "AL"), (0x08A0, 0x08FF, "AL"), (0xFB50, 0xFDCF, "AL"), (0xFDF0, 0xFDFF, "AL"), (0xFE70, 0xFEFF, "AL"), (0x1EE00, 0x1EEFF, "AL"),
   (0x0590, 0x05FF, "R"), (0x07C0, 0x089F, "R"), (0xFB1D, 0xFB4F, "R"), (0x10800, 0x10FFF, "R"), (0x1E800, 0x1EDFF, "R"), (0x1EF00, 0x1EFFF, "R"), (0x20A0, 0x20CF, "ET")]

/-- gen/src/writer/ucd/bidi.rs L57-63: the loops over the defaults -/
def withDefaults (m : List (Nat × List Nat)) : List (Nat × List Nat) :=
  bidiClassDefaults.foldl (fun m d => (points d.1 d.2.1).foldl (fun m c => orInsert c (str d.2.2) m) m) m

/-- gen/src/writer/ucd/bidi.rs L50-70 (`emit_bidi_class`) -/
def bidiClass (file : List Nat) : Outcome (List Nat) := do
  let es ← unicodeDataFromStr file
  toRangeCharTable (fun v => v) (withDefaults (collectMap (es.map fun x => (x.character, x.bidiClass))))

/-- gen/src/writer/ucd/bidi.rs L72-81 (`emit_bidi_mirrored`) -/
def bidiMirrored (file : List Nat) : Outcome (List Nat) := do
  let es ← unicodeDataFromStr file
  toRangeCharSet (collectSet ((es.filter fun x => x.bidiMirrored).map (·.character)))

/-- the characters with one of some categories -/
def withCategory (cats : List String) (es : List Entry) : List Nat := collectSet ((es.filter fun x => (cats.map str).contains x.generalCategory).map (·.character))

/-- gen/src/writer/ucd/common.rs L56-64 (`emit_control`) -/
def control (file : List Nat) : Outcome (List Nat) := do toRangeCharSet (withCategory ["Cc"] (← unicodeDataFromStr file))

/-- gen/src/writer/ucd/common.rs L66-77 (`emit_numeric`, `get_numeric`) -/
def numeric (file : List Nat) : Outcome (List Nat) := do toRangeCharSet (withCategory ["Nd", "Nl", "No"] (← unicodeDataFromStr file))

/-- gen/src/writer/ucd/common.rs L48-54, L79-84 (`emit_alphanumeric`, `get_alphanumeric`); `derived` is the text of `DerivedCoreProperties.txt` -/
def alphanumeric (w sp : Nat → Bool) (file derived : List Nat) : Outcome (List Nat) := do
  let es ← unicodeDataFromStr file
  let d ← binaryFromStr w sp derivedArms derived
  toRangeCharSet (extendSet (withCategory ["Nd", "Nl", "No"] es) (d "alphabetic"))

/-- gen/src/writer/ucd/normal.rs L32-41 (`emit_general_category_mark`) -/
def generalCategoryMark (file : List Nat) : Outcome (List Nat) := do toRangeCharSet (withCategory ["Mn", "Mc", "Me"] (← unicodeDataFromStr file))

/-- gen/src/writer/ucd/normal.rs L43-56 (`emit_canonical_combining_class`) -/
def canonicalCombiningClass (file : List Nat) : Outcome (List Nat) := do
  let es ← unicodeDataFromStr file
  toRangeCharTable (fun v => str "CanonicalCombiningClass(" ++ decFmt v v ++ str ")")
    (collectMap ((es.filter fun x => x.canonicalCombiningClass ≠ 0).map fun x => (x.character, x.canonicalCombiningClass)))

/-! ## Decompositions and compositions -/

/-- gen/src/writer/ucd/normal.rs L58-70 (`decomposition_map`) -/
def decompositionMap (es : List Entry) : List (Nat × List Nat) :=
  collectMap (es.filterMap fun x => match x.decompositionType, x.decompositionMapping with
    | none, some m => some (x.character, m)
    | _, _ => none)

/-- `'\u{…}',` for each character -/
def charsText (cs : List Nat) : List Nat := cs.flatMap fun c => str "'" ++ escapeUnicode c ++ str "',"

/-- gen/src/writer/ucd/normal.rs L72-84 (`emit_canonical_decomposition_mapping`) -/
def canonicalDecompositionMapping (file : List Nat) : Outcome (List Nat) := do
  let es ← unicodeDataFromStr file
  return toDirectCharTable (fun raw => str "&[" ++ charsText raw ++ str "]") (decompositionMap es)

/-- gen/src/writer/ucd/normal.rs L89-102: the body of the loop; `excl` are the exclusions. Indices into a list of two characters are patterns. -/
def composeStep (excl : List Nat) (m : List (Nat × List (Nat × Nat))) (e : Nat × List Nat) : Outcome (List (Nat × List (Nat × Nat))) :=
  if e.2.length = 1 then .ok m
  else match e.2 with
    | [lead, follow] => if excl.contains e.1 then .ok m else .ok (put lead ((find lead m).getD [] ++ [(follow, e.1)]) m)
    | _ => .panic

/-- inserting an element after those with a smaller or equal key -/
def insertByKey (e : Nat × Nat) : List (Nat × Nat) → List (Nat × Nat)
  | [] => [e]
  | x :: r => if e.1 < x.1 then e :: x :: r else x :: insertByKey e r

/-- `slice::sort_by_key(|it| it.0)` (std), a stable sort -/
def sortByKey (l : List (Nat × Nat)) : List (Nat × Nat) := l.foldl (fun s e => insertByKey e s) []

/-- gen/src/writer/ucd/normal.rs L111-122: the closure that writes a value -/
def pairsText (v : List (Nat × Nat)) : List Nat :=
  str "CharDataTable::Direct(&[" ++ (v.flatMap fun p => str "('" ++ escapeUnicode p.1 ++ str "','" ++ escapeUnicode p.2 ++ str "'),") ++ str "])"

/-- gen/src/writer/ucd/normal.rs L86-124 (`emit_canonical_composition_mapping`); `props` is the text of `DerivedNormalizationProps.txt` -/
def canonicalCompositionMapping (file props : List Nat) : Outcome (List Nat) := do
  let es ← unicodeDataFromStr file
  let excl ← exclusionsFromStr props
  let m ← foldOutcome (composeStep excl) [] (decompositionMap es)
  return toDirectCharTable pairsText (m.map fun e => (e.1, sortByKey e.2))

/-- `str::to_lowercase` (std), on ASCII -/
def lowercase (s : List Nat) : List Nat := s.map fun c => if 65 ≤ c ∧ c ≤ 90 then c + 32 else c

/-- gen/src/writer/utils/mod.rs L17-23 (`capitalize`), on ASCII -/
def capitalize : List Nat → List Nat
  | [] => []
  | c :: s => (if 97 ≤ c ∧ c ≤ 122 then c - 32 else c) :: s

/-- gen/src/writer/ucd/normal.rs L126-151 (`emit_compatibility_decomposition_mapping`) -/
def compatibilityDecompositionMapping (file : List Nat) : Outcome (List Nat) := do
  let es ← unicodeDataFromStr file
  return toDirectCharTable (fun v => str "(" ++ capitalize (lowercase v.1) ++ str ", &[" ++ charsText v.2 ++ str "])")
    (collectMap (es.filterMap fun x => match x.decompositionType, x.decompositionMapping with
      | some t, some m => some (x.character, (t, m))
      | _, _ => none))

/-! ## Names -/

/-- `char::is_whitespace` (std) -/
def isWhitespace (c : Nat) : Bool :=
  (9 ≤ c && c ≤ 13) || c == 32 || c == 0x85 || c == 0xA0 || c == 0x1680 || (0x2000 ≤ c && c ≤ 0x200A) || c == 0x2028 || c == 0x2029 || c == 0x202F || c == 0x205F || c == 0x3000

/-- `str::split_whitespace` (std): the parts between white space that are not empty -/
def splitWhitespace (s : List Nat) : List (List Nat) := (Cli.split isWhitespace s).filter (· ≠ [])

/-- the order of strings -/
def strLt : List Nat → List Nat → Bool
  | [], [] => false
  | [], _ :: _ => true
  | _ :: _, [] => false
  | a :: s, b :: t => if a < b then true else if a = b then strLt s t else false

/-- `BTreeSet<&str>::insert` (std) -/
def insertStr (k : List Nat) : List (List Nat) → List (List Nat)
  | [] => [k]
  | x :: r => if strLt k x then k :: x :: r else if k = x then x :: r else x :: insertStr k r

/-- `s.replace('-', "_")` -/
def underscores (s : List Nat) : List Nat := s.map fun c => if c = 45 then 95 else c

/-- gen/src/writer/ucd/name.rs L37-46: the characters with a name and the pieces of their names -/
def namePieces (es : List Entry) : List (Nat × List (List Nat)) := (es.filter fun x => x.name.head? ≠ some 60).map fun x => (x.character, splitWhitespace x.name)

/-- gen/src/writer/ucd/name.rs L36, L43, L48-57: the contents of `name_values.rsd` -/
def nameValues (file : List Nat) : Outcome (List Nat) := do
  let es ← unicodeDataFromStr file
  let values := ((namePieces es).flatMap (·.2)).foldl (fun s p => insertStr p s) []
  return values.flatMap fun p => str "const " ++ underscores p ++ str ": &str = \"" ++ p ++ str "\";\n"

/-- `join(", ")` -/
def joinComma : List (List Nat) → List Nat
  | [] => []
  | [a] => a
  | a :: r => a ++ str ", " ++ joinComma r

/-- gen/src/writer/ucd/name.rs L60-75: the contents of `name_map.rsv` -/
def nameMap (file : List Nat) : Outcome (List Nat) := do
  let es ← unicodeDataFromStr file
  return toDirectCharTable (fun ps => str "&[" ++ joinComma (ps.map underscores) ++ str "]") (collectMap (namePieces es))

/-- gen/src/writer/ucd/name.rs L78-86 (`emit_jamo_tables`) -/
def jamo (file : List Nat) : Outcome (List Nat) := do return toDirectCharTable (fun v => str "\"" ++ v ++ str "\"") (← jamoFromStr file)

/-! ## Name aliases -/

/-- gen/src/writer/ucd/name_aliases.rs L26-44 (`emit_unified_name_aliases_table`) -/
def nameAliasTypes (file : List Nat) : Outcome (List Nat) := do
  return toDirectCharTable (fun vs => str "&[" ++ joinComma vs ++ str "]") ((← aliasesFromStr file) "name_alias_types")

/-- gen/src/writer/ucd/name_aliases.rs L67-71: the name of a file and the map written to it -/
def aliasTables : List (String × String) :=
  [("corrections.rsv", "corrections"), ("controls.rsv", "controls"), ("alternates.rsv", "alternates"), ("figments.rsv", "figments"), ("abbreviations.rsv", "abbreviations")]

/-- gen/src/writer/ucd/name_aliases.rs L46-72 (`emit_name_aliases_table`): the contents of the file `name`; `.panic` if no such file is written -/
def nameAliases (name : String) (file : List Nat) : Outcome (List Nat) := match aliasTables.lookup name with
  | none => .panic
  | some field => do
    return toDirectCharTable (fun vs => str "&[" ++ joinComma (vs.map fun v => str "\"" ++ v ++ str "\"") ++ str "]") ((← aliasesFromStr file) field)

end Model.GenUcdWriter
