import Verif.Model.GenSource

/-! # Model of the parsers of `UnicodeData.txt`, `Jamo.txt` and `NameAliases.txt`, `gen/src/source`

Positions in a name are counted in characters, not in bytes. -/
namespace Model.GenUnicodeData
open Model Model.Regex Model.Gen Model.GenSource Model.Utf Model.Hex

/-! ## `UnicodeData.txt` -/

/-- gen/src/source/ucd/unicode_data.rs L28-181 (`UnicodeDataEntry`); the field `iso_comment: ()` is left out. -/
structure Entry where
  character : Nat
  name : List Nat
  generalCategory : List Nat
  canonicalCombiningClass : Nat
  bidiClass : List Nat
  decompositionType : Option (List Nat)
  decompositionMapping : Option (List Nat)
  decimalNumericValue : Option Nat
  digitNumericValue : Option Nat
  numericNumericValue : Option (List Nat)
  bidiMirrored : Bool
  unicode1Name : Option (List Nat)
  simpleUppercaseMapping : Option Nat
  simpleLowercaseMapping : Option Nat
  simpleTitlecaseMapping : Option Nat
deriving DecidableEq

/-- `[^;]` -/
def notSemicolon (c : Nat) : Bool := c != 59

/-- gen/src/source/ucd/unicode_data.rs L200-203: the field of the decomposition -/
def decompositionRe : Re :=
  .seq (.opt (cat [chr 60, .cap 6 (.star (.cls (· != 62))), chr 62, chr 32])) (.cap 7 (.seq (.star (.seq hex46 (chr 32))) hex46))

/-- gen/src/source/ucd/unicode_data.rs L193-215 (`REGEX`) -/
def unicodeDataRe : Re :=
  .seq .bol (cat [.cap 1 hex46, chr 59, .cap 2 (plus (.cls notSemicolon)), chr 59, .cap 3 (plus (.cls notSemicolon)), chr 59, .cap 4 (plus (.cls digit)), chr 59,
    .cap 5 (plus (.cls notSemicolon)), chr 59, .opt decompositionRe, chr 59, .opt (.cap 8 (.cls digit)), chr 59, .opt (.cap 9 (.cls digit)), chr 59,
    .opt (.cap 10 (plus (.cls notSemicolon))), chr 59, .cap 11 (.cls fun c => c == 89 || c == 78), chr 59, .opt (.cap 12 (plus (.cls notSemicolon))), chr 59, chr 59,
    .opt (.cap 13 hex46), chr 59, .opt (.cap 14 hex46), chr 59, .opt (.cap 15 hex46), .eol])

/-- `u32::from_str_radix(s, 16).unwrap()` and `char::from_u32(codepoint).unwrap()` -/
def hexChar (s : List Nat) : Outcome Nat := (hexU32 s).bind fun u => unwrap (charFromU32 u)

/-- gen/src/source/ucd/unicode_data.rs L232-269: the fields of an entry -/
def entryOf (character : Nat) (c : Caps) : Outcome Entry := do
  let name ← group c 2
  let gc ← group c 3
  let ccc ← (group c 4).bind fun t => unwrap (parseDec 255 t)
  let bidi ← group c 5
  let mapping ← mapOpt hexList (capGet c 7)
  let decimal ← mapOpt (fun t => unwrap (parseDec 255 t)) (capGet c 8)
  let digit ← mapOpt (fun t => unwrap (parseDec 255 t)) (capGet c 9)
  let mirrored ← group c 11
  let upper ← mapOpt hexChar (capGet c 13)
  let lower ← mapOpt hexChar (capGet c 14)
  let title ← mapOpt hexChar (capGet c 15)
  return { character, name, generalCategory := gc, canonicalCombiningClass := ccc, bidiClass := bidi, decompositionType := capGet c 6, decompositionMapping := mapping,
           decimalNumericValue := decimal, digitNumericValue := digit, numericNumericValue := capGet c 10, bidiMirrored := decide (mirrored = str "Y"),
           unicode1Name := capGet c 12, simpleUppercaseMapping := upper, simpleLowercaseMapping := lower, simpleTitlecaseMapping := title.or upper }

/-- `str::find` of a character (std): the first position -/
def position (x : Nat) : List Nat → Option Nat
  | [] => none
  | c :: s => if c = x then some 0 else (position x s).map (· + 1)

/-- gen/src/source/ucd/unicode_data.rs L273-275, L280-282: `entry.name.drain(comma_idx..angle_idx)`; `drain` panics if the range is reversed -/
def drainName (name : List Nat) : Outcome (List Nat) := do
  let comma ← unwrap (position 44 name)
  let angle ← unwrap (position 62 name)
  if comma ≤ angle then return name.take comma ++ name.drop angle else .panic

/-- gen/src/source/ucd/unicode_data.rs L230-293: the body of the loop, with `entries` and `start` -/
def unicodeStep (s : List Entry × Option Nat) (c : Caps) : Outcome (List Entry × Option Nat) := do
  let u ← (group c 1).bind hexU32
  match charFromU32 u with
  | none => return s
  | some character =>
    let entry ← entryOf character c
    if (str ", First>").isSuffixOf entry.name then
      let name ← drainName entry.name
      return (s.1 ++ [{ entry with name }], some entry.character)
    else if (str ", Last>").isSuffixOf entry.name then
      let start ← unwrap s.2
      let stop := entry.character
      if start < stop then
        let name ← drainName entry.name
        return (s.1 ++ ((List.range' start (stop - start)).filterMap charFromU32).map (fun p => { entry with name, character := p }) ++ [{ entry with name }], s.2)
      else .panic
    else return (s.1 ++ [entry], s.2)

/-- gen/src/source/ucd/unicode_data.rs L191-298 (`from_str`) -/
def unicodeDataFromStr (s : List Nat) : Outcome (List Entry) := (foldOutcome unicodeStep ([], none) (capturesIter unicodeDataRe s)).map (·.1)

/-! ## `Jamo.txt` -/

/-- gen/src/source/ucd/jamo.rs L34-41 (`REGEX`) -/
def jamoRe : Re := .seq .bol (cat [.cap 1 hex46, chr 59, .star (.cls blank), .cap 2 (.star (.cls alpha))])

/-- gen/src/source/ucd/jamo.rs L32-52 (`from_str`) -/
def jamoFromStr (s : List Nat) : Outcome (List (Nat × List Nat)) :=
  foldOutcome (fun m c => do
    let chr ← (group c 1).bind hexChar
    let v ← group c 2
    return put chr v m) [] (capturesIter jamoRe s)

/-! ## `NameAliases.txt` -/

/-- gen/src/source/ucd/name_aliases.rs L54-61 (`REGEX`) -/
def aliasesRe : Re :=
  .seq .bol (cat [.cap 1 hex46, chr 59, .cap 2 (.star (.cls fun c => digit c || alpha c || c == 32 || c == 45)), chr 59, .cap 3 (.star (.cls alpha))])

/-- gen/src/source/ucd/name_aliases.rs L75-92 (`insert_or_append!`) -/
def insertOrAppend (m : List (Nat × List (List Nat))) (c : Nat) (v : List Nat) : List (Nat × List (List Nat)) :=
  match find c m with
  | some vs => if vs.contains v then m else put c (vs ++ [v]) m
  | none => put c [v] m

/-- gen/src/source/ucd/name_aliases.rs L20-26, L95-117: the label of a type, the text of its type and its map -/
def aliasArms : List (String × String × String) :=
  [("correction", "NameCorrections", "corrections"), ("control", "ControlCodeNames", "controls"), ("alternate", "AlternateNames", "alternates"),
   ("figment", "Figments", "figments"), ("abbreviation", "NameAbbreviations", "abbreviations")]

/-- gen/src/source/ucd/name_aliases.rs L37-47 (`NameAliasesData`): the maps by their names -/
abbrev Maps := String → List (Nat × List (List Nat))

/-- gen/src/source/ucd/name_aliases.rs L71-118: the body of the loop -/
def aliasesStep (m : Maps) (c : Caps) : Outcome Maps := do
  let chr ← (group c 1).bind hexChar
  let alias ← group c 2
  let label ← group c 3
  let a ← unwrap (aliasArms.find? fun a => str a.1 = label)
  let m := fun x => if x = "name_alias_types" then insertOrAppend (m x) chr (str a.2.1) else m x
  return fun x => if x = a.2.2 then insertOrAppend (m x) chr alias else m x

/-- gen/src/source/ucd/name_aliases.rs L52-128 (`from_str`) -/
def aliasesFromStr (s : List Nat) : Outcome Maps := foldOutcome aliasesStep (fun _ => []) (capturesIter aliasesRe s)

end Model.GenUnicodeData
