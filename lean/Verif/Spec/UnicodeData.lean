import Verif.Spec.UcdFile

/-! # Specification: `UnicodeData.txt`

UAX #44, section 4.2.3 and table 9: a line has a code point and fourteen fields with semicolons between them. A range of code points is written on two lines
whose names are `<label, First>` and `<label, Last>`. Texts are lists of characters. -/
namespace Spec.UnicodeData
open Spec Spec.UcdFile

/-- The fields after the name. `none` is an empty field; ISO comment fields are empty. -/
structure Fields where
  category : List Nat
  combiningClass : List Nat
  bidiClass : List Nat
  /-- the tag, without its brackets, and the code points of a decomposition -/
  decomposition : Option (Option (List Nat) × List (List Nat))
  decimal : Option Nat
  digit : Option Nat
  numeric : Option (List Nat)
  mirrored : Bool
  oldName : Option (List Nat)
  upper : Option (List Nat)
  lower : Option (List Nat)
  title : Option (List Nat)

/-- `<tag> ` -/
def tagText : Option (List Nat) → List Nat
  | none => []
  | some t => 60 :: (t ++ [62, 32])

/-- the field of the decomposition -/
def decompositionText : Option (Option (List Nat) × List (List Nat)) → List Nat
  | none => []
  | some (tag, ps) => tagText tag ++ pointsText ps

/-- a field of one character -/
def charText : Option Nat → List Nat
  | none => []
  | some c => [c]

/-- an optional field -/
def optText (o : Option (List Nat)) : List Nat := o.getD []

/-- a line, without the line feed -/
structure DataRow where
  code : List Nat
  name : List Nat
  fields : Fields

def DataRow.text (r : DataRow) : List Nat :=
  r.code ++ 59 :: (r.name ++ 59 :: (r.fields.category ++ 59 :: (r.fields.combiningClass ++ 59 :: (r.fields.bidiClass ++ 59 :: (decompositionText r.fields.decomposition ++
    59 :: (charText r.fields.decimal ++ 59 :: (charText r.fields.digit ++ 59 :: (optText r.fields.numeric ++ 59 :: ((if r.fields.mirrored then 89 else 78) :: 59 ::
    (optText r.fields.oldName ++ 59 :: 59 :: (optText r.fields.upper ++ 59 :: (optText r.fields.lower ++ 59 :: optText r.fields.title))))))))))))

/-- a text that can be a field: no semicolon, no line feed -/
def IsField (s : List Nat) : Prop := 59 ∉ s ∧ 10 ∉ s

/-- the code point of a character in hexadecimal -/
def IsChar (s : List Nat) : Prop := IsHex s ∧ IsScalar (hexValue s)

structure Fields.Ok (f : Fields) : Prop where
  category : f.category ≠ [] ∧ IsField f.category
  combiningClass : f.combiningClass ≠ [] ∧ (∀ c ∈ f.combiningClass, 48 ≤ c ∧ c ≤ 57) ∧ decValue f.combiningClass ≤ 255
  bidiClass : f.bidiClass ≠ [] ∧ IsField f.bidiClass
  decomposition : ∀ tag ps, f.decomposition = some (tag, ps) → (∀ t, tag = some t → 62 ∉ t ∧ 10 ∉ t) ∧ ps ≠ [] ∧ ∀ p ∈ ps, IsChar p
  decimal : ∀ c, f.decimal = some c → 48 ≤ c ∧ c ≤ 57
  digit : ∀ c, f.digit = some c → 48 ≤ c ∧ c ≤ 57
  numeric : ∀ t, f.numeric = some t → t ≠ [] ∧ IsField t
  oldName : ∀ t, f.oldName = some t → t ≠ [] ∧ IsField t
  upper : ∀ t, f.upper = some t → IsChar t
  lower : ∀ t, f.lower = some t → IsChar t
  title : ∀ t, f.title = some t → IsChar t

/-- a code point on one line, or a range of code points on two lines -/
inductive Item where
  | single (code name : List Nat) (f : Fields)
  | range (first last label : List Nat) (f : Fields)

namespace Item
/-- the lines of an item -/
def rows : Item → List DataRow
  | single code name f => [⟨code, name, f⟩]
  | range first last label f => [⟨first, 60 :: (label ++ TableText.text ", First>"), f⟩, ⟨last, 60 :: (label ++ TableText.text ", Last>"), f⟩]
/-- the first and the last code point -/
def first : Item → Nat
  | single code _ _ => hexValue code
  | range first _ _ _ => hexValue first
def last : Item → Nat
  | single code _ _ => hexValue code
  | range _ last _ _ => hexValue last
def fields : Item → Fields
  | single _ _ f => f
  | range _ _ _ f => f
/-- the name; `<label>` for the code points of a range -/
def name : Item → List Nat
  | single _ name _ => name
  | range _ _ label _ => 60 :: (label ++ [62])
/-- A single line is not named as one of the two lines of a range; the ends of a range are two characters or two surrogates. -/
def Ok : Item → Prop
  | single code name f => IsHex code ∧ (name ≠ [] ∧ IsField name) ∧ ¬ TableText.text ", First>" <:+ name ∧ ¬ TableText.text ", Last>" <:+ name ∧ f.Ok
  | range first last label f => IsHex first ∧ IsHex last ∧ hexValue first < hexValue last ∧
      ((IsScalar (hexValue first) ∧ IsScalar (hexValue last)) ∨ (0xD800 ≤ hexValue first ∧ hexValue last ≤ 0xDFFF)) ∧ (IsField label ∧ 44 ∉ label ∧ 62 ∉ label) ∧ f.Ok
end Item

/-- the text of a file -/
def fileText (items : List Item) : List Nat := (items.flatMap Item.rows).flatMap fun r => r.text ++ [10]

/-- a file: items in ascending order of their code points -/
structure FileOk (items : List Item) : Prop where
  ok : ∀ i ∈ items, i.Ok
  ascending : items.Pairwise fun a b => a.last < b.first

/-- what a file says about a character: the item that covers it -/
def itemOf (items : List Item) (c : Nat) : Option Item := if IsScalar c then items.find? fun i => decide (i.first ≤ c ∧ c ≤ i.last) else none

/-- The Bidi_Class of the code points that are not in the file, apart from L and BN (DerivedBidiClass.txt of Unicode 10, header). -/
def defaultBidiClass (c : Nat) : Option (List Nat) :=
  let within (l : List (Nat × Nat)) : Bool := l.any fun r => decide (r.1 ≤ c ∧ c ≤ r.2)
  if within [(0x590, 0x5FF), (0x7C0, 0x89F), (0xFB1D, 0xFB4F), (0x10800, 0x10FFF), (0x1E800, 0x1EDFF), (0x1EF00, 0x1EFFF)] then some (TableText.text "R")
  else if within [(0x600, 0x7BF), (0x8A0, 0x8FF), (0xFB50, 0xFDCF), (0xFDF0, 0xFDFF), (0xFE70, 0xFEFF), (0x1EE00, 0x1EEFF)] then some (TableText.text "AL")
  else if within [(0x20A0, 0x20CF)] then some (TableText.text "ET")
  else none

/-! ## `DerivedNormalizationProps.txt` -/

/-- a row of `DerivedNormalizationProps.txt`; those of the property Full_Composition_Exclusion have one space before the property and a comment after a space -/
def NormalizationRow (r : Row) : Prop := r.Ok ∧ (r.value = TableText.text "Full_Composition_Exclusion" → r.pad2 = [32] ∧ ∃ t, r.tail = 32 :: 35 :: t)

/-! ## Decompositions -/

/-- the canonical decomposition mapping of a character: that of a field without a tag -/
def canonicalOf (items : List Item) (c : Nat) : Option (List Nat) := (itemOf items c).bind fun i => match i.fields.decomposition with
  | some (none, ps) => some (ps.map hexValue)
  | _ => none

/-- the tags of compatibility decompositions (UAX #44, table 14) and the names of their types in the tables -/
def compatibilityTags : List (String × String) :=
  [("font", "Font"), ("noBreak", "Nobreak"), ("initial", "Initial"), ("medial", "Medial"), ("final", "Final"), ("isolated", "Isolated"), ("circle", "Circle"), ("super", "Super"),
   ("sub", "Sub"), ("vertical", "Vertical"), ("wide", "Wide"), ("narrow", "Narrow"), ("small", "Small"), ("square", "Square"), ("fraction", "Fraction"), ("compat", "Compat")]

/-- the compatibility decomposition of a character: tag and mapping -/
def compatibilityOf (items : List Item) (c : Nat) : Option (List Nat × List Nat) := (itemOf items c).bind fun i => match i.fields.decomposition with
  | some (some tag, ps) => some (tag, ps.map hexValue)
  | _ => none

/-- characters, each written `'\u{…}',`, up to the text `stop` at the end -/
def readChars (stop : List Nat) : Nat → List Nat → Option (List Nat)
  | 0, _ => none
  | n + 1, s => if s = stop then some [] else do
    let (c, s) ← TableText.readChar s
    let s ← TableText.after (TableText.text ",") s
    return c :: (← readChars stop n s)

/-- a slice of characters `&['\u{…}',…]` -/
def readSlice (s : List Nat) : Option (List Nat) := do
  let s ← TableText.after (TableText.text "&[") s
  readChars (TableText.text "]") (s.length + 1) s

/-- a pair `(Name, &['\u{…}',…])` -/
def readTyped (s : List Nat) : Option (List Nat × List Nat) := do
  let s ← TableText.after (TableText.text "(") s
  let r ← TableText.after (TableText.text ", &[") (s.dropWhile (· ≠ 44))
  return (s.takeWhile (· ≠ 44), ← readChars (TableText.text "])") (r.length + 1) r)

/-! ## Compositions -/

/-- `a` and `b` are the canonical decomposition mapping of `c`, which is not excluded from composition -/
def Composes (items : List Item) (excluded : Nat → Prop) (a b c : Nat) : Prop := canonicalOf items c = some [a, b] ∧ ¬ excluded c

/-- pairs of characters, each written `('\u{…}','\u{…}'),`, up to `])` at the end -/
def readPairs : Nat → List Nat → Option (List (Nat × Nat))
  | 0, _ => none
  | n + 1, s => if s = TableText.text "])" then some [] else do
    let s ← TableText.after (TableText.text "(") s
    let (a, s) ← TableText.readChar s
    let s ← TableText.after (TableText.text ",") s
    let (b, s) ← TableText.readChar s
    let s ← TableText.after (TableText.text "),") s
    return (a, b) :: (← readPairs n s)

/-- a table of characters on one line, `CharDataTable::Direct(&[('\u{…}','\u{…}'),…])` -/
def readInner (s : List Nat) : Option (Model.CharDataTable Nat) := do
  let s ← TableText.after (TableText.text "CharDataTable::Direct(&[") s
  return .direct (← readPairs (s.length + 1) s)

/-- the inner table for the first character `a`; an empty one if there is none -/
def InnerTable (t : Model.CharDataTable (List Nat)) (a : Nat) (inner : Model.CharDataTable Nat) : Prop :=
  (t.find a = .ok none ∧ inner = .direct []) ∨ ∃ v, t.find a = .ok (some v) ∧ readInner v = some inner

end Spec.UnicodeData
