import Verif.Spec.UcdFile

/-! # Specification: the files of tests of the Unicode Character Database, and the Rust text of the tests made from them -/
namespace Spec.TestFile
open Spec Spec.TableText Spec.UcdFile

/-! ## `NormalizationTest.txt` (its header describes the columns) -/

/-- `source; NFC; NFD; NFKC; NFKD; # comment`, each column the code points of a text -/
structure NormRow where
  source : List (List Nat)
  nfc : List (List Nat)
  nfd : List (List Nat)
  nfkc : List (List Nat)
  nfkd : List (List Nat)
  comment : List Nat

/-- the code points of a text that is not empty -/
def IsText (ps : List (List Nat)) : Prop := ps ≠ [] ∧ ∀ p ∈ ps, IsHex p ∧ IsScalar (hexValue p)

namespace NormRow
def text (r : NormRow) : List Nat :=
  pointsText r.source ++ 59 :: (pointsText r.nfc ++ 59 :: (pointsText r.nfd ++ 59 :: (pointsText r.nfkc ++ 59 :: (pointsText r.nfkd ++ 59 :: 32 :: 35 :: r.comment))))
structure Ok (r : NormRow) : Prop where
  source : IsText r.source
  nfc : IsText r.nfc
  nfd : IsText r.nfd
  nfkc : IsText r.nfkc
  nfkd : IsText r.nfkd
  comment : 10 ∉ r.comment
/-- the five texts -/
def values (r : NormRow) : List (List Nat) := [r.source.map hexValue, r.nfc.map hexValue, r.nfd.map hexValue, r.nfkc.map hexValue, r.nfkd.map hexValue]
end NormRow

/-! ## `GraphemeBreakTest.txt`, `WordBreakTest.txt` -/

/-- A character of a test: its code point, its name, the value of the property, and whether there is a boundary after it, by which rule. -/
structure BreakItem where
  code : List Nat
  name : List Nat
  value : List Nat
  boundary : Bool
  rule : List Nat

namespace BreakItem
/-- `÷` is a boundary, `×` is none -/
def mark (i : BreakItem) : Nat := if i.boundary then 247 else 215
structure Ok (i : BreakItem) : Prop where
  code : IsHex i.code
  name : i.name ≠ [] ∧ (∀ c ∈ i.name, IsWord c ∨ c = 32 ∨ c = 60 ∨ c = 62 ∨ c = 40 ∨ c = 41 ∨ c = 45) ∧ i.name.head? ≠ some 32
  value : i.value ≠ [] ∧ ∀ c ∈ i.value, IsWord c
  rule : i.rule ≠ [] ∧ ∀ c ∈ i.rule, (48 ≤ c ∧ c ≤ 57) ∨ c = 46
end BreakItem

/-- A test, such as `÷ 0020 × 0308 ÷ # ÷ [0.2] SPACE (Other) × [9.0] COMBINING DIAERESIS (Extend) ÷ [0.3]`. -/
structure BreakRow where
  items : List BreakItem
  gap : List Nat
  gap2 : List Nat

namespace BreakRow
def text (r : BreakRow) : List Nat :=
  247 :: ((r.items.flatMap fun i => 32 :: (i.code ++ [32, i.mark])) ++ (r.gap ++ 35 :: (r.gap2 ++ 247 :: 32 :: (TableText.text "[0.2]" ++
    r.items.flatMap fun i => 32 :: (i.name ++ 32 :: 40 :: (i.value ++ 41 :: 32 :: i.mark :: 32 :: 91 :: (i.rule ++ [93])))))))
structure Ok (r : BreakRow) : Prop where
  items : ∀ i ∈ r.items, i.Ok
  /-- there is a boundary at the end -/
  last : ∃ i, r.items.getLast? = some i ∧ i.boundary = true
  gap : ∀ c ∈ r.gap, IsBlank c
  gap2 : ∀ c ∈ r.gap2, IsBlank c
def chars (r : BreakRow) : List Nat := r.items.map fun i => hexValue i.code
/-- all code points are characters -/
def IsTest (r : BreakRow) : Prop := ∀ i ∈ r.items, IsScalar (hexValue i.code)
instance (r : BreakRow) : Decidable r.IsTest := inferInstanceAs (Decidable (∀ i ∈ r.items, IsScalar (hexValue i.code)))
end BreakRow

/-- the lines are tests, empty lines and comments -/
def BreakFileOk (ls : List (Line BreakRow)) : Prop :=
  ∀ l ∈ ls, match l with
    | .row r => r.Ok
    | .other t => 10 ∉ t ∧ ∀ c, t.head? = some c → c = 35

/-- the tests of a file; a test with a surrogate is none -/
def testsOf (ls : List (Line BreakRow)) : List BreakRow := (rowsOf ls).filter fun r => decide r.IsTest

/-- the parts of a text: each character says if there is a boundary after it -/
def pieces : List (Nat × Bool) → List (List Nat)
  | [] => []
  | (c, b) :: r => if b then [c] :: pieces r else match pieces r with
    | [] => [[c]]
    | p :: ps => (c :: p) :: ps

namespace BreakRow
/-- the parts of the text -/
def parts (r : BreakRow) : List (List Nat) := pieces (r.items.map fun i => (hexValue i.code, i.boundary))
/-- a rule for extended grapheme clusters that legacy grapheme clusters do not have (UAX #29, GB9a and GB9b) -/
def ExtendedOnly (i : BreakItem) : Prop := i.rule = TableText.text "9.1" ∨ i.rule = TableText.text "9.2"
instance (i : BreakItem) : Decidable (ExtendedOnly i) := inferInstanceAs (Decidable (_ ∨ _))
/-- the parts in legacy grapheme clusters, if they may differ -/
def legacy (r : BreakRow) : Option (List (List Nat)) :=
  if ∃ i ∈ r.items.dropLast, ExtendedOnly i then some (pieces (r.items.map fun i => (hexValue i.code, i.boundary || decide (ExtendedOnly i)))) else none
end BreakRow

/-! ## Rust text -/

/-- the characters of a string literal written with escapes, and what follows the quotation mark at its end -/
def readUnits : Nat → List Nat → Option (List Nat × List Nat)
  | 0, _ => none
  | n + 1, s => if s.head? = some 34 then some ([], s.drop 1) else do
    let s ← after (TableText.text "\\u{") s
    let s' ← after (TableText.text "}") (readHex 0 s).2
    let (cs, t) ← readUnits n s'
    return ((readHex 0 s).1 :: cs, t)

/-- a string literal -/
def readString (s : List Nat) : Option (List Nat × List Nat) := do
  let s ← after (TableText.text "\"") s
  readUnits (s.length + 1) s

/-- string literals with `, ` between them, up to something else -/
def readStrings : Nat → List Nat → Option (List (List Nat) × List Nat)
  | 0, _ => none
  | n + 1, s => do
    let (cs, t) ← readString s
    match after (TableText.text ", ") t with
    | none => return ([cs], t)
    | some t => do
      let (l, t) ← readStrings n t
      return (cs :: l, t)

/-- `    ("…", "…", …),` -/
def readNorm (line : List Nat) : Option (List (List Nat)) := do
  let s ← after (TableText.text "    (") line
  let (l, t) ← readStrings (s.length + 1) s
  if t = TableText.text ")," then return l else none

/-- `&["…", …]` -/
def readSlice (s : List Nat) : Option (List (List Nat) × List Nat) := do
  let s ← after (TableText.text "&[") s
  let (l, t) ← readStrings (s.length + 1) s
  return (l, ← after (TableText.text "]") t)

/-- `    ("…", &["…", …], None),` or `    ("…", &["…", …], Some(&["…", …])),` -/
def readGrapheme (line : List Nat) : Option (List Nat × List (List Nat) × Option (List (List Nat))) := do
  let s ← after (TableText.text "    (") line
  let (cs, s) ← readString s
  let (l, s) ← readSlice (← after (TableText.text ", ") s)
  let s ← after (TableText.text ", ") s
  if s = TableText.text "None)," then return (cs, l, none) else
    let (l', s) ← readSlice (← after (TableText.text "Some(") s)
    if s = TableText.text "))," then return (cs, l, some l') else none

/-- `    ("…", &["…", …]),` -/
def readWord (line : List Nat) : Option (List Nat × List (List Nat)) := do
  let s ← after (TableText.text "    (") line
  let (cs, s) ← readString s
  let (l, s) ← readSlice (← after (TableText.text ", ") s)
  if s = TableText.text ")," then return (cs, l) else none

/-- the lines up to the last, which is `]` -/
def readLines {α : Type} (f : List Nat → Option α) : List (List Nat) → Option (List α)
  | [] => none
  | [last] => if last = TableText.text "]" then some [] else none
  | l :: r => do return (← f l) :: (← readLines f r)

/-- an array with one element on each line, between `&[` and `]` -/
def readArray {α : Type} (f : List Nat → Option α) (s : List Nat) : Option (List α) :=
  match lines s [] with
  | [] => none
  | l :: r => if l = TableText.text "&[" then readLines f r else none

end Spec.TestFile
