import Verif.Spec.UnicodeData

/-! # Specification: names, short names of jamo, name aliases, the version -/
namespace Spec.UcdNames
open Spec Spec.UcdFile Spec.UnicodeData

/-- texts with `sep` between them -/
def joinWith (sep : List Nat) : List (List Nat) → List Nat
  | [] => []
  | [a] => a
  | a :: r => a ++ (sep ++ joinWith sep r)

/-- the texts between the characters `d` -/
def parts (d : Nat) : List Nat → List (List Nat)
  | [] => [[]]
  | c :: s => if c = d then [] :: parts d s else match parts d s with
    | [] => [[c]]
    | p :: ps => (c :: p) :: ps

/-- all results, if there are all -/
def traverse {α β : Type} (f : α → Option β) : List α → Option (List β)
  | [] => some []
  | a :: r => do return (← f a) :: (← traverse f r)

/-- a slice `&[X, Y, Z]` whose elements contain no comma -/
def readList (s : List Nat) : Option (List (List Nat)) := do
  let s ← TableText.after (TableText.text "&[") s
  let s ← TableText.before (TableText.text "]") s
  if s = [] then some [] else match parts 44 s with
    | [] => none
    | p :: ps => do return p :: (← traverse (TableText.after (TableText.text " ")) ps)

/-- a string literal without escapes -/
def readQuoted (s : List Nat) : Option (List Nat) := do TableText.before (TableText.text "\"") (← TableText.after (TableText.text "\"") s)

/-! ## Names -/

/-- `const NAME: &str = "TEXT";` -/
def readConst (line : List Nat) : Option (List Nat × List Nat) := do
  let s ← TableText.after (TableText.text "const ") line
  let r ← TableText.after (TableText.text ": &str = \"") (s.dropWhile (· ≠ 58))
  return (s.takeWhile (· ≠ 58), ← TableText.before (TableText.text "\";") r)

/-- the constants of a file, one on each line -/
def readConsts (s : List Nat) : Option (List (List Nat × List Nat)) :=
  if (TableText.lines s []).getLast? = some [] then traverse readConst (TableText.lines s []).dropLast else none

/-- the text of a slice of constants, with spaces between them -/
def readName (consts : List (List Nat × List Nat)) (v : List Nat) : Option (List Nat) := do
  let ids ← readList v
  return joinWith [32] (← traverse (fun id => consts.lookup id) ids)

/-- A name (Unicode Standard, section 4.8): words of capital letters, digits and hyphens, with one space between them. -/
def IsName (name : List Nat) : Prop :=
  ∃ ws : List (List Nat), ws ≠ [] ∧ name = joinWith [32] ws ∧ ∀ w ∈ ws, w ≠ [] ∧ ∀ c ∈ w, (65 ≤ c ∧ c ≤ 90) ∨ (48 ≤ c ∧ c ≤ 57) ∨ c = 45

/-- the name of a character; labels such as `<control>` are not names -/
def nameOf (items : List Item) (c : Nat) : Option (List Nat) := ((itemOf items c).map Item.name).filter fun n => n.head? ≠ some 60

/-! ## `Jamo.txt` -/

/-- `XXXX; NAME` and a comment -/
structure JamoRow where
  code : List Nat
  pad : List Nat
  name : List Nat
  tail : List Nat

namespace JamoRow
def text (r : JamoRow) : List Nat := r.code ++ 59 :: (r.pad ++ (r.name ++ r.tail))
structure Ok (r : JamoRow) : Prop where
  code : IsChar r.code
  pad : ∀ c ∈ r.pad, IsBlank c
  name : ∀ c ∈ r.name, (65 ≤ c ∧ c ≤ 90) ∨ (97 ≤ c ∧ c ≤ 122)
  tail : 10 ∉ r.tail ∧ ∀ c, r.tail.head? = some c → ¬ ((65 ≤ c ∧ c ≤ 90) ∨ (97 ≤ c ∧ c ≤ 122)) ∧ (r.name = [] → ¬ IsBlank c)
def triple (r : JamoRow) : Nat × Nat × List Nat := (hexValue r.code, hexValue r.code, r.name)
end JamoRow

/-! ## `NameAliases.txt` -/

/-- the types of aliases: how the file writes them, how the tables do, and the table for them -/
def aliasTypes : List (String × String × String) :=
  [("correction", "NameCorrections", "corrections.rsv"), ("control", "ControlCodeNames", "controls.rsv"), ("alternate", "AlternateNames", "alternates.rsv"),
   ("figment", "Figments", "figments.rsv"), ("abbreviation", "NameAbbreviations", "abbreviations.rsv")]

/-- `XXXX;ALIAS;type` -/
structure AliasRow where
  code : List Nat
  alias : List Nat
  /-- a member of `aliasTypes` -/
  type : String × String × String

namespace AliasRow
def text (r : AliasRow) : List Nat := r.code ++ 59 :: (r.alias ++ 59 :: TableText.text r.type.1)
structure Ok (r : AliasRow) : Prop where
  code : IsChar r.code
  alias : ∀ c ∈ r.alias, (65 ≤ c ∧ c ≤ 90) ∨ (97 ≤ c ∧ c ≤ 122) ∨ (48 ≤ c ∧ c ≤ 57) ∨ c = 32 ∨ c = 45
  type : r.type ∈ aliasTypes
end AliasRow

/-- the aliases of a type of a character, in the order of the file, each once -/
def aliasesOf (rows : List AliasRow) (type : String × String × String) (c : Nat) : List (List Nat) :=
  ((rows.filter fun r => decide (hexValue r.code = c ∧ r.type = type)).map (·.alias)).eraseDups

/-- the types of the aliases of a character, in the order of the file, each once -/
def typesOf (rows : List AliasRow) (c : Nat) : List (List Nat) := ((rows.filter fun r => decide (hexValue r.code = c)).map fun r => TableText.text r.type.2.1).eraseDups

/-- no value for no elements -/
def nonempty {α : Type} (l : List α) : Option (List α) := if l.isEmpty then none else some l

/-! ## Versions -/

/-- In `pre ++ marker ++ rest`, the marker does not occur earlier than after `pre`. -/
def First (marker pre rest : List Nat) : Prop := ∀ u v, pre = u ++ v → v ≠ [] → ¬ marker <+: v ++ (marker ++ rest)

end Spec.UcdNames
