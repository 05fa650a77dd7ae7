import Verif.Model.Tables

/-! # Specification: reading the Rust source of a table

A reader for the two forms of table literals,
```
CharDataTable::Range(&[
    (chars!('\u{61}'..='\u{63}'), VALUE),
])
CharDataTable::Direct(&[
    ('\u{61}', VALUE),
])
```
one entry on each line. The value of an entry is the text of its expression. -/
namespace Spec.TableText
open Model

/-- the characters of a string -/
def text (s : String) : List Nat := s.toList.map Char.toNat

/-- what follows the text `p` -/
def after (p s : List Nat) : Option (List Nat) := if p.isPrefixOf s then some (s.drop p.length) else none

/-- what comes before the text `p` at the end -/
def before (p s : List Nat) : Option (List Nat) := if p.isSuffixOf s then some (s.take (s.length - p.length)) else none

/-- the value of a hexadecimal digit -/
def digit (c : Nat) : Option Nat :=
  if 48 ≤ c ∧ c ≤ 57 then some (c - 48) else if 65 ≤ c ∧ c ≤ 70 then some (c - 55) else if 97 ≤ c ∧ c ≤ 102 then some (c - 87) else none

/-- the number written by the hexadecimal digits at the start, after `acc`, and what follows -/
def readHex : Nat → List Nat → Nat × List Nat
  | acc, [] => (acc, [])
  | acc, c :: s => match digit c with
    | some d => readHex (acc * 16 + d) s
    | none => (acc, c :: s)

/-- a character literal `'\u{…}'` -/
def readChar (s : List Nat) : Option (Nat × List Nat) := do
  let s ← after (text "'\\u{") s
  let s' ← after (text "}'") (readHex 0 s).2
  return ((readHex 0 s).1, s')

/-- a line of the first form -/
def readRange (line : List Nat) : Option (CharRange.CharRange × List Nat) := do
  let s ← after (text "    (chars!(") line
  let (low, s) ← readChar s
  let s ← after (text "..=") s
  let (high, s) ← readChar s
  let s ← after (text "), ") s
  let v ← before (text "),") s
  return (⟨low, high⟩, v)

/-- a line of the second form -/
def readDirect (line : List Nat) : Option (Nat × List Nat) := do
  let s ← after (text "    (") line
  let (c, s) ← readChar s
  let s ← after (text ", ") s
  let v ← before (text "),") s
  return (c, v)

/-- the lines of a text; `cur` is the line read so far, backwards -/
def lines : List Nat → List Nat → List (List Nat)
  | [], cur => [cur.reverse]
  | c :: s, cur => if c = 10 then cur.reverse :: lines s [] else lines s (c :: cur)

/-- the entries between the first and the last line -/
def readRows {α : Type} (f : List Nat → Option α) : List (List Nat) → Option (List α)
  | [] => none
  | [last] => if last = text "])" then some [] else none
  | l :: r => do return (← f l) :: (← readRows f r)

/-- the table described by a text -/
def readTable (s : List Nat) : Option (CharDataTable (List Nat)) :=
  match lines s [] with
  | [] => none
  | l :: r =>
    if l = text "CharDataTable::Range(&[" then (readRows readRange r).map .range
    else if l = text "CharDataTable::Direct(&[" then (readRows readDirect r).map .direct
    else none

end Spec.TableText
