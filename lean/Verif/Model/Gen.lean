import Verif.Model.Tables

/-! # Model of the table writers, `gen/src/writer/utils/tables`

A `String` is the list of its characters. A `BTreeMap<char, T>` is the list of its entries in the order of iteration, by ascending key;
a `BTreeSet<char>` likewise. Writing to a `String` never fails, so `expect` after a write is left out. `display` gives the text that `display_fn` writes. -/
namespace Model.Gen
open Model

/-- the characters of a string of the source -/
def str (s : String) : List Nat := s.toList.map Char.toNat

/-- a lower-case hexadecimal digit -/
def lowerDigit (d : Nat) : Nat := if d < 10 then 48 + d else 87 + d

/-- lower-case hexadecimal digits, most significant first, at least one -/
def hexLower : Nat → Nat → List Nat
  | 0, n => [lowerDigit (n % 16)]
  | fuel + 1, n => if n < 16 then [lowerDigit n] else hexLower fuel (n / 16) ++ [lowerDigit (n % 16)]

/-- `char::escape_unicode` (std): `\u{` hexadecimal digits without leading zeros `}` -/
def escapeUnicode (c : Nat) : List Nat := str "\\u{" ++ hexLower c c ++ str "}"

section
variable {V : Type} [DecidableEq V] (display : V → List Nat)

/-- gen/src/writer/utils/tables/range.rs L35-44 (`append_entry`) -/
def appendEntry (out : List Nat) (low high : Nat) (c : V) : List Nat :=
  out ++ (str "    (chars!('" ++ escapeUnicode low ++ str "'..='" ++ escapeUnicode high ++ str "'), " ++ display c ++ str "),\n")

/-- gen/src/writer/utils/tables/range.rs L46-56: the loop over the other entries, with `out`, `low`, `high` and `value`; `assert_eq!` panics. -/
def rangeLoop : List (Nat × V) → List Nat → Nat → Nat → V → Outcome (List Nat × Nat × Nat × V)
  | [], out, low, high, value => .ok (out, low, high, value)
  | (char, property) :: r, out, low, high, value =>
    if property ≠ value ∨ char > high + 1 then rangeLoop r (appendEntry display out low high value) char char property
    else if char = high + 1 then rangeLoop r out low char value
    else .panic

/-- gen/src/writer/utils/tables/range.rs L25-63 (`to_range_char_table`) -/
def toRangeCharTable (entries : List (Nat × V)) : Outcome (List Nat) :=
  match entries with
  | [] => .ok (str "CharDataTable::Range(&[\n" ++ str "])")
  | (low, value) :: r =>
    (rangeLoop display r (str "CharDataTable::Range(&[\n") low low value).map fun (out, low, high, value) => appendEntry display out low high value ++ str "])"

omit [DecidableEq V] in
/-- gen/src/writer/utils/tables/direct.rs L32-40: the loop over the entries -/
def directLoop : List (Nat × V) → List Nat → List Nat
  | [], out => out
  | (char, property) :: r, out => directLoop r (out ++ (str "    ('" ++ escapeUnicode char ++ str "', " ++ display property ++ str "),\n"))

/-- gen/src/writer/utils/tables/direct.rs L25-44 (`to_direct_char_table`) -/
def toDirectCharTable (entries : List (Nat × V)) : List Nat := directLoop display entries (str "CharDataTable::Direct(&[\n") ++ str "])"
end

/-- gen/src/writer/utils/tables/set.rs L28-36 (`append_entry`) -/
def appendSetEntry (out : List Nat) (low high : Nat) : List Nat :=
  out ++ (str "    (chars!('" ++ escapeUnicode low ++ str "'..='" ++ escapeUnicode high ++ str "'), ()),\n")

/-- gen/src/writer/utils/tables/set.rs L38-47: the loop over the other characters, with `out`, `low` and `high`; `assert_eq!` panics. -/
def setLoop : List Nat → List Nat → Nat → Nat → Outcome (List Nat × Nat × Nat)
  | [], out, low, high => .ok (out, low, high)
  | char :: r, out, low, high =>
    if char > high + 1 then setLoop r (appendSetEntry out low high) char char
    else if char = high + 1 then setLoop r out low char
    else .panic

/-- gen/src/writer/utils/tables/set.rs L21-54 (`to_range_char_set`) -/
def toRangeCharSet (entries : List Nat) : Outcome (List Nat) :=
  match entries with
  | [] => .ok (str "CharDataTable::Range(&[\n" ++ str "])")
  | low :: r => (setLoop r (str "CharDataTable::Range(&[\n") low low).map fun (out, low, high) => appendSetEntry out low high ++ str "])"

end Model.Gen
