import Verif.Model.Tables

/-! # Model of the regular expressions used by `gen/src/source`

The `regex` crate is not part of the repository; the meaning given here is the documented one: among the matches that start first, the one found by
trying the alternatives in order (`?` and `*` prefer more). Only the operators that occur in `gen/src/source` are here. -/
namespace Model.Regex

/-- A regular expression in the mode `(?m)`. -/
inductive Re where
  /-- one character of a class -/
  | cls (p : Nat → Bool)
  | seq (a b : Re)
  /-- `a?` -/
  | opt (a : Re)
  /-- `a*` -/
  | star (a : Re)
  /-- `(a)`, the group number `i` -/
  | cap (i : Nat) (a : Re)
  /-- `^` -/
  | bol
  /-- `$` -/
  | eol

/-- What is left of the text, whether this is the start of a line, and the groups captured so far, the latest first. -/
structure St where
  rest : List Nat
  start : Bool
  caps : List (Nat × List Nat)

/-- A matcher: tries the continuation at the ends of its matches, in the order of preference, until one succeeds. -/
abbrev Matcher := St → (St → Option St) → Option St

/-- `a*`, with a bound on the number of repetitions; every repetition consumes a character. -/
def loop (f : Matcher) : Nat → Matcher
  | 0, s, k => k s
  | n + 1, s, k => match f s (fun s' => if s'.rest.length < s.rest.length then loop f n s' k else none) with
    | some x => some x
    | none => k s

/-- The matches of a regular expression. -/
def run : Re → Matcher
  | .cls p, s, k => match s.rest with
    | [] => none
    | c :: r => if p c then k ⟨r, c == 10, s.caps⟩ else none
  | .seq a b, s, k => run a s fun s' => run b s' k
  | .opt a, s, k => match run a s k with
    | some x => some x
    | none => k s
  | .star a, s, k => loop (run a) s.rest.length s k
  | .cap i a, s, k => run a s fun s' => k ⟨s'.rest, s'.start, (i, s.rest.take (s.rest.length - s'.rest.length)) :: s'.caps⟩
  | .bol, s, k => if s.start then k s else none
  | .eol, s, k => if s.rest = [] ∨ s.rest.head? = some 10 then k s else none

/-- the groups of one match -/
abbrev Caps := List (Nat × List Nat)

/-- `capture.get(i)` of the crate -/
def capGet (c : Caps) (i : Nat) : Option (List Nat) := c.lookup i

/-- `Regex::captures_iter` of the crate: search from the left, go on after the end of each match (none of the expressions here matches the empty text). -/
def iter (r : Re) : Nat → List Nat → Bool → List Caps
  | 0, _, _ => []
  | n + 1, s, b => match run r ⟨s, b, []⟩ some with
    | some st => st.caps :: (if st.rest.length < s.length then iter r n st.rest st.start else [])
    | none => match s with
      | [] => []
      | c :: s' => iter r n s' (c == 10)

/-- `Regex::captures_iter` over a whole text -/
def capturesIter (r : Re) (s : List Nat) : List Caps := iter r (s.length + 1) s true

/-! ## Classes and abbreviations -/

/-- one given character -/
def chr (c : Nat) : Re := .cls (· == c)
/-- `.` -/
def dot : Re := .cls (· != 10)
/-- `[[:xdigit:]]` -/
def xdigit (c : Nat) : Bool := (48 ≤ c && c ≤ 57) || (65 ≤ c && c ≤ 70) || (97 ≤ c && c ≤ 102)
/-- `[[:digit:]]` -/
def digit (c : Nat) : Bool := 48 ≤ c && c ≤ 57
/-- `[[:alpha:]]` -/
def alpha (c : Nat) : Bool := (65 ≤ c && c ≤ 90) || (97 ≤ c && c ≤ 122)
/-- `[[:word:]]` -/
def word (c : Nat) : Bool := digit c || alpha c || c == 95
/-- `[[:space:]]` -/
def space (c : Nat) : Bool := (9 ≤ c && c ≤ 13) || c == 32
/-- `[[:blank:]]` -/
def blank (c : Nat) : Bool := c == 9 || c == 32

/-- `a+` -/
def plus (a : Re) : Re := .seq a (.star a)
/-- `[[:xdigit:]]{4,6}` -/
def hex46 : Re := .seq (.cls xdigit) (.seq (.cls xdigit) (.seq (.cls xdigit) (.seq (.cls xdigit) (.opt (.seq (.cls xdigit) (.opt (.cls xdigit)))))))
/-- several expressions one after the other -/
def cat : List Re → Re
  | [] => .star (.cls fun _ => false)
  | [a] => a
  | a :: r => .seq a (cat r)
/-- a literal text -/
def lit (s : String) : Re := cat (s.toList.map fun c => chr c.toNat)

end Model.Regex
