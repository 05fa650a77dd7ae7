import Verif.Model.Hex
import Verif.Model.Utf
import Verif.Model.Tables

/-! # Model of `apps/cli/src/parsers.rs`, `apps/cli/src/writers.rs` and `unic/char/basics/src/notation.rs` -/
namespace Model.Cli
open Model.Hex Model.Utf

/-- unic/char/basics/src/notation.rs L31-35: `"U+{:04X}"` -/
def unicodeNotation (c : Nat) : List Nat := [85, 43] ++ fmt 4 c

/-- apps/cli/src/writers.rs L20-32 (`write_join_with_space`) -/
def joinSpace : List (List Nat) → List Nat
  | [] => []
  | [t] => t
  | t :: u :: ts => t ++ 32 :: joinSpace (u :: ts)

/-- apps/cli/src/writers.rs L36-38 -/
def writeCharAsCodepoint (c : Nat) : List Nat := [85, 43] ++ fmt 4 c
/-- apps/cli/src/writers.rs L40-46 -/
def writeCharAsUtf8Hex (c : Nat) : List Nat := joinSpace ((encodeUtf8 c).map fun b => [48, 120] ++ fmt 2 b)
/-- apps/cli/src/writers.rs L48-54 -/
def writeCharAsUtf16Hex (c : Nat) : List Nat := joinSpace ((encodeUtf16 c).map fun u => [48, 120] ++ fmt 4 u)
/-- apps/cli/src/writers.rs L58-60 -/
def writeAsCodepoints (s : List Nat) : List Nat := joinSpace (s.map writeCharAsCodepoint)
/-- apps/cli/src/writers.rs L62-64 -/
def writeAsUtf8Hex (s : List Nat) : List Nat := joinSpace (s.map writeCharAsUtf8Hex)
/-- apps/cli/src/writers.rs L66-68 -/
def writeAsUtf16Hex (s : List Nat) : List Nat := joinSpace (s.map writeCharAsUtf16Hex)

/-- The regex class `\w`: the ASCII part is written out; the class of non-ASCII characters, which
comes from the regex crate's Unicode tables, is the parameter `w`. -/
def isWord (w : Nat → Bool) (c : Nat) : Bool :=
  if c < 128 then (decide (48 ≤ c) && decide (c ≤ 57)) || (decide (65 ≤ c) && decide (c ≤ 90)) || (decide (97 ≤ c) && decide (c ≤ 122)) || c == 95
  else w c

/-- `Regex::split` (regex crate) for a pattern matching the single characters satisfying `sep`:
the pieces between separators, empty ones included. -/
def split (sep : Nat → Bool) : List Nat → List (List Nat)
  | [] => [[]]
  | c :: cs =>
    if sep c then [] :: split sep cs
    else match split sep cs with
      | t :: ts => (c :: t) :: ts
      | [] => [[c]]

/-- apps/cli/src/parsers.rs L21, L35-37: drop `^[Uu][+]` -/
def stripU : List Nat → List Nat
  | c :: 43 :: cs => if c = 85 ∨ c = 117 then cs else c :: 43 :: cs
  | t => t
/-- apps/cli/src/parsers.rs L27, L49-51, L62-64: drop `^0[xX]` -/
def strip0x : List Nat → List Nat
  | 48 :: c :: cs => if c = 120 ∨ c = 88 then cs else 48 :: c :: cs
  | t => t

/-- all results, or the first panic -/
def traverse (f : List Nat → Option Nat) : List (List Nat) → Outcome (List Nat)
  | [] => .ok []
  | t :: ts => match f t with
    | none => .panic
    | some v => match traverse f ts with
      | .ok vs => .ok (v :: vs)
      | .panic => .panic

/-- apps/cli/src/parsers.rs L30-44 -/
def codepoints (w : Nat → Bool) (s : List Nat) : Outcome (List Nat) :=
  traverse (fun token => (fromStrRadix16 0xFFFFFFFF (stripU token)).bind charFromU32)
    (split (fun c => !(isWord w c || c == 43)) s)

/-- apps/cli/src/parsers.rs L46-57 -/
def utf8Hex (w : Nat → Bool) (s : List Nat) : Outcome (List Nat) :=
  match traverse (fun token => fromStrRadix16 0xFF (strip0x token)) (split (fun c => !isWord w c) s) with
  | .panic => .panic
  | .ok bytes => match decodeUtf8 bytes with
    | some s => .ok s
    | none => .panic

/-- apps/cli/src/parsers.rs L59-72 -/
def utf16Hex (w : Nat → Bool) (s : List Nat) : Outcome (List Nat) :=
  match traverse (fun token => fromStrRadix16 0xFFFF (strip0x token)) (split (fun c => !isWord w c) s) with
  | .panic => .panic
  | .ok units => match decodeUtf16 units with
    | some s => .ok s
    | none => .panic

end Model.Cli
