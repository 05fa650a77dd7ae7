import Verif.Data.Names
import Verif.Data.Jamo
import Verif.Model.Hangul
import Verif.Model.Hex
import Verif.Model.Tables

/-! # Model of `unic/ucd/name/src/name.rs`

A `&'static str` is its list of bytes (all strings here are ASCII). `core::fmt` writes to a `String` never fail, so `?` after a write is left out. -/
namespace Model.Name
open Model

/-- The bytes of a number, highest first. Decodes the entries of `Data.names`; `fuel` bytes at most. -/
def bytesAux : Nat → Nat → List Nat → List Nat
  | 0, _, acc => acc
  | fuel + 1, n, acc => if n = 0 then acc else bytesAux fuel (n / 256) (n % 256 :: acc)

/-- The bytes of a number, highest first -/
def bytes (n : Nat) : List Nat := bytesAux n n []

/-- The pieces of a name: each ends at a space. Decodes the entries of `Data.names`; `cur` is the piece read so far, backwards. -/
def piecesAux : List Nat → List Nat → List (List Nat)
  | [], _ => []
  | b :: r, cur => if b = 0x20 then cur.reverse :: piecesAux r [] else piecesAux r (b :: cur)

/-- The pieces of an entry of `Data.names` -/
def pieces (n : Nat) : List (List Nat) := piecesAux (bytes n) []

/-- unic/ucd/name/src/name.rs L215-218 (`data::NAMES`) -/
def namesTable : CharDataTable (List (List Nat)) := .direct (Data.names.flatten.map fun e => (e.1, pieces e.2))

/-- The bytes of a string of the source -/
def str (s : String) : List Nat := s.toList.map Char.toNat

/-- unic/ucd/name/src/name.rs L219 (`data::JAMO_SHORT_NAMES`) -/
def jamoTable : CharDataTable (List Nat) := .direct (Data.jamoShortNames.flatten.map fun e => (e.1, str e.2))

/-- unic/ucd/name/src/name.rs L15 -/
def PREFIX_HANGUL_SYLLABLE : List Nat := str "HANGUL SYLLABLE "
/-- unic/ucd/name/src/name.rs L16 -/
def PREFIX_CJK_UNIFIED_IDEOGRAPH : List Nat := str "CJK UNIFIED IDEOGRAPH-"
/-- unic/ucd/name/src/name.rs L17 -/
def PREFIX_TANGUT_IDEOGRAPH : List Nat := str "TANGUT IDEOGRAPH-"
/-- unic/ucd/name/src/name.rs L18 -/
def PREFIX_NUSHU_CHARACTER : List Nat := str "NUSHU CHARACTER-"
/-- unic/ucd/name/src/name.rs L19 -/
def PREFIX_CJK_COMPATIBILITY_IDEOGRAPH : List Nat := str "CJK COMPATIBILITY IDEOGRAPH-"
/-- unic/ucd/name/src/name.rs L21 -/
def JAMO_BUFFER_SIZE : Nat := 3

/-- unic/ucd/name/src/name.rs L31-50 (`Name`) -/
inductive Name where
  | NR1 (ch : Nat)
  | NR2 (pre : List Nat) (ch : Nat)
  | NR3 (pieces : List (List Nat))
deriving DecidableEq, Repr

/-- a range pattern `lo..=hi` -/
def inRange (lo hi ch : Nat) : Bool := decide (lo ≤ ch) && decide (ch ≤ hi)

/-- unic/ucd/name/src/name.rs L55-72 (`Name::of`) -/
def «of» (ch : Nat) : Outcome (Option Name) :=
  if inRange 0xAC00 0xD7A3 ch then .ok (some (.NR1 ch))
  else if inRange 0x3400 0x4DB5 ch || inRange 0x4E00 0x9FEA ch || inRange 0x20000 0x2A6D6 ch || inRange 0x2A700 0x2B734 ch ||
      inRange 0x2B740 0x2B81D ch || inRange 0x2B820 0x2CEA1 ch || inRange 0x2CEB0 0x2EBE0 ch then .ok (some (.NR2 PREFIX_CJK_UNIFIED_IDEOGRAPH ch))
  else if inRange 0x17000 0x187EC ch then .ok (some (.NR2 PREFIX_TANGUT_IDEOGRAPH ch))
  else if inRange 0x1B170 0x1B2FB ch then .ok (some (.NR2 PREFIX_NUSHU_CHARACTER ch))
  else if inRange 0xF900 0xFA6D ch || inRange 0xFA70 0xFAD9 ch || inRange 0x2F800 0x2FA1D ch then .ok (some (.NR2 PREFIX_CJK_COMPATIBILITY_IDEOGRAPH ch))
  else (namesTable.find ch).map (fun o => o.map .NR3)

/-- the number of significant bits of a `u32`: `32 - leading_zeros` -/
def bitLen (n : Nat) : Nat := if n = 0 then 0 else Nat.log2 n + 1

/-- unic/ucd/name/src/name.rs L106-108 (`number_of_hex_digits`) -/
def numberOfHexDigits (ch : Nat) : Nat := (bitLen ch + 3) / 4

/-- unic/ucd/name/src/name.rs L110-114 (`jamo_short_name`): panics for other characters than conjoining jamo. -/
def jamoShortName (ch : Nat) : Outcome (List Nat) :=
  match jamoTable.find ch with
  | .ok (some s) => .ok s
  | _ => .panic

/-- unic/ucd/name/src/name.rs L80-84: the callback `count_jamos` over the characters of `decompose_syllable` -/
def countJamos : List Nat → Nat → Outcome Nat
  | [], len => .ok len
  | j :: r, len => match jamoShortName j with
    | .ok s => countJamos r (len + s.length)
    | .panic => .panic

/-- unic/ucd/name/src/name.rs L96-98: the loop over the pieces -/
def countPieces : List (List Nat) → Nat → Nat
  | [], len => len
  | p :: r, len => countPieces r (len + p.length)

/-- unic/ucd/name/src/name.rs L75-102 (`Name::len`) -/
def len : Name → Outcome Nat
  | .NR1 ch => countJamos (Hangul.decomposeSyllable ch) PREFIX_HANGUL_SYLLABLE.length
  | .NR2 pre ch => .ok (pre.length + numberOfHexDigits ch)
  | .NR3 ps => .ok (countPieces ps (ps.length - 1))

/-- unic/ucd/name/src/name.rs L116-131 (`collect_jamo_short_names`): the array of `JAMO_BUFFER_SIZE` options as a list; writing past its end panics. -/
def collectJamos : List Nat → List (Option (List Nat)) → Outcome (List (Option (List Nat)))
  | [], acc => .ok (acc ++ List.replicate (JAMO_BUFFER_SIZE - acc.length) none)
  | j :: r, acc => if acc.length < JAMO_BUFFER_SIZE then
      match jamoShortName j with
      | .ok s => collectJamos r (acc ++ [some s])
      | .panic => .panic
    else .panic

/-- unic/ucd/name/src/name.rs L116-131 (`collect_jamo_short_names`) -/
def collectJamoShortNames (ch : Nat) : Outcome (List (Option (List Nat))) := collectJamos (Hangul.decomposeSyllable ch) []

/-- unic/ucd/name/src/name.rs L141-147: the callback `write_jamos` -/
def writeJamos : List Nat → List Nat → Outcome (List Nat)
  | [], out => .ok out
  | j :: r, out => match jamoShortName j with
    | .ok s => writeJamos r (out ++ s)
    | .panic => .panic

/-- unic/ucd/name/src/name.rs L158-161: the loop over the other pieces -/
def writePieces : List (List Nat) → List Nat → List Nat
  | [], out => out
  | p :: r, out => writePieces r (out ++ [0x20] ++ p)

/-- unic/ucd/name/src/name.rs L134-166 (`Display::fmt`): what is written; `split_first().unwrap()` panics for no pieces. -/
def display : Name → Outcome (List Nat)
  | .NR1 ch => writeJamos (Hangul.decomposeSyllable ch) PREFIX_HANGUL_SYLLABLE
  | .NR2 pre ch => .ok (pre ++ Hex.fmt 0 ch)
  | .NR3 [] => .panic
  | .NR3 (first :: rest) => .ok (writePieces rest first)

/-- `Ord for str`: bytes in lexicographic order -/
def cmpStr (a b : List Nat) : Ordering := compare a b

/-- unic/ucd/name/src/name.rs L172-176: the two arrays of short names are collected and compared -/
def cmpJamos : Outcome (List (Option (List Nat))) → Outcome (List (Option (List Nat))) → Outcome Ordering
  | .ok jamos, .ok otherJamos => .ok (compare jamos otherJamos)
  | .ok _, .panic => .panic
  | .panic, _ => .panic

/-- unic/ucd/name/src/name.rs L168-207 (`Ord::cmp`); slices and arrays compare lexicographically, `None` before `Some`. -/
def cmp : Name → Name → Outcome Ordering
  | .NR1 ch, .NR1 och => cmpJamos (collectJamoShortNames ch) (collectJamoShortNames och)
  | .NR1 _, .NR2 opre _ => .ok (cmpStr PREFIX_HANGUL_SYLLABLE opre)
  | .NR1 _, .NR3 [] => .panic
  | .NR1 _, .NR3 (first :: _) => .ok (cmpStr PREFIX_HANGUL_SYLLABLE first)
  | .NR2 pre _, .NR1 _ => .ok (cmpStr pre PREFIX_HANGUL_SYLLABLE)
  | .NR2 pre ch, .NR2 opre och => .ok (if pre = opre then compare ch och else cmpStr pre opre)
  | .NR2 _ _, .NR3 [] => .panic
  | .NR2 pre _, .NR3 (first :: _) => .ok (cmpStr pre first)
  | .NR3 [], _ => .panic
  | .NR3 (first :: _), .NR1 _ => .ok (cmpStr first PREFIX_HANGUL_SYLLABLE)
  | .NR3 (first :: _), .NR2 opre _ => .ok (cmpStr first opre)
  | .NR3 (first :: rest), .NR3 ops => .ok (compare (first :: rest) ops)

end Model.Name
