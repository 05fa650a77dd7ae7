import Verif.Model.Cli
import Verif.Model.Gen

/-! # Model of the command `unic-echo`

`apps/cli/src/bin/unic-echo.rs`, the escaping writers of `apps/cli/src/writers.rs` and the argument enumerations of
`apps/cli/src/clap_macros.rs`. The crate `clap` is modelled by its outcome: the strings given, the two optional format names and
the switch. A write error (`IO Error`) is left out. -/
namespace Model.Echo
open Model.Gen (str escapeUnicode)

/-- apps/cli/src/bin/unic-echo.rs L25-32 -/
inductive InputFormat where
  | Plain | Codepoint | Codepoints | Utf8Hex | Utf16Hex
deriving DecidableEq, Repr

/-- apps/cli/src/bin/unic-echo.rs L48-68 -/
inductive OutputFormat where
  | Plain | Codepoint | Codepoints | Utf8Hex | Utf16Hex
  | BracesEscape | Js6Escape | RustEscape
  | BracesEscapeAll | Js6EscapeAll | RustEscapeAll
  | BracesEscapeControl | Js6EscapeControl | RustEscapeControl
deriving DecidableEq, Repr

/-- the variants with `stringify!($v)`, in order -/
def InputFormat.variants : List (String × InputFormat) :=
  [("Plain", .Plain), ("Codepoint", .Codepoint), ("Codepoints", .Codepoints), ("Utf8Hex", .Utf8Hex), ("Utf16Hex", .Utf16Hex)]

/-- the variants with `stringify!($v)`, in order -/
def OutputFormat.variants : List (String × OutputFormat) :=
  [("Plain", .Plain), ("Codepoint", .Codepoint), ("Codepoints", .Codepoints), ("Utf8Hex", .Utf8Hex), ("Utf16Hex", .Utf16Hex),
   ("BracesEscape", .BracesEscape), ("Js6Escape", .Js6Escape), ("RustEscape", .RustEscape),
   ("BracesEscapeAll", .BracesEscapeAll), ("Js6EscapeAll", .Js6EscapeAll), ("RustEscapeAll", .RustEscapeAll),
   ("BracesEscapeControl", .BracesEscapeControl), ("Js6EscapeControl", .Js6EscapeControl), ("RustEscapeControl", .RustEscapeControl)]

/-- `u8::to_ascii_lowercase` (std) -/
def lower (c : Nat) : Nat := if 65 ≤ c ∧ c ≤ 90 then c + 32 else c

/-- apps/cli/src/clap_macros.rs L20-33 (`from_str`): the guard applies to both alternatives of each pattern, so that the
first variant whose name is the text without hyphens, in any case (`eq_ignore_ascii_case`), is taken. -/
def fromStr {F : Type} (variants : List (String × F)) (s : List Nat) : Option F :=
  (variants.find? fun v => (s.filter (· ≠ 45)).map lower == (str v.1).map lower).map (·.2)

/-- `char::escape_default` (std) -/
def escapeDefault (c : Nat) : List Nat :=
  if c = 9 then [92, 116] else if c = 13 then [92, 114] else if c = 10 then [92, 110]
  else if c = 39 ∨ c = 34 ∨ c = 92 then [92, c]
  else if 0x20 ≤ c ∧ c ≤ 0x7E then [c]
  else escapeUnicode c

/-- `char::escape_debug` (std, before `\0` was given an escape of its own); which characters are written as they are comes from
tables of the standard library, the parameter `shown`. -/
def escapeDebug (shown : Nat → Bool) (c : Nat) : List Nat :=
  if c = 9 then [92, 116] else if c = 13 then [92, 114] else if c = 10 then [92, 110]
  else if c = 39 ∨ c = 34 ∨ c = 92 then [92, c]
  else if shown c then [c]
  else escapeUnicode c

/-- apps/cli/src/writers.rs L70-80 -/
def writeWithControlNUnicodeBracesEscape (s : List Nat) : List Nat := str "\"" ++ s.flatMap escapeDefault ++ str "\""
/-- apps/cli/src/writers.rs L82-92 -/
def writeWithControlBracesEscape (shown : Nat → Bool) (s : List Nat) : List Nat := str "\"" ++ s.flatMap (escapeDebug shown) ++ str "\""
/-- apps/cli/src/writers.rs L94-104 -/
def writeWithAllBracesEscape (s : List Nat) : List Nat := str "\"" ++ s.flatMap escapeUnicode ++ str "\""

/-- apps/cli/src/bin/unic-echo.rs L151-156: the string read; `w` as in `Cli` -/
def parse (w : Nat → Bool) : InputFormat → List Nat → Outcome (List Nat)
  | .Plain, input => .ok input
  | .Codepoint, input | .Codepoints, input => Cli.codepoints w input
  | .Utf8Hex, input => Cli.utf8Hex w input
  | .Utf16Hex, input => Cli.utf16Hex w input

/-- apps/cli/src/bin/unic-echo.rs L168-192: what is written -/
def write (shown : Nat → Bool) : OutputFormat → List Nat → List Nat
  | .Plain, s => s
  | .Codepoint, s | .Codepoints, s => Cli.writeAsCodepoints s
  | .Utf8Hex, s => Cli.writeAsUtf8Hex s
  | .Utf16Hex, s => Cli.writeAsUtf16Hex s
  | .BracesEscape, s | .Js6Escape, s | .RustEscape, s => writeWithControlNUnicodeBracesEscape s
  | .BracesEscapeAll, s | .Js6EscapeAll, s | .RustEscapeAll, s => writeWithAllBracesEscape s
  | .BracesEscapeControl, s | .Js6EscapeControl, s | .RustEscapeControl, s => writeWithControlBracesEscape shown s

/-- how the command ends -/
inductive Result where
  /-- normally, with this output -/
  | out (s : List Nat)
  /-- `err.exit()`, for an unknown format name -/
  | exit
  | panic
deriving DecidableEq, Repr

/-- apps/cli/src/bin/unic-echo.rs L142-149, L162-166 (`value_t!(…).unwrap_or_else(…)`): no name given is the first variant,
`Plain`; a name that is none exits. -/
def formatArg {F : Type} (variants : List (String × F)) (plain : F) : Option (List Nat) → Option F
  | none => some plain
  | some name => fromStr variants name

/-- apps/cli/src/bin/unic-echo.rs L98-199 (`run`): the strings given, the two formats, and whether `-n` is given -/
def run (w shown : Nat → Bool) (noNewline : Bool) (input output : Option (List Nat)) (strings : List (List Nat)) : Result :=
  match formatArg InputFormat.variants .Plain input with
  | none => .exit
  | some i => match parse w i (Cli.joinSpace strings) with
    | .panic => .panic
    | .ok s => match formatArg OutputFormat.variants .Plain output with
      | none => .exit
      | some o => .out (write shown o s ++ if noNewline then [] else [10])

end Model.Echo
