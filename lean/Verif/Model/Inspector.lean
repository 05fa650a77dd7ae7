import Verif.Model.Cli
import Verif.Model.Name
import Verif.Model.Ucd

/-! # Model of the command `unic-inspector` (`apps/cli/src/bin/unic-inspector.rs`)

The crate `clap` is modelled by its outcome, the strings given; the crate `prettytable`, which lays the rows out, is not modelled: the model
gives the rows. -/
namespace Model.Inspector

/-- apps/cli/src/bin/unic-inspector.rs L69-74: the four cells of a row -/
structure Row where
  char : List Nat
  code : List Nat
  name : List Nat
  category : List Nat
deriving DecidableEq, Repr

/-- apps/cli/src/bin/unic-inspector.rs L62-67: `to_string` of the name, the first abbreviation (`abbrs[0]` panics on none) or `<none>` -/
def displayName (chr : Nat) : Outcome (List Nat) :=
  match Name.of chr with
  | .panic => .panic
  | .ok (some n) => Name.display n
  | .ok none => match Ucd.nameAliasesOf chr .NameAbbreviations with
    | some (abbr :: _) => .ok (Name.str abbr)
    | some [] => .panic
    | none => .ok (Name.str "<none>")

/-- apps/cli/src/bin/unic-inspector.rs L62-74: the row of a character -/
def row (chr : Nat) : Outcome Row :=
  match displayName chr with
  | .panic => .panic
  | .ok name => .ok ⟨[chr], [85, 43] ++ Hex.fmt 4 chr, name, Name.str (Data.GeneralCategory.longName (Ucd.generalCategory chr))⟩

/-- apps/cli/src/bin/unic-inspector.rs L61-75: the loop over the characters -/
def rows : List Nat → Outcome (List Row)
  | [] => .ok []
  | chr :: r => match row chr with
    | .panic => .panic
    | .ok x => match rows r with
      | .panic => .panic
      | .ok xs => .ok (x :: xs)

/-- apps/cli/src/bin/unic-inspector.rs L24-78: the table for the strings given -/
def run (strings : List (List Nat)) : Outcome (List Row) := rows (Cli.joinSpace strings)

end Model.Inspector
