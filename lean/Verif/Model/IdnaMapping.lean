import Verif.Model.Tables
import Verif.Data.IdnaMapping

/-! # Model of `unic/idna/mapping/src/mapping.rs` -/
namespace Model.IdnaMapping
open Model Data

/-- unic/idna/mapping/src/mapping.rs L43 -/
def mappingTable : CharDataTable Mapping := .ofRange Data.idnaMapping

/-- unic/idna/mapping/src/mapping.rs L48-50 (`Mapping::of`); the failing `expect` panics. -/
def mappingOf (ch : Nat) : Outcome Mapping :=
  match mappingTable.find ch with
  | .panic => .panic
  | .ok none => .panic
  | .ok (some m) => .ok m

end Model.IdnaMapping
