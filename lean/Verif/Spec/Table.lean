import Verif.Spec.Scalar
import Verif.Model.Tables
/-!
# Specification: what a character table means

A table denotes a finite set of entries, each covering an interval of characters.
-/
namespace Spec
open Model Model.CharRange

/-- The entries of a table, as (lowest, highest, value), independent of representation. -/
def entries {V : Type} : CharDataTable V → List (Nat × Nat × V)
  | .direct t => t.map fun e => (e.1, e.1, e.2)
  | .range t => t.map fun e => (e.1.low, e.1.high, e.2)

/-- Well-formed: every entry is a non-empty interval and entries are ascending and disjoint. -/
def WellFormed {V : Type} (t : CharDataTable V) : Prop :=
  (∀ e ∈ entries t, e.1 ≤ e.2.1) ∧ (entries t).Pairwise (fun e e' => e.2.1 < e'.1)

/-- The entry covers the character. -/
def Covers {V : Type} (e : Nat × Nat × V) (c : Nat) : Prop := e.1 ≤ c ∧ c ≤ e.2.1

end Spec
