/-! # Identifiers (UAX #31, definition D1): a start character, then continue characters -/
namespace Spec.Identifier

/-- `s` is an identifier: `start continue*`. -/
def Identifier (start cont : Nat → Bool) (s : List Nat) : Prop :=
  ∃ c r, s = c :: r ∧ start c = true ∧ ∀ x ∈ r, cont x = true

end Spec.Identifier
