import Verif.Spec.IdnaErrors

/-! # Specification: names with a full stop between them -/
namespace Spec.Idna
open Data

/-- The four characters that separate labels: full stop, ideographic full stop, and their fullwidth and halfwidth forms (UTS #46 section 2.3). -/
def separators : List Nat := [0x2E, 0x3002, 0xFF0E, 0xFF61]

/-- The program takes `name` for a Bidi domain name. -/
def TakenForBidi (D : Tables) (transitional : Bool) (name : List Nat) : Prop :=
  ∃ ms parts, List.Forall₂ D.status name ms ∧ Labels (D.nfc (List.zipWith (replacement transitional) name ms).flatten) parts ∧ BidiGuess D name parts

/-- The errors in the result of `to_ascii`. -/
def errorsOf : Except (List Model.Idna.Error) (List Nat) → List Model.Idna.Error
  | .ok _ => []
  | .error es => es

end Spec.Idna
