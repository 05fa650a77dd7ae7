import Verif.Spec.Idna
import Verif.Model.Idna

/-! # Specification: the errors of UTS #46 processing, one by one

Of the model only the enumeration of the errors is used. -/
namespace Spec.Idna
open Data Model.Idna

/-- UTS #46 section 4, step 1: the error recorded for a character of the name. -/
def charError (std3 : Bool) : Mapping → Option Error
  | .Disallowed => some .DissallowedCharacter
  | .DisallowedStd3Valid => if std3 then some .DissallowedByStd3AsciiRules else none
  | .DisallowedStd3Mapped _ => if std3 then some .DissallowedMappedInStd3 else none
  | _ => none

/-- UTS #46 section 4, step 4: the label `p` of the mapped and normalized name becomes `l`, and an error is recorded or not. -/
inductive LabelResult (D : Tables) (std3 transitional bidiName : Bool) (p : List Nat) : List Nat × Option Error → Prop
  | ace (q l : List Nat) (h : p = ace ++ q) (hd : D.decodes q l) (hv : l = [] ∨ ValidLabel D std3 false bidiName l) : LabelResult D std3 transitional bidiName p (l, none)
  | aceInvalid (q l : List Nat) (h : p = ace ++ q) (hd : D.decodes q l) (hl : l ≠ []) (hv : ¬ ValidLabel D std3 false bidiName l) :
    LabelResult D std3 transitional bidiName p (l, some .ValidityCriteria)
  | undecodable (q : List Nat) (h : p = Spec.Idna.ace ++ q) (hd : ∀ l, ¬ D.decodes q l) : LabelResult D std3 transitional bidiName p ([], some .PunycodeError)
  | plain (h : ¬ Spec.Idna.ace <+: p) (hv : p = [] ∨ ValidLabel D std3 transitional bidiName p) : LabelResult D std3 transitional bidiName p (p, none)
  | plainInvalid (h : ¬ Spec.Idna.ace <+: p) (hp : p ≠ []) (hv : ¬ ValidLabel D std3 transitional bidiName p) :
    LabelResult D std3 transitional bidiName p (p, some .ValidityCriteria)

/-- What this program takes for a Bidi domain name, also if there are errors: a right-to-left character in the name as given or in a
Punycode label of the mapped name, or a Punycode label that cannot be decoded. -/
def BidiGuess (D : Tables) (name : List Nat) (parts : List (List Nat)) : Prop :=
  (∃ c ∈ name, Rtl D.cls c) ∨ ∃ q, ace ++ q ∈ parts ∧ ((∀ l, ¬ D.decodes q l) ∨ ∃ l, D.decodes q l ∧ ∃ c ∈ l, Rtl D.cls c)

/-- UTS #46 section 4: processing of `name` gives the labels and label errors `outs` and the character errors `errors`. -/
structure Processed (D : Tables) (std3 transitional : Bool) (name : List Nat) (errors : List Error) (outs : List (List Nat × Option Error)) : Prop where
  result : ∃ (ms : List Mapping) (parts : List (List Nat)) (bidiName : Bool), List.Forall₂ D.status name ms ∧ errors = ms.filterMap (charError std3) ∧
    Labels (D.nfc (List.zipWith (replacement transitional) name ms).flatten) parts ∧ (bidiName = true ↔ BidiGuess D name parts) ∧
    List.Forall₂ (LabelResult D std3 transitional bidiName) parts outs

/-- UTS #46 section 4.2, step 2: the ASCII form of a label, or an error if there is none. -/
inductive AsciiResult (D : Tables) (l : List Nat) : List Nat × Option Error → Prop
  | ascii (h : ∀ c ∈ l, c < 0x80) : AsciiResult D l (l, none)
  | ace (h : ¬ ∀ c ∈ l, c < 0x80) (q : List Nat) (hq : D.encodes l q) : AsciiResult D l (Spec.Idna.ace ++ q, none)
  | error (h : ¬ ∀ c ∈ l, c < 0x80) (hq : ∀ q, ¬ D.encodes l q) : AsciiResult D l ([], some .PunycodeError)

/-- `n` is the name without the full stop before the root label -/
def WithoutRoot (name n : List Nat) : Prop := name = n ++ [0x2E] ∨ (name = n ∧ ¬ ∃ m, name = m ++ [0x2E])

/-- UTS #46 section 4.2, step 3: a label is empty -/
def TooShort (name : List Nat) : Prop := ∃ n, WithoutRoot name n ∧ ∃ ls, Labels n ls ∧ [] ∈ ls

/-- UTS #46 section 4.2, step 3: a label has more than 63 bytes, or the name more than 253 -/
def TooLong (name : List Nat) : Prop := ∃ n, WithoutRoot name n ∧ (253 < n.length ∨ ∃ ls, Labels n ls ∧ ∃ l ∈ ls, 63 < l.length)

/-- `lengths` are the errors recorded for the length of the name. -/
def LengthErrors (name : List Nat) (lengths : List Error) : Prop :=
  ∃ a b, lengths = a ++ b ∧ (TooShort name ∧ a = [.TooShortForDns] ∨ ¬ TooShort name ∧ a = []) ∧ (TooLong name ∧ b = [.TooLongForDns] ∨ ¬ TooLong name ∧ b = [])

end Spec.Idna
