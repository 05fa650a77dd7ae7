import Verif.Spec.Scalar

/-! # Vocabulary for the Punycode properties -/
namespace Spec.Punycode

/-- Lower-case an ASCII letter; everything else is unchanged. -/
def lower (c : Nat) : Nat := if 0x41 ≤ c ∧ c ≤ 0x5A then c + 0x20 else c

/-- a lower-case ASCII letter or an ASCII digit -/
def IsLowerAlnum (c : Nat) : Prop := (0x61 ≤ c ∧ c ≤ 0x7A) ∨ (0x30 ≤ c ∧ c ≤ 0x39)

/-- RFC 3492, section 3.1: a Punycode text consists of the basic code points, a delimiter `-` unless there are
none, and extended digits (which contain no delimiter). -/
def Parts (p basic digits : List Nat) : Prop :=
  0x2D ∉ digits ∧ ((basic ≠ [] ∧ p = basic ++ 0x2D :: digits) ∨ (basic = [] ∧ p = digits))

/-- the ASCII characters of a text -/
def asciiOf (s : List Nat) : List Nat := s.filter (fun c => c < 0x80)

end Spec.Punycode
