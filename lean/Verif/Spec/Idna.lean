import Verif.Data.IdnaMapping
import Verif.Data.Enums
import Mathlib.Data.List.Forall2

/-! # Specification: Unicode IDNA Compatibility Processing (UTS #46) and the Bidi rule (RFC 5893)

Independent of the code; parametric in the character data. A name is a list of characters. -/
namespace Spec.Idna
open Data

/-- Labels joined by U+002E. -/
def join : List (List Nat) → List Nat
  | [] => []
  | [l] => l
  | l :: ls => l ++ 0x2E :: join ls

/-- `labels` are the labels of `name`: what lies between its full stops. -/
def Labels (name : List Nat) (labels : List (List Nat)) : Prop :=
  labels ≠ [] ∧ (∀ l ∈ labels, 0x2E ∉ l) ∧ name = join labels

/-- "xn--" -/
def ace : List Nat := [0x78, 0x6E, 0x2D, 0x2D]

/-- UTS #46 section 4, step 1: the statuses that are an error. -/
def Disallowed (std3 : Bool) : Mapping → Prop
  | .Disallowed => True
  | .DisallowedStd3Valid | .DisallowedStd3Mapped _ => std3 = true
  | _ => False

/-- UTS #46 section 4, step 1: what a character is replaced with. -/
def replacement (transitional : Bool) (c : Nat) : Mapping → List Nat
  | .Valid | .Disallowed | .DisallowedStd3Valid => [c]
  | .Ignored => []
  | .Mapped s | .DisallowedStd3Mapped s => s
  | .Deviation s => if transitional then s else [c]

/-- UTS #46 section 4.1, criterion 6: the statuses allowed in a label. -/
def Allowed (std3 transitional : Bool) : Mapping → Prop
  | .Valid => True
  | .Deviation _ => transitional = false
  | .DisallowedStd3Valid => std3 = false
  | _ => False

/-- The label ends in a character of one of the classes, apart from trailing nonspacing marks. -/
def EndsIn (cls : Nat → BidiClass) (classes : List BidiClass) (l : List Nat) : Prop :=
  ∃ a c b, l = a ++ c :: b ∧ cls c ∈ classes ∧ ∀ x ∈ b, cls x = .NonspacingMark

/-- RFC 5893 section 2, the six conditions of the Bidi rule. -/
structure BidiRule (cls : Nat → BidiClass) (l : List Nat) : Prop where
  /-- the first character has class L, R or AL -/
  one : ∃ c r, l = c :: r ∧ cls c ∈ [BidiClass.LeftToRight, .RightToLeft, .ArabicLetter]
  /-- in an RTL label, only characters of these classes are allowed -/
  two : ∀ c r, l = c :: r → cls c ∈ [BidiClass.RightToLeft, .ArabicLetter] → ∀ x ∈ l, cls x ∈
    [BidiClass.RightToLeft, .ArabicLetter, .ArabicNumber, .EuropeanNumber, .EuropeanSeparator, .CommonSeparator,
      .EuropeanTerminator, .OtherNeutral, .BoundaryNeutral, .NonspacingMark]
  /-- an RTL label ends in R, AL, EN or AN, apart from nonspacing marks -/
  three : ∀ c r, l = c :: r → cls c ∈ [BidiClass.RightToLeft, .ArabicLetter] →
    EndsIn cls [.RightToLeft, .ArabicLetter, .EuropeanNumber, .ArabicNumber] l
  /-- in an RTL label EN and AN exclude each other -/
  four : ∀ c r, l = c :: r → cls c ∈ [BidiClass.RightToLeft, .ArabicLetter] →
    ¬ ((∃ x ∈ l, cls x = .EuropeanNumber) ∧ ∃ x ∈ l, cls x = .ArabicNumber)
  /-- in an LTR label, only characters of these classes are allowed -/
  five : ∀ c r, l = c :: r → cls c = .LeftToRight → ∀ x ∈ l, cls x ∈
    [BidiClass.LeftToRight, .EuropeanNumber, .EuropeanSeparator, .CommonSeparator, .EuropeanTerminator, .OtherNeutral,
      .BoundaryNeutral, .NonspacingMark]
  /-- an LTR label ends in L or EN, apart from nonspacing marks -/
  six : ∀ c r, l = c :: r → cls c = .LeftToRight → EndsIn cls [.LeftToRight, .EuropeanNumber] l

/-- A character that makes a label an RTL label (RFC 5893 section 1.4). -/
def Rtl (cls : Nat → BidiClass) (c : Nat) : Prop := cls c ∈ [BidiClass.RightToLeft, .ArabicLetter, .ArabicNumber]

/-- The character data. -/
structure Tables where
  /-- the IDNA mapping table: `status c m` -/
  status : Nat → Mapping → Prop
  /-- Normalization Form C -/
  nfc : List Nat → List Nat
  /-- Bidi_Class -/
  cls : Nat → BidiClass
  /-- General_Category=Mark -/
  mark : Nat → Prop
  /-- Punycode decoding and encoding -/
  decodes : List Nat → List Nat → Prop
  encodes : List Nat → List Nat → Prop

/-- UTS #46 section 4.1, validity criteria 1, 3, 5, 6, 8 for a non-empty label (criterion 2, no hyphens in the third
and fourth position, and criterion 7, joiners, are documented as not checked; 4, no full stop, holds of every label). -/
structure ValidLabel (D : Tables) (std3 transitional bidiName : Bool) (l : List Nat) : Prop where
  nfc : D.nfc l = l
  hyphens : l.head? ≠ some 0x2D ∧ l.getLast? ≠ some 0x2D
  mark : ∀ c r, l = c :: r → ¬ D.mark c
  status : ∀ c ∈ l, ∃ m, D.status c m ∧ Allowed std3 transitional m
  bidi : bidiName = true → BidiRule D.cls l

/-- UTS #46 section 4, steps 3 and 4: the label `p` of the mapped and normalized name is acceptable and becomes `l`. -/
inductive Converted (D : Tables) (std3 transitional bidiName : Bool) (p l : List Nat) : Prop
  | ace (q : List Nat) (h : p = ace ++ q) (hd : D.decodes q l) (hv : l = [] ∨ ValidLabel D std3 false bidiName l)
  | plain (h : ¬ ace <+: p) (hl : l = p) (hv : l = [] ∨ ValidLabel D std3 transitional bidiName l)

/-- UTS #46 section 4: processing of `name` records no error and gives the labels `labels`, with `mapped` the text
after steps 1 and 2. -/
structure Accepts (D : Tables) (std3 transitional bidiName : Bool) (name : List Nat) (mapped : List Nat)
    (parts labels : List (List Nat)) : Prop where
  steps12 : ∃ ms : List Mapping, List.Forall₂ D.status name ms ∧ (∀ m ∈ ms, ¬ Disallowed std3 m) ∧
    mapped = D.nfc (List.zipWith (replacement transitional) name ms).flatten
  split : Labels mapped parts
  conv : List.Forall₂ (Converted D std3 transitional bidiName) parts labels

/-- What this program takes for a Bidi domain name: a right-to-left character in the name as given, or in a Punycode
label of the mapped name. (RFC 5893 asks for one in any label of the resulting name.) -/
def BidiName (D : Tables) (name : List Nat) (parts : List (List Nat)) : Prop :=
  (∃ c ∈ name, Rtl D.cls c) ∨ ∃ q l, ace ++ q ∈ parts ∧ D.decodes q l ∧ ∃ c ∈ l, Rtl D.cls c

/-- UTS #46 section 4.2, step 2: the ASCII form of a label. -/
inductive AsciiForm (D : Tables) (l a : List Nat) : Prop
  | ascii (h : ∀ c ∈ l, c < 0x80) (ha : a = l)
  | ace (h : ¬ ∀ c ∈ l, c < 0x80) (q : List Nat) (hq : D.encodes l q) (ha : a = ace ++ q)

/-- UTS #46 section 4.2, step 3: the length restrictions of the DNS; the root label and its full stop do not count. -/
def DnsLength (name : List Nat) : Prop :=
  ∃ n labels, (name = n ∨ name = n ++ [0x2E]) ∧ Labels n labels ∧ (∀ l ∈ labels, 1 ≤ l.length ∧ l.length ≤ 63) ∧ n.length ≤ 253

end Spec.Idna
