/-! # Model of `unic/common/src/version.rs` and the orders of `unic/ucd/age/src/age.rs` -/
namespace Model.Version

/-- unic/common/src/version.rs L24-34 (`UnicodeVersion`; the `u8` fields as naturals) -/
structure UnicodeVersion where
  major : Nat
  minor : Nat
  micro : Nat
deriving DecidableEq, Repr

/-- unic/common/src/version.rs L24: the derived `Ord::cmp` compares the fields in declaration order. -/
def cmp (a b : UnicodeVersion) : Ordering :=
  match compare a.major b.major with
  | .eq => match compare a.minor b.minor with
    | .eq => compare a.micro b.micro
    | o => o
  | o => o

/-- unic/ucd/age/src/age.rs L86-94 (`PartialOrd::partial_cmp` of `Age`) -/
def agePartialCmp (a b : UnicodeVersion) : Option Ordering :=
  match cmp a b with
  | .gt => some .lt
  | .lt => some .gt
  | .eq => some .eq

/-- unic/ucd/age/src/age.rs L38: the derived `Ord::cmp` of `Age` compares the wrapped versions. -/
def ageCmp (a b : UnicodeVersion) : Ordering := cmp a b

end Model.Version
