import Verif.Data.Enums

/-! # Model of the `char_property!` macro: names, `FromStr`, `Display` -/
namespace Model.Property
open Data

/-- `u8::to_ascii_lowercase` on a character (std). -/
def asciiLower (c : Char) : Char :=
  if 'A'.toNat ≤ c.toNat ∧ c.toNat ≤ 'Z'.toNat then Char.ofNat (c.toNat + 32) else c

/-- `str::eq_ignore_ascii_case` (std). Compared per character; the Rust code compares UTF-8 bytes,
which is the same because folding touches only ASCII bytes. -/
def eqIgnoreAsciiCase (a b : String) : Bool := a.toList.map asciiLower == b.toList.map asciiLower

/-- unic/char/property/src/macros.rs L276-282 (`from_str`): first the exact arms in order, then the
case-insensitive arms in order; `Err(())` is `none`. -/
def fromStr {V : Type} (arms : List (String × V)) (s : String) : Option V :=
  match arms.find? (fun a => a.1 == s) with
  | some a => some a.2
  | none => (arms.find? (fun a => eqIgnoreAsciiCase s a.1)).map (·.2)

/-- unic/char/property/src/macros.rs L135-141: the arms of an enumerated property. -/
def enumArms {V : Type} (values : List V) (abbr long : V → String) : List (String × V) :=
  values.flatMap fun v => [(abbr v, v), (long v, v)]

/-- unic/char/property/src/macros.rs L216-228: the arms of a binary property. -/
def binaryArms : List (String × Bool) := [
  ("y", true), ("yes", true), ("t", true), ("true", true),
  ("n", false), ("no", false), ("f", false), ("false", false)]

/-- unic/char/property/src/range_types.rs L52-58 (`abbr_name`) -/
def binaryAbbr (b : Bool) : String := if b then "Y" else "N"
/-- unic/char/property/src/range_types.rs L61-67 (`long_name`) -/
def binaryLong (b : Bool) : String := if b then "Yes" else "No"
/-- unic/char/property/src/range_types.rs L70-76 (`human_name`), the printed form
(unic/char/property/src/macros.rs L286-292) -/
def binaryHuman (b : Bool) : String := if b then "Yes" else "No"

end Model.Property
