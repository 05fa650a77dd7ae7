import Verif.Spec.Scalar
import Mathlib.Data.List.Forall2

/-! # Specification: string literals, and lists of hexadecimal numbers -/
namespace Spec.Echo

/-- a hexadecimal digit with its value -/
def HexDigit (c v : Nat) : Prop :=
  (48 ≤ c ∧ c ≤ 57 ∧ v = c - 48) ∨ (65 ≤ c ∧ c ≤ 70 ∧ v = c - 65 + 10) ∨ (97 ≤ c ∧ c ≤ 102 ∧ v = c - 97 + 10)

/-- `ds` is a hexadecimal numeral, of one digit or more, of value `n` -/
inductive Numeral : List Nat → Nat → Prop
  | one {c v} : HexDigit c v → Numeral [c] v
  | snoc {ds n c v} : Numeral ds n → HexDigit c v → Numeral (ds ++ [c]) (n * 16 + v)

/-- The text between the quotes of a string literal denotes `s`, in the part of the grammar that Rust and ECMAScript 6 have in
common: characters other than `"`, `\` and line ends stand for themselves, and there are the escapes `\t`, `\r`, `\n`, `\'`, `\"`,
`\\` and `\u{…}` with one to six hexadecimal digits. -/
inductive Body : List Nat → List Nat → Prop
  | nil : Body [] []
  | raw {c l s} : c ∉ [34, 92, 10, 13, 0x2028, 0x2029] → Body l s → Body (c :: l) (c :: s)
  | simple {e c l s} : (e, c) ∈ [(116, 9), (114, 13), (110, 10), (39, 39), (34, 34), (92, 92)] → Body l s → Body (92 :: e :: l) (c :: s)
  | unicode {ds c l s} : Numeral ds c → ds.length ≤ 6 → IsScalar c → Body l s → Body (92 :: 117 :: 123 :: (ds ++ 125 :: l)) (c :: s)

/-- `l` is a string literal that denotes `s` -/
def Literal (l s : List Nat) : Prop := ∃ b, l = 34 :: (b ++ [34]) ∧ Body b s

/-- `ts` are the pieces, possibly empty, of the text between the characters that are separators -/
inductive Cut (sep : Nat → Prop) : List Nat → List (List Nat) → Prop
  | last {t} : (∀ c ∈ t, ¬ sep c) → Cut sep t [t]
  | more {t c s ts} : (∀ c ∈ t, ¬ sep c) → sep c → Cut sep s ts → Cut sep (t ++ c :: s) (t :: ts)

/-- a letter, digit or underscore; outside ASCII, as `w` says -/
def Word (w : Nat → Bool) (c : Nat) : Prop :=
  (48 ≤ c ∧ c ≤ 57) ∨ (65 ≤ c ∧ c ≤ 90) ∨ (97 ≤ c ∧ c ≤ 122) ∨ c = 95 ∨ (128 ≤ c ∧ w c = true)

/-- a number in hexadecimal digits after an optional prefix and an optional plus sign -/
def Token (prefixes : List (List Nat)) (t : List Nat) (v : Nat) : Prop :=
  ∃ p plus ds, (p = [] ∨ p ∈ prefixes) ∧ (plus = [] ∨ plus = [43]) ∧ Numeral ds v ∧ t = p ++ (plus ++ ds)

/-- `U+` and `u+` -/
def codepointPrefixes : List (List Nat) := [[85, 43], [117, 43]]
/-- `0x` and `0X` -/
def hexPrefixes : List (List Nat) := [[48, 120], [48, 88]]

/-- `p` is an escape of one character -/
def Escape (p : List Nat) (c : Nat) : Prop := ∃ q, p = 92 :: q ∧ Body p [c]

/-- the same letter up to ASCII case -/
def SameLetter (a b : Nat) : Prop := a = b ∨ (65 ≤ a ∧ a ≤ 90 ∧ b = a + 32) ∨ (65 ≤ b ∧ b ≤ 90 ∧ a = b + 32)

/-- `s` is the name `n` up to hyphens and ASCII case -/
def Names (s n : List Nat) : Prop := List.Forall₂ SameLetter (s.filter (· ≠ 45)) n

end Spec.Echo
