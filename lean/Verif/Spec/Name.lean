import Mathlib.Data.Nat.Digits.Defs

/-! # Specification: character names (The Unicode Standard 10.0, sections 3.12 and 4.8)

A text is the list of its ASCII bytes. -/
namespace Spec.Name

/-- The bytes of an ASCII string -/
def text (s : String) : List Nat := s.toList.map Char.toNat

/-- Short names of the leading consonants U+1100..U+1112 (Jamo.txt) -/
def leads : List String := ["G", "GG", "N", "D", "DD", "R", "M", "B", "BB", "S", "SS", "", "J", "JJ", "C", "K", "T", "P", "H"]
/-- Short names of the vowels U+1161..U+1175 (Jamo.txt) -/
def vowels : List String :=
  ["A", "AE", "YA", "YAE", "EO", "E", "YEO", "YE", "O", "WA", "WAE", "OE", "YO", "U", "WEO", "WE", "WI", "YU", "EU", "YI", "I"]
/-- Nothing, or the short name of a trailing consonant U+11A8..U+11C2 (Jamo.txt) -/
def trails : List String :=
  ["", "G", "GG", "GS", "N", "NJ", "NH", "D", "L", "LG", "LM", "LB", "LS", "LT", "LP", "LH", "M", "B", "BS", "S", "SS", "NG", "J", "C", "K", "T", "P", "H"]

/-- Rule NR1: the name of the Hangul syllable with parts `l`, `v`, `t` -/
def syllableName (l v t : Nat) : List Nat :=
  text "HANGUL SYLLABLE " ++ text (leads.getD l "") ++ text (vowels.getD v "") ++ text (trails.getD t "")

/-- A number in upper-case hexadecimal -/
def hex (n : Nat) : List Nat := (Nat.digits 16 n).reverse.map fun d => (text "0123456789ABCDEF").getD d 0

/-- Rule NR2 (Table 4-8): characters named by a prefix and their code point -/
def ideographs : List (Nat × Nat × String) :=
  [(0x3400, 0x4DB5, "CJK UNIFIED IDEOGRAPH-"), (0x4E00, 0x9FEA, "CJK UNIFIED IDEOGRAPH-"), (0x20000, 0x2A6D6, "CJK UNIFIED IDEOGRAPH-"),
   (0x2A700, 0x2B734, "CJK UNIFIED IDEOGRAPH-"), (0x2B740, 0x2B81D, "CJK UNIFIED IDEOGRAPH-"), (0x2B820, 0x2CEA1, "CJK UNIFIED IDEOGRAPH-"),
   (0x2CEB0, 0x2EBE0, "CJK UNIFIED IDEOGRAPH-"), (0x17000, 0x187EC, "TANGUT IDEOGRAPH-"), (0x1B170, 0x1B2FB, "NUSHU CHARACTER-"),
   (0xF900, 0xFA6D, "CJK COMPATIBILITY IDEOGRAPH-"), (0xFA70, 0xFAD9, "CJK COMPATIBILITY IDEOGRAPH-"), (0x2F800, 0x2FA1D, "CJK COMPATIBILITY IDEOGRAPH-")]

/-- A byte that names are made of, besides spaces: `A`–`Z`, `0`–`9` and `-` -/
def NameByte (b : Nat) : Prop := (0x41 ≤ b ∧ b ≤ 0x5A) ∨ (0x30 ≤ b ∧ b ≤ 0x39) ∨ b = 0x2D

/-- A well formed name: words of upper-case letters, digits and hyphens, separated by single spaces -/
structure NameText (s : List Nat) : Prop where
  bytes : ∀ b ∈ s, NameByte b ∨ b = 0x20
  nonempty : s ≠ []
  first : s.head? ≠ some 0x20
  last : s.getLast? ≠ some 0x20
  single : s.IsChain fun a b => ¬ (a = 0x20 ∧ b = 0x20)

end Spec.Name
