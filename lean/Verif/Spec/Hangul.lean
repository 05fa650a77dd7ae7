/-! # Specification: conjoining jamo arithmetic (The Unicode Standard, section 3.12) -/
namespace Spec.Hangul

/-- The syllable with leading consonant `l < 19`, vowel `v < 21`, trailing consonant `t < 28`
(0 for none). -/
def syllable (l v t : Nat) : Nat := 0xAC00 + (l * 21 + v) * 28 + t

/-- Leading consonant jamo number `l`, vowel number `v`, trailing consonant number `t` (`t ≥ 1`). -/
def leading (l : Nat) : Nat := 0x1100 + l
def vowel (v : Nat) : Nat := 0x1161 + v
def trailing (t : Nat) : Nat := 0x11A7 + t

/-- The pair `a b` composes to `s`: either L + V = LV, or LV + T = LVT with a real trailing
consonant (U+11A7 is not one). -/
def Composes (a b s : Nat) : Prop :=
  (∃ l v, l < 19 ∧ v < 21 ∧ a = leading l ∧ b = vowel v ∧ s = syllable l v 0) ∨
  (∃ l v t, l < 19 ∧ v < 21 ∧ 0 < t ∧ t < 28 ∧ a = syllable l v 0 ∧ b = trailing t ∧ s = syllable l v t)

/-- The full canonical decomposition of a syllable. -/
def parts (l v t : Nat) : List Nat := [leading l, vowel v] ++ if t = 0 then [] else [trailing t]

end Spec.Hangul
