import Verif.Proofs.Hangul
import Verif.Spec.Hangul

/-! # Property C11: Hangul composition and decomposition -/
namespace Props.Hangul
open Model.Hangul Spec.Hangul Proofs.Hangul

/-- **C11.** `is_syllable` holds exactly for the 19·21·28 syllables. -/
theorem c11_is_syllable (s : Nat) :
    isSyllable s = true ↔ ∃ l v t, l < 19 ∧ v < 21 ∧ t < 28 ∧ s = syllable l v t := by
  rw [isSyllable_iff]
  simp only [syllable]
  constructor
  · rintro ⟨h1, h2⟩
    refine ⟨(s - 0xAC00) / 28 / 21, (s - 0xAC00) / 28 % 21, (s - 0xAC00) % 28, ?_, ?_, ?_, ?_⟩ <;> omega
  · rintro ⟨l, v, t, hl, hv, ht, rfl⟩
    omega

/-- **C11.** Decomposing a syllable yields exactly its L V or L V T jamo. -/
theorem c11_decompose (l v t : Nat) (hl : l < 19) (hv : v < 21) (ht : t < 28) :
    decomposeSyllable (syllable l v t) = parts l v t := by
  have h1 : (syllable l v t - 0xAC00) / 588 = l := by simp only [syllable]; omega
  have h2 : (syllable l v t - 0xAC00) % 588 / 28 = v := by simp only [syllable]; omega
  have h3 : (syllable l v t - 0xAC00) % 28 = t := by simp only [syllable]; omega
  rw [decomposeSyllable_def, h1, h2, h3]
  simp only [parts, leading, vowel, trailing]
  by_cases h : t = 0
  · simp [h]
  · rw [if_pos (by omega), if_neg h]; rfl

/-- **C11.** Decomposing a syllable and composing the jamo again yields it. -/
theorem c11_recompose (s : Nat) (hs : isSyllable s = true) :
    (∃ a b, decomposeSyllable s = [a, b] ∧ composeSyllable a b = some s) ∨
    (∃ a b c m, decomposeSyllable s = [a, b, c] ∧ composeSyllable a b = some m ∧ composeSyllable m c = some s) := by
  obtain ⟨l, v, t, hl, hv, ht, rfl⟩ := (c11_is_syllable s).1 hs
  rw [c11_decompose l v t hl hv ht]
  have hLV : composeSyllable (leading l) (vowel v) = some (syllable l v 0) := by
    simp only [leading, vowel, syllable]
    rw [composeSyllable_def]
    rw [if_pos (by omega)]
    simp only [Option.some.injEq]; omega
  by_cases h : t = 0
  · subst h
    exact .inl ⟨leading l, vowel v, rfl, hLV⟩
  · refine .inr ⟨leading l, vowel v, trailing t, syllable l v 0, by simp [parts, h], hLV, ?_⟩
    simp only [trailing, syllable]
    rw [composeSyllable_def]
    rw [if_neg (by omega), if_pos (by omega)]
    simp only [Option.some.injEq]; omega

/-- The full statement of C11 about composition. -/
def ComposeExact : Prop := ∀ a b s, composeSyllable a b = some s ↔ Composes a b s

/-- **C11 is false of the code as stated**: an LV syllable followed by U+11A7 (which is not a trailing
consonant) is composed, dropping U+11A7. -/
theorem c11_compose_exact_false : ¬ ComposeExact := by
  intro h
  have h1 : composeSyllable 0xAC00 0x11A7 = some 0xAC00 := by decide
  rcases (h _ _ _).1 h1 with ⟨l, v, _, _, ha, _, _⟩ | ⟨l, v, t, _, _, h0, _, _, hb, _⟩
  · simp only [leading] at ha; omega
  · simp only [trailing] at hb; omega

/-- **C11 (partial).** For every pair whose second character is not U+11A7, composition succeeds
exactly on (L, V) and (LV, T) pairs, with the standard's result.
Missing from the full claim: the second character U+11A7, for which the claim is false. -/
theorem c11_compose_exact_partial (a b s : Nat) (hb : b ≠ 0x11A7) :
    composeSyllable a b = some s ↔ Composes a b s := by
  rw [composeSyllable_def]
  simp only [Composes, leading, vowel, trailing, syllable]
  constructor
  · intro h
    split at h
    · simp only [Option.some.injEq] at h
      exact .inl ⟨a - 0x1100, b - 0x1161, by omega, by omega, by omega, by omega, by omega⟩
    · split at h
      · simp only [Option.some.injEq] at h
        exact .inr ⟨(a - 0xAC00) / 28 / 21, (a - 0xAC00) / 28 % 21, b - 0x11A7, by omega, by omega, by omega, by omega,
          by omega, by omega, by omega⟩
      · simp at h
  · rintro (⟨l, v, hl, hv, rfl, rfl, rfl⟩ | ⟨l, v, t, hl, hv, h0, ht, rfl, rfl, rfl⟩)
    · rw [if_pos (by omega)]
      simp only [Option.some.injEq]; omega
    · rw [if_neg (by omega), if_pos (by omega)]
      simp only [Option.some.injEq]; omega

/-- **C11.** What the code does with U+11A7: it composes to the LV syllable itself, and to nothing else. -/
theorem c11_compose_11a7 (a s : Nat) :
    composeSyllable a 0x11A7 = some s ↔ s = a ∧ ∃ l v, l < 19 ∧ v < 21 ∧ a = syllable l v 0 := by
  rw [composeSyllable_def]
  simp only [syllable]
  rw [if_neg (by omega)]
  constructor
  · intro h
    split at h
    · simp only [Option.some.injEq] at h
      exact ⟨by omega, (a - 0xAC00) / 28 / 21, (a - 0xAC00) / 28 % 21, by omega, by omega, by omega⟩
    · simp at h
  · rintro ⟨rfl, l, v, hl, hv, h⟩
    rw [if_pos (by omega)]
    simp

/-- Non-vacuity. -/
example : composeSyllable 0x1112 0x1161 = some 0xD558 ∧ composeSyllable 0xD558 0x11AB = some 0xD55C ∧
    decomposeSyllable 0xD55C = [0x1112, 0x1161, 0x11AB] ∧ isSyllable 0xD7A3 = true ∧ isSyllable 0xD7A4 = false ∧
    composeSyllable 0xD55C 0x11AB = none := by decide

end Props.Hangul
