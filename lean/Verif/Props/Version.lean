import Verif.Model.Version
import Verif.Proofs.UcdSF

/-! # Property C43: version and age order -/
namespace Props.Version
open Model.Version

/-- `a` precedes `b` lexicographically. -/
def LexLt (a b : UnicodeVersion) : Prop :=
  a.major < b.major ∨ (a.major = b.major ∧ (a.minor < b.minor ∨ (a.minor = b.minor ∧ a.micro < b.micro)))

theorem compare_cases (a b : Nat) : (compare a b = .lt ∧ a < b) ∨ (compare a b = .eq ∧ a = b) ∨ (compare a b = .gt ∧ b < a) := by
  rcases Nat.lt_trichotomy a b with h | h | h
  · exact .inl ⟨Nat.compare_eq_lt.2 h, h⟩
  · exact .inr (.inl ⟨Nat.compare_eq_eq.2 h, h⟩)
  · exact .inr (.inr ⟨Nat.compare_eq_gt.2 h, h⟩)

/-- **C43.** Version comparison is the lexicographic order on (major, minor, micro). -/
theorem c43_version_cmp (a b : UnicodeVersion) :
    (cmp a b = .lt ↔ LexLt a b) ∧ (cmp a b = .gt ↔ LexLt b a) ∧ (cmp a b = .eq ↔ a = b) := by
  obtain ⟨a1, a2, a3⟩ := a
  obtain ⟨b1, b2, b3⟩ := b
  simp only [cmp, LexLt, UnicodeVersion.mk.injEq]
  rcases compare_cases a1 b1 with ⟨h, h'⟩ | ⟨h, h'⟩ | ⟨h, h'⟩ <;> rw [h]
  · simp only [reduceCtorEq, true_iff, false_iff]; omega
  · rcases compare_cases a2 b2 with ⟨g, g'⟩ | ⟨g, g'⟩ | ⟨g, g'⟩ <;> rw [g]
    · simp only [reduceCtorEq, true_iff, false_iff]; omega
    · rcases compare_cases a3 b3 with ⟨k, k'⟩ | ⟨k, k'⟩ | ⟨k, k'⟩ <;> rw [k] <;>
        simp only [reduceCtorEq, true_iff, false_iff] <;> omega
    · simp only [reduceCtorEq, true_iff, false_iff]; omega
  · simp only [reduceCtorEq, true_iff, false_iff]; omega

/-- **C43.** The version order is a strict total order. -/
theorem c43_version_total (a b c : UnicodeVersion) :
    (LexLt a b → LexLt b c → LexLt a c) ∧ (¬ LexLt a a) ∧ (LexLt a b ∨ a = b ∨ LexLt b a) := by
  refine ⟨?_, ?_, ?_⟩
  · simp only [LexLt]; omega
  · simp only [LexLt]; omega
  · cases h : cmp a b
    · exact .inl ((c43_version_cmp a b).1.1 h)
    · exact .inr (.inl ((c43_version_cmp a b).2.2.1 h))
    · exact .inr (.inr ((c43_version_cmp a b).2.1.1 h))

/-- **C43.** The comparison operators on ages (`<`, `>`, `partial_cmp`) reverse the version order:
an older character has the greater age. -/
theorem c43_age_partial_reversed (a b : UnicodeVersion) :
    (agePartialCmp a b = some .lt ↔ LexLt b a) ∧ (agePartialCmp a b = some .gt ↔ LexLt a b) ∧
    (agePartialCmp a b = some .eq ↔ a = b) := by
  obtain ⟨h1, h2, h3⟩ := c43_version_cmp a b
  simp only [agePartialCmp]
  rw [← h1, ← h2, ← h3]
  cases cmp a b <;> simp

/-- The full claim: the two orders of `Age` agree. -/
def AgeOrdersAgree : Prop := ∀ a b, agePartialCmp a b = some (ageCmp a b)

/-- **C43 is false of the code as stated**: the total order of `Age` (used by sorting and by ordered
collections) is derived, and disagrees with the operators. -/
theorem c43_age_orders_agree_false : ¬ AgeOrdersAgree := by
  intro h
  exact absurd (h ⟨1, 1, 0⟩ ⟨2, 0, 0⟩) (by decide)

/-- **C43 (partial).** The two orders of `Age` agree exactly on equal ages, and are otherwise opposite.
Missing from the full claim: agreement on different ages, where it is false. -/
theorem c43_age_orders_partial (a b : UnicodeVersion) :
    agePartialCmp a b = some (ageCmp a b).swap ∧ (agePartialCmp a b = some (ageCmp a b) ↔ a = b) := by
  have h3 := (c43_version_cmp a b).2.2
  simp only [agePartialCmp, ageCmp]
  rw [← h3]
  cases cmp a b <;> simp [Ordering.swap]

open Proofs.UcdSF Proofs.StepFn in
/-- **C43 / C44.** Every age in the shipped data has micro version 0 and lies between 1.1 and 10.0. -/
theorem c43_age_values (c : Nat) (v : Nat × Nat × Nat) (h : Model.Ucd.age c = some v) :
    v.2.2 = 0 ∧ (1 ≤ v.1 ∧ v.1 ≤ 10) ∧ (v.1 = 1 → v.2.1 = 1) := by
  have := SF.all_eval (p := fun x => match x with
    | none => true
    | some (v : Nat × Nat × Nat) => decide (v.2.2 = 0) && decide (1 ≤ v.1) && decide (v.1 ≤ 10) && (!decide (v.1 = 1) || decide (v.2.1 = 1)))
    (a := ageSF) (by decide +kernel) c
  rw [← age_sf, h] at this
  simp only [Bool.and_eq_true, decide_eq_true_eq, Bool.or_eq_true, Bool.not_eq_true', decide_eq_false_iff_not] at this
  omega

end Props.Version
