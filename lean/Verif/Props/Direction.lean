import Verif.Model.BidiClass
import Verif.Proofs.UcdSF

/-! # Property C48: string direction predicates -/
namespace Props.Direction
open Data Model.Ucd Model.BidiClass

/-- The directions and categories of UAX #9, Table 4, independent of the code's match arms. -/
def ltrClasses : List BidiClass := [.LeftToRight, .LeftToRightEmbedding, .LeftToRightOverride, .LeftToRightIsolate]
def rtlClasses : List BidiClass :=
  [.RightToLeft, .ArabicLetter, .RightToLeftEmbedding, .RightToLeftOverride, .RightToLeftIsolate]
def explicitClasses : List BidiClass :=
  [.LeftToRightEmbedding, .LeftToRightOverride, .RightToLeftEmbedding, .RightToLeftOverride, .PopDirectionalFormat,
    .LeftToRightIsolate, .RightToLeftIsolate, .FirstStrongIsolate, .PopDirectionalIsolate]

/-- **C48.** `has_rtl` holds exactly when some character has a right-to-left class. -/
theorem c48_has_rtl (s : List Nat) : hasRtl s = true ↔ ∃ ch ∈ s, bidiClass ch ∈ rtlClasses := by
  simp only [hasRtl, List.any_eq_true]
  have : ∀ b : BidiClass, isRtl b = true ↔ b ∈ rtlClasses := by intro b; cases b <;> decide
  simp only [this]

/-- **C48.** `has_bidi_explicit` holds exactly when some character is an explicit formatting character. -/
theorem c48_has_bidi_explicit (s : List Nat) :
    hasBidiExplicit s = true ↔ ∃ ch ∈ s, bidiClass ch ∈ explicitClasses := by
  simp only [hasBidiExplicit, List.any_eq_true]
  have : ∀ b : BidiClass, (category b == .ExplicitFormatting) = true ↔ b ∈ explicitClasses := by
    intro b; cases b <;> decide
  simp only [this]

/-- The full claim about `has_ltr`. -/
def HasLtrExact : Prop := ∀ s, hasLtr s = true ↔ ∃ ch ∈ s, bidiClass ch ∈ ltrClasses

theorem bidi_of (c : Nat) : bidiClass c = (Proofs.Chunked.lookupC Data.bidiClass c).getD .LeftToRight := by
  unfold Model.Ucd.bidiClass bidiClassTable
  rw [Proofs.Chunked.findVal_ofRange _ Proofs.UcdTables.bidiClassTable_asc]

theorem bidi_a : Model.Ucd.bidiClass 0x61 = .LeftToRight := by
  rw [bidi_of]; decide +kernel
theorem bidi_alef : Model.Ucd.bidiClass 0x5D0 = .RightToLeft := by
  rw [bidi_of]; decide +kernel

/-- **C48 is false of the code for `has_ltr`**: it is false on "a" and true on a Hebrew letter. -/
theorem c48_has_ltr_false : ¬ HasLtrExact ∧ hasLtr [0x61] = false ∧ hasLtr [0x5D0] = true := by
  have h1 : hasLtr [0x61] = false := by simp [hasLtr, bidi_a, isRtl]
  have h2 : hasLtr [0x5D0] = true := by simp [hasLtr, bidi_alef, isRtl]
  refine ⟨fun h => ?_, h1, h2⟩
  have := (h [0x61]).2 ⟨0x61, by simp, by rw [bidi_a]; decide⟩
  rw [h1] at this
  exact absurd this (by decide)

/-- **C48 (partial).** What `has_ltr` computes: the same as `has_rtl`. Missing: the claimed meaning. -/
theorem c48_has_ltr_partial (s : List Nat) : hasLtr s = true ↔ ∃ ch ∈ s, bidiClass ch ∈ rtlClasses :=
  c48_has_rtl s

/-- **C48.** The per-character direction predicates are exact and exclusive, and the categories
partition the classes as in UAX #9, Table 4. -/
theorem c48_classes (b : BidiClass) : (isLtr b = true ↔ b ∈ ltrClasses) ∧ (isRtl b = true ↔ b ∈ rtlClasses) ∧
    ¬ (isLtr b = true ∧ isRtl b = true) ∧
    (category b = .Strong ↔ b ∈ [.LeftToRight, .RightToLeft, .ArabicLetter]) ∧
    (category b = .Weak ↔ b ∈ [.EuropeanNumber, .EuropeanSeparator, .EuropeanTerminator, .ArabicNumber,
      .CommonSeparator, .NonspacingMark, .BoundaryNeutral]) ∧
    (category b = .Neutral ↔ b ∈ [.ParagraphSeparator, .SegmentSeparator, .WhiteSpace, .OtherNeutral]) ∧
    (category b = .ExplicitFormatting ↔ b ∈ explicitClasses) := by
  cases b <;> decide

end Props.Direction
