import Verif.Props.Relations
import Verif.Props.Blocks
import Verif.Spec.NamedSets

/-! # Property C91: sets the standard fixes, and the remaining relations between the shipped properties

Each theorem is about every number, so about every character. -/
namespace Props.RelationsMore
open Spec Model Model.Ucd Data Proofs.StepFn Proofs.UcdTables Proofs.UcdSF Props.Relations

/-- **C91.** Pattern_Syntax is the set the standard fixes. -/
theorem c91_pattern_syntax (c : Nat) :
    isPatternSyntax c = true ↔ inRanges patternSyntaxSet c = true := by
  have h := SF.zip₂ (fun x0 x1 => decide (x0.isSome = true ↔ x1.isSome = true))
    isPatternSyntaxSF (rangesSF patternSyntaxSet) (by decide +kernel) c
  rw [isPatternSyntax_sf, inRanges_sf patternSyntaxSet (by decide)]
  exact of_decide_eq_true h

/-- **C91.** Pattern_White_Space is the set the standard fixes. -/
theorem c91_pattern_white_space (c : Nat) :
    isPatternWhiteSpace c = true ↔ inRanges patternWhiteSpaceSet c = true := by
  have h := SF.zip₂ (fun x0 x1 => decide (x0.isSome = true ↔ x1.isSome = true))
    isPatternWhiteSpaceSF (rangesSF patternWhiteSpaceSet) (by decide +kernel) c
  rw [isPatternWhiteSpace_sf, inRanges_sf patternWhiteSpaceSet (by decide)]
  exact of_decide_eq_true h

/-- **C91.** The titlecase letters are what changes when uppercased and not when titlecased. -/
theorem c91_titlecase_letters (c : Nat) :
    (changesWhenUppercased c = true ∧ ¬ changesWhenTitlecased c = true) ↔ generalCategory c = .TitlecaseLetter := by
  have h := SF.zip₃ (fun x0 x1 x2 => decide ((x0.isSome = true ∧ ¬ x1.isSome = true) ↔ x2 = .TitlecaseLetter))
    changesWhenUppercasedSF changesWhenTitlecasedSF generalCategorySF (by decide +kernel) c
  rw [changesWhenUppercased_sf, changesWhenTitlecased_sf, generalCategory_sf]
  exact of_decide_eq_true h

/-- **C91.** Only the four capital digraphs change when titlecased and not when uppercased. -/
theorem c91_digraphs (c : Nat) :
    (changesWhenTitlecased c = true ∧ ¬ changesWhenUppercased c = true) ↔ inRanges digraphs c = true := by
  have h := SF.zip₃ (fun x0 x1 x2 => decide ((x0.isSome = true ∧ ¬ x1.isSome = true) ↔ x2.isSome = true))
    changesWhenTitlecasedSF changesWhenUppercasedSF (rangesSF digraphs) (by decide +kernel) c
  rw [changesWhenTitlecased_sf, changesWhenUppercased_sf, inRanges_sf digraphs (by decide)]
  exact of_decide_eq_true h

/-- **C91.** Nonspacing and enclosing marks have Bidi_Class NSM, but for three marks. -/
theorem c91_marks_nsm (c : Nat) :
    bidiClass c = .NonspacingMark ↔ generalCategory c ∈ [.NonspacingMark, .EnclosingMark] ∧ ¬ inRanges strongMarks c = true := by
  have h := SF.zip₃ (fun x0 x1 x2 => decide (x0 = .NonspacingMark ↔ x1 ∈ [.NonspacingMark, .EnclosingMark] ∧ ¬ x2.isSome = true))
    bidiClassSF generalCategorySF (rangesSF strongMarks) (by decide +kernel) c
  rw [bidiClass_sf, generalCategory_sf, inRanges_sf strongMarks (by decide)]
  exact of_decide_eq_true h

/-- **C91.** ALetter is given only to alphabetic characters and the listed exceptions. -/
theorem c91_aletter (c : Nat) :
    wordBreak c = .ALetter → isAlphabetic c = true ∨ inRanges otherALetter c = true := by
  have h := SF.zip₃ (fun x0 x1 x2 => decide (x0 = .ALetter → x1.isSome = true ∨ x2.isSome = true))
    wordBreakSF isAlphabeticSF (rangesSF otherALetter) (by decide +kernel) c
  rw [wordBreak_sf, isAlphabetic_sf, inRanges_sf otherALetter (by decide)]
  exact of_decide_eq_true h

/-- **C91.** Opening and closing punctuation is mirrored, but for the listed marks. -/
theorem c91_brackets (c : Nat) :
    generalCategory c ∈ [.OpenPunctuation, .ClosePunctuation] → (isBidiMirrored c = true ↔ ¬ inRanges unmirrored c = true) := by
  have h := SF.zip₃ (fun x0 x1 x2 => decide (x0 ∈ [.OpenPunctuation, .ClosePunctuation] → (x1.isSome = true ↔ ¬ x2.isSome = true)))
    generalCategorySF isBidiMirroredSF (rangesSF unmirrored) (by decide +kernel) c
  rw [generalCategory_sf, isBidiMirrored_sf, inRanges_sf unmirrored (by decide)]
  exact of_decide_eq_true h

/-- **C91.** Extend of the grapheme cluster rules is the nonspacing and enclosing marks and the listed exceptions. -/
theorem c91_extend (c : Nat) :
    graphemeClusterBreak c = .Extend ↔ generalCategory c ∈ [.NonspacingMark, .EnclosingMark] ∨ inRanges otherExtend c = true := by
  have h := SF.zip₃ (fun x0 x1 x2 => decide (x0 = .Extend ↔ x1 ∈ [.NonspacingMark, .EnclosingMark] ∨ x2.isSome = true))
    graphemeClusterBreakSF generalCategorySF (rangesSF otherExtend) (by decide +kernel) c
  rw [graphemeClusterBreak_sf, generalCategory_sf, inRanges_sf otherExtend (by decide)]
  exact of_decide_eq_true h

theorem blocks_aligned : (Data.blocks.flatten.all fun e => e.1 % 16 == 0 && e.2.1 % 16 == 15) = true := by decide +kernel

/-- **C91.** A block begins at a multiple of 16 and ends before one. -/
theorem c91_blocks_aligned : ∀ b ∈ blockIter, b.1.low % 16 = 0 ∧ b.1.high % 16 = 15 := by
  rw [Props.Blocks.c44_block_iter]
  intro b hb
  obtain ⟨e, he, rfl⟩ := List.mem_map.1 hb
  have := List.all_eq_true.1 blocks_aligned e he
  simpa using this

/-- Non-vacuity: the cases are met, on both sides of each bound. -/
example : inRanges patternSyntaxSet 0x60 = true ∧ inRanges patternSyntaxSet 0x5F = false ∧ inRanges digraphs 0x1C4 = true ∧ inRanges strongMarks 0xCBF = true ∧
    generalCategory 0x1C5 = .TitlecaseLetter ∧ generalCategory 0x300 = .NonspacingMark ∧ wordBreak 0x41 = .ALetter ∧ generalCategory 0x28 = .OpenPunctuation := by
  rw [generalCategory_sf, generalCategory_sf, generalCategory_sf, wordBreak_sf]
  decide +kernel

end Props.RelationsMore
