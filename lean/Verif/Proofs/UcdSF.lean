import Verif.Proofs.UcdTables
import Verif.Proofs.Chunked

/-! Each property accessor as a step function. -/
namespace Proofs.UcdSF
open Spec Model Model.Ucd Proofs.StepFn Proofs.UcdTables

def isAlphabeticSF : SF (Option Unit) := SF.ofEntries Data.alphabetic.flatten
theorem isAlphabetic_sf (c : Nat) : isAlphabetic c = (isAlphabeticSF.eval c).isSome := by
  rw [isAlphabetic, containsVal_eq_sf _ alphabeticTable_asc, alphabeticTable, entries_ofRange]; rfl

def isAlphanumericSF : SF (Option Unit) := SF.ofEntries Data.alphanumeric.flatten
theorem isAlphanumeric_sf (c : Nat) : isAlphanumeric c = (isAlphanumericSF.eval c).isSome := by
  rw [isAlphanumeric, containsVal_eq_sf _ alphanumericTable_asc, alphanumericTable, entries_ofRange]; rfl

def isControlSF : SF (Option Unit) := SF.ofEntries Data.control.flatten
theorem isControl_sf (c : Nat) : isControl c = (isControlSF.eval c).isSome := by
  rw [isControl, containsVal_eq_sf _ controlTable_asc, controlTable, entries_ofRange]; rfl

def isNumericSF : SF (Option Unit) := SF.ofEntries Data.numeric.flatten
theorem isNumeric_sf (c : Nat) : isNumeric c = (isNumericSF.eval c).isSome := by
  rw [isNumeric, containsVal_eq_sf _ numericTable_asc, numericTable, entries_ofRange]; rfl

def isWhiteSpaceSF : SF (Option Unit) := SF.ofEntries Data.whiteSpace.flatten
theorem isWhiteSpace_sf (c : Nat) : isWhiteSpace c = (isWhiteSpaceSF.eval c).isSome := by
  rw [isWhiteSpace, containsVal_eq_sf _ whiteSpaceTable_asc, whiteSpaceTable, entries_ofRange]; rfl

def isCaseIgnorableSF : SF (Option Unit) := SF.ofEntries Data.caseIgnorable.flatten
theorem isCaseIgnorable_sf (c : Nat) : isCaseIgnorable c = (isCaseIgnorableSF.eval c).isSome := by
  rw [isCaseIgnorable, containsVal_eq_sf _ caseIgnorableTable_asc, caseIgnorableTable, entries_ofRange]; rfl

def isCasedSF : SF (Option Unit) := SF.ofEntries Data.cased.flatten
theorem isCased_sf (c : Nat) : isCased c = (isCasedSF.eval c).isSome := by
  rw [isCased, containsVal_eq_sf _ casedTable_asc, casedTable, entries_ofRange]; rfl

def changesWhenCasefoldedSF : SF (Option Unit) := SF.ofEntries Data.changesWhenCasefolded.flatten
theorem changesWhenCasefolded_sf (c : Nat) : changesWhenCasefolded c = (changesWhenCasefoldedSF.eval c).isSome := by
  rw [changesWhenCasefolded, containsVal_eq_sf _ changesWhenCasefoldedTable_asc, changesWhenCasefoldedTable, entries_ofRange]; rfl

def changesWhenCasemappedSF : SF (Option Unit) := SF.ofEntries Data.changesWhenCasemapped.flatten
theorem changesWhenCasemapped_sf (c : Nat) : changesWhenCasemapped c = (changesWhenCasemappedSF.eval c).isSome := by
  rw [changesWhenCasemapped, containsVal_eq_sf _ changesWhenCasemappedTable_asc, changesWhenCasemappedTable, entries_ofRange]; rfl

def changesWhenLowercasedSF : SF (Option Unit) := SF.ofEntries Data.changesWhenLowercased.flatten
theorem changesWhenLowercased_sf (c : Nat) : changesWhenLowercased c = (changesWhenLowercasedSF.eval c).isSome := by
  rw [changesWhenLowercased, containsVal_eq_sf _ changesWhenLowercasedTable_asc, changesWhenLowercasedTable, entries_ofRange]; rfl

def changesWhenTitlecasedSF : SF (Option Unit) := SF.ofEntries Data.changesWhenTitlecased.flatten
theorem changesWhenTitlecased_sf (c : Nat) : changesWhenTitlecased c = (changesWhenTitlecasedSF.eval c).isSome := by
  rw [changesWhenTitlecased, containsVal_eq_sf _ changesWhenTitlecasedTable_asc, changesWhenTitlecasedTable, entries_ofRange]; rfl

def changesWhenUppercasedSF : SF (Option Unit) := SF.ofEntries Data.changesWhenUppercased.flatten
theorem changesWhenUppercased_sf (c : Nat) : changesWhenUppercased c = (changesWhenUppercasedSF.eval c).isSome := by
  rw [changesWhenUppercased, containsVal_eq_sf _ changesWhenUppercasedTable_asc, changesWhenUppercasedTable, entries_ofRange]; rfl

def isLowercaseSF : SF (Option Unit) := SF.ofEntries Data.lowercase.flatten
theorem isLowercase_sf (c : Nat) : isLowercase c = (isLowercaseSF.eval c).isSome := by
  rw [isLowercase, containsVal_eq_sf _ lowercaseTable_asc, lowercaseTable, entries_ofRange]; rfl

def isUppercaseSF : SF (Option Unit) := SF.ofEntries Data.uppercase.flatten
theorem isUppercase_sf (c : Nat) : isUppercase c = (isUppercaseSF.eval c).isSome := by
  rw [isUppercase, containsVal_eq_sf _ uppercaseTable_asc, uppercaseTable, entries_ofRange]; rfl

def isIdStartSF : SF (Option Unit) := SF.ofEntries Data.idStart.flatten
theorem isIdStart_sf (c : Nat) : isIdStart c = (isIdStartSF.eval c).isSome := by
  rw [isIdStart, containsVal_eq_sf _ idStartTable_asc, idStartTable, entries_ofRange]; rfl

def isIdContinueSF : SF (Option Unit) := SF.ofEntries Data.idContinue.flatten
theorem isIdContinue_sf (c : Nat) : isIdContinue c = (isIdContinueSF.eval c).isSome := by
  rw [isIdContinue, containsVal_eq_sf _ idContinueTable_asc, idContinueTable, entries_ofRange]; rfl

def isXidStartSF : SF (Option Unit) := SF.ofEntries Data.xidStart.flatten
theorem isXidStart_sf (c : Nat) : isXidStart c = (isXidStartSF.eval c).isSome := by
  rw [isXidStart, containsVal_eq_sf _ xidStartTable_asc, xidStartTable, entries_ofRange]; rfl

def isXidContinueSF : SF (Option Unit) := SF.ofEntries Data.xidContinue.flatten
theorem isXidContinue_sf (c : Nat) : isXidContinue c = (isXidContinueSF.eval c).isSome := by
  rw [isXidContinue, containsVal_eq_sf _ xidContinueTable_asc, xidContinueTable, entries_ofRange]; rfl

def isPatternSyntaxSF : SF (Option Unit) := SF.ofEntries Data.patternSyntax.flatten
theorem isPatternSyntax_sf (c : Nat) : isPatternSyntax c = (isPatternSyntaxSF.eval c).isSome := by
  rw [isPatternSyntax, containsVal_eq_sf _ patternSyntaxTable_asc, patternSyntaxTable, entries_ofRange]; rfl

def isPatternWhiteSpaceSF : SF (Option Unit) := SF.ofEntries Data.patternWhiteSpace.flatten
theorem isPatternWhiteSpace_sf (c : Nat) : isPatternWhiteSpace c = (isPatternWhiteSpaceSF.eval c).isSome := by
  rw [isPatternWhiteSpace, containsVal_eq_sf _ patternWhiteSpaceTable_asc, patternWhiteSpaceTable, entries_ofRange]; rfl

def isBidiControlSF : SF (Option Unit) := SF.ofEntries Data.bidiControl.flatten
theorem isBidiControl_sf (c : Nat) : isBidiControl c = (isBidiControlSF.eval c).isSome := by
  rw [isBidiControl, containsVal_eq_sf _ bidiControlTable_asc, bidiControlTable, entries_ofRange]; rfl

def isBidiMirroredSF : SF (Option Unit) := SF.ofEntries Data.bidiMirrored.flatten
theorem isBidiMirrored_sf (c : Nat) : isBidiMirrored c = (isBidiMirroredSF.eval c).isSome := by
  rw [isBidiMirrored, containsVal_eq_sf _ bidiMirroredTable_asc, bidiMirroredTable, entries_ofRange]; rfl

def isEmojiSF : SF (Option Unit) := SF.ofEntries Data.emoji.flatten
theorem isEmoji_sf (c : Nat) : isEmoji c = (isEmojiSF.eval c).isSome := by
  rw [isEmoji, containsVal_eq_sf _ emojiTable_asc, emojiTable, entries_ofRange]; rfl

def isEmojiComponentSF : SF (Option Unit) := SF.ofEntries Data.emojiComponent.flatten
theorem isEmojiComponent_sf (c : Nat) : isEmojiComponent c = (isEmojiComponentSF.eval c).isSome := by
  rw [isEmojiComponent, containsVal_eq_sf _ emojiComponentTable_asc, emojiComponentTable, entries_ofRange]; rfl

def isEmojiModifierSF : SF (Option Unit) := SF.ofEntries Data.emojiModifier.flatten
theorem isEmojiModifier_sf (c : Nat) : isEmojiModifier c = (isEmojiModifierSF.eval c).isSome := by
  rw [isEmojiModifier, containsVal_eq_sf _ emojiModifierTable_asc, emojiModifierTable, entries_ofRange]; rfl

def isEmojiModifierBaseSF : SF (Option Unit) := SF.ofEntries Data.emojiModifierBase.flatten
theorem isEmojiModifierBase_sf (c : Nat) : isEmojiModifierBase c = (isEmojiModifierBaseSF.eval c).isSome := by
  rw [isEmojiModifierBase, containsVal_eq_sf _ emojiModifierBaseTable_asc, emojiModifierBaseTable, entries_ofRange]; rfl

def isEmojiPresentationSF : SF (Option Unit) := SF.ofEntries Data.emojiPresentation.flatten
theorem isEmojiPresentation_sf (c : Nat) : isEmojiPresentation c = (isEmojiPresentationSF.eval c).isSome := by
  rw [isEmojiPresentation, containsVal_eq_sf _ emojiPresentationTable_asc, emojiPresentationTable, entries_ofRange]; rfl

def isCombiningMarkSF : SF (Option Unit) := SF.ofEntries Data.generalCategoryMark.flatten
theorem isCombiningMark_sf (c : Nat) : isCombiningMark c = (isCombiningMarkSF.eval c).isSome := by
  rw [isCombiningMark, findVal_eq_sf _ generalCategoryMarkTable_asc, generalCategoryMarkTable, entries_ofRange]; rfl

def generalCategorySF : SF Data.GeneralCategory := SF.map (fun o => o.getD .Unassigned) (SF.ofEntries Data.generalCategory.flatten)
theorem generalCategory_sf (c : Nat) : generalCategory c = generalCategorySF.eval c := by
  rw [generalCategory, findVal_eq_sf _ generalCategoryTable_asc, generalCategoryTable, entries_ofRange, generalCategorySF, SF.eval_map]

def bidiClassSF : SF Data.BidiClass := SF.map (fun o => o.getD .LeftToRight) (SF.ofEntries Data.bidiClass.flatten)
theorem bidiClass_sf (c : Nat) : bidiClass c = bidiClassSF.eval c := by
  rw [bidiClass, findVal_eq_sf _ bidiClassTable_asc, bidiClassTable, entries_ofRange, bidiClassSF, SF.eval_map]

def graphemeClusterBreakSF : SF Data.GraphemeClusterBreak := SF.map (fun o => o.getD .Other) (SF.ofEntries Data.graphemeClusterBreak.flatten)
theorem graphemeClusterBreak_sf (c : Nat) : graphemeClusterBreak c = graphemeClusterBreakSF.eval c := by
  rw [graphemeClusterBreak, findVal_eq_sf _ graphemeClusterBreakTable_asc, graphemeClusterBreakTable, entries_ofRange, graphemeClusterBreakSF, SF.eval_map]

def wordBreakSF : SF Data.WordBreak := SF.map (fun o => o.getD .Other) (SF.ofEntries Data.wordBreak.flatten)
theorem wordBreak_sf (c : Nat) : wordBreak c = wordBreakSF.eval c := by
  rw [wordBreak, findVal_eq_sf _ wordBreakTable_asc, wordBreakTable, entries_ofRange, wordBreakSF, SF.eval_map]

def sentenceBreakSF : SF Data.SentenceBreak := SF.map (fun o => o.getD .Other) (SF.ofEntries Data.sentenceBreak.flatten)
theorem sentenceBreak_sf (c : Nat) : sentenceBreak c = sentenceBreakSF.eval c := by
  rw [sentenceBreak, findVal_eq_sf _ sentenceBreakTable_asc, sentenceBreakTable, entries_ofRange, sentenceBreakSF, SF.eval_map]

def combiningClassSF : SF Nat := SF.map (fun o => o.getD 0) (SF.ofEntries Data.canonicalCombiningClass.flatten)
theorem combiningClass_sf (c : Nat) : combiningClass c = combiningClassSF.eval c := by
  rw [combiningClass, findVal_eq_sf _ combiningClassTable_asc, combiningClassTable, entries_ofRange, combiningClassSF, SF.eval_map]

def ageSF : SF (Option (Nat × Nat × Nat)) := SF.ofEntries Data.age.flatten
theorem age_sf (c : Nat) : age c = ageSF.eval c := by
  rw [age, findVal_eq_sf _ ageTable_asc, ageTable, entries_ofRange]; rfl

/-- A fixed set of ranges as a step function. -/
def rangesSF (l : List (Nat × Nat)) : SF (Option Unit) := SF.ofEntries (l.map fun r => (r.1, r.2, ()))

theorem any_eq_lookup (l : List (Nat × Nat)) (c : Nat) :
    (l.any fun r => decide (r.1 ≤ c) && decide (c ≤ r.2)) = (lookup (l.map fun r => (r.1, r.2, ())) c).isSome := by
  induction l with
  | nil => rfl
  | cons r l ih =>
    simp only [List.any_cons, List.map_cons, lookup]
    by_cases h : r.1 ≤ c ∧ c ≤ r.2
    · simp [h]
    · rw [if_neg h, ← ih]
      by_cases h1 : r.1 ≤ c
      · have : ¬ c ≤ r.2 := fun h2 => h ⟨h1, h2⟩
        simp [this]
      · simp [h1]

theorem any_sf (l : List (Nat × Nat)) (h : ascFrom 0 (l.map fun r => (r.1, r.2, ())) = true) (c : Nat) :
    (l.any fun r => decide (r.1 ≤ c) && decide (c ≤ r.2)) = ((rangesSF l).eval c).isSome := by
  rw [any_eq_lookup, rangesSF, SF.ofEntries, SF.eval, evalSF_steps _ 0 c h]

def isNoncharacterSF : SF (Option Unit) := rangesSF noncharacterRanges
theorem isNoncharacter_sf (c : Nat) : isNoncharacter c = (isNoncharacterSF.eval c).isSome :=
  any_sf _ (by decide) c
def isPrivateUseSF : SF (Option Unit) := rangesSF privateUseRanges
theorem isPrivateUse_sf (c : Nat) : isPrivateUse c = (isPrivateUseSF.eval c).isSome :=
  any_sf _ (by decide) c

end Proofs.UcdSF
