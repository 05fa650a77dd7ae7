import Verif.Proofs.UcdSF
import Verif.Proofs.StepZip
import Verif.Spec.Ranges

/-! # Property C60: the shipped properties stand in the relations the standard derives them by

Each theorem is about every number, so about every character. -/
namespace Props.Relations
open Spec Model Model.Ucd Data Proofs.StepFn Proofs.UcdTables Proofs.UcdSF

theorem inRanges_sf (l : List (Nat × Nat)) (h : ascFrom 0 (l.map fun r => (r.1, r.2, ())) = true) (c : Nat) :
    inRanges l c = ((rangesSF l).eval c).isSome := any_sf l h c

/-- **C60.** Case_Ignorable is derived as definition D136 of the Unicode Standard says. -/
theorem c60_case_ignorable (c : Nat) :
    isCaseIgnorable c = true ↔ wordBreak c ∈ [.MidLetter, .MidNumLet, .SingleQuote] ∨
      generalCategory c ∈ [.NonspacingMark, .EnclosingMark, .Format, .ModifierLetter, .ModifierSymbol] := by
  have h := SF.zip₃ (fun x0 x1 x2 => decide (x0.isSome = true ↔ x1 ∈ [.MidLetter, .MidNumLet, .SingleQuote] ∨ x2 ∈ [.NonspacingMark, .EnclosingMark, .Format, .ModifierLetter, .ModifierSymbol]))
    isCaseIgnorableSF wordBreakSF generalCategorySF (by decide +kernel) c
  rw [isCaseIgnorable_sf, wordBreak_sf, generalCategory_sf]
  exact of_decide_eq_true h

/-- **C60.** Cased is derived as definition D135 says. -/
theorem c60_cased (c : Nat) :
    isCased c = true ↔ isLowercase c = true ∨ isUppercase c = true ∨ generalCategory c = .TitlecaseLetter := by
  have h := SF.zip₄ (fun x0 x1 x2 x3 => decide (x0.isSome = true ↔ x1.isSome = true ∨ x2.isSome = true ∨ x3 = .TitlecaseLetter))
    isCasedSF isLowercaseSF isUppercaseSF generalCategorySF (by decide +kernel) c
  rw [isCased_sf, isLowercase_sf, isUppercase_sf, generalCategory_sf]
  exact of_decide_eq_true h

/-- **C60.** A character that some case mapping or case folding changes is cased, and a case folding changes nothing a case mapping leaves alone. -/
theorem c60_changes_cased (c : Nat) :
    (changesWhenCasefolded c = true → changesWhenCasemapped c = true) ∧ (changesWhenCasemapped c = true → isCased c = true) := by
  have h := SF.zip₃ (fun x0 x1 x2 => decide ((x0.isSome = true → x1.isSome = true) ∧ (x1.isSome = true → x2.isSome = true)))
    changesWhenCasefoldedSF changesWhenCasemappedSF isCasedSF (by decide +kernel) c
  rw [changesWhenCasefolded_sf, changesWhenCasemapped_sf, isCased_sf]
  exact of_decide_eq_true h

/-- **C60.** Only uppercase and titlecase characters change when lowercased. -/
theorem c60_changes_lowercased (c : Nat) :
    changesWhenLowercased c = true → isUppercase c = true ∨ generalCategory c = .TitlecaseLetter := by
  have h := SF.zip₃ (fun x0 x1 x2 => decide (x0.isSome = true → x1.isSome = true ∨ x2 = .TitlecaseLetter))
    changesWhenLowercasedSF isUppercaseSF generalCategorySF (by decide +kernel) c
  rw [changesWhenLowercased_sf, isUppercase_sf, generalCategory_sf]
  exact of_decide_eq_true h

/-- **C60.** Only lowercase and titlecase characters change when uppercased. -/
theorem c60_changes_uppercased (c : Nat) :
    changesWhenUppercased c = true → isLowercase c = true ∨ generalCategory c = .TitlecaseLetter := by
  have h := SF.zip₃ (fun x0 x1 x2 => decide (x0.isSome = true → x1.isSome = true ∨ x2 = .TitlecaseLetter))
    changesWhenUppercasedSF isLowercaseSF generalCategorySF (by decide +kernel) c
  rw [changesWhenUppercased_sf, isLowercase_sf, generalCategory_sf]
  exact of_decide_eq_true h

/-- **C60.** Letters of category Lu are Uppercase and alphabetic, those of category Ll are Lowercase; every cased character that is lowercase or uppercase is alphabetic. -/
theorem c60_case_letters (c : Nat) :
    (generalCategory c = .UppercaseLetter → isUppercase c = true) ∧ (generalCategory c = .LowercaseLetter → isLowercase c = true) ∧
    (isLowercase c = true ∨ isUppercase c = true → isAlphabetic c = true) := by
  have h := SF.zip₄ (fun x0 x1 x2 x3 => decide ((x0 = .UppercaseLetter → x1.isSome = true) ∧ (x0 = .LowercaseLetter → x2.isSome = true) ∧ (x2.isSome = true ∨ x1.isSome = true → x3.isSome = true)))
    generalCategorySF isUppercaseSF isLowercaseSF isAlphabeticSF (by decide +kernel) c
  rw [generalCategory_sf, isUppercase_sf, isLowercase_sf, isAlphabetic_sf]
  exact of_decide_eq_true h

/-- **C60.** White_Space is the separators and the seven controls that separate. -/
theorem c60_white_space (c : Nat) :
    isWhiteSpace c = true ↔ generalCategory c ∈ [.SpaceSeparator, .LineSeparator, .ParagraphSeparator] ∨ inRanges [(0x9, 0xD), (0x85, 0x85)] c = true := by
  have h := SF.zip₃ (fun x0 x1 x2 => decide (x0.isSome = true ↔ x1 ∈ [.SpaceSeparator, .LineSeparator, .ParagraphSeparator] ∨ x2.isSome = true))
    isWhiteSpaceSF generalCategorySF (rangesSF [(0x9, 0xD), (0x85, 0x85)]) (by decide +kernel) c
  rw [isWhiteSpace_sf, generalCategory_sf, inRanges_sf [(0x9, 0xD), (0x85, 0x85)] (by decide)]
  exact of_decide_eq_true h

/-- **C60.** ID_Start is the letters and letter numbers with Other_ID_Start, less Pattern_Syntax (UAX #31, table 2; U+2E2F is the one letter in Pattern_Syntax). -/
theorem c60_id_start (c : Nat) :
    isIdStart c = true ↔ (generalCategory c ∈ [.UppercaseLetter, .LowercaseLetter, .TitlecaseLetter, .ModifierLetter, .OtherLetter, .LetterNumber] ∨
      inRanges [(0x1885, 0x1886), (0x2118, 0x2118), (0x212E, 0x212E), (0x309B, 0x309C)] c = true) ∧ isPatternSyntax c = false := by
  have h := SF.zip₄ (fun x0 x1 x2 x3 => decide (x0.isSome = true ↔ (x1 ∈ [.UppercaseLetter, .LowercaseLetter, .TitlecaseLetter, .ModifierLetter, .OtherLetter, .LetterNumber] ∨ x2.isSome = true) ∧ x3.isSome = false))
    isIdStartSF generalCategorySF (rangesSF [(0x1885, 0x1886), (0x2118, 0x2118), (0x212E, 0x212E), (0x309B, 0x309C)]) isPatternSyntaxSF (by decide +kernel) c
  rw [isIdStart_sf, generalCategory_sf, inRanges_sf [(0x1885, 0x1886), (0x2118, 0x2118), (0x212E, 0x212E), (0x309B, 0x309C)] (by decide), isPatternSyntax_sf]
  exact of_decide_eq_true h

/-- **C60.** ID_Continue adds to ID_Start the marks Mn and Mc, decimal digits, connectors and Other_ID_Continue. -/
theorem c60_id_continue (c : Nat) :
    isIdContinue c = true ↔ isIdStart c = true ∨ generalCategory c ∈ [.NonspacingMark, .SpacingMark, .DecimalNumber, .ConnectorPunctuation] ∨
      inRanges [(0xB7, 0xB7), (0x387, 0x387), (0x1369, 0x1371), (0x19DA, 0x19DA)] c = true := by
  have h := SF.zip₄ (fun x0 x1 x2 x3 => decide (x0.isSome = true ↔ x1.isSome = true ∨ x2 ∈ [.NonspacingMark, .SpacingMark, .DecimalNumber, .ConnectorPunctuation] ∨ x3.isSome = true))
    isIdContinueSF isIdStartSF generalCategorySF (rangesSF [(0xB7, 0xB7), (0x387, 0x387), (0x1369, 0x1371), (0x19DA, 0x19DA)]) (by decide +kernel) c
  rw [isIdContinue_sf, isIdStart_sf, generalCategory_sf, inRanges_sf [(0xB7, 0xB7), (0x387, 0x387), (0x1369, 0x1371), (0x19DA, 0x19DA)] (by decide)]
  exact of_decide_eq_true h

/-- **C60.** Bidi_Control is the characters whose Bidi_Class is explicit formatting and the three marks ALM, LRM and RLM. -/
theorem c60_bidi_control (c : Nat) :
    isBidiControl c = true ↔ bidiClass c ∈ [.LeftToRightEmbedding, .RightToLeftEmbedding, .LeftToRightOverride, .RightToLeftOverride, .PopDirectionalFormat,
      .LeftToRightIsolate, .RightToLeftIsolate, .FirstStrongIsolate, .PopDirectionalIsolate] ∨
      inRanges [(0x61C, 0x61C), (0x200E, 0x200F)] c = true := by
  have h := SF.zip₃ (fun x0 x1 x2 => decide (x0.isSome = true ↔ x1 ∈ [.LeftToRightEmbedding, .RightToLeftEmbedding, .LeftToRightOverride, .RightToLeftOverride, .PopDirectionalFormat, .LeftToRightIsolate, .RightToLeftIsolate, .FirstStrongIsolate, .PopDirectionalIsolate] ∨ x2.isSome = true))
    isBidiControlSF bidiClassSF (rangesSF [(0x61C, 0x61C), (0x200E, 0x200F)]) (by decide +kernel) c
  rw [isBidiControl_sf, bidiClass_sf, inRanges_sf [(0x61C, 0x61C), (0x200E, 0x200F)] (by decide)]
  exact of_decide_eq_true h

/-- **C60.** A mirrored character is neutral in the bidirectional algorithm, and a bracket, a quotation mark or a mathematical symbol. -/
theorem c60_bidi_mirrored (c : Nat) :
    isBidiMirrored c = true → bidiClass c = .OtherNeutral ∧
      generalCategory c ∈ [.MathSymbol, .OpenPunctuation, .ClosePunctuation, .InitialPunctuation, .FinalPunctuation] := by
  have h := SF.zip₃ (fun x0 x1 x2 => decide (x0.isSome = true → x1 = .OtherNeutral ∧ x2 ∈ [.MathSymbol, .OpenPunctuation, .ClosePunctuation, .InitialPunctuation, .FinalPunctuation]))
    isBidiMirroredSF bidiClassSF generalCategorySF (by decide +kernel) c
  rw [isBidiMirrored_sf, bidiClass_sf, generalCategory_sf]
  exact of_decide_eq_true h

/-- **C60.** Bidi_Class NSM is given only to nonspacing and enclosing marks. -/
theorem c60_bidi_nsm (c : Nat) :
    bidiClass c = .NonspacingMark → generalCategory c ∈ [.NonspacingMark, .EnclosingMark] := by
  have h := SF.zip₂ (fun x0 x1 => decide (x0 = .NonspacingMark → x1 ∈ [.NonspacingMark, .EnclosingMark]))
    bidiClassSF generalCategorySF (by decide +kernel) c
  rw [bidiClass_sf, generalCategory_sf]
  exact of_decide_eq_true h

/-- **C60.** Emoji_Component is the keycap bases, the regional indicators and the emoji modifiers, and all of them are emoji. -/
theorem c60_emoji_component (c : Nat) :
    (isEmojiComponent c = true ↔ inRanges [(0x23, 0x23), (0x2A, 0x2A), (0x30, 0x39), (0x1F1E6, 0x1F1FF)] c = true ∨ isEmojiModifier c = true) ∧
    (isEmojiComponent c = true → isEmoji c = true) := by
  have h := SF.zip₄ (fun x0 x1 x2 x3 => decide ((x0.isSome = true ↔ x1.isSome = true ∨ x2.isSome = true) ∧ (x0.isSome = true → x3.isSome = true)))
    isEmojiComponentSF (rangesSF [(0x23, 0x23), (0x2A, 0x2A), (0x30, 0x39), (0x1F1E6, 0x1F1FF)]) isEmojiModifierSF isEmojiSF (by decide +kernel) c
  rw [isEmojiComponent_sf, inRanges_sf [(0x23, 0x23), (0x2A, 0x2A), (0x30, 0x39), (0x1F1E6, 0x1F1FF)] (by decide), isEmojiModifier_sf, isEmoji_sf]
  exact of_decide_eq_true h

/-- **C60.** The emoji classes of the grapheme cluster rules are the emoji properties. -/
theorem c60_emoji_break (c : Nat) :
    (graphemeClusterBreak c = .EModifier ↔ isEmojiModifier c = true) ∧
    (graphemeClusterBreak c ∈ [.EBase, .EBaseGAZ] ↔ isEmojiModifierBase c = true) ∧
    (graphemeClusterBreak c = .GlueAfterZwj → isEmoji c = true) := by
  have h := SF.zip₄ (fun x0 x1 x2 x3 => decide ((x0 = .EModifier ↔ x1.isSome = true) ∧ (x0 ∈ [.EBase, .EBaseGAZ] ↔ x2.isSome = true) ∧ (x0 = .GlueAfterZwj → x3.isSome = true)))
    graphemeClusterBreakSF isEmojiModifierSF isEmojiModifierBaseSF isEmojiSF (by decide +kernel) c
  rw [graphemeClusterBreak_sf, isEmojiModifier_sf, isEmojiModifierBase_sf, isEmoji_sf]
  exact of_decide_eq_true h

/-- **C60.** Regional indicators are exactly U+1F1E6..U+1F1FF in both segmentations and are shown as emoji. -/
theorem c60_regional (c : Nat) :
    (graphemeClusterBreak c = .RegionalIndicator ↔ inRanges [(0x1F1E6, 0x1F1FF)] c = true) ∧
    (wordBreak c = .RegionalIndicator ↔ inRanges [(0x1F1E6, 0x1F1FF)] c = true) ∧
    (inRanges [(0x1F1E6, 0x1F1FF)] c = true → isEmojiPresentation c = true) := by
  have h := SF.zip₄ (fun x0 x1 x2 x3 => decide ((x0 = .RegionalIndicator ↔ x1.isSome = true) ∧ (x2 = .RegionalIndicator ↔ x1.isSome = true) ∧ (x1.isSome = true → x3.isSome = true)))
    graphemeClusterBreakSF (rangesSF [(0x1F1E6, 0x1F1FF)]) wordBreakSF isEmojiPresentationSF (by decide +kernel) c
  rw [graphemeClusterBreak_sf, inRanges_sf [(0x1F1E6, 0x1F1FF)] (by decide), wordBreak_sf, isEmojiPresentation_sf]
  exact of_decide_eq_true h

/-- **C60.** Control, CR and LF of the grapheme cluster rules contain the controls and the line and paragraph separators, and nothing that is visible. -/
theorem c60_gcb_control (c : Nat) :
    (generalCategory c ∈ [.Control, .LineSeparator, .ParagraphSeparator] → graphemeClusterBreak c ∈ [.Control, .CR, .LF]) ∧
    (graphemeClusterBreak c ∈ [.Control, .CR, .LF] → generalCategory c ∈ [.Control, .LineSeparator, .ParagraphSeparator, .Format, .Unassigned]) := by
  have h := SF.zip₂ (fun x0 x1 => decide ((x0 ∈ [.Control, .LineSeparator, .ParagraphSeparator] → x1 ∈ [.Control, .CR, .LF]) ∧ (x1 ∈ [.Control, .CR, .LF] → x0 ∈ [.Control, .LineSeparator, .ParagraphSeparator, .Format, .Unassigned])))
    generalCategorySF graphemeClusterBreakSF (by decide +kernel) c
  rw [generalCategory_sf, graphemeClusterBreak_sf]
  exact of_decide_eq_true h

/-- **C60.** A format character is Extend, Control, Prepend or ZWJ: it is never a cluster's base. -/
theorem c60_gcb_format (c : Nat) :
    generalCategory c = .Format → graphemeClusterBreak c ∈ [.Extend, .Control, .Prepend, .ZWJ] := by
  have h := SF.zip₂ (fun x0 x1 => decide (x0 = .Format → x1 ∈ [.Extend, .Control, .Prepend, .ZWJ]))
    generalCategorySF graphemeClusterBreakSF (by decide +kernel) c
  rw [generalCategory_sf, graphemeClusterBreak_sf]
  exact of_decide_eq_true h

/-- **C60.** Nonspacing and enclosing marks extend the cluster, and a spacing mark is either that, or SpacingMark, or stands alone. -/
theorem c60_gcb_marks (c : Nat) :
    (generalCategory c ∈ [.NonspacingMark, .EnclosingMark] → graphemeClusterBreak c = .Extend) ∧
    (graphemeClusterBreak c = .SpacingMark → generalCategory c = .SpacingMark ∨ inRanges [(0xE33, 0xE33), (0xEB3, 0xEB3)] c = true) := by
  have h := SF.zip₃ (fun x0 x1 x2 => decide ((x0 ∈ [.NonspacingMark, .EnclosingMark] → x1 = .Extend) ∧ (x1 = .SpacingMark → x0 = .SpacingMark ∨ x2.isSome = true)))
    generalCategorySF graphemeClusterBreakSF (rangesSF [(0xE33, 0xE33), (0xEB3, 0xEB3)]) (by decide +kernel) c
  rw [generalCategory_sf, graphemeClusterBreak_sf, inRanges_sf [(0xE33, 0xE33), (0xEB3, 0xEB3)] (by decide)]
  exact of_decide_eq_true h

/-- **C60.** The classes the word rules share with the grapheme cluster rules contain the same characters. -/
theorem c60_wb_gcb (c : Nat) :
    (wordBreak c = .CR ↔ graphemeClusterBreak c = .CR) ∧ (wordBreak c = .LF ↔ graphemeClusterBreak c = .LF) ∧
    (wordBreak c = .ZWJ ↔ graphemeClusterBreak c = .ZWJ) ∧ (wordBreak c = .EBase ↔ graphemeClusterBreak c = .EBase) ∧
    (wordBreak c = .EModifier ↔ graphemeClusterBreak c = .EModifier) ∧ (wordBreak c = .GlueAfterZwj ↔ graphemeClusterBreak c = .GlueAfterZwj) ∧
    (wordBreak c = .EBaseGAZ ↔ graphemeClusterBreak c = .EBaseGAZ) := by
  have h := SF.zip₂ (fun x0 x1 => decide ((x0 = .CR ↔ x1 = .CR) ∧ (x0 = .LF ↔ x1 = .LF) ∧ (x0 = .ZWJ ↔ x1 = .ZWJ) ∧ (x0 = .EBase ↔ x1 = .EBase) ∧ (x0 = .EModifier ↔ x1 = .EModifier) ∧ (x0 = .GlueAfterZwj ↔ x1 = .GlueAfterZwj) ∧ (x0 = .EBaseGAZ ↔ x1 = .EBaseGAZ)))
    wordBreakSF graphemeClusterBreakSF (by decide +kernel) c
  rw [wordBreak_sf, graphemeClusterBreak_sf]
  exact of_decide_eq_true h

/-- **C60.** Extend of the word rules is Extend of the grapheme cluster rules and every spacing mark. -/
theorem c60_wb_extend (c : Nat) :
    wordBreak c = .Extend ↔ graphemeClusterBreak c = .Extend ∨ generalCategory c = .SpacingMark := by
  have h := SF.zip₃ (fun x0 x1 x2 => decide (x0 = .Extend ↔ x1 = .Extend ∨ x2 = .SpacingMark))
    wordBreakSF graphemeClusterBreakSF generalCategorySF (by decide +kernel) c
  rw [wordBreak_sf, graphemeClusterBreak_sf, generalCategory_sf]
  exact of_decide_eq_true h

/-- **C60.** Newline is VT, FF, NEL and the line and paragraph separators. -/
theorem c60_wb_newline (c : Nat) :
    wordBreak c = .Newline ↔ inRanges [(0xB, 0xC), (0x85, 0x85), (0x2028, 0x2029)] c = true := by
  have h := SF.zip₂ (fun x0 x1 => decide (x0 = .Newline ↔ x1.isSome = true))
    wordBreakSF (rangesSF [(0xB, 0xC), (0x85, 0x85), (0x2028, 0x2029)]) (by decide +kernel) c
  rw [wordBreak_sf, inRanges_sf [(0xB, 0xC), (0x85, 0x85), (0x2028, 0x2029)] (by decide)]
  exact of_decide_eq_true h

/-- **C60.** Numeric of the word rules is the decimal digits but for the fullwidth ones, and U+066B. -/
theorem c60_wb_numeric (c : Nat) :
    wordBreak c = .Numeric ↔ (generalCategory c = .DecimalNumber ∧ inRanges [(0xFF10, 0xFF19)] c = false) ∨ inRanges [(0x66B, 0x66B)] c = true := by
  have h := SF.zip₄ (fun x0 x1 x2 x3 => decide (x0 = .Numeric ↔ (x1 = .DecimalNumber ∧ x2.isSome = false) ∨ x3.isSome = true))
    wordBreakSF generalCategorySF (rangesSF [(0xFF10, 0xFF19)]) (rangesSF [(0x66B, 0x66B)]) (by decide +kernel) c
  rw [wordBreak_sf, generalCategory_sf, inRanges_sf [(0xFF10, 0xFF19)] (by decide), inRanges_sf [(0x66B, 0x66B)] (by decide)]
  exact of_decide_eq_true h

/-- **C60.** ExtendNumLet is the connectors and U+202F; Format is format characters only. -/
theorem c60_wb_connector (c : Nat) :
    (wordBreak c = .ExtendNumLet ↔ generalCategory c = .ConnectorPunctuation ∨ inRanges [(0x202F, 0x202F)] c = true) ∧
    (wordBreak c = .Format → generalCategory c = .Format) := by
  have h := SF.zip₃ (fun x0 x1 x2 => decide ((x0 = .ExtendNumLet ↔ x1 = .ConnectorPunctuation ∨ x2.isSome = true) ∧ (x0 = .Format → x1 = .Format)))
    wordBreakSF generalCategorySF (rangesSF [(0x202F, 0x202F)]) (by decide +kernel) c
  rw [wordBreak_sf, generalCategory_sf, inRanges_sf [(0x202F, 0x202F)] (by decide)]
  exact of_decide_eq_true h

/-- **C60.** Extend, Numeric and Format of the sentence rules are those of the word rules, with ZWJ, U+066C and U+200B. -/
theorem c60_sb_wb (c : Nat) :
    (sentenceBreak c = .Extend ↔ wordBreak c ∈ [.Extend, .ZWJ]) ∧
    (sentenceBreak c = .Numeric ↔ wordBreak c = .Numeric ∨ inRanges [(0x66C, 0x66C)] c = true) ∧
    (sentenceBreak c = .Format ↔ wordBreak c = .Format ∨ inRanges [(0x200B, 0x200B)] c = true) ∧
    (sentenceBreak c = .CR ↔ wordBreak c = .CR) ∧ (sentenceBreak c = .LF ↔ wordBreak c = .LF) := by
  have h := SF.zip₄ (fun x0 x1 x2 x3 => decide ((x0 = .Extend ↔ x1 ∈ [.Extend, .ZWJ]) ∧ (x0 = .Numeric ↔ x1 = .Numeric ∨ x2.isSome = true) ∧ (x0 = .Format ↔ x1 = .Format ∨ x3.isSome = true) ∧ (x0 = .CR ↔ x1 = .CR) ∧ (x0 = .LF ↔ x1 = .LF)))
    sentenceBreakSF wordBreakSF (rangesSF [(0x66C, 0x66C)]) (rangesSF [(0x200B, 0x200B)]) (by decide +kernel) c
  rw [sentenceBreak_sf, wordBreak_sf, inRanges_sf [(0x66C, 0x66C)] (by decide), inRanges_sf [(0x200B, 0x200B)] (by decide)]
  exact of_decide_eq_true h

/-- **C60.** The spaces of the sentence rules are White_Space, and Sep is NEL and the line and paragraph separators. -/
theorem c60_sb_space (c : Nat) :
    (sentenceBreak c ∈ [.Sp, .Sep, .CR, .LF] ↔ isWhiteSpace c = true) ∧
    (sentenceBreak c = .Sep ↔ inRanges [(0x85, 0x85), (0x2028, 0x2029)] c = true) := by
  have h := SF.zip₃ (fun x0 x1 x2 => decide ((x0 ∈ [.Sp, .Sep, .CR, .LF] ↔ x1.isSome = true) ∧ (x0 = .Sep ↔ x2.isSome = true)))
    sentenceBreakSF isWhiteSpaceSF (rangesSF [(0x85, 0x85), (0x2028, 0x2029)]) (by decide +kernel) c
  rw [sentenceBreak_sf, isWhiteSpace_sf, inRanges_sf [(0x85, 0x85), (0x2028, 0x2029)] (by decide)]
  exact of_decide_eq_true h

/-- **C60.** Upper is Uppercase and titlecase, Lower is Lowercase but for what extends. -/
theorem c60_sb_case (c : Nat) :
    (sentenceBreak c = .Upper ↔ isUppercase c = true ∨ generalCategory c = .TitlecaseLetter) ∧
    (sentenceBreak c = .Lower ↔ isLowercase c = true ∧ sentenceBreak c ≠ .Extend) := by
  have h := SF.zip₄ (fun x0 x1 x2 x3 => decide ((x0 = .Upper ↔ x1.isSome = true ∨ x2 = .TitlecaseLetter) ∧ (x0 = .Lower ↔ x3.isSome = true ∧ x0 ≠ .Extend)))
    sentenceBreakSF isUppercaseSF generalCategorySF isLowercaseSF (by decide +kernel) c
  rw [sentenceBreak_sf, isUppercase_sf, generalCategory_sf, isLowercase_sf]
  exact of_decide_eq_true h

/-- **C60.** OLetter is every other alphabetic character, and U+05F3. -/
theorem c60_sb_letter (c : Nat) :
    sentenceBreak c = .OLetter ↔ (isAlphabetic c = true ∧ sentenceBreak c ∉ [.Lower, .Upper, .Extend]) ∨ inRanges [(0x5F3, 0x5F3)] c = true := by
  have h := SF.zip₃ (fun x0 x1 x2 => decide (x0 = .OLetter ↔ (x1.isSome = true ∧ x0 ∉ [.Lower, .Upper, .Extend]) ∨ x2.isSome = true))
    sentenceBreakSF isAlphabeticSF (rangesSF [(0x5F3, 0x5F3)]) (by decide +kernel) c
  rw [sentenceBreak_sf, isAlphabetic_sf, inRanges_sf [(0x5F3, 0x5F3)] (by decide)]
  exact of_decide_eq_true h

/-- **C60.** Brackets and quotation marks close a sentence. -/
theorem c60_sb_close (c : Nat) :
    generalCategory c ∈ [.OpenPunctuation, .ClosePunctuation, .InitialPunctuation, .FinalPunctuation] → sentenceBreak c = .Close := by
  have h := SF.zip₂ (fun x0 x1 => decide (x0 ∈ [.OpenPunctuation, .ClosePunctuation, .InitialPunctuation, .FinalPunctuation] → x1 = .Close))
    generalCategorySF sentenceBreakSF (by decide +kernel) c
  rw [generalCategory_sf, sentenceBreak_sf]
  exact of_decide_eq_true h

/-- **C60.** The precomposed Hangul syllables are the LV and LVT of the grapheme cluster rules: LV where the syllable has no
trailing consonant, LVT otherwise. -/
theorem c60_hangul (c : Nat) :
    (graphemeClusterBreak c = .LV ↔ 0xAC00 ≤ c ∧ c ≤ 0xD7A3 ∧ (c - 0xAC00) % 28 = 0) ∧
    (graphemeClusterBreak c = .LVT ↔ 0xAC00 ≤ c ∧ c ≤ 0xD7A3 ∧ (c - 0xAC00) % 28 ≠ 0) := by
  have h := SF.zip₃ (fun x0 x1 x2 => decide ((x0 = .LV ↔ x1.isSome = true) ∧ (x0 = .LVT ↔ x2.isSome = true ∧ x1.isSome = false)))
    graphemeClusterBreakSF (rangesSF ((List.range 399).map fun i => (0xAC00 + 28 * i, 0xAC00 + 28 * i))) (rangesSF [(0xAC00, 0xD7A3)])
    (by decide +kernel) c
  have h := of_decide_eq_true h
  rw [← graphemeClusterBreak_sf, ← inRanges_sf _ (by decide +kernel), ← inRanges_sf _ (by decide)] at h
  have hm : inRanges ((List.range 399).map fun i => (0xAC00 + 28 * i, 0xAC00 + 28 * i)) c = true ↔
      0xAC00 ≤ c ∧ c ≤ 0xD7A3 ∧ (c - 0xAC00) % 28 = 0 := by
    simp only [inRanges, List.any_map, List.any_eq_true, List.mem_range, Function.comp, Bool.and_eq_true, decide_eq_true_eq]
    constructor
    · rintro ⟨i, hi, h1, h2⟩; omega
    · rintro ⟨h1, h2, h3⟩; exact ⟨(c - 0xAC00) / 28, by omega, by omega, by omega⟩
  have hr : inRanges [(0xAC00, 0xD7A3)] c = true ↔ 0xAC00 ≤ c ∧ c ≤ 0xD7A3 := by simp [inRanges]
  refine ⟨h.1.trans hm, h.2.trans ?_⟩
  rw [hr, ← Bool.not_eq_true, hm]
  omega

/-- **C60.** The conjoining jamo of the grapheme cluster rules. -/
theorem c60_jamo (c : Nat) :
    (graphemeClusterBreak c = .L ↔ inRanges [(0x1100, 0x115F), (0xA960, 0xA97C)] c = true) ∧
    (graphemeClusterBreak c = .V ↔ inRanges [(0x1160, 0x11A7), (0xD7B0, 0xD7C6)] c = true) ∧
    (graphemeClusterBreak c = .T ↔ inRanges [(0x11A8, 0x11FF), (0xD7CB, 0xD7FB)] c = true) := by
  have h := SF.zip₄ (fun x0 x1 x2 x3 => decide ((x0 = .L ↔ x1.isSome = true) ∧ (x0 = .V ↔ x2.isSome = true) ∧ (x0 = .T ↔ x3.isSome = true)))
    graphemeClusterBreakSF (rangesSF [(0x1100, 0x115F), (0xA960, 0xA97C)]) (rangesSF [(0x1160, 0x11A7), (0xD7B0, 0xD7C6)])
    (rangesSF [(0x11A8, 0x11FF), (0xD7CB, 0xD7FB)]) (by decide +kernel) c
  rw [graphemeClusterBreak_sf, inRanges_sf _ (by decide), inRanges_sf _ (by decide), inRanges_sf _ (by decide)]
  exact of_decide_eq_true h

/-- Non-vacuity for C60: every premise above is met by some character. -/
example : isCaseIgnorable 0x27 = true ∧ isCaseIgnorable 0x300 = true ∧ isCased 0x1C5 = true ∧ changesWhenCasefolded 0x41 = true ∧
    changesWhenLowercased 0x1C5 = true ∧ changesWhenUppercased 0x61 = true ∧ isBidiMirrored 0x28 = true ∧ bidiClass 0x300 = .NonspacingMark ∧
    isEmojiComponent 0x23 = true ∧ graphemeClusterBreak 0x2764 = .GlueAfterZwj ∧ generalCategory 0x600 = .Format ∧
    graphemeClusterBreak 0x200B = .Control ∧ graphemeClusterBreak 0x903 = .SpacingMark ∧ wordBreak 0x600 = .Format ∧
    sentenceBreak 0x5F3 = .OLetter ∧ sentenceBreak 0x345 = .Extend ∧ isLowercase 0x345 = true ∧ sentenceBreak 0x28 = .Close ∧
    graphemeClusterBreak 0xAC00 = .LV ∧ graphemeClusterBreak 0xAC01 = .LVT := by decide +kernel

end Props.Relations
