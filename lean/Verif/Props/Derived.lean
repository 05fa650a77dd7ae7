import Verif.Proofs.UcdSF

/-! # Properties C07, C42, C44, C46: derived character properties agree -/
namespace Props.Derived
open Spec Model Model.Ucd Data Proofs.StepFn Proofs.UcdTables Proofs.UcdSF

/-- **C42.** Alphanumeric is alphabetic or numeric. -/
theorem c42_alphanumeric (c : Nat) : isAlphanumeric c = (isAlphabetic c || isNumeric c) := by
  have h := SF.all₃ (fun x0 x1 x2 => x0.isSome == (x1.isSome || x2.isSome)) isAlphanumericSF isAlphabeticSF isNumericSF (by decide +kernel) c
  simp only [← isAlphanumeric_sf, ← isAlphabetic_sf, ← isNumeric_sf] at h
  revert h
  generalize isAlphanumeric c = a0
  generalize isAlphabetic c = a1
  generalize isNumeric c = a2
  intro h; simp at h; grind

/-- **C42.** Numeric is general category N*. -/
theorem c42_numeric (c : Nat) : isNumeric c = isNumber (generalCategory c) := by
  have h := SF.all₂ (fun x0 x1 => x0.isSome == isNumber x1) isNumericSF generalCategorySF (by decide +kernel) c
  simp only [← isNumeric_sf, ← generalCategory_sf] at h
  revert h
  generalize isNumeric c = a0
  generalize generalCategory c = a1
  intro h; simp at h; grind

/-- **C42.** Control is general category Cc. -/
theorem c42_control (c : Nat) : isControl c = decide (generalCategory c = .Control) := by
  have h := SF.all₂ (fun x0 x1 => x0.isSome == decide (x1 = .Control)) isControlSF generalCategorySF (by decide +kernel) c
  simp only [← isControl_sf, ← generalCategory_sf] at h
  revert h
  generalize isControl c = a0
  generalize generalCategory c = a1
  intro h; simp at h; grind

/-- **C42.** Both implementations of `is_combining_mark` agree: it is general category M*. -/
theorem c42_combining_mark (c : Nat) : isCombiningMark c = isMark (generalCategory c) := by
  have h := SF.all₂ (fun x0 x1 => x0.isSome == isMark x1) isCombiningMarkSF generalCategorySF (by decide +kernel) c
  simp only [← isCombiningMark_sf, ← generalCategory_sf] at h
  revert h
  generalize isCombiningMark c = a0
  generalize generalCategory c = a1
  intro h; simp at h; grind

/-- **C42.** Lowercase characters are cased. -/
theorem c42_lowercase_cased (c : Nat) : isLowercase c = true → isCased c = true := by
  have h := SF.all₂ (fun x0 x1 => !x0.isSome || x1.isSome) isLowercaseSF isCasedSF (by decide +kernel) c
  simp only [← isLowercase_sf, ← isCased_sf] at h
  revert h
  generalize isLowercase c = a0
  generalize isCased c = a1
  intro h; simp at h; grind

/-- **C42.** Uppercase characters are cased. -/
theorem c42_uppercase_cased (c : Nat) : isUppercase c = true → isCased c = true := by
  have h := SF.all₂ (fun x0 x1 => !x0.isSome || x1.isSome) isUppercaseSF isCasedSF (by decide +kernel) c
  simp only [← isUppercase_sf, ← isCased_sf] at h
  revert h
  generalize isUppercase c = a0
  generalize isCased c = a1
  intro h; simp at h; grind

/-- **C42.** No character is both uppercase and lowercase. -/
theorem c42_case_disjoint (c : Nat) : ¬ (isUppercase c = true ∧ isLowercase c = true) := by
  have h := SF.all₂ (fun x0 x1 => !(x0.isSome && x1.isSome)) isUppercaseSF isLowercaseSF (by decide +kernel) c
  simp only [← isUppercase_sf, ← isLowercase_sf] at h
  revert h
  generalize isUppercase c = a0
  generalize isLowercase c = a1
  intro h; simp at h; grind

/-- **C42.** ID_Start implies ID_Continue. -/
theorem c42_id_start_continue (c : Nat) : isIdStart c = true → isIdContinue c = true := by
  have h := SF.all₂ (fun x0 x1 => !x0.isSome || x1.isSome) isIdStartSF isIdContinueSF (by decide +kernel) c
  simp only [← isIdStart_sf, ← isIdContinue_sf] at h
  revert h
  generalize isIdStart c = a0
  generalize isIdContinue c = a1
  intro h; simp at h; grind

/-- **C42.** XID_Start implies XID_Continue. -/
theorem c42_xid_start_continue (c : Nat) : isXidStart c = true → isXidContinue c = true := by
  have h := SF.all₂ (fun x0 x1 => !x0.isSome || x1.isSome) isXidStartSF isXidContinueSF (by decide +kernel) c
  simp only [← isXidStart_sf, ← isXidContinue_sf] at h
  revert h
  generalize isXidStart c = a0
  generalize isXidContinue c = a1
  intro h; simp at h; grind

/-- **C42.** XID_Start implies ID_Start. -/
theorem c42_xid_start_id (c : Nat) : isXidStart c = true → isIdStart c = true := by
  have h := SF.all₂ (fun x0 x1 => !x0.isSome || x1.isSome) isXidStartSF isIdStartSF (by decide +kernel) c
  simp only [← isXidStart_sf, ← isIdStart_sf] at h
  revert h
  generalize isXidStart c = a0
  generalize isIdStart c = a1
  intro h; simp at h; grind

/-- **C42.** XID_Continue implies ID_Continue. -/
theorem c42_xid_continue_id (c : Nat) : isXidContinue c = true → isIdContinue c = true := by
  have h := SF.all₂ (fun x0 x1 => !x0.isSome || x1.isSome) isXidContinueSF isIdContinueSF (by decide +kernel) c
  simp only [← isXidContinue_sf, ← isIdContinue_sf] at h
  revert h
  generalize isXidContinue c = a0
  generalize isIdContinue c = a1
  intro h; simp at h; grind

/-- **C42.** Pattern syntax and pattern white space are disjoint. -/
theorem c42_pattern_disjoint (c : Nat) : ¬ (isPatternSyntax c = true ∧ isPatternWhiteSpace c = true) := by
  have h := SF.all₂ (fun x0 x1 => !(x0.isSome && x1.isSome)) isPatternSyntaxSF isPatternWhiteSpaceSF (by decide +kernel) c
  simp only [← isPatternSyntax_sf, ← isPatternWhiteSpace_sf] at h
  revert h
  generalize isPatternSyntax c = a0
  generalize isPatternWhiteSpace c = a1
  intro h; simp at h; grind

/-- **C42.** Pattern syntax and pattern white space characters are never identifier characters. -/
theorem c42_pattern_not_ident (c : Nat) : (isPatternSyntax c = true ∨ isPatternWhiteSpace c = true) → isIdContinue c = false := by
  have h := SF.all₃ (fun x0 x1 x2 => !(x0.isSome || x1.isSome) || !x2.isSome) isPatternSyntaxSF isPatternWhiteSpaceSF isIdContinueSF (by decide +kernel) c
  simp only [← isPatternSyntax_sf, ← isPatternWhiteSpace_sf, ← isIdContinue_sf] at h
  revert h
  generalize isPatternSyntax c = a0
  generalize isPatternWhiteSpace c = a1
  generalize isIdContinue c = a2
  intro h; simp at h; grind

/-- **C42.** Emoji modifiers are emoji. -/
theorem c42_emoji_modifier (c : Nat) : isEmojiModifier c = true → isEmoji c = true := by
  have h := SF.all₂ (fun x0 x1 => !x0.isSome || x1.isSome) isEmojiModifierSF isEmojiSF (by decide +kernel) c
  simp only [← isEmojiModifier_sf, ← isEmoji_sf] at h
  revert h
  generalize isEmojiModifier c = a0
  generalize isEmoji c = a1
  intro h; simp at h; grind

/-- **C42.** Emoji modifier bases are emoji. -/
theorem c42_emoji_modifier_base (c : Nat) : isEmojiModifierBase c = true → isEmoji c = true := by
  have h := SF.all₂ (fun x0 x1 => !x0.isSome || x1.isSome) isEmojiModifierBaseSF isEmojiSF (by decide +kernel) c
  simp only [← isEmojiModifierBase_sf, ← isEmoji_sf] at h
  revert h
  generalize isEmojiModifierBase c = a0
  generalize isEmoji c = a1
  intro h; simp at h; grind

/-- **C42.** Emoji with default emoji presentation are emoji. -/
theorem c42_emoji_presentation (c : Nat) : isEmojiPresentation c = true → isEmoji c = true := by
  have h := SF.all₂ (fun x0 x1 => !x0.isSome || x1.isSome) isEmojiPresentationSF isEmojiSF (by decide +kernel) c
  simp only [← isEmojiPresentation_sf, ← isEmoji_sf] at h
  revert h
  generalize isEmojiPresentation c = a0
  generalize isEmoji c = a1
  intro h; simp at h; grind

/-- **C42.** Bidi controls are format characters. -/
theorem c42_bidi_control_format (c : Nat) : isBidiControl c = true → generalCategory c = .Format := by
  have h := SF.all₂ (fun x0 x1 => !x0.isSome || decide (x1 = .Format)) isBidiControlSF generalCategorySF (by decide +kernel) c
  simp only [← isBidiControl_sf, ← generalCategory_sf] at h
  revert h
  generalize isBidiControl c = a0
  generalize generalCategory c = a1
  intro h; simp at h; grind

/-- **C42.** Every letter is alphabetic. -/
theorem c42_alphabetic_letter (c : Nat) : isLetter (generalCategory c) = true → isAlphabetic c = true := by
  have h := SF.all₂ (fun x0 x1 => !isLetter x0 || x1.isSome) generalCategorySF isAlphabeticSF (by decide +kernel) c
  simp only [← generalCategory_sf, ← isAlphabetic_sf] at h
  revert h
  generalize generalCategory c = a0
  generalize isAlphabetic c = a1
  intro h; simp at h; grind

/-- **C42.** Every cased letter (Lu, Ll, Lt) is cased. -/
theorem c42_cased_letter (c : Nat) : isCasedLetter (generalCategory c) = true → isCased c = true := by
  have h := SF.all₂ (fun x0 x1 => !isCasedLetter x0 || x1.isSome) generalCategorySF isCasedSF (by decide +kernel) c
  simp only [← generalCategory_sf, ← isCased_sf] at h
  revert h
  generalize generalCategory c = a0
  generalize isCased c = a1
  intro h; simp at h; grind

/-- **C42.** Every separator (Z*) is white space. -/
theorem c42_separator_space (c : Nat) : isSeparator (generalCategory c) = true → isWhiteSpace c = true := by
  have h := SF.all₂ (fun x0 x1 => !isSeparator x0 || x1.isSome) generalCategorySF isWhiteSpaceSF (by decide +kernel) c
  simp only [← generalCategory_sf, ← isWhiteSpace_sf] at h
  revert h
  generalize generalCategory c = a0
  generalize isWhiteSpace c = a1
  intro h; simp at h; grind

/-- **C42.** Only combining marks have a non-zero canonical combining class. -/
theorem c42_ccc_mark (c : Nat) : combiningClass c ≠ 0 → isCombiningMark c = true := by
  have h := SF.all₂ (fun x0 x1 => decide (x0 = 0) || x1.isSome) combiningClassSF isCombiningMarkSF (by decide +kernel) c
  simp only [← combiningClass_sf, ← isCombiningMark_sf] at h
  revert h
  generalize combiningClass c = a0
  generalize isCombiningMark c = a1
  intro h; simp at h; grind

/-- **C07.** General category Private_Use is exactly `is_private_use`. -/
theorem c07_private_use_category (c : Nat) : generalCategory c = .PrivateUse ↔ isPrivateUse c = true := by
  have h := SF.all₂ (fun x0 x1 => decide (x0 = .PrivateUse) == x1.isSome) generalCategorySF isPrivateUseSF (by decide +kernel) c
  simp only [← generalCategory_sf, ← isPrivateUse_sf] at h
  revert h
  generalize generalCategory c = a0
  generalize isPrivateUse c = a1
  intro h; simp at h; grind

/-- **C07.** No character is both a noncharacter and private-use. -/
theorem c07_disjoint (c : Nat) : ¬ (isNoncharacter c = true ∧ isPrivateUse c = true) := by
  have h := SF.all₂ (fun x0 x1 => !(x0.isSome && x1.isSome)) isNoncharacterSF isPrivateUseSF (by decide +kernel) c
  simp only [← isNoncharacter_sf, ← isPrivateUse_sf] at h
  revert h
  generalize isNoncharacter c = a0
  generalize isPrivateUse c = a1
  intro h; simp at h; grind

/-- **C44.** A character has an age exactly when it is assigned or a noncharacter. -/
theorem c44_age_iff (c : Nat) : (age c).isSome = true ↔ (generalCategory c ≠ .Unassigned ∨ isNoncharacter c = true) := by
  have h := SF.all₃ (fun x0 x1 x2 => x0.isSome == (!decide (x1 = .Unassigned) || x2.isSome)) ageSF generalCategorySF isNoncharacterSF (by decide +kernel) c
  simp only [← age_sf, ← generalCategory_sf, ← isNoncharacter_sf] at h
  revert h
  generalize age c = a0
  generalize generalCategory c = a1
  generalize isNoncharacter c = a2
  intro h; simp at h; grind

/-- **C42.** Changes-when-casemapped is the union of its three parts. -/
theorem c42_casemapped (c : Nat) : changesWhenCasemapped c =
    (changesWhenLowercased c || changesWhenTitlecased c || changesWhenUppercased c) := by
  have h := SF.all₂ (fun (x : (Option Unit × Option Unit)) (y : Option Unit × Option Unit) =>
      x.1.isSome == (x.2.isSome || y.1.isSome || y.2.isSome))
    (SF.zipWith Prod.mk changesWhenCasemappedSF changesWhenLowercasedSF)
    (SF.zipWith Prod.mk changesWhenTitlecasedSF changesWhenUppercasedSF) (by decide +kernel) c
  simp only [SF.eval_zipWith, ← changesWhenCasemapped_sf, ← changesWhenLowercased_sf, ← changesWhenTitlecased_sf,
    ← changesWhenUppercased_sf] at h
  simpa using h

/-- **C42.** The mark predicate does not depend on which feature is compiled in. -/
theorem c42_combining_mark_features (c : Nat) : isCombiningMark c = isCombiningMarkViaCategory c :=
  c42_combining_mark c

/-- **C42.** The eight category groups partition the categories: each category is in exactly one of them. -/
theorem c42_category_groups (g : GeneralCategory) :
    ([isLetter g, isMark g, isNumber g, isPunctuation g, isSymbol g, isSeparator g, isOther g].filter id).length = 1 ∧
    (isCasedLetter g = true → isLetter g = true) := by
  cases g <;> decide

/-- **C42.** The groups are those of the Unicode Standard (table 4-4): a group is given by the first letter of the category's
short name, cased letters are Lu, Ll and Lt. -/
theorem c42_groups_by_name (g : GeneralCategory) :
    let initial := g.abbrName.toList.head?
    (isLetter g = true ↔ initial = some 'L') ∧ (isMark g = true ↔ initial = some 'M') ∧
    (isNumber g = true ↔ initial = some 'N') ∧ (isPunctuation g = true ↔ initial = some 'P') ∧
    (isSymbol g = true ↔ initial = some 'S') ∧ (isSeparator g = true ↔ initial = some 'Z') ∧
    (isOther g = true ↔ initial = some 'C') ∧ (isCasedLetter g = true ↔ g.abbrName ∈ ["Lu", "Ll", "Lt"]) := by
  cases g <;> decide +kernel

/-- **C07.** `is_noncharacter` holds exactly for U+FDD0..U+FDEF and the last two code points of each plane. -/
theorem c07_noncharacter (c : Nat) (hc : IsScalar c) :
    isNoncharacter c = true ↔ (0xFDD0 ≤ c ∧ c ≤ 0xFDEF) ∨ c % 0x10000 ≥ 0xFFFE := by
  simp only [isNoncharacter, noncharacterRanges, List.any_cons, List.any_nil, Bool.or_false, Bool.or_eq_true,
    Bool.and_eq_true, decide_eq_true_eq]
  obtain ⟨h, -⟩ := hc
  have hp : c / 0x10000 ≤ 16 := by omega
  have he : c = 0x10000 * (c / 0x10000) + c % 0x10000 := by omega
  have hr : c % 0x10000 < 0x10000 := Nat.mod_lt _ (by omega)
  generalize c / 0x10000 = p at *
  generalize c % 0x10000 = r at *
  subst he
  rcases p with _ | _ | _ | _ | _ | _ | _ | _ | _ | _ | _ | _ | _ | _ | _ | _ | _ | p <;> omega

/-- **C07.** There are exactly 66 noncharacters. -/
theorem c07_noncharacter_count :
    ((noncharacterRanges.map fun r => r.2 + 1 - r.1).sum = 66) ∧
    noncharacterRanges.Pairwise (fun a b => a.2 < b.1) := by decide

/-- **C07.** `is_private_use` holds exactly for U+E000..U+F8FF and planes 15 and 16 without their noncharacters. -/
theorem c07_private_use (c : Nat) (hc : IsScalar c) :
    isPrivateUse c = true ↔ (0xE000 ≤ c ∧ c ≤ 0xF8FF) ∨ (c / 0x10000 ≥ 15 ∧ ¬ isNoncharacter c = true) := by
  rw [c07_noncharacter c hc]
  simp only [isPrivateUse, privateUseRanges, List.any_cons, List.any_nil, Bool.or_false, Bool.or_eq_true,
    Bool.and_eq_true, decide_eq_true_eq]
  obtain ⟨h, -⟩ := hc
  omega

/-- Non-vacuity for C07. -/
example : isNoncharacter 0x10FFFF = true ∧ isNoncharacter 0xFDEF = true ∧ isNoncharacter 0xFDF0 = false ∧
    isPrivateUse 0x10FFFD = true ∧ isPrivateUse 0xE000 = true ∧ isPrivateUse 0xF900 = false := by decide

end Props.Derived
