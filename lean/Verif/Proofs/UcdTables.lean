import Verif.Model.Ucd
import Verif.Model.UcdNormal
import Verif.Model.IdnaMapping
import Verif.Proofs.StepFn

/-! Every shipped table passes the ascending check (kernel evaluation over the whole table). -/
namespace Proofs.UcdTables
open Spec Model Model.Ucd Model.UcdNormal Model.IdnaMapping Proofs.StepFn

/-- All range ends are scalar values. -/
def scalarEnds {V : Type} (l : List (Nat × Nat × V)) : Bool :=
  l.all fun e => (decide (e.1 < 0xD800) || (decide (0xDFFF < e.1) && decide (e.1 < 0x110000))) &&
    (decide (e.2.1 < 0xD800) || (decide (0xDFFF < e.2.1) && decide (e.2.1 < 0x110000)))

theorem scalarEnds_spec {V : Type} {l : List (Nat × Nat × V)} (h : scalarEnds l = true) :
    ∀ e ∈ l, IsScalar e.1 ∧ IsScalar e.2.1 := by
  intro e he
  have := List.all_eq_true.1 h e he
  simp only [Bool.and_eq_true, Bool.or_eq_true, decide_eq_true_eq] at this
  simp only [IsScalar]
  omega

/-- Both checks at once, so that each table is traversed by one kernel evaluation. -/
def shippedOk {V : Type} (l : List (Nat × Nat × V)) : Bool := ascFrom 0 l && scalarEnds l

theorem generalCategoryTable_ok : shippedOk (entries generalCategoryTable) = true := by
  rw [generalCategoryTable, entries_ofRange]; decide +kernel
theorem generalCategoryTable_asc : ascFrom 0 (entries generalCategoryTable) = true :=
  (Bool.and_eq_true _ _ ▸ generalCategoryTable_ok : _ ∧ _).1

theorem alphabeticTable_ok : shippedOk (entries alphabeticTable) = true := by
  rw [alphabeticTable, entries_ofRange]; decide +kernel
theorem alphabeticTable_asc : ascFrom 0 (entries alphabeticTable) = true :=
  (Bool.and_eq_true _ _ ▸ alphabeticTable_ok : _ ∧ _).1

theorem alphanumericTable_ok : shippedOk (entries alphanumericTable) = true := by
  rw [alphanumericTable, entries_ofRange]; decide +kernel
theorem alphanumericTable_asc : ascFrom 0 (entries alphanumericTable) = true :=
  (Bool.and_eq_true _ _ ▸ alphanumericTable_ok : _ ∧ _).1

theorem controlTable_ok : shippedOk (entries controlTable) = true := by
  rw [controlTable, entries_ofRange]; decide +kernel
theorem controlTable_asc : ascFrom 0 (entries controlTable) = true :=
  (Bool.and_eq_true _ _ ▸ controlTable_ok : _ ∧ _).1

theorem numericTable_ok : shippedOk (entries numericTable) = true := by
  rw [numericTable, entries_ofRange]; decide +kernel
theorem numericTable_asc : ascFrom 0 (entries numericTable) = true :=
  (Bool.and_eq_true _ _ ▸ numericTable_ok : _ ∧ _).1

theorem whiteSpaceTable_ok : shippedOk (entries whiteSpaceTable) = true := by
  rw [whiteSpaceTable, entries_ofRange]; decide +kernel
theorem whiteSpaceTable_asc : ascFrom 0 (entries whiteSpaceTable) = true :=
  (Bool.and_eq_true _ _ ▸ whiteSpaceTable_ok : _ ∧ _).1

theorem caseIgnorableTable_ok : shippedOk (entries caseIgnorableTable) = true := by
  rw [caseIgnorableTable, entries_ofRange]; decide +kernel
theorem caseIgnorableTable_asc : ascFrom 0 (entries caseIgnorableTable) = true :=
  (Bool.and_eq_true _ _ ▸ caseIgnorableTable_ok : _ ∧ _).1

theorem casedTable_ok : shippedOk (entries casedTable) = true := by
  rw [casedTable, entries_ofRange]; decide +kernel
theorem casedTable_asc : ascFrom 0 (entries casedTable) = true :=
  (Bool.and_eq_true _ _ ▸ casedTable_ok : _ ∧ _).1

theorem changesWhenCasefoldedTable_ok : shippedOk (entries changesWhenCasefoldedTable) = true := by
  rw [changesWhenCasefoldedTable, entries_ofRange]; decide +kernel
theorem changesWhenCasefoldedTable_asc : ascFrom 0 (entries changesWhenCasefoldedTable) = true :=
  (Bool.and_eq_true _ _ ▸ changesWhenCasefoldedTable_ok : _ ∧ _).1

theorem changesWhenCasemappedTable_ok : shippedOk (entries changesWhenCasemappedTable) = true := by
  rw [changesWhenCasemappedTable, entries_ofRange]; decide +kernel
theorem changesWhenCasemappedTable_asc : ascFrom 0 (entries changesWhenCasemappedTable) = true :=
  (Bool.and_eq_true _ _ ▸ changesWhenCasemappedTable_ok : _ ∧ _).1

theorem changesWhenLowercasedTable_ok : shippedOk (entries changesWhenLowercasedTable) = true := by
  rw [changesWhenLowercasedTable, entries_ofRange]; decide +kernel
theorem changesWhenLowercasedTable_asc : ascFrom 0 (entries changesWhenLowercasedTable) = true :=
  (Bool.and_eq_true _ _ ▸ changesWhenLowercasedTable_ok : _ ∧ _).1

theorem changesWhenTitlecasedTable_ok : shippedOk (entries changesWhenTitlecasedTable) = true := by
  rw [changesWhenTitlecasedTable, entries_ofRange]; decide +kernel
theorem changesWhenTitlecasedTable_asc : ascFrom 0 (entries changesWhenTitlecasedTable) = true :=
  (Bool.and_eq_true _ _ ▸ changesWhenTitlecasedTable_ok : _ ∧ _).1

theorem changesWhenUppercasedTable_ok : shippedOk (entries changesWhenUppercasedTable) = true := by
  rw [changesWhenUppercasedTable, entries_ofRange]; decide +kernel
theorem changesWhenUppercasedTable_asc : ascFrom 0 (entries changesWhenUppercasedTable) = true :=
  (Bool.and_eq_true _ _ ▸ changesWhenUppercasedTable_ok : _ ∧ _).1

theorem lowercaseTable_ok : shippedOk (entries lowercaseTable) = true := by
  rw [lowercaseTable, entries_ofRange]; decide +kernel
theorem lowercaseTable_asc : ascFrom 0 (entries lowercaseTable) = true :=
  (Bool.and_eq_true _ _ ▸ lowercaseTable_ok : _ ∧ _).1

theorem uppercaseTable_ok : shippedOk (entries uppercaseTable) = true := by
  rw [uppercaseTable, entries_ofRange]; decide +kernel
theorem uppercaseTable_asc : ascFrom 0 (entries uppercaseTable) = true :=
  (Bool.and_eq_true _ _ ▸ uppercaseTable_ok : _ ∧ _).1

theorem idStartTable_ok : shippedOk (entries idStartTable) = true := by
  rw [idStartTable, entries_ofRange]; decide +kernel
theorem idStartTable_asc : ascFrom 0 (entries idStartTable) = true :=
  (Bool.and_eq_true _ _ ▸ idStartTable_ok : _ ∧ _).1

theorem idContinueTable_ok : shippedOk (entries idContinueTable) = true := by
  rw [idContinueTable, entries_ofRange]; decide +kernel
theorem idContinueTable_asc : ascFrom 0 (entries idContinueTable) = true :=
  (Bool.and_eq_true _ _ ▸ idContinueTable_ok : _ ∧ _).1

theorem xidStartTable_ok : shippedOk (entries xidStartTable) = true := by
  rw [xidStartTable, entries_ofRange]; decide +kernel
theorem xidStartTable_asc : ascFrom 0 (entries xidStartTable) = true :=
  (Bool.and_eq_true _ _ ▸ xidStartTable_ok : _ ∧ _).1

theorem xidContinueTable_ok : shippedOk (entries xidContinueTable) = true := by
  rw [xidContinueTable, entries_ofRange]; decide +kernel
theorem xidContinueTable_asc : ascFrom 0 (entries xidContinueTable) = true :=
  (Bool.and_eq_true _ _ ▸ xidContinueTable_ok : _ ∧ _).1

theorem patternSyntaxTable_ok : shippedOk (entries patternSyntaxTable) = true := by
  rw [patternSyntaxTable, entries_ofRange]; decide +kernel
theorem patternSyntaxTable_asc : ascFrom 0 (entries patternSyntaxTable) = true :=
  (Bool.and_eq_true _ _ ▸ patternSyntaxTable_ok : _ ∧ _).1

theorem patternWhiteSpaceTable_ok : shippedOk (entries patternWhiteSpaceTable) = true := by
  rw [patternWhiteSpaceTable, entries_ofRange]; decide +kernel
theorem patternWhiteSpaceTable_asc : ascFrom 0 (entries patternWhiteSpaceTable) = true :=
  (Bool.and_eq_true _ _ ▸ patternWhiteSpaceTable_ok : _ ∧ _).1

theorem bidiControlTable_ok : shippedOk (entries bidiControlTable) = true := by
  rw [bidiControlTable, entries_ofRange]; decide +kernel
theorem bidiControlTable_asc : ascFrom 0 (entries bidiControlTable) = true :=
  (Bool.and_eq_true _ _ ▸ bidiControlTable_ok : _ ∧ _).1

theorem bidiMirroredTable_ok : shippedOk (entries bidiMirroredTable) = true := by
  rw [bidiMirroredTable, entries_ofRange]; decide +kernel
theorem bidiMirroredTable_asc : ascFrom 0 (entries bidiMirroredTable) = true :=
  (Bool.and_eq_true _ _ ▸ bidiMirroredTable_ok : _ ∧ _).1

theorem emojiTable_ok : shippedOk (entries emojiTable) = true := by
  rw [emojiTable, entries_ofRange]; decide +kernel
theorem emojiTable_asc : ascFrom 0 (entries emojiTable) = true :=
  (Bool.and_eq_true _ _ ▸ emojiTable_ok : _ ∧ _).1

theorem emojiComponentTable_ok : shippedOk (entries emojiComponentTable) = true := by
  rw [emojiComponentTable, entries_ofRange]; decide +kernel
theorem emojiComponentTable_asc : ascFrom 0 (entries emojiComponentTable) = true :=
  (Bool.and_eq_true _ _ ▸ emojiComponentTable_ok : _ ∧ _).1

theorem emojiModifierTable_ok : shippedOk (entries emojiModifierTable) = true := by
  rw [emojiModifierTable, entries_ofRange]; decide +kernel
theorem emojiModifierTable_asc : ascFrom 0 (entries emojiModifierTable) = true :=
  (Bool.and_eq_true _ _ ▸ emojiModifierTable_ok : _ ∧ _).1

theorem emojiModifierBaseTable_ok : shippedOk (entries emojiModifierBaseTable) = true := by
  rw [emojiModifierBaseTable, entries_ofRange]; decide +kernel
theorem emojiModifierBaseTable_asc : ascFrom 0 (entries emojiModifierBaseTable) = true :=
  (Bool.and_eq_true _ _ ▸ emojiModifierBaseTable_ok : _ ∧ _).1

theorem emojiPresentationTable_ok : shippedOk (entries emojiPresentationTable) = true := by
  rw [emojiPresentationTable, entries_ofRange]; decide +kernel
theorem emojiPresentationTable_asc : ascFrom 0 (entries emojiPresentationTable) = true :=
  (Bool.and_eq_true _ _ ▸ emojiPresentationTable_ok : _ ∧ _).1

theorem combiningClassTable_ok : shippedOk (entries combiningClassTable) = true := by
  rw [combiningClassTable, entries_ofRange]; decide +kernel
theorem combiningClassTable_asc : ascFrom 0 (entries combiningClassTable) = true :=
  (Bool.and_eq_true _ _ ▸ combiningClassTable_ok : _ ∧ _).1

theorem generalCategoryMarkTable_ok : shippedOk (entries generalCategoryMarkTable) = true := by
  rw [generalCategoryMarkTable, entries_ofRange]; decide +kernel
theorem generalCategoryMarkTable_asc : ascFrom 0 (entries generalCategoryMarkTable) = true :=
  (Bool.and_eq_true _ _ ▸ generalCategoryMarkTable_ok : _ ∧ _).1

theorem bidiClassTable_ok : shippedOk (entries bidiClassTable) = true := by
  rw [bidiClassTable, entries_ofRange]; decide +kernel
theorem bidiClassTable_asc : ascFrom 0 (entries bidiClassTable) = true :=
  (Bool.and_eq_true _ _ ▸ bidiClassTable_ok : _ ∧ _).1

theorem graphemeClusterBreakTable_ok : shippedOk (entries graphemeClusterBreakTable) = true := by
  rw [graphemeClusterBreakTable, entries_ofRange]; decide +kernel
theorem graphemeClusterBreakTable_asc : ascFrom 0 (entries graphemeClusterBreakTable) = true :=
  (Bool.and_eq_true _ _ ▸ graphemeClusterBreakTable_ok : _ ∧ _).1

theorem wordBreakTable_ok : shippedOk (entries wordBreakTable) = true := by
  rw [wordBreakTable, entries_ofRange]; decide +kernel
theorem wordBreakTable_asc : ascFrom 0 (entries wordBreakTable) = true :=
  (Bool.and_eq_true _ _ ▸ wordBreakTable_ok : _ ∧ _).1

theorem sentenceBreakTable_ok : shippedOk (entries sentenceBreakTable) = true := by
  rw [sentenceBreakTable, entries_ofRange]; decide +kernel
theorem sentenceBreakTable_asc : ascFrom 0 (entries sentenceBreakTable) = true :=
  (Bool.and_eq_true _ _ ▸ sentenceBreakTable_ok : _ ∧ _).1

theorem ageTable_ok : shippedOk (entries ageTable) = true := by
  rw [ageTable, entries_ofRange]; decide +kernel
theorem ageTable_asc : ascFrom 0 (entries ageTable) = true :=
  (Bool.and_eq_true _ _ ▸ ageTable_ok : _ ∧ _).1

theorem blocksTable_ok : shippedOk (entries blocksTable) = true := by
  rw [blocksTable, entries_ofRange]; decide +kernel
theorem blocksTable_asc : ascFrom 0 (entries blocksTable) = true :=
  (Bool.and_eq_true _ _ ▸ blocksTable_ok : _ ∧ _).1

theorem correctionsTable_ok : shippedOk (entries correctionsTable) = true := by
  rw [correctionsTable, entries_ofDirect]; decide +kernel
theorem correctionsTable_asc : ascFrom 0 (entries correctionsTable) = true :=
  (Bool.and_eq_true _ _ ▸ correctionsTable_ok : _ ∧ _).1

theorem controlsTable_ok : shippedOk (entries controlsTable) = true := by
  rw [controlsTable, entries_ofDirect]; decide +kernel
theorem controlsTable_asc : ascFrom 0 (entries controlsTable) = true :=
  (Bool.and_eq_true _ _ ▸ controlsTable_ok : _ ∧ _).1

theorem alternatesTable_ok : shippedOk (entries alternatesTable) = true := by
  rw [alternatesTable, entries_ofDirect]; decide +kernel
theorem alternatesTable_asc : ascFrom 0 (entries alternatesTable) = true :=
  (Bool.and_eq_true _ _ ▸ alternatesTable_ok : _ ∧ _).1

theorem figmentsTable_ok : shippedOk (entries figmentsTable) = true := by
  rw [figmentsTable, entries_ofDirect]; decide +kernel
theorem figmentsTable_asc : ascFrom 0 (entries figmentsTable) = true :=
  (Bool.and_eq_true _ _ ▸ figmentsTable_ok : _ ∧ _).1

theorem abbreviationsTable_ok : shippedOk (entries abbreviationsTable) = true := by
  rw [abbreviationsTable, entries_ofDirect]; decide +kernel
theorem abbreviationsTable_asc : ascFrom 0 (entries abbreviationsTable) = true :=
  (Bool.and_eq_true _ _ ▸ abbreviationsTable_ok : _ ∧ _).1

theorem nameAliasTypesTable_ok : shippedOk (entries nameAliasTypesTable) = true := by
  rw [nameAliasTypesTable, entries_ofDirect]; decide +kernel
theorem nameAliasTypesTable_asc : ascFrom 0 (entries nameAliasTypesTable) = true :=
  (Bool.and_eq_true _ _ ▸ nameAliasTypesTable_ok : _ ∧ _).1

theorem canonicalTable_ok : shippedOk (entries canonicalTable) = true := by
  rw [canonicalTable, entries_ofDirect]; decide +kernel
theorem canonicalTable_asc : ascFrom 0 (entries canonicalTable) = true :=
  (Bool.and_eq_true _ _ ▸ canonicalTable_ok : _ ∧ _).1

theorem compatibilityTable_ok : shippedOk (entries compatibilityTable) = true := by
  rw [compatibilityTable, entries_ofDirect]; decide +kernel
theorem compatibilityTable_asc : ascFrom 0 (entries compatibilityTable) = true :=
  (Bool.and_eq_true _ _ ▸ compatibilityTable_ok : _ ∧ _).1

theorem mappingTable_ok : shippedOk (entries mappingTable) = true := by
  rw [mappingTable, entries_ofRange]; decide +kernel
theorem mappingTable_asc : ascFrom 0 (entries mappingTable) = true :=
  (Bool.and_eq_true _ _ ▸ mappingTable_ok : _ ∧ _).1

/-! NormalTables: the nested composition table. -/
theorem entries_compositionTable : entries compositionTable =
    (directEntries Data.canonicalComposition.flatten).map fun e => (e.1, e.2.1, CharDataTable.direct e.2.2) := by
  simp [entries, compositionTable, directEntries, Function.comp_def]

theorem ascFrom_map {V W : Type} (g : V → W) : ∀ (l : List (Nat × Nat × V)) (b : Nat),
    ascFrom b (l.map fun e => (e.1, e.2.1, g e.2.2)) = ascFrom b l
  | [], _ => rfl
  | (lo, hi, v) :: r, b => by simp only [List.map_cons, ascFrom, ascFrom_map g r]

theorem scalarEnds_map {V W : Type} (g : V → W) (l : List (Nat × Nat × V)) :
    scalarEnds (l.map fun e => (e.1, e.2.1, g e.2.2)) = scalarEnds l := by
  simp only [scalarEnds, List.all_map, Function.comp_def]

theorem compositionTable_ok : shippedOk (entries compositionTable) = true := by
  rw [entries_compositionTable, shippedOk, ascFrom_map, scalarEnds_map]
  decide +kernel
theorem compositionTable_asc : ascFrom 0 (entries compositionTable) = true :=
  (Bool.and_eq_true _ _ ▸ compositionTable_ok : _ ∧ _).1

/-- The inner tables of the composition table. -/
theorem compositionInner_ok : (Data.canonicalComposition.flatten.all fun e => shippedOk (directEntries e.2)) = true := by
  decide +kernel

end Proofs.UcdTables
