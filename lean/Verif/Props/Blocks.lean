import Verif.Proofs.UcdSF
import Verif.Props.Tables

/-! # Properties C44 (blocks) and C46 (name aliases) -/
namespace Props.Blocks
open Spec Model Model.Ucd Data Proofs.StepFn Proofs.UcdTables Proofs.UcdSF

/-! ## C44: blocks -/
def blocksSF : SF (Option String) := SF.ofEntries Data.blocks.flatten

theorem blocks_find (c : Nat) : blocksTable.findVal c = blocksSF.eval c := by
  rw [findVal_eq_sf _ blocksTable_asc, blocksTable, entries_ofRange]; rfl

/-- The shipped blocks, as yielded by the block iterator, in table order. -/
theorem c44_block_iter : blockIter = Data.blocks.flatten.map fun e => (⟨e.1, e.2.1⟩, e.2.2) := by
  rw [blockIter, Props.Tables.c08_iter, blocksTable, entries_ofRange]

theorem blocksTable_eq : blocksTable =
    .range (Data.blocks.flatten.map fun e => ((⟨e.1, e.2.1⟩ : CharRange.CharRange), e.2.2)) := by
  rw [blocksTable, CharDataTable.ofRange]

theorem find_with_range_of {V : Type} (t : CharDataTable V) (l : List (CharRange.CharRange × V)) (ht : t = .range l)
    (hw : WellFormed t) (c : Nat) : ∃ o, t.findWithRange c = .ok o ∧
      ∀ e, o = some e ↔ e ∈ l ∧ e.1.contains c = true := by
  subst ht
  obtain ⟨o, ho, h, -⟩ := Props.Tables.c08_find_with_range l hw c
  exact ⟨o, ho, h⟩

/-- **C44.** `Block::of(ch)` is exactly the iterated block whose range contains `ch`. -/
theorem c44_block_of (c : Nat) (b : CharRange.CharRange × String) :
    block c = some b ↔ b ∈ blockIter ∧ b.1.low ≤ c ∧ c ≤ b.1.high := by
  have hw := wellFormed_of_asc _ blocksTable_asc
  obtain ⟨o, ho, h⟩ := find_with_range_of _ _ blocksTable_eq hw c
  have : block c = o := by unfold block; simp only [ho]
  rw [this, h b, c44_block_iter]
  simp [CharRange.CharRange.contains]

/-- Names are pairwise distinct (evaluated by the kernel on the whole table). -/
def distinct : List String → Bool
  | [] => true
  | a :: r => !(r.contains a) && distinct r

theorem distinct_spec : ∀ l, distinct l = true → l.Nodup
  | [], _ => List.nodup_nil
  | a :: r, h => by
    simp only [distinct, Bool.and_eq_true, Bool.not_eq_true', List.contains_eq_mem, decide_eq_false_iff_not] at h
    exact List.nodup_cons.2 ⟨h.1, distinct_spec r h.2⟩

theorem block_names_distinct : distinct (Data.blocks.flatten.map (·.2.2)) = true := by decide +kernel

/-- **C44.** Blocks are non-empty, disjoint, in ascending order, and have unique names. -/
theorem c44_blocks_disjoint : (∀ b ∈ blockIter, b.1.low ≤ b.1.high) ∧
    blockIter.Pairwise (fun a b => a.1.high < b.1.low) ∧ (blockIter.map (·.2)).Nodup := by
  have hw := wellFormed_of_asc _ blocksTable_asc
  rw [blocksTable, WellFormed, entries_ofRange] at hw
  rw [c44_block_iter]
  refine ⟨?_, ?_, ?_⟩
  · intro b hb
    obtain ⟨e, he, rfl⟩ := List.mem_map.1 hb
    exact hw.1 e he
  · rw [List.pairwise_map]; exact hw.2
  · rw [List.map_map]
    exact distinct_spec _ block_names_distinct

/-- **C44.** Every assigned character lies in a block. -/
theorem c44_assigned_in_block (c : Nat) (h : generalCategory c ≠ .Unassigned) : (block c).isSome = true := by
  have hall := SF.all₂ (fun x y => decide (x = .Unassigned) || y.isSome) generalCategorySF blocksSF (by decide +kernel) c
  rw [← generalCategory_sf, ← blocks_find] at hall
  simp only [h, decide_false, Bool.false_or] at hall
  obtain ⟨v, hv⟩ := Option.isSome_iff_exists.1 hall
  have hw := wellFormed_of_asc _ blocksTable_asc
  rw [findVal_eq_lookup _ hw, blocksTable, entries_ofRange] at hv
  obtain ⟨e, he, hc, _⟩ := lookup_mem _ _ _ hv
  rw [(c44_block_of c (⟨e.1, e.2.1⟩, e.2.2)).2 ⟨by rw [c44_block_iter]; exact List.mem_map.2 ⟨e, he, rfl⟩, hc⟩]
  rfl

/-- Non-vacuity: assigned characters and blocks exist; the bound of a block is sharp. -/
example : generalCategory 0x10FF ≠ .Unassigned ∧ (0x10A0, 0x10FF, "Georgian") ∈ Data.blocks.flatten := by
  rw [Ucd.generalCategory, generalCategoryTable, Proofs.Chunked.findVal_ofRange _ generalCategoryTable_asc]
  exact ⟨by decide +kernel, by decide +kernel⟩

/-! ## C46: name aliases -/
def dSF {V : Type} (ch : List (List (Nat × V))) : SF (Option V) := SF.ofEntries (directEntries ch.flatten)

theorem dSF_find {V : Type} (ch : List (List (Nat × V))) (h : ascFrom 0 (entries (CharDataTable.ofDirect ch)) = true)
    (c : Nat) : (CharDataTable.ofDirect ch).findVal c = (dSF ch).eval c := by
  rw [findVal_eq_sf _ h]; rfl

/-- The check made on each piece: a type is listed exactly when that type's table has a non-empty entry. -/
def aliasOk (ty : NameAliasType) (x : Option (List NameAliasType)) (y : Option (List String)) : Bool :=
  (match x with | some l => l.contains ty | none => false) == y.isSome &&
  (match y with | some [] => false | _ => true)

/-- **C46.** A type is listed for a character exactly when that type has aliases for it, and lists of
aliases (and of types) are never empty. -/
theorem c46_name_aliases (c : Nat) (ty : NameAliasType) :
    ((∃ l, nameAliasTypes c = some l ∧ ty ∈ l) ↔ ∃ a, nameAliasesOf c ty = some a) ∧
    nameAliasesOf c ty ≠ some [] := by
  suffices h : aliasOk ty (nameAliasTypes c) (nameAliasesOf c ty) = true by
    revert h
    generalize nameAliasTypes c = x
    generalize nameAliasesOf c ty = y
    rcases x with _ | x <;> rcases y with _ | _ | ⟨a, y⟩ <;> simp [aliasOk]
  cases ty
  all_goals
    simp only [Ucd.nameAliasTypes, nameAliasesOf]
    rw [nameAliasTypesTable, dSF_find _ nameAliasTypesTable_asc]
  · rw [correctionsTable, dSF_find _ correctionsTable_asc]
    exact SF.all₂ (aliasOk _) _ _ (by decide +kernel) c
  · rw [controlsTable, dSF_find _ controlsTable_asc]
    exact SF.all₂ (aliasOk _) _ _ (by decide +kernel) c
  · rw [alternatesTable, dSF_find _ alternatesTable_asc]
    exact SF.all₂ (aliasOk _) _ _ (by decide +kernel) c
  · rw [figmentsTable, dSF_find _ figmentsTable_asc]
    exact SF.all₂ (aliasOk _) _ _ (by decide +kernel) c
  · rw [abbreviationsTable, dSF_find _ abbreviationsTable_asc]
    exact SF.all₂ (aliasOk _) _ _ (by decide +kernel) c

/-- **C46.** The list of types of a character is never empty. -/
theorem c46_types_nonempty (c : Nat) : nameAliasTypes c ≠ some [] := by
  rw [Ucd.nameAliasTypes, nameAliasTypesTable, dSF_find _ nameAliasTypesTable_asc]
  have := SF.all_eval (p := fun x => decide (x ≠ some [])) (a := dSF Data.nameAliasTypes) (by decide +kernel) c
  simpa using this

end Props.Blocks
