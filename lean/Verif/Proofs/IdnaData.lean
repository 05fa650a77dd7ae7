import Verif.Proofs.NormalScalar
import Verif.Proofs.UcdSF
import Verif.Model.Idna

/-! Facts about the shipped IDNA mapping table, by kernel evaluation over all entries. -/
namespace Proofs.IdnaData
open Model Model.IdnaMapping Model.Idna Data Proofs.Chunked Proofs.UcdTables Proofs.StepFn Proofs.NormalScalar Proofs.DecompData Proofs.Tables
  Proofs.DecompGen Proofs.NormalGood

/-- kernel-friendly lookup -/
def mapC (c : Nat) : Option Mapping := lookupC Data.idnaMapping c

theorem findVal_map (c : Nat) : mappingTable.findVal c = mapC c := by
  unfold mappingTable mapC
  rw [findVal_ofRange _ mappingTable_asc]

theorem mappingOf_eq (c : Nat) : mappingOf c = match mapC c with | some m => .ok m | none => .panic := by
  rw [← findVal_map]
  unfold mappingOf CharDataTable.findVal
  have hp : mappingTable.find c ≠ .panic := by
    rcases search_table mappingTable (wellFormed_of_asc _ mappingTable_asc) c with ⟨e, _, _, hf, _⟩ | ⟨_, hf, _⟩ <;> rw [hf] <;> simp
  revert hp
  generalize mappingTable.find c = o
  intro hp
  cases o with
  | panic => exact absurd rfl hp
  | ok o => cases o <;> rfl

theorem mappingOf_ok {c : Nat} {m : Mapping} : mappingOf c = .ok m ↔ mapC c = some m := by
  rw [mappingOf_eq]
  cases mapC c <;> simp

/-- the scalar values as a step function -/
def scalarSF : SF Bool := ⟨true, [(0xD800, false), (0xE000, true), (0x110000, false)]⟩

theorem scalarSF_eval {c : Nat} (h : Spec.IsScalar c) : scalarSF.eval c = true := by
  unfold Spec.IsScalar at h
  simp only [scalarSF, SF.eval, evalSF]
  split
  · rfl
  · split
    · omega
    · split
      · rfl
      · omega

def mapSF : SF (Option Mapping) := SF.ofEntries Data.idnaMapping.flatten
theorem mapC_sf (c : Nat) : mapC c = mapSF.eval c := by
  rw [← findVal_map, findVal_eq_sf _ mappingTable_asc, mappingTable, entries_ofRange]; rfl

/-- a step at 0 replaces the initial value -/
def drop0 {α : Type} : SF α → SF α
  | ⟨cur, (0, v) :: r⟩ => ⟨v, r⟩
  | s => s

theorem drop0_eval {α : Type} (s : SF α) (c : Nat) : (drop0 s).eval c = s.eval c := by
  unfold drop0
  split
  · rename_i cur v r
    simp [SF.eval, evalSF]
  · rfl

theorem total_chk : SF.all (fun b => b) (SF.zipWith (fun s o => !s || Option.isSome o) scalarSF (drop0 mapSF)) = true := by
  decide +kernel

/-- every scalar value has a status -/
theorem mapping_total {c : Nat} (h : Spec.IsScalar c) : ∃ m, mappingOf c = .ok m := by
  have h1 := SF.all_eval total_chk c
  rw [SF.eval_zipWith, scalarSF_eval h, drop0_eval, ← mapC_sf] at h1
  cases hm : mapC c with
  | none => rw [hm] at h1; simp at h1
  | some m => exact ⟨m, mappingOf_ok.2 hm⟩

/-- a check over all entries of a chunked range table -/
def allRanges {V : Type} (p : V → Bool) (ch : List (List (Nat × Nat × V))) : Bool := ch.all fun l => l.all fun e => p e.2.2

theorem lookup_mem' {V : Type} {l : List (Nat × Nat × V)} {c : Nat} {v : V} (h : lookup l c = some v) : ∃ e ∈ l, e.2.2 = v := by
  obtain ⟨e, he, _, hv⟩ := lookup_mem l c v h
  exact ⟨e, he, hv⟩

theorem lookupC_mem {V : Type} {ch : List (List (Nat × Nat × V))} {p : V → Bool} (h : allRanges p ch = true) {c : Nat} {v : V}
    (hl : lookupC ch c = some v) : p v = true := by
  induction ch with
  | nil => simp [lookupC] at hl
  | cons a r ih =>
    simp only [allRanges, List.all_cons, Bool.and_eq_true] at h
    have ha : ∀ {w}, lookup a c = some w → p w = true := by
      intro w hw
      obtain ⟨e, he, rfl⟩ := lookup_mem' hw
      exact List.all_eq_true.1 h.1 e he
    cases r with
    | nil => rw [lookupC] at hl; exact ha hl
    | cons b r =>
      rw [lookupC] at hl
      split at hl
      · exact ih h.2 hl
      · cases hw : lookup a c with
        | some w =>
          rw [hw] at hl
          simp only [Option.some.injEq] at hl
          exact hl ▸ ha hw
        | none =>
          rw [hw] at hl
          exact ih h.2 hl

/-- the first 128 characters -/
theorem ascii_chk : (List.range 128).all (fun c => match mapC c with
    | some .Valid => true | some .DisallowedStd3Valid => !(0x61 ≤ c && c ≤ 0x7A || 0x30 ≤ c && c ≤ 0x39 || c == 0x2D || c == 0x2E)
    | some (.Mapped _) => 0x41 ≤ c && c ≤ 0x5A | _ => false) = true := by decide +kernel

theorem ascii_status {c : Nat} (h : c < 0x80) : (mappingOf c = .ok .Valid) ∨ (mappingOf c = .ok .DisallowedStd3Valid ∧
      ¬ (0x61 ≤ c ∧ c ≤ 0x7A ∨ 0x30 ≤ c ∧ c ≤ 0x39 ∨ c = 0x2D ∨ c = 0x2E)) ∨
    (0x41 ≤ c ∧ c ≤ 0x5A ∧ ∃ s, mappingOf c = .ok (.Mapped s)) := by
  have h1 := List.all_eq_true.1 ascii_chk c (List.mem_range.2 h)
  simp only [mappingOf_ok]
  revert h1
  cases mapC c with
  | none => simp
  | some m =>
    cases m <;> simp
    all_goals omega

theorem ascii_bidi_chk : (List.range 128).all (fun c => match lookupC Data.bidiClass c with
    | some .RightToLeft => false | some .ArabicLetter => false | some .ArabicNumber => false | _ => true) = true := by decide +kernel

theorem bidi_lookup (c : Nat) : Ucd.bidiClass c = (lookupC Data.bidiClass c).getD .LeftToRight := by
  unfold Ucd.bidiClass Ucd.bidiClassTable
  rw [findVal_ofRange _ bidiClassTable_asc]

theorem mark_lookup (c : Nat) : Ucd.isCombiningMark c = (lookupC Data.generalCategoryMark c).isSome := by
  unfold Ucd.isCombiningMark Ucd.generalCategoryMarkTable
  rw [findVal_ofRange _ generalCategoryMarkTable_asc]

theorem ascii_bidi {c : Nat} (h : c < 0x80) : Ucd.bidiClass c ∉ [BidiClass.RightToLeft, .ArabicLetter, .ArabicNumber] := by
  have h1 := List.all_eq_true.1 ascii_bidi_chk c (List.mem_range.2 h)
  rw [bidi_lookup]
  revert h1
  cases lookupC Data.bidiClass c with
  | none => simp
  | some m => cases m <;> simp

theorem ascii_mark_chk : (List.range 128).all (fun c => (lookupC Data.generalCategoryMark c).isNone) = true := by decide +kernel

theorem ascii_mark {c : Nat} (h : c < 0x80) : Ucd.isCombiningMark c = false := by
  have h1 := List.all_eq_true.1 ascii_mark_chk c (List.mem_range.2 h)
  rw [mark_lookup]
  revert h1
  cases lookupC Data.generalCategoryMark c <;> simp

end Proofs.IdnaData
