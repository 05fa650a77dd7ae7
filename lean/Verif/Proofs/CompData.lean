import Verif.Proofs.DecompData
import Verif.Spec.Normal

/-! Facts about composition of pairs. -/
namespace Proofs.CompData
open Model Model.UcdNormal Model.Hangul Proofs.Chunked Proofs.UcdTables Proofs.StepFn Proofs.UcdSF Proofs.DecompGen
open Proofs.DecompData Proofs.Tables Proofs.Hangul

theorem compChk_of {a : Nat} {l : List (Nat × Nat)} (h : lookupCD Data.canonicalComposition a = some l) : compChk a l = true :=
  allEntries_spec compChk_all (lookupCD_mem h)

theorem canonicalComposition_eq (a : Nat) :
    canonicalComposition a = (lookupCD Data.canonicalComposition a).map CharDataTable.direct := by
  have hasc := compositionTable_asc
  rw [entries_compositionTable, ascFrom_map] at hasc
  unfold canonicalComposition
  rw [findVal_eq_lookup _ (wellFormed_of_asc _ compositionTable_asc), entries_compositionTable, lookup_map,
    lookupCD_eq, lookupC_eq, directEntries_flatten]
  have := (ascFrom_spec _ 0 hasc).2.2
  rwa [directEntries_flatten] at this

theorem compose_table (a b : Nat) : ((canonicalComposition a).bind fun table => table.findVal b) = compC a b := by
  rw [canonicalComposition_eq, compC]
  cases h : lookupCD Data.canonicalComposition a with
  | none => rfl
  | some l =>
    have hc := compChk_of h
    rw [compChk, Bool.and_eq_true] at hc
    simp only [Option.map_some, Option.bind_some]
    have he : Spec.entries (CharDataTable.direct l) = directEntries l := rfl
    rw [findVal_eq_lookup _ (wellFormed_of_asc _ (he ▸ hc.1)), he, lookupD_eq]

theorem compose_eq (a b : Nat) : compose a b = match composeSyllable a b with | some r => some r | none => compC a b := by
  rw [compose, compose_table]
  cases composeSyllable a b <;> rfl

/-- an entry of the composition table -/
theorem compC_some {a b c : Nat} (h : compC a b = some c) :
    canonicalDecomposition c = some [a, b] ∧ 0x300 ≤ b ∧ (b < 0x1100 ∨ 0x11FF < b) ∧ (c < 0x1100 ∨ 0x1112 < c) ∧
    Ucd.combiningClass a = 0 ∧ Ucd.combiningClass c = 0 := by
  rw [compC] at h
  cases hl : lookupCD Data.canonicalComposition a with
  | none => rw [hl] at h; simp at h
  | some l =>
    rw [hl] at h
    simp only [Option.bind_some] at h
    have hc := compChk_of hl
    simp only [compChk, Bool.and_eq_true, List.all_eq_true] at hc
    have := hc.2 _ (lookupD_mem h)
    simp only [decide_eq_true_eq, Nat.beq_eq] at this
    obtain ⟨⟨⟨⟨⟨h1, h2⟩, h3⟩, h4⟩, h5⟩, h6⟩ := this
    rw [canonicalDecomposition_eq, combiningClass_eq, combiningClass_eq]
    exact ⟨h1, h2, h3, h4, h5, h6⟩

/-- completeness of the composition table; `exc` marks listed exclusions -/
def listed (c : Nat) : Bool := Spec.Normal.exclusionRanges.any fun r => decide (r.1 ≤ c) && decide (c ≤ r.2)

def complete (exc : Option Unit) (cc : Nat) : Option (Nat × List Nat) → Bool
  | some (c, [a, b]) =>
    if exc.isSome then decide (compC a b ≠ some c) else
    !(Nat.beq cc 0) || !(Nat.beq (cccC a) 0) || decide (compC a b = some c)
  | _ => true

def keyed (l : List (Nat × List Nat)) : List (Nat × (Nat × List Nat)) := l.map fun e => (e.1, e)

/-- the canonical mapping together with its key -/
def keyedSF : SF (Option (Nat × List Nat)) :=
  SF.ofEntries (directEntries (keyed Data.canonicalDecomposition.flatten))

theorem ascFrom_keyed : ∀ (l : List (Nat × List Nat)) (b : Nat),
    ascFrom b (directEntries (keyed l)) = ascFrom b (directEntries l)
  | [], _ => rfl
  | (k, m) :: l, b => by
    have := ascFrom_keyed l (k + 1)
    simp only [directEntries, keyed] at this
    simp only [keyed, directEntries, List.map_cons, ascFrom, this]

theorem lookup_keyed (l : List (Nat × List Nat)) (c : Nat) :
    lookup (directEntries (keyed l)) c = (lookup (directEntries l) c).map fun m => (c, m) := by
  induction l with
  | nil => rfl
  | cons e l ih =>
    obtain ⟨k, m⟩ := e
    simp only [directEntries, keyed] at ih
    simp only [keyed, directEntries, List.map_cons, lookup, ih]
    by_cases h : k ≤ c ∧ c ≤ k
    · rw [if_pos h, if_pos h]
      have : k = c := by omega
      simp [this]
    · rw [if_neg h, if_neg h]

theorem keyedSF_eq (c : Nat) : keyedSF.eval c = (canonicalDecomposition c).map fun m => (c, m) := by
  have hasc := canonicalTable_asc
  rw [canonicalTable, entries_ofDirect] at hasc
  have h1 : keyedSF.eval c = lookup (directEntries (keyed Data.canonicalDecomposition.flatten)) c :=
    evalSF_steps _ 0 c (by rw [ascFrom_keyed]; exact hasc)
  rw [h1, lookup_keyed]
  unfold canonicalDecomposition
  rw [findVal_eq_lookup _ (wellFormed_of_asc _ canonicalTable_asc), canonicalTable, entries_ofDirect]

theorem complete_all (c : Nat) :
    complete ((rangesSF Spec.Normal.exclusionRanges).eval c) (combiningClassSF.eval c) (keyedSF.eval c) = true :=
  SF.all₃ complete _ _ _ (by decide +kernel) c

theorem compC_complete {a b c : Nat} (h : canonicalDecomposition c = some [a, b]) :
    compC a b = some c ↔ ¬ Spec.Normal.Excluded Ucd.combiningClass c a := by
  have h1 := complete_all c
  rw [keyedSF_eq, h, ← combiningClass_sf] at h1
  simp only [Option.map_some, complete] at h1
  rw [← any_sf _ (by decide)] at h1
  have hl : (Spec.Normal.exclusionRanges.any fun r => decide (r.1 ≤ c) && decide (c ≤ r.2)) = true ↔
      ∃ r ∈ Spec.Normal.exclusionRanges, r.1 ≤ c ∧ c ≤ r.2 := by
    simp [List.any_eq_true]
  rw [Spec.Normal.Excluded]
  constructor
  · intro hc
    have := compC_some hc
    rintro (hr | hr | hr)
    · rw [if_pos (hl.2 hr)] at h1
      simp [hc] at h1
    · exact hr this.2.2.2.2.2
    · exact hr this.2.2.2.2.1
  · intro hn
    have hn1 := fun h => hn (.inl h)
    rw [if_neg (fun h => hn1 (hl.1 h))] at h1
    simp only [Bool.or_eq_true, Bool.not_eq_true', decide_eq_true_eq, Bool.eq_false_iff, ne_eq, Nat.beq_eq] at h1
    rw [← combiningClass_eq] at h1
    rcases h1 with (h1 | h1) | h1
    · exact absurd (.inr (.inl h1)) hn
    · exact absurd (.inr (.inr h1)) hn
    · exact h1

end Proofs.CompData
