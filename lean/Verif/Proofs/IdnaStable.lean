import Verif.Proofs.IdnaData

/-! The replacements of the IDNA mapping table, by kernel evaluation over all entries. -/
namespace Proofs.IdnaData
open Model Model.IdnaMapping Data Proofs.NormalScalar

/-- what a replacement consists of -/
def stableChk : Mapping → Bool
  | .Mapped s => s.all (fun x => isScalarB x && match mapC x with | some .Valid => true | _ => false) && Nat.ble s.length 18
  | .Deviation s => s.all (fun x => isScalarB x && match mapC x with | some .Valid => true | _ => false) && Nat.ble s.length 18
  | .DisallowedStd3Mapped s => s.all (fun x => isScalarB x && match mapC x with | some .Valid => true | some .DisallowedStd3Valid => true | _ => false) &&
      Nat.ble s.length 18
  | _ => true

theorem stable_chk : allRanges stableChk Data.idnaMapping = true := by decide +kernel

theorem all_valid {s : List Nat} (h : s.all (fun x => isScalarB x && match mapC x with | some .Valid => true | _ => false) = true) :
    ∀ x ∈ s, Spec.IsScalar x ∧ mappingOf x = .ok .Valid := by
  intro x hx
  have h1 := List.all_eq_true.1 h x hx
  rw [Bool.and_eq_true, isScalarB_iff] at h1
  refine ⟨h1.1, mappingOf_ok.2 ?_⟩
  have h2 := h1.2
  split at h2
  · assumption
  · simp at h2

/-- the replacements of the table -/
theorem stable {c : Nat} {m : Mapping} (h : mappingOf c = .ok m) :
    (∀ s, m = .Mapped s ∨ m = .Deviation s → s.length ≤ 18 ∧ ∀ x ∈ s, Spec.IsScalar x ∧ mappingOf x = .ok .Valid) ∧
    (∀ s, m = .DisallowedStd3Mapped s → s.length ≤ 18 ∧
      ∀ x ∈ s, Spec.IsScalar x ∧ (mappingOf x = .ok .Valid ∨ mappingOf x = .ok .DisallowedStd3Valid)) := by
  have h1 : stableChk m = true := lookupC_mem stable_chk (mappingOf_ok.1 h)
  constructor
  · rintro s (rfl | rfl) <;>
    · rw [stableChk, Bool.and_eq_true, Nat.ble_eq] at h1
      exact ⟨h1.2, all_valid h1.1⟩
  · rintro s rfl
    rw [stableChk, Bool.and_eq_true, Nat.ble_eq] at h1
    refine ⟨h1.2, fun x hx => ?_⟩
    have h2 := List.all_eq_true.1 h1.1 x hx
    rw [Bool.and_eq_true, isScalarB_iff] at h2
    refine ⟨h2.1, ?_⟩
    simp only [mappingOf_ok]
    have h3 := h2.2
    split at h3
    · left; assumption
    · right; assumption
    · simp at h3

end Proofs.IdnaData
