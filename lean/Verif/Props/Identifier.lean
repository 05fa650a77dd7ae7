import Verif.Proofs.Identifier

/-! # C85: identifiers and the normalization forms -/
namespace Props.Identifier
open Spec.Normal Spec.Identifier Model Model.Ucd Model.UcdNormal Model.Normal Proofs.Identifier Props.Normal

/-- **C85.** A text is an identifier by `is_xid_start` and `is_xid_continue` exactly when its NFD is,
and exactly when its NFC is. -/
theorem c85_xid (s : List Nat) : (Identifier isXidStart isXidContinue (nfd s) ↔ Identifier isXidStart isXidContinue s) ∧
    (Identifier isXidStart isXidContinue (nfc s) ↔ Identifier isXidStart isXidContinue s) := by
  simp only [identB_iff, nfd_ident kept_xid, nfc_ident kept_xid, and_self]

/-- **C85.** The same for `is_id_start` and `is_id_continue`. -/
theorem c85_id (s : List Nat) : (Identifier isIdStart isIdContinue (nfd s) ↔ Identifier isIdStart isIdContinue s) ∧
    (Identifier isIdStart isIdContinue (nfc s) ↔ Identifier isIdStart isIdContinue s) := by
  simp only [identB_iff, nfd_ident kept_id, nfc_ident kept_id, and_self]

/-- **C85.** Of canonically equivalent texts both are identifiers or neither is. -/
theorem c85_equivalent (s t : List Nat) (h : Equivalent combiningClass (mappingWith canonicalDecomposition) s t) :
    (Identifier isXidStart isXidContinue s ↔ Identifier isXidStart isXidContinue t) ∧
    (Identifier isIdStart isIdContinue s ↔ Identifier isIdStart isIdContinue t) := by
  have h := (c18_equivalent s t).1 h
  rw [← (c85_xid s).1, ← (c85_xid t).1, ← (c85_id s).1, ← (c85_id t).1, h]
  exact ⟨Iff.rfl, Iff.rfl⟩

/-- **C85.** Identifiers by the XID properties stay identifiers in NFKD and NFKC. -/
theorem c85_compatible (s : List Nat) (h : Identifier isXidStart isXidContinue s) :
    Identifier isXidStart isXidContinue (nfkd s) ∧ Identifier isXidStart isXidContinue (nfkc s) := by
  have h1 : Identifier isXidStart isXidContinue (nfkd s) := by
    rw [identB_iff] at h ⊢
    exact nfkd_ident kept_xid compat_xid s h
  refine ⟨h1, ?_⟩
  rw [nfkc_nfc]
  exact (c85_xid (nfkd s)).2.2 h1

/-- Non-vacuity: "ﬁŝ1" with a ligature is an identifier. -/
example : Identifier isXidStart isXidContinue [0xFB01, 0x15D, 0x31] := by
  rw [identB_iff, xids_eq, xidc_eq]; decide +kernel
/-- Non-vacuity: a text that begins with a mark is not. -/
example : ¬ Identifier isXidStart isXidContinue [0x301, 0x61] := by
  rw [identB_iff, xids_eq, xidc_eq]; decide +kernel

/-- **C85, why the XID properties are needed.** Identifiers by the ID properties are not kept by NFKD
and NFKC: U+037A becomes a space and a mark. -/
theorem c85_id_compatible_false : Identifier isIdStart isIdContinue [0x37A] ∧
    ¬ Identifier isIdStart isIdContinue (nfkd [0x37A]) ∧ ¬ Identifier isIdStart isIdContinue (nfkc [0x37A]) := by
  rw [identB_iff, identB_iff, identB_iff, ids_eq, idc_eq, nfkd_lookup, nfkc_lookup]
  decide +kernel

/-- **C85, one direction only.** U+1F130 (squared A) is no identifier, its NFKD and NFKC "A" are. -/
theorem c85_compatible_converse_false : ¬ Identifier isXidStart isXidContinue [0x1F130] ∧
    Identifier isXidStart isXidContinue (nfkd [0x1F130]) ∧ Identifier isXidStart isXidContinue (nfkc [0x1F130]) := by
  rw [identB_iff, identB_iff, identB_iff, xids_eq, xidc_eq, nfkd_lookup, nfkc_lookup]
  decide +kernel

end Props.Identifier
