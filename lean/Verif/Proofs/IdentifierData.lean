import Verif.Spec.Identifier
import Verif.Proofs.NfdSteps
import Verif.Proofs.FastSet

/-! Identifiers and the normalization forms: checks of the shipped tables. -/
namespace Proofs.Identifier
open Data Model Model.Normal Proofs.UcdSF Proofs.StepFn Spec.Normal Proofs.CompData Proofs.DecompData Proofs.Chunked Proofs.UcdTables Spec.Identifier

def hasC (t : List (List (Nat × Nat × Unit))) (c : Nat) : Bool := Proofs.FastSet.hasF c t
theorem contains_lookup (t : List (List (Nat × Nat × Unit))) (h : ascFrom 0 (Spec.entries (CharDataTable.ofRange t)) = true) (c : Nat) :
    (CharDataTable.ofRange t).containsVal c = hasC t c := Proofs.FastSet.contains_eq t h c

theorem xids_eq : Ucd.isXidStart = hasC Data.xidStart := funext fun c => contains_lookup _ xidStartTable_asc c
theorem xidc_eq : Ucd.isXidContinue = hasC Data.xidContinue := funext fun c => contains_lookup _ xidContinueTable_asc c
theorem ids_eq : Ucd.isIdStart = hasC Data.idStart := funext fun c => contains_lookup _ idStartTable_asc c
theorem idc_eq : Ucd.isIdContinue = hasC Data.idContinue := funext fun c => contains_lookup _ idContinueTable_asc c

def identB (S C : Nat → Bool) : List Nat → Bool
  | [] => false
  | c :: r => S c && r.all C
theorem identB_iff (S C : Nat → Bool) (s : List Nat) : Identifier S C s ↔ identB S C s = true := by
  cases s with
  | nil => simp [Identifier, identB]
  | cons c r =>
    simp only [Identifier, identB, Bool.and_eq_true, List.all_eq_true]
    constructor
    · rintro ⟨_, _, h, h1, h2⟩
      cases h
      exact ⟨h1, h2⟩
    · exact fun h => ⟨c, r, rfl, h.1, h.2⟩

def canP (S C : Nat → Bool) : Option (List Nat) → Option Unit → Option Unit → Bool
  | none, _, _ => true
  | some m, s, c => !m.isEmpty && (c.isSome == m.all C) && (s.isSome == identB S C m)
def comP (S C : Nat → Bool) : Option (List Nat) → Option Unit → Option Unit → Bool
  | none, _, _ => true
  | some m, s, c => !m.isEmpty && (!c.isSome || m.all C) && (!s.isSome || identB S C m)
def markP : Nat → Option Unit → Bool
  | _, none => true
  | k, some _ => Nat.beq k 0
def hanP : Option Unit → Option Unit → Option Unit → Bool
  | none, _, _ => true
  | some _, s, c => s.isSome && c.isSome

theorem can_xid (c : Nat) : canP (hasC Data.xidStart) (hasC Data.xidContinue) (canonSF.eval c) (isXidStartSF.eval c) (isXidContinueSF.eval c) = true :=
  SF.all₃ (canP _ _) _ _ _ (by decide +kernel) c
theorem can_id (c : Nat) : canP (hasC Data.idStart) (hasC Data.idContinue) (canonSF.eval c) (isIdStartSF.eval c) (isIdContinueSF.eval c) = true :=
  SF.all₃ (canP _ _) _ _ _ (by decide +kernel) c
theorem com_xid (c : Nat) : comP (hasC Data.xidStart) (hasC Data.xidContinue) (compatSF.eval c) (isXidStartSF.eval c) (isXidContinueSF.eval c) = true :=
  SF.all₃ (comP _ _) _ _ _ (by decide +kernel) c
theorem mark_xid (c : Nat) : markP (combiningClassSF.eval c) (isXidStartSF.eval c) = true := SF.all₂ markP _ _ (by decide +kernel) c
theorem mark_id (c : Nat) : markP (combiningClassSF.eval c) (isIdStartSF.eval c) = true := SF.all₂ markP _ _ (by decide +kernel) c
def hangulR : List (Nat × Nat) := [(0x1100, 0x1112), (0x1161, 0x1175), (0x11A7, 0x11C2), (0xAC00, 0xD7A3)]
theorem han_xid (c : Nat) : hanP ((rangesSF hangulR).eval c) (isXidStartSF.eval c) (isXidContinueSF.eval c) = true := SF.all₃ hanP _ _ _ (by decide +kernel) c
theorem han_id (c : Nat) : hanP ((rangesSF hangulR).eval c) (isIdStartSF.eval c) (isIdContinueSF.eval c) = true := SF.all₃ hanP _ _ _ (by decide +kernel) c

end Proofs.Identifier
