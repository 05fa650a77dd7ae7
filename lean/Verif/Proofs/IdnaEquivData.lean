import Verif.Proofs.IdnaBidi
import Verif.Proofs.NfdSteps

/-! Mapping and canonical equivalence. -/
namespace Proofs.IdnaEquiv
open Model Model.Idna Model.IdnaMapping Data Proofs.NormalScalar Proofs.UcdSF Proofs.Chunked Proofs.StepFn Model.UcdNormal Model.Normal
  Proofs.DecompData Proofs.DecompGen Proofs.CompData Proofs.NormalAlg Proofs.NormalGood Proofs.Hangul Spec.Normal Spec.Idna Proofs.CanonOrder Model.Hangul
  Proofs.IdnaData Proofs.FullDecomp

/-- the compatibility ideographs that are disallowed although their canonical mapping is valid -/
def isFive (c : Nat) : Bool := Nat.beq c 0x2F868 || Nat.beq c 0x2F874 || Nat.beq c 0x2F91F || Nat.beq c 0x2F95F || Nat.beq c 0x2F9BF

def fiveSF : SF (Option Unit) := rangesSF [(0x2F868, 0x2F868), (0x2F874, 0x2F874), (0x2F91F, 0x2F91F), (0x2F95F, 0x2F95F), (0x2F9BF, 0x2F9BF)]

theorem fiveSF_eval {c : Nat} (h : isFive c = false) : fiveSF.eval c = none := by
  have h1 := any_sf [(0x2F868, 0x2F868), (0x2F874, 0x2F874), (0x2F91F, 0x2F91F), (0x2F95F, 0x2F95F), (0x2F9BF, 0x2F9BF)] (by decide) c
  have hb : ∀ a b : Nat, Nat.beq a b = false → a ≠ b := fun a b h e => by rw [e, Nat.beq_refl] at h; simp at h
  simp only [isFive, Bool.or_eq_false_iff] at h
  have h3 := hb _ _ h.1.1.1.1
  have h4 := hb _ _ h.1.1.1.2
  have h5 := hb _ _ h.1.1.2
  have h6 := hb _ _ h.1.2
  have h7 := hb _ _ h.2
  have h2 : (List.any [(0x2F868, 0x2F868), (0x2F874, 0x2F874), (0x2F91F, 0x2F91F), (0x2F95F, 0x2F95F), (0x2F9BF, 0x2F9BF)]
      fun r => decide (r.1 ≤ c) && decide (c ≤ r.2)) = false := by
    simp only [List.any_cons, List.any_nil, Bool.or_false, Bool.or_eq_false_iff, Bool.and_eq_false_iff, decide_eq_false_iff_not]
    omega
  rw [h2] at h1
  unfold fiveSF
  cases h3 : (rangesSF [(0x2F868, 0x2F868), (0x2F874, 0x2F874), (0x2F91F, 0x2F91F), (0x2F95F, 0x2F95F), (0x2F9BF, 0x2F9BF)]).eval c with
  | none => rfl
  | some u => rw [h3] at h1; simp at h1

def disM : Mapping → Bool
  | .Disallowed => true
  | _ => false
def dis3M : Mapping → Bool
  | .DisallowedStd3Valid | .DisallowedStd3Mapped _ => true
  | _ => false

/-- the character stays what it is under every flag -/
def selfC (x : Nat) : Bool := match mapC x with
  | some .Valid | some .Disallowed | some .DisallowedStd3Valid => true
  | _ => false
/-- what it becomes, unless that depends on the flags -/
def repC (x : Nat) : Option (List Nat) := match mapC x with
  | some .Valid | some .Disallowed | some .DisallowedStd3Valid => some [x]
  | some (.Mapped s) | some (.DisallowedStd3Mapped s) => some s
  | some .Ignored => some []
  | _ => none
def disC (x : Nat) : Bool := match mapC x with | some m => disM m | none => true
def dis3C (x : Nat) : Bool := match mapC x with | some m => dis3M m | none => false

def sameD (a b : List Nat) : Bool := a == b || a.flatMap (Props.Normal.decC false) == b.flatMap (Props.Normal.decC false)

def concatO : List (Option (List Nat)) → Option (List Nat)
  | [] => some []
  | some a :: r => match concatO r with | some b => some (a ++ b) | none => none
  | none :: _ => none

def canP : Option (List Nat) → Option Mapping → Option Unit → Bool
  | some m, some mp, none => m.all (fun x => !isFive x) && (disM mp == m.any disC) && (dis3M mp == m.any dis3C) &&
    match mp with
    | .Valid | .Disallowed | .DisallowedStd3Valid => m.all selfC
    | .Mapped s | .DisallowedStd3Mapped s => match concatO (m.map repC) with | some t => sameD s t | none => false
    | _ => false
  | some _, none, _ => false
  | _, _, _ => true

theorem can_chk (c : Nat) : canP (canonSF.eval c) (mapSF.eval c) (fiveSF.eval c) = true :=
  SF.all₃ canP _ _ _ (by decide +kernel) c

def hangulP : Option Unit → Option Mapping → Bool → Bool
  | some _, some .Valid, r => !r
  | some _, _, _ => false
  | none, _, _ => true

def hangulRanges : List (Nat × Nat) := [(0x1100, 0x1112), (0x1161, 0x1175), (0x11A8, 0x11C2), (0xAC00, 0xD7A3)]
theorem hangul_chk (c : Nat) : hangulP ((rangesSF hangulRanges).eval c) (mapSF.eval c) (rtlSF.eval c) = true :=
  SF.all₃ hangulP _ _ _ (by decide +kernel) c

/-- marks are valid, or have a decomposition that is their replacement; the iota subscript is the exception -/
def markP : Nat → Option (List Nat) → Option Mapping → Bool
  | k, can, mp => Nat.beq k 0 || (Nat.ble k 240 && match mp with
    | some .Valid => true
    | some (.Mapped s) => match can with | some m => s == m || s.flatMap (Props.Normal.decC false) == m.flatMap (Props.Normal.decC false) | none => Nat.beq k 240
    | _ => false)
theorem mark_chk (c : Nat) : markP (combiningClassSF.eval c) (canonSF.eval c) (mapSF.eval c) = true :=
  SF.all₃ markP _ _ _ (by decide +kernel) c

end Proofs.IdnaEquiv
