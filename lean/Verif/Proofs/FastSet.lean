import Verif.Proofs.Chunked

/-! Membership in a chunked set, cheaper for the kernel than `lookupC`: one comparison per entry, and the search ends at the first entry that
is not wholly below the character. -/
namespace Proofs.FastSet
open Spec Model Proofs.StepFn Proofs.Chunked

def hasB (rest : Bool) (c : Nat) : List (Nat × Nat × Unit) → Bool
  | [] => rest
  | (lo, hi, _) :: r => bif Nat.ble c hi then Nat.ble lo c else hasB rest c r

def startsNext (c : Nat) : List (List (Nat × Nat × Unit)) → Bool
  | [] => false
  | [] :: _ => false
  | ((lo, _, _) :: _) :: _ => Nat.ble lo c

def hasF (c : Nat) : List (List (Nat × Nat × Unit)) → Bool
  | [] => false
  | a :: r => bif startsNext c r then hasF c r else hasB (hasF c r) c a

theorem ble_iff (a b : Nat) : Nat.ble a b = true ↔ a ≤ b := Nat.ble_eq ▸ Iff.rfl

theorem hasB_eq (rest : Bool) (c : Nat) (l' : List (Nat × Nat × Unit)) (hr : rest = (lookup l' c).isSome) :
    ∀ l : List (Nat × Nat × Unit), (l ++ l').Pairwise (fun e e' => e.2.1 < e'.1) → hasB rest c l = (lookup (l ++ l') c).isSome := by
  intro l
  induction l with
  | nil => intro _; exact hr
  | cons e l ih =>
    intro h
    obtain ⟨lo, hi, u⟩ := e
    rw [List.cons_append, List.pairwise_cons] at h
    simp only [hasB, List.cons_append, lookup]
    cases hb : Nat.ble c hi with
    | true =>
      rw [ble_iff] at hb
      rw [cond_true]
      by_cases hlo : lo ≤ c
      · rw [if_pos ⟨hlo, hb⟩, (ble_iff lo c).2 hlo]; rfl
      · rw [if_neg fun h => hlo h.1, lookup_none _ c fun e he hc => ?_]
        · cases h2 : Nat.ble lo c with
          | false => rfl
          | true => exact absurd ((ble_iff _ _).1 h2) hlo
        · have := h.1 e he
          simp only [Covers] at hc this
          omega
    | false =>
      have : ¬ c ≤ hi := fun h => by rw [(ble_iff _ _).2 h] at hb; simp at hb
      rw [cond_false, if_neg fun h => this h.2]
      exact ih h.2

theorem hasF_eq (c : Nat) : ∀ ch : List (List (Nat × Nat × Unit)), ch.flatten.Pairwise (fun e e' => e.2.1 < e'.1) →
    hasF c ch = (lookup ch.flatten c).isSome := by
  intro ch
  induction ch with
  | nil => intro _; rfl
  | cons a r ih =>
    intro h
    rw [List.flatten_cons] at h
    have ih := ih (List.pairwise_append.1 h).2.1
    rw [hasF, List.flatten_cons]
    cases hs : startsNext c r with
    | false => rw [cond_false]; exact hasB_eq _ c _ ih a h
    | true =>
      rw [cond_true, ih, lookup_append, lookup_none a c]
      intro e he hc
      match r, hs with
      | ((lo, hi, u) :: b) :: r, hs =>
        rw [startsNext, ble_iff] at hs
        have := (List.pairwise_append.1 h).2.2 e he (lo, hi, u) (by simp)
        simp only [Covers] at hc this
        omega

theorem contains_eq (t : List (List (Nat × Nat × Unit))) (h : ascFrom 0 (entries (CharDataTable.ofRange t)) = true) (c : Nat) :
    (CharDataTable.ofRange t).containsVal c = hasF c t := by
  have hc := containsVal_eq_sf _ h c
  rw [← findVal_eq_sf _ h, findVal_eq_lookup _ (wellFormed_of_asc _ h), entries_ofRange] at hc
  rw [hc, hasF_eq]
  have := (ascFrom_spec _ 0 h).2.2
  rwa [entries_ofRange] at this

end Proofs.FastSet
