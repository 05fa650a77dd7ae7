import Verif.Model.Hex

namespace Proofs.Hex
open Model.Hex

theorem toDigit_def (c : Nat) : toDigit c = if 48 ≤ c ∧ c ≤ 57 then some (c - 48)
  else if 65 ≤ c ∧ c ≤ 70 then some (c - 55)
  else if 97 ≤ c ∧ c ≤ 102 then some (c - 87)
  else none := rfl

theorem digitChar_lt {d : Nat} (h : d < 16) :
    (48 ≤ digitChar d ∧ digitChar d ≤ 57) ∨ (65 ≤ digitChar d ∧ digitChar d ≤ 70) := by
  unfold digitChar; split <;> omega

theorem toDigit_digitChar {d : Nat} (h : d < 16) : toDigit (digitChar d) = some d := by
  revert d; decide

/-- the value of a digit sequence appended to an accumulator -/
def val (acc : Nat) (ds : List Nat) : Nat := ds.foldl (fun a c => a * 16 + (toDigit c).getD 0) acc

theorem val_append (acc : Nat) (a b : List Nat) : val acc (a ++ b) = val (val acc a) b := by
  simp [val, List.foldl_append]

theorem val_mono (acc : Nat) (ds : List Nat) : acc ≤ val acc ds := by
  induction ds generalizing acc with
  | nil => exact Nat.le_refl _
  | cons d ds ih =>
    have := ih (acc * 16 + (toDigit d).getD 0)
    simp only [val, List.foldl_cons] at this ⊢
    omega

theorem parseLoop_eq (max acc : Nat) (ds : List Nat) (hd : ∀ c ∈ ds, (toDigit c).isSome) (hm : val acc ds ≤ max) :
    parseLoop max acc ds = some (val acc ds) := by
  induction ds generalizing acc with
  | nil => rfl
  | cons d ds ih =>
    obtain ⟨v, hv⟩ := Option.isSome_iff_exists.1 (hd d (by simp))
    have h1 : val acc (d :: ds) = val (acc * 16 + v) ds := by simp [val, hv]
    rw [h1] at hm ⊢
    have := val_mono (acc * 16 + v) ds
    rw [parseLoop, hv]
    simp only
    rw [if_pos (by omega)]
    exact ih _ (fun c hc => hd c (by simp [hc])) hm

theorem digits_ok (fuel n : Nat) (h : n ≤ fuel) :
    (∀ c ∈ digits fuel n, (48 ≤ c ∧ c ≤ 57) ∨ (65 ≤ c ∧ c ≤ 70)) ∧ val 0 (digits fuel n) = n ∧ digits fuel n ≠ [] := by
  induction fuel generalizing n with
  | zero =>
    obtain rfl : n = 0 := by omega
    decide
  | succ fuel ih =>
    rw [digits]
    split
    · rename_i h'
      refine ⟨?_, ?_, by simp⟩
      · simp only [List.mem_singleton, forall_eq]; exact digitChar_lt h'
      · simp [val, toDigit_digitChar h']
    · rename_i h'
      obtain ⟨h1, h2, h3⟩ := ih (n / 16) (by omega)
      refine ⟨?_, ?_, by simp⟩
      · intro c hc
        rcases List.mem_append.1 hc with hc | hc
        · exact h1 c hc
        · rw [List.mem_singleton.1 hc]; exact digitChar_lt (Nat.mod_lt _ (by omega))
      · rw [val_append, h2]
        simp only [val, List.foldl_cons, List.foldl_nil, toDigit_digitChar (Nat.mod_lt n (by omega : 0 < 16)), Option.getD_some]
        omega

theorem val_replicate (k : Nat) : val 0 (List.replicate k 48) = 0 := by
  induction k with
  | zero => rfl
  | succ k ih => rw [List.replicate_succ]; simpa [val, toDigit_def] using ih

theorem fmt_ok (w n : Nat) : (∀ c ∈ fmt w n, (48 ≤ c ∧ c ≤ 57) ∨ (65 ≤ c ∧ c ≤ 70)) ∧ val 0 (fmt w n) = n ∧ fmt w n ≠ [] := by
  obtain ⟨h1, h2, h3⟩ := digits_ok n n (Nat.le_refl _)
  refine ⟨?_, ?_, ?_⟩
  · intro c hc
    simp only [fmt, List.mem_append, List.mem_replicate] at hc
    rcases hc with hc | hc
    · omega
    · exact h1 c hc
  · simp only [fmt]
    rw [val_append, val_replicate, h2]
  · simp [fmt, h3]

theorem digit_some {c : Nat} (h : (48 ≤ c ∧ c ≤ 57) ∨ (65 ≤ c ∧ c ≤ 70)) : (toDigit c).isSome = true := by
  rw [toDigit_def]
  by_cases h1 : 48 ≤ c ∧ c ≤ 57
  · rw [if_pos h1]; rfl
  · rw [if_neg h1, if_pos (by omega)]; rfl

theorem parse_fmt (max w n : Nat) (h : n ≤ max) : fromStrRadix16 max (fmt w n) = some n := by
  obtain ⟨h1, h2, h3⟩ := fmt_ok w n
  cases hf : fmt w n with
  | nil => exact absurd hf h3
  | cons c cs =>
    have hc : c ≠ 43 := by have := h1 c (by simp [hf]); omega
    simp only [fromStrRadix16, if_neg hc]
    rw [← hf, parseLoop_eq max 0 _ (fun c hc => digit_some (h1 c hc)) (by omega), h2]

/-- the number of digits: bounds by powers of 16 -/
theorem digits_length (fuel n : Nat) (h : n ≤ fuel) :
    n < 16 ^ (digits fuel n).length ∧ (n ≠ 0 → 16 ^ ((digits fuel n).length - 1) ≤ n) ∧ (n = 0 → (digits fuel n).length = 1) := by
  induction fuel generalizing n with
  | zero => obtain rfl : n = 0 := by omega
            decide
  | succ fuel ih =>
    rw [digits]
    split
    · rename_i h'
      exact ⟨h', fun h => Nat.pos_of_ne_zero h, fun _ => rfl⟩
    · rename_i h'
      obtain ⟨h1, h2, h3⟩ := ih (n / 16) (by omega)
      have hpos : 0 < (digits fuel (n / 16)).length := List.length_pos_iff.2 (digits_ok fuel (n / 16) (by omega)).2.2
      rw [List.length_append, List.length_singleton]
      refine ⟨?_, ?_, by omega⟩
      · rw [Nat.pow_succ]; omega
      · intro _
        obtain ⟨m, hm⟩ : ∃ m, (digits fuel (n / 16)).length = m + 1 := ⟨_, (Nat.succ_pred_eq_of_pos hpos).symm⟩
        have := h2 (by omega)
        rw [hm] at this ⊢
        simp only [Nat.add_sub_cancel] at this ⊢
        rw [Nat.pow_succ]
        omega

end Proofs.Hex
