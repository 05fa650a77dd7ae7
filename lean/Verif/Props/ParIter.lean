import Verif.Model.ParIter
import Verif.Props.CharRange

/-! # C06 under every schedule -/
namespace Props.ParIter
open Model.CharRange Spec Props.CharRange Model.CharRange.CharRange

theorem parRun_eq (t : Schedule) : ∀ a n, parRun t a n = (List.range' a n).map parMap := by
  induction t with
  | run => intro a n; rfl
  | split k l r ihl ihr =>
    intro a n
    rw [parRun, ihl, ihr, ← List.map_append]
    congr 1
    have h := List.range'_append (s := a) (m := min k n) (n := n - min k n) (step := 1)
    rw [Nat.one_mul] at h
    rw [h]
    congr 1
    omega

/-- what is collected does not depend on the schedule -/
theorem parCollect_eq (t : Schedule) (r : CharRange) : parCollect t r = r.parIter := by
  simp only [parCollect, parRun_eq, CharRange.parIter]

/-- an empty range yields nothing in parallel -/
theorem parIter_empty (r : CharRange) (h : r.high < r.low) : r.parIter = [] := by
  simp only [CharRange.parIter, compactRange_def]
  rw [List.map_eq_nil_iff, List.range'_eq_nil_iff]
  split <;> omega

/-- **C06 (partial).** However rayon splits the work among its threads, the parallel iterator of a range that starts below the
surrogates, or is empty, yields the sequence of the sequential iterator. Missing: non-empty ranges that start at or above U+E000;
for all of these the claim is false (`c06_exact`). -/
theorem c06_schedules_partial (t : Schedule) (r : CharRange) (hv : ValidR r) (h : r.low ≤ 0xD7FF ∨ r.high < r.low) :
    parCollect t r = collect r.iter := by
  rw [parCollect_eq]
  by_cases he : r.high < r.low
  · rw [parIter_empty r he, (c01_iteration_exact r hv).1]
    symm
    rw [List.eq_nil_iff_forall_not_mem]
    intro x hx
    rw [mem_scalarsBetween] at hx
    omega
  · exact c06_par_iter_partial r hv (h.resolve_right he)

/-- The ranges for which C06 holds: exactly those that start below the surrogates or are empty. For the others every schedule
loses the first 2048 characters. -/
theorem c06_exact (t : Schedule) (r : CharRange) (hv : ValidR r) :
    parCollect t r = collect r.iter ↔ r.low ≤ 0xD7FF ∨ r.high < r.low := by
  refine ⟨fun h => ?_, c06_schedules_partial t r hv⟩
  refine Decidable.byContradiction fun hn => ?_
  rw [not_or] at hn
  have hl := hv.1
  rw [parCollect_eq, c06_par_iter_above_gap r hv (by simp only [IsScalar] at hl; omega) (by omega),
    (c01_iteration_exact r hv).1] at h
  have h1 : r.low ∈ scalarsBetween r.low r.high := by rw [mem_scalarsBetween]; exact ⟨by omega, by omega, hl⟩
  rw [← h, mem_scalarsBetween] at h1
  omega

/-- For every range and schedule the items are scalar values of the range, in ascending order (so the
unchecked conversion to `char` is never given a surrogate or a number above U+10FFFF), and their number is what `len` reports. -/
theorem c06_items_valid (t : Schedule) (r : CharRange) (hv : ValidR r) :
    (∀ c ∈ parCollect t r, IsScalar c ∧ r.low ≤ c ∧ c ≤ r.high) ∧ (parCollect t r).Pairwise (· < ·) ∧
      (parCollect t r).length = parLen r := by
  have hlen : (parCollect t r).length = parLen r := by
    rw [parCollect, parRun_eq, List.length_map, List.length_range', parLen]
  refine ⟨?_, ?_, hlen⟩
  all_goals
    rw [parCollect_eq]
    by_cases he : r.high < r.low
    · rw [parIter_empty r he]; simp
    · by_cases hl : r.low ≤ 0xD7FF
      · rw [c06_par_iter_partial r hv hl, (c01_iteration_exact r hv).1]
        first
        | exact sorted_scalarsBetween _ _
        | (intro c hc; rw [mem_scalarsBetween] at hc; exact ⟨hc.2.2, hc.1, hc.2.1⟩)
      · have h0 := hv.1
        rw [c06_par_iter_above_gap r hv (by simp only [IsScalar] at h0; omega) (by omega)]
        first
        | exact sorted_scalarsBetween _ _
        | (intro c hc; rw [mem_scalarsBetween] at hc; exact ⟨hc.2.2, by omega, hc.2.1⟩)

/-- A schedule with three tasks on a range across the surrogates. -/
example : parCollect (.split 2 .run (.split 1 .run .run)) ⟨0xD7FD, 0xE001⟩ = [0xD7FD, 0xD7FE, 0xD7FF, 0xE000, 0xE001] := by decide
example : ValidR ⟨0xD7FD, 0xE001⟩ := by simp [ValidR, IsScalar]
/-- a range above the surrogates: the first 2048 characters are lost -/
example : parCollect .run ⟨0xE000, 0xE801⟩ = [0xE800, 0xE801] := by decide

end Props.ParIter
