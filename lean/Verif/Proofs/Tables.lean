import Verif.Spec.Table

/-! Lemmas about binary search on well-formed tables. -/
namespace Proofs.Tables
open Spec Model Model.CharRange

/-- Correctness of the search loop for a comparator that is total and monotone on the list. -/
theorem searchLoop_spec {E : Type} (l : List E) (f : E → Option Ordering) (g : E → Ordering)
    (hf : ∀ e ∈ l, f e = some (g e))
    (hlt : ∀ i j (hi : i < l.length) (hj : j < l.length), i < j → g l[j] = .lt → g l[i] = .lt)
    (hgt : ∀ i j (hi : i < l.length) (hj : j < l.length), i < j → g l[i] = .gt → g l[j] = .gt) :
    ∀ fuel left right, right ≤ l.length → right - left < fuel →
      (∀ i (hi : i < l.length), i < left → g l[i] = .lt) →
      (∀ i (hi : i < l.length), right ≤ i → g l[i] = .gt) →
      (∃ i, ∃ hi : i < l.length, searchLoop l f fuel left right = .ok (some i) ∧ g l[i] = .eq) ∨
      (searchLoop l f fuel left right = .ok none ∧ ∀ e ∈ l, g e ≠ .eq)
  | 0, left, right, _, h, _, _ => absurd h (by omega)
  | fuel + 1, left, right, hr, h, hl, hg => by
    unfold searchLoop
    by_cases hlr : left < right
    · simp only [hlr, ↓reduceIte]
      have hmid : left + (right - left) / 2 < l.length := by omega
      rw [List.getElem?_eq_getElem hmid]
      simp only [hf _ (List.getElem_mem hmid)]
      cases hgm : g l[left + (right - left) / 2] with
      | lt =>
        simp only
        apply searchLoop_spec l f g hf hlt hgt fuel _ right hr (by omega) _ hg
        intro i hi hil
        by_cases he : i = left + (right - left) / 2
        · subst he; exact hgm
        · exact hlt i _ hi hmid (by omega) hgm
      | gt =>
        simp only
        apply searchLoop_spec l f g hf hlt hgt fuel left _ (by omega) (by omega) hl _
        intro i hi hil
        by_cases he : i = left + (right - left) / 2
        · subst he; exact hgm
        · exact hgt _ i hmid hi (by omega) hgm
      | eq => exact .inl ⟨_, hmid, rfl, hgm⟩
    · simp only [hlr, ↓reduceIte]
      refine .inr ⟨by simp, fun e he => ?_⟩
      obtain ⟨i, hi, rfl⟩ := List.mem_iff_getElem.1 he
      by_cases h1 : i < left
      · rw [hl i hi h1]; decide
      · rw [hg i hi (by omega)]; decide

/-- Comparison of an interval with a character. -/
def cmpIv (lo hi c : Nat) : Ordering := if hi < c then .lt else if lo > c then .gt else .eq

theorem cmpIv_eq {lo hi c : Nat} : cmpIv lo hi c = .eq ↔ lo ≤ c ∧ c ≤ hi := by
  unfold cmpIv; split
  · simp; omega
  · split
    · simp; omega
    · simp; omega

theorem cmpIv_lt {lo hi c : Nat} : cmpIv lo hi c = .lt ↔ hi < c := by
  unfold cmpIv; split
  · simp; omega
  · split <;> simp <;> omega

theorem cmpIv_gt {lo hi c : Nat} (h : lo ≤ hi) : cmpIv lo hi c = .gt ↔ c < lo := by
  unfold cmpIv; split
  · simp; omega
  · split <;> simp <;> omega

/-- Search on a list whose elements denote ascending disjoint intervals. -/
theorem search_intervals {E : Type} (l : List E) (lo hi : E → Nat) (f : E → Option Ordering) (c : Nat)
    (hf : ∀ e ∈ l, f e = some (cmpIv (lo e) (hi e) c))
    (hne : ∀ e ∈ l, lo e ≤ hi e) (hs : l.Pairwise (fun e e' => hi e < lo e')) :
    (∃ i, ∃ h : i < l.length, binarySearchBy l f = .ok (some i) ∧ lo l[i] ≤ c ∧ c ≤ hi l[i]) ∨
    (binarySearchBy l f = .ok none ∧ ∀ e ∈ l, ¬ (lo e ≤ c ∧ c ≤ hi e)) := by
  have hp := List.pairwise_iff_getElem.1 hs
  have := searchLoop_spec l f (fun e => cmpIv (lo e) (hi e) c) hf ?_ ?_ (l.length + 1) 0 l.length
    (Nat.le_refl _) (by omega) (by intro i _ h; omega) (by intro i h1 h2; omega)
  · rcases this with ⟨i, h, h1, h2⟩ | ⟨h1, h2⟩
    · exact .inl ⟨i, h, h1, cmpIv_eq.1 h2⟩
    · exact .inr ⟨h1, fun e he hc => h2 e he (cmpIv_eq.2 hc)⟩
  · intro i j hi' hj hij h
    have h1 := hp i j hi' hj hij
    have h2 := hne _ (List.getElem_mem hj)
    have h3 := cmpIv_lt.1 h
    exact cmpIv_lt.2 (by omega)
  · intro i j hi' hj hij h
    have h1 := hp i j hi' hj hij
    have h2 := hne _ (List.getElem_mem hi')
    have h2' := hne _ (List.getElem_mem hj)
    have h3 := (cmpIv_gt h2).1 h
    exact (cmpIv_gt h2').2 (by omega)

theorem cmpKey_eq {V : Type} (c : Nat) (e : Nat × V) :
    CharDataTable.cmpKey c e = some (cmpIv e.1 e.1 c) := by
  simp only [CharDataTable.cmpKey, cmpIv, compare, compareOfLessAndEq]
  congr 1
  split
  · rfl
  · split <;> split <;> first | rfl | omega

theorem cmpRange_eq {V : Type} (c : Nat) (e : CharRange × V) (h : e.1.low ≤ e.1.high) :
    CharDataTable.cmpRange c e = some (cmpIv e.1.low e.1.high c) := by
  have hne : e.1.isEmpty = false := by simp [CharRange.isEmpty]; omega
  simp only [CharDataTable.cmpRange, CharRange.cmpChar, hne, cmpIv]
  by_cases h1 : e.1.high < c <;> by_cases h2 : e.1.low > c <;> simp [h1, h2]
  <;> omega

/-- Uniform statement of the search for both table forms. -/
theorem search_table {V : Type} (t : CharDataTable V) (hw : WellFormed t) (c : Nat) :
    (∃ e ∈ entries t, Covers e c ∧ t.find c = .ok (some e.2.2) ∧ t.contains c = .ok true) ∨
    ((∀ e ∈ entries t, ¬ Covers e c) ∧ t.find c = .ok none ∧ t.contains c = .ok false) := by
  cases t with
  | direct l =>
    obtain ⟨h1, h2⟩ := hw
    simp only [entries, List.mem_map, forall_exists_index, and_imp, forall_apply_eq_imp_iff₂,
      List.pairwise_map] at h1 h2
    rcases search_intervals l (·.1) (·.1) (CharDataTable.cmpKey c) c (fun e _ => cmpKey_eq c e)
      h1 h2 with ⟨i, hi, hb, hc⟩ | ⟨hb, hn⟩
    · refine .inl ⟨(l[i].1, l[i].1, l[i].2), ?_, hc, ?_, ?_⟩
      · simp only [entries, List.mem_map]
        exact ⟨_, List.getElem_mem hi, rfl⟩
      · simp [CharDataTable.find, hb, CharDataTable.pick, List.getElem?_eq_getElem hi]
      · simp [CharDataTable.contains, hb, Outcome.map]
    · refine .inr ⟨?_, ?_, ?_⟩
      · simp only [entries, List.mem_map, forall_exists_index, and_imp, forall_apply_eq_imp_iff₂, Covers]
        exact hn
      · simp [CharDataTable.find, hb, CharDataTable.pick]
      · simp [CharDataTable.contains, hb, Outcome.map]
  | range l =>
    obtain ⟨h1, h2⟩ := hw
    simp only [entries, List.mem_map, forall_exists_index, and_imp, forall_apply_eq_imp_iff₂,
      List.pairwise_map] at h1 h2
    rcases search_intervals l (·.1.low) (·.1.high) (CharDataTable.cmpRange c) c
      (fun e he => cmpRange_eq c e (h1 e he)) h1 h2 with ⟨i, hi, hb, hc⟩ | ⟨hb, hn⟩
    · refine .inl ⟨(l[i].1.low, l[i].1.high, l[i].2), ?_, hc, ?_, ?_⟩
      · simp only [entries, List.mem_map]
        exact ⟨_, List.getElem_mem hi, rfl⟩
      · simp [CharDataTable.find, hb, CharDataTable.pick, List.getElem?_eq_getElem hi]
      · simp [CharDataTable.contains, hb, Outcome.map]
    · refine .inr ⟨?_, ?_, ?_⟩
      · simp only [entries, List.mem_map, forall_exists_index, and_imp, forall_apply_eq_imp_iff₂, Covers]
        exact hn
      · simp [CharDataTable.find, hb, CharDataTable.pick]
      · simp [CharDataTable.contains, hb, Outcome.map]

/-- In a well-formed table at most one entry covers a character. -/
theorem covers_unique {V : Type} {es : List (Nat × Nat × V)}
    (hs : es.Pairwise (fun e e' => e.2.1 < e'.1)) {e e' : Nat × Nat × V} {c : Nat}
    (h1 : e ∈ es) (h2 : e' ∈ es) (hc : Covers e c) (hc' : Covers e' c) : e = e' := by
  obtain ⟨i, hi, rfl⟩ := List.mem_iff_getElem.1 h1
  obtain ⟨j, hj, rfl⟩ := List.mem_iff_getElem.1 h2
  have hp := List.pairwise_iff_getElem.1 hs
  simp only [Covers] at hc hc'
  rcases Nat.lt_trichotomy i j with h | h | h
  · have := hp i j hi hj h; omega
  · subst h; rfl
  · have := hp j i hj hi h; omega

end Proofs.Tables
