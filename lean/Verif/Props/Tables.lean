import Verif.Proofs.Tables

/-! # Property C08: table lookup agrees with the table's meaning -/
namespace Props.Tables
open Spec Model Model.CharRange Proofs.Tables

/-- **C08 (find).** On a well-formed table of either form, `find` never panics; it returns `v`
exactly when some entry with value `v` covers the character, and nothing exactly when no entry
covers it. -/
theorem c08_find {V : Type} (t : CharDataTable V) (hw : WellFormed t) (c : Nat) :
    ∃ o, t.find c = .ok o ∧
      (∀ v, o = some v ↔ ∃ e ∈ entries t, Covers e c ∧ e.2.2 = v) ∧
      (o = none ↔ ∀ e ∈ entries t, ¬ Covers e c) := by
  rcases search_table t hw c with ⟨e, he, hc, hf, _⟩ | ⟨hn, hf, _⟩
  · refine ⟨_, hf, fun v => ?_, ?_⟩
    · simp only [Option.some.injEq]
      constructor
      · intro h; exact ⟨e, he, hc, h⟩
      · rintro ⟨e', he', hc', rfl⟩
        rw [covers_unique hw.2 he he' hc hc']
    · simp only [reduceCtorEq, false_iff]
      intro h; exact h e he hc
  · refine ⟨_, hf, fun v => ?_, ?_⟩
    · simp only [reduceCtorEq, false_iff]
      rintro ⟨e', he', hc', _⟩
      exact hn e' he' hc'
    · simpa using hn

/-- **C08 (contains).** `contains` never panics and is true exactly when some entry covers. -/
theorem c08_contains {V : Type} (t : CharDataTable V) (hw : WellFormed t) (c : Nat) :
    ∃ b, t.contains c = .ok b ∧ (b = true ↔ ∃ e ∈ entries t, Covers e c) := by
  rcases search_table t hw c with ⟨e, he, hc, _, hf⟩ | ⟨hn, _, hf⟩
  · exact ⟨true, hf, by simp only [true_iff]; exact ⟨e, he, hc⟩⟩
  · refine ⟨false, hf, ?_⟩
    simp only [Bool.false_eq_true, false_iff]
    rintro ⟨e, he, hc⟩
    exact hn e he hc

/-- **C08 (find_or_default).** The covering value, or the default when nothing covers. -/
theorem c08_find_or_default {V : Type} (t : CharDataTable V) (hw : WellFormed t) (d : V) (c : Nat) :
    ∃ v, t.findOrDefault d c = .ok v ∧
      ((∃ e ∈ entries t, Covers e c ∧ e.2.2 = v) ∨ ((∀ e ∈ entries t, ¬ Covers e c) ∧ v = d)) := by
  rcases search_table t hw c with ⟨e, he, hc, hf, _⟩ | ⟨hn, hf, _⟩
  · exact ⟨e.2.2, by simp [CharDataTable.findOrDefault, hf, Outcome.map], .inl ⟨e, he, hc, rfl⟩⟩
  · exact ⟨d, by simp [CharDataTable.findOrDefault, hf, Outcome.map], .inr ⟨hn, rfl⟩⟩

/-- **C08 (find_with_range).** On a range table, the whole covering entry; on a direct table nothing. -/
theorem c08_find_with_range {V : Type} (l : List (CharRange × V)) (hw : WellFormed (.range l)) (c : Nat) :
    ∃ o, (CharDataTable.range l).findWithRange c = .ok o ∧
      (∀ e, o = some e ↔ e ∈ l ∧ e.1.contains c = true) ∧
      (∀ (d : List (Nat × V)), (CharDataTable.direct d).findWithRange c = .ok none) := by
  obtain ⟨h1, h2⟩ := hw
  have h2' := h2
  simp only [entries, List.mem_map, forall_exists_index, and_imp, forall_apply_eq_imp_iff₂,
    List.pairwise_map] at h1 h2
  have hcon : ∀ e : CharRange × V, e.1.contains c = true ↔ e.1.low ≤ c ∧ c ≤ e.1.high := by
    intro e; simp [CharRange.contains]
  rcases search_intervals l (·.1.low) (·.1.high) (CharDataTable.cmpRange c) c
      (fun e he => cmpRange_eq c e (h1 e he)) h1 h2 with ⟨i, hi, hb, hc⟩ | ⟨hb, hn⟩
  · refine ⟨some l[i], by simp [CharDataTable.findWithRange, hb, CharDataTable.pick, List.getElem?_eq_getElem hi],
      fun e => ?_, fun _ => rfl⟩
    simp only [Option.some.injEq, hcon]
    constructor
    · rintro rfl; exact ⟨List.getElem_mem hi, hc⟩
    · rintro ⟨he, hc'⟩
      obtain ⟨j, hj, rfl⟩ := List.mem_iff_getElem.1 he
      have hp := List.pairwise_iff_getElem.1 h2
      rcases Nat.lt_trichotomy i j with h | h | h
      · have := hp i j hi hj h; omega
      · subst h; rfl
      · have := hp j i hj hi h; omega
  · refine ⟨none, by simp [CharDataTable.findWithRange, hb, CharDataTable.pick], fun e => ?_, fun _ => rfl⟩
    simp only [reduceCtorEq, false_iff, hcon]
    rintro ⟨he, hc⟩
    exact hn e he hc

theorem iterCollect_eq {V : Type} (t : CharDataTable V) : ∀ fuel idx, t.size ≤ idx + fuel →
    t.iterCollect (fuel + 1) idx = ((entries t).drop idx).map fun e => (⟨e.1, e.2.1⟩, e.2.2) := by
  intro fuel
  induction fuel with
  | zero =>
    intro idx h
    have h' : t.size ≤ idx := by omega
    have : (entries t).length ≤ idx := by cases t <;> simpa [entries, CharDataTable.size] using h'
    rw [List.drop_eq_nil_of_le this]
    unfold CharDataTable.iterCollect CharDataTable.iterNext
    cases t <;> simp_all [CharDataTable.size]
  | succ fuel ih =>
    intro idx h
    unfold CharDataTable.iterCollect
    by_cases hlt : idx < t.size
    · have hidx : idx < (entries t).length := by cases t <;> simpa [entries, CharDataTable.size] using hlt
      rw [List.drop_eq_getElem_cons hidx]
      have hn : t.iterNext idx = some ((⟨(entries t)[idx].1, (entries t)[idx].2.1⟩, (entries t)[idx].2.2), idx + 1) := by
        cases t with
        | direct l =>
          simp only [CharDataTable.size] at hlt
          simp [CharDataTable.iterNext, entries, hlt]
        | range l =>
          simp only [CharDataTable.size] at hlt
          simp [CharDataTable.iterNext, entries, hlt]
      rw [hn]
      simp only [List.map_cons]
      rw [ih (idx + 1) (by omega)]
    · have h' : t.size ≤ idx := by omega
      have : (entries t).length ≤ idx := by cases t <;> simpa [entries, CharDataTable.size] using h'
      rw [List.drop_eq_nil_of_le this]
      have : t.iterNext idx = none := by
        unfold CharDataTable.iterNext
        cases t <;> simp_all [CharDataTable.size]
      simp [this]

/-- **C08 (iter).** Iterating a table yields every entry once, in order, as a range with its value. -/
theorem c08_iter {V : Type} (t : CharDataTable V) :
    t.iter = (entries t).map fun e => (⟨e.1, e.2.1⟩, e.2.2) := by
  unfold CharDataTable.iter
  rw [iterCollect_eq t t.size 0 (by omega), List.drop_zero]

/-- Non-vacuity: a well-formed table of three ranges, with lookups at the edges of its entries. -/
example :
    let t : CharDataTable Nat := .range [(⟨3, 5⟩, 10), (⟨6, 6⟩, 20), (⟨9, 12⟩, 30)]
    WellFormed t ∧ t.find 5 = .ok (some 10) ∧ t.find 6 = .ok (some 20) ∧ t.find 8 = .ok none ∧
      t.find 12 = .ok (some 30) ∧ t.find 13 = .ok none := by
  refine ⟨⟨by simp [entries], by simp [entries]⟩, by decide, by decide, by decide, by decide, by decide⟩

/-- Well-formedness is needed: on an unsorted table the search can miss an entry. -/
example : (CharDataTable.direct [(5, 1), (3, 2), (1, 3)]).find 1 = .ok none := by decide

end Props.Tables
