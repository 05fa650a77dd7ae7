import Verif.Proofs.Gen

/-! # Property C10: generated tables -/
namespace Props.Gen
open Spec Spec.TableText Model Model.Gen Proofs.Gen

section
variable {V : Type} [DecidableEq V]

/-- the table of some rows answers as the map does -/
theorem find_rows (display : V → List Nat) (t : CharDataTable (List Nat)) (es : List (Nat × Nat × V)) (m : List (Nat × V))
    (ht : entries t = es.map fun e => (e.1, e.2.1, display e.2.2)) (h1 : ∀ e ∈ es, e.1 ≤ e.2.1) (h2 : es.Pairwise (fun e e' => e.2.1 < e'.1))
    (h3 : ∀ c v, (∃ e ∈ es, Covers e c ∧ e.2.2 = v) ↔ (c, v) ∈ m) :
    WellFormed t ∧ (∀ c v, (c, v) ∈ m → t.find c = .ok (some (display v))) ∧ (∀ c, (∀ v, (c, v) ∉ m) → t.find c = .ok none) := by
  have hw : WellFormed t := by
    rw [WellFormed, ht]
    refine ⟨?_, ?_⟩
    · intro e he
      obtain ⟨e', he', rfl⟩ := List.mem_map.1 he
      exact h1 e' he'
    · rw [List.pairwise_map]
      exact h2
  refine ⟨hw, ?_, ?_⟩
  · intro c v hm
    obtain ⟨e, he, hc, rfl⟩ := (h3 c v).2 hm
    obtain ⟨o, ho, h4, -⟩ := Props.Tables.c08_find t hw c
    rw [ho, (h4 (display e.2.2)).2 ⟨_, by rw [ht]; exact List.mem_map.2 ⟨e, he, rfl⟩, hc, rfl⟩]
  · intro c hm
    obtain ⟨o, ho, h4, -⟩ := Props.Tables.c08_find t hw c
    cases o with
    | none => exact ho
    | some x =>
      obtain ⟨e, he, hc, _⟩ := (h4 x).1 rfl
      rw [ht] at he
      obtain ⟨e', he', rfl⟩ := List.mem_map.1 he
      exact absurd ((h3 c e'.2.2).1 ⟨e', he', hc, rfl⟩) (hm _)

/-- the rows `to_range_char_table` writes -/
def rowsOf : List (Nat × V) → List (Nat × Nat × V)
  | [] => []
  | (low, value) :: r => rows r low low value

theorem range_text (display : V → List Nat) (m : List (Nat × V)) (hm : m.Pairwise fun a b => a.1 < b.1) :
    toRangeCharTable display m = .ok (str "CharDataTable::Range(&[\n" ++ ((rowsOf m).flatMap (rowText display) ++ str "])")) := by
  cases m with
  | nil => rfl
  | cons e r =>
    obtain ⟨low, value⟩ := e
    rw [List.pairwise_cons] at hm
    obtain ⟨o, l, h, v, e1, e2⟩ := rangeLoop_rows display r (str "CharDataTable::Range(&[\n") low low value hm.2 hm.1
    rw [toRangeCharTable, e1]
    simp only [Outcome.map, e2, List.append_assoc, rowsOf]

theorem rowsOf_covers (m : List (Nat × V)) (hm : m.Pairwise fun a b => a.1 < b.1) (c : Nat) (v : V) :
    (∃ e ∈ rowsOf m, Covers e c ∧ e.2.2 = v) ↔ (c, v) ∈ m := by
  cases m with
  | nil => simp [rowsOf]
  | cons e r =>
    obtain ⟨low, value⟩ := e
    rw [List.pairwise_cons] at hm
    rw [rowsOf, rows_covers r low low value (Nat.le_refl _) hm.2 hm.1]
    simp only [List.mem_cons, Prod.mk.injEq]
    constructor
    · rintro (⟨h1, h2, rfl⟩ | h)
      · exact .inl ⟨by omega, rfl⟩
      · exact .inr h
    · rintro (⟨rfl, rfl⟩ | h)
      · exact .inl ⟨Nat.le_refl _, Nat.le_refl _, rfl⟩
      · exact .inr h

theorem rowsOf_asc (m : List (Nat × V)) (hm : m.Pairwise fun a b => a.1 < b.1) : (∀ e ∈ rowsOf m, e.1 ≤ e.2.1) ∧ (rowsOf m).Pairwise (fun e e' => e.2.1 < e'.1) ∧
    (rowsOf m).IsChain (fun e e' => e.2.1 + 1 = e'.1 → e.2.2 ≠ e'.2.2) := by
  cases m with
  | nil => simp [rowsOf]
  | cons e r =>
    obtain ⟨low, value⟩ := e
    rw [List.pairwise_cons] at hm
    obtain ⟨h1, h2, h3, _⟩ := rows_asc r low low value (Nat.le_refl _) hm.2 hm.1
    exact ⟨fun e he => (h1 e he).1, h2, h3⟩

theorem rowsOf_line (display : V → List Nat) (m : List (Nat × V)) (hd : ∀ e ∈ m, 10 ∉ display e.2) (hm : m.Pairwise fun a b => a.1 < b.1) :
    ∀ e ∈ rowsOf m, 10 ∉ display e.2.2 := by
  intro e he
  have h1 := (rowsOf_asc m hm).1 e he
  exact hd (e.1, e.2.2) ((rowsOf_covers m hm e.1 e.2.2).1 ⟨e, he, ⟨Nat.le_refl _, h1⟩, rfl⟩)

/-- **C10.** For every map `m` (entries by ascending character) and every way of writing its values on one line: `to_range_char_table` does not assert, its text is
the source of a well formed table, and looking a character up in that table gives the text of its value, or nothing if the map has no value for it. -/
theorem c10_range (display : V → List Nat) (m : List (Nat × V)) (hd : ∀ e ∈ m, 10 ∉ display e.2) (hm : m.Pairwise fun a b => a.1 < b.1) :
    ∃ s t, toRangeCharTable display m = .ok s ∧ readTable s = some t ∧ WellFormed t ∧
      (∀ c v, (c, v) ∈ m → t.find c = .ok (some (display v))) ∧ (∀ c, (∀ v, (c, v) ∉ m) → t.find c = .ok none) := by
  obtain ⟨h1, h2, _⟩ := rowsOf_asc m hm
  exact ⟨_, _, range_text display m hm, readTable_range display (rowsOf m) (rowsOf_line display m hd hm),
    find_rows display _ (rowsOf m) m (by simp [entries, List.map_map, Function.comp_def]) h1 h2 (rowsOf_covers m hm)⟩

/-- **C10.** Ranges are as long as possible: neighbouring entries without a gap have different values, if different values are written differently. -/
theorem c10_range_maximal (display : V → List Nat) (hi : Function.Injective display) (m : List (Nat × V)) (hd : ∀ e ∈ m, 10 ∉ display e.2) (hm : m.Pairwise fun a b => a.1 < b.1) :
    ∃ s l, toRangeCharTable display m = .ok s ∧ readTable s = some (.range l) ∧ l.IsChain (fun e e' => e.1.high + 1 = e'.1.low → e.2 ≠ e'.2) := by
  obtain ⟨_, _, h3⟩ := rowsOf_asc m hm
  refine ⟨_, _, range_text display m hm, readTable_range display (rowsOf m) (rowsOf_line display m hd hm), ?_⟩
  rw [List.isChain_map]
  exact h3.imp fun a b h h' hv => h h' (hi hv)

/-- **C10.** The same for `to_direct_char_table`; the entries of the table are those of the map. -/
theorem c10_direct (display : V → List Nat) (m : List (Nat × V)) (hd : ∀ e ∈ m, 10 ∉ display e.2) (hm : m.Pairwise fun a b => a.1 < b.1) :
    ∃ t, readTable (toDirectCharTable display m) = some t ∧ WellFormed t ∧
      (∀ c v, (c, v) ∈ m → t.find c = .ok (some (display v))) ∧ (∀ c, (∀ v, (c, v) ∉ m) → t.find c = .ok none) := by
  refine ⟨_, ?_, find_rows display (.direct (m.map fun e => (e.1, display e.2))) (m.map fun e => (e.1, e.1, e.2)) m
    (by simp [entries, List.map_map, Function.comp_def]) ?_ ?_ ?_⟩
  · rw [toDirectCharTable, directLoop_lines, List.append_assoc, readTable_direct display _ hd]
  · intro e he
    obtain ⟨e', _, rfl⟩ := List.mem_map.1 he
    exact Nat.le_refl _
  · rw [List.pairwise_map]
    exact hm
  · intro c v
    constructor
    · rintro ⟨e, he, ⟨h1, h2⟩, rfl⟩
      obtain ⟨e', he', rfl⟩ := List.mem_map.1 he
      simp only at h1 h2
      obtain rfl : e'.1 = c := by omega
      exact he'
    · intro h
      exact ⟨_, List.mem_map.2 ⟨_, h, rfl⟩, ⟨Nat.le_refl _, Nat.le_refl _⟩, rfl⟩
end

/-- a set is written as a map to `()` -/
theorem setLoop_eq : ∀ (r out : List Nat) (low high : Nat), setLoop r out low high =
    (rangeLoop (fun _ : Unit => str "()") (r.map fun c => (c, ())) out low high ()).map fun (o, l, h, _) => (o, l, h)
  | [], _, _, _ => rfl
  | c :: r, out, low, high => by
    have e : ∀ o l h, appendSetEntry o l h = appendEntry (fun _ : Unit => str "()") o l h () := by
      intro o l h
      have e3 : str "'), ()),\n" = str "'), " ++ (str "()" ++ str "),\n") := rfl
      rw [appendSetEntry, appendEntry, e3]
      simp only [List.append_assoc]
    rw [setLoop, List.map_cons, rangeLoop]
    simp only [ne_eq, not_true_eq_false, false_or, e]
    split_ifs
    · exact setLoop_eq r _ _ _
    · exact setLoop_eq r _ _ _
    · rfl

theorem set_eq (s : List Nat) : toRangeCharSet s = toRangeCharTable (fun _ : Unit => str "()") (s.map fun c => (c, ())) := by
  cases s with
  | nil => rfl
  | cons low r =>
    have e : ∀ o l h, appendSetEntry o l h = appendEntry (fun _ : Unit => str "()") o l h () := by
      intro o l h
      have e3 : str "'), ()),\n" = str "'), " ++ (str "()" ++ str "),\n") := rfl
      rw [appendSetEntry, appendEntry, e3]
      simp only [List.append_assoc]
    rw [toRangeCharSet, List.map_cons, toRangeCharTable, setLoop_eq]
    cases rangeLoop (fun _ : Unit => str "()") (r.map fun c => (c, ())) (str "CharDataTable::Range(&[\n") low low () with
    | panic => rfl
    | ok x => simp only [Outcome.map, e]

/-- **C10.** For every set of characters: `to_range_char_set` does not assert and its text is the source of a well formed table that contains exactly the set;
neighbouring ranges have a gap between them. -/
theorem c10_set (m : List Nat) (hm : m.Pairwise (· < ·)) :
    ∃ s l, toRangeCharSet m = .ok s ∧ readTable s = some (.range l) ∧ WellFormed (.range l) ∧ (∀ c, CharDataTable.contains (.range l) c = .ok (decide (c ∈ m))) ∧
      l.IsChain (fun e e' => e.1.high + 1 < e'.1.low) := by
  have hd : ∀ v : Unit, 10 ∉ (fun _ : Unit => str "()") v := fun _ => by
    have : 10 ∉ str "()" := by decide
    exact this
  have hp : (m.map fun c => (c, ())).Pairwise fun a b => a.1 < b.1 := by
    rw [List.pairwise_map]
    exact hm
  obtain ⟨h1, h2, h3⟩ := rowsOf_asc _ hp
  obtain ⟨hw, h4, h5⟩ := find_rows (fun _ : Unit => str "()") (.range ((rowsOf (m.map fun c => (c, ()))).map fun e => (⟨e.1, e.2.1⟩, str "()"))) (rowsOf (m.map fun c => (c, ())))
    (m.map fun c => (c, ())) (by simp [entries, List.map_map, Function.comp_def]) h1 h2 (rowsOf_covers _ hp)
  refine ⟨_, _, (set_eq m).trans (range_text _ _ hp), readTable_range _ _ (fun e _ => hd e.2.2), hw, ?_, ?_⟩
  · intro c
    obtain ⟨b, hb, hc⟩ := Props.Tables.c08_contains _ hw c
    rw [hb, Outcome.ok.injEq, Bool.eq_iff_iff, hc, decide_eq_true_eq]
    have h6 := rowsOf_covers _ hp c ()
    simp only [entries, List.map_map, List.mem_map, Function.comp_apply, exists_exists_and_eq_and]
    simp only [List.mem_map, Prod.mk.injEq, and_true, exists_eq_right] at h6
    exact h6
  · rw [List.isChain_map]
    have h6 := h2.isChain
    rw [List.isChain_iff_getElem] at h3 h6 ⊢
    intro i hi
    have h7 := h3 i hi
    have h8 := h6 i hi
    simp only [ne_eq, not_true_eq_false, imp_false] at h7
    simp only
    omega

/-- Two ranges of a map with three values, and what is read back. -/
example : (∃ s, toRangeCharTable (fun v : Nat => [v]) [(0x61, 65), (0x62, 65), (0x63, 66), (0x78, 66)] = .ok s ∧
    (readTable s).isSome = true) ∧ [(0x61, 65), (0x62, 65), (0x63, 66), (0x78, 66)].Pairwise (fun a b : Nat × Nat => a.1 < b.1) := by
  refine ⟨⟨_, rfl, ?_⟩, by decide⟩
  decide +kernel

/-- the text of the unit test of the source -/
example : toRangeCharSet [0x61, 0x62, 0x63, 0x64, 0x65, 0x66, 0x78, 0x79, 0x7A] =
    .ok (str "CharDataTable::Range(&[\n    (chars!('\\u{61}'..='\\u{66}'), ()),\n    (chars!('\\u{78}'..='\\u{7a}'), ()),\n])") := by decide +kernel

end Props.Gen
