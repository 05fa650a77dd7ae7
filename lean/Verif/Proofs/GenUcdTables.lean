import Verif.Model.GenUcdWriter
import Verif.Proofs.GenUnicodeData
import Verif.Proofs.GenBinary

/-! # Proofs about the tables made from `UnicodeData.txt` -/
namespace Proofs.GenUcdTables
open Spec Spec.UnicodeData Model Model.Regex Model.Gen Model.GenSource Model.GenUnicodeData Model.GenUcdWriter Proofs.GenSource Proofs.GenFiles Proofs.GenBinary Proofs.GenUnicodeData

/-! ## Collecting entries -/

/-- what a file says about `c`, as an entry of the generator -/
def entryAt (items : List Item) (c : Nat) : Option Entry := (itemOf items c).map fun i => entry i.fields i.name c

theorem entryAt_character {items : List Item} {c : Nat} {e : Entry} (h : entryAt items c = some e) : e.character = c := by
  rw [entryAt, Option.map_eq_some_iff] at h
  obtain ⟨i, _, rfl⟩ := h
  rfl

theorem mem_entryAt (items : List Item) (h : FileOk items) (e : Entry) : e ∈ items.flatMap itemEntries ↔ entryAt items e.character = some e := entry_of items h _ e rfl

theorem collect_find {V : Type} (items : List Item) (h : FileOk items) (g : Entry → Option V) (c : Nat) :
    find c (collectMap ((items.flatMap itemEntries).filterMap fun e => (g e).map fun v => (e.character, v))) = (entryAt items c).bind g := by
  rw [collectMap, find_insertAll c _ _ List.Pairwise.nil]
  have hn : find c ([] : List (Nat × V)) = none := rfl
  rw [hn, Option.or_none]
  have hmem : ∀ x, x ∈ (((items.flatMap itemEntries).filterMap fun e => (g e).map fun v => (e.character, v)).filter fun e => decide (e.1 = c)) ↔
      x.1 = c ∧ (entryAt items c).bind g = some x.2 := by
    intro x
    obtain ⟨k, v⟩ := x
    simp only [List.mem_filter, List.mem_filterMap, Option.map_eq_some_iff, Prod.mk.injEq, decide_eq_true_eq, Option.bind_eq_some_iff]
    constructor
    · rintro ⟨⟨e, he, v', hg, rfl, rfl⟩, rfl⟩
      exact ⟨rfl, e, (mem_entryAt items h e).1 he, hg⟩
    · rintro ⟨rfl, e, he, hg⟩
      have hc := entryAt_character he
      exact ⟨⟨e, (mem_entryAt items h e).2 (by rw [hc]; exact he), v, hg, hc, rfl⟩, rfl⟩
  cases hl : (((items.flatMap itemEntries).filterMap fun e => (g e).map fun v => (e.character, v)).filter fun e => decide (e.1 = c)).getLast? with
  | some x =>
    rw [((hmem x).1 (List.mem_of_getLast? hl)).2]
    rfl
  | none =>
    rw [List.getLast?_eq_none_iff] at hl
    rw [hl] at hmem
    cases hb : (entryAt items c).bind g with
    | none => rfl
    | some v => exact absurd ((hmem (c, v)).2 ⟨rfl, hb⟩) (by simp)

theorem collect_sorted {V : Type} (l : List (Nat × V)) : Sorted (collectMap l) := sorted_insertAll _ _ List.Pairwise.nil

theorem collect_map_find {V : Type} (items : List Item) (h : FileOk items) (g : Entry → V) (c : Nat) :
    find c (collectMap ((items.flatMap itemEntries).map fun e => (e.character, g e))) = (entryAt items c).map g := by
  have := collect_find items h (fun e => some (g e)) c
  simp only [Option.map_some] at this
  rw [← List.filterMap_eq_map', this]
  cases entryAt items c <;> rfl

theorem collect_filter_find {V : Type} (items : List Item) (h : FileOk items) (p : Entry → Bool) (g : Entry → V) (c : Nat) :
    find c (collectMap (((items.flatMap itemEntries).filter p).map fun e => (e.character, g e))) = ((entryAt items c).filter p).map g := by
  have := collect_find items h (fun e => if p e then some (g e) else none) c
  have e : ((items.flatMap itemEntries).filterMap fun e => (if p e then some (g e) else none).map fun v => (e.character, v)) =
      ((items.flatMap itemEntries).filter p).map fun e => (e.character, g e) := by
    rw [← List.filterMap_eq_map', List.filterMap_filter]
    refine List.filterMap_congr fun x _ => ?_
    by_cases hp : p x = true <;> simp [hp]
  rw [← e, this]
  cases entryAt items c with
  | none => rfl
  | some x => by_cases hp : p x = true <;> simp [Option.filter, hp]

theorem mem_collectSet (items : List Item) (h : FileOk items) (p : Entry → Bool) (c : Nat) :
    c ∈ collectSet (((items.flatMap itemEntries).filter p).map (·.character)) ↔ ∃ e, entryAt items c = some e ∧ p e = true := by
  rw [collectSet, mem_extendSet]
  simp only [List.mem_map, List.mem_filter, List.not_mem_nil, or_false]
  constructor
  · rintro ⟨e, ⟨he, hp⟩, rfl⟩
    exact ⟨e, (mem_entryAt items h e).1 he, hp⟩
  · rintro ⟨e, he, hp⟩
    have hc := entryAt_character he
    exact ⟨e, ⟨(mem_entryAt items h e).2 (by rw [hc]; exact he), hp⟩, hc⟩

theorem sorted_collectSet (l : List Nat) : (collectSet l).Pairwise (· < ·) := sorted_extendSet _ _ List.Pairwise.nil

theorem item_fields_ok {items : List Item} (h : FileOk items) {c : Nat} {i : Item} (hi : itemOf items c = some i) : i.fields.Ok := by
  have hm := ((itemOf_eq_some items h.ascending (fun i hi => first_le_last i (h.ok i hi)) c i).1 hi).2.1
  have := h.ok i hm
  cases i with
  | single code name f => exact this.2.2.2.2
  | range first last label f => exact this.2.2.2.2.2

/-! ## Tables of values -/

theorem category_table (items : List Item) (h : FileOk items) : ∃ s t, generalCategory (UnicodeData.fileText items) = .ok s ∧ TableText.readTable s = some t ∧ WellFormed t ∧
    ∀ c, t.find c = .ok ((itemOf items c).map fun i => i.fields.category) := by
  rw [generalCategory, parse_ok items h.ok, bind_ok]
  have hf := fun c => collect_map_find items h (fun e => e.generalCategory) c
  obtain ⟨s, t, h1, h2, h3, h4⟩ := range_find (fun v : List Nat => v) _ (collect_sorted ((items.flatMap itemEntries).map fun e => (e.character, e.generalCategory))) (by
    intro c v hv
    rw [hf, entryAt, Option.map_map, Option.map_eq_some_iff] at hv
    obtain ⟨i, hi, rfl⟩ := hv
    exact (item_fields_ok h hi).category.2.2)
  refine ⟨s, t, h1, h2, h3, fun c => ?_⟩
  rw [h4, hf, entryAt]
  cases itemOf items c <;> rfl

theorem ccc_text (n : Nat) : TableText.text ("CanonicalCombiningClass(" ++ toString n ++ ")") = str "CanonicalCombiningClass(" ++ decFmt n n ++ str ")" := by
  have h : TableText.text (toString n) = decFmt n n := by
    rw [decFmt_eq n n (Nat.le_refl _), TableText.text, Nat.toString_eq_ofList_toDigits, String.toList_ofList]
  rw [← h]
  simp only [TableText.text, str, String.toList_append, List.map_append]

theorem ccc_table (items : List Item) (h : FileOk items) : ∃ s t, canonicalCombiningClass (UnicodeData.fileText items) = .ok s ∧ TableText.readTable s = some t ∧ WellFormed t ∧
    ∀ c, t.find c = .ok (((itemOf items c).filter fun i => UcdFile.decValue i.fields.combiningClass ≠ 0).map fun i =>
      TableText.text ("CanonicalCombiningClass(" ++ toString (UcdFile.decValue i.fields.combiningClass) ++ ")")) := by
  rw [canonicalCombiningClass, parse_ok items h.ok, bind_ok]
  have hf := fun c => collect_filter_find items h (fun x => x.canonicalCombiningClass ≠ 0) (fun e => e.canonicalCombiningClass) c
  obtain ⟨s, t, h1, h2, h3, h4⟩ := range_find (fun v => str "CanonicalCombiningClass(" ++ decFmt v v ++ str ")") _
    (collect_sorted (((items.flatMap itemEntries).filter fun x => x.canonicalCombiningClass ≠ 0).map fun e => (e.character, e.canonicalCombiningClass))) (by
    intro c v _
    simp only [List.mem_append, not_or]
    exact ⟨⟨by decide, decFmt_line _ _⟩, by decide⟩)
  refine ⟨s, t, h1, h2, h3, fun c => ?_⟩
  rw [h4, hf, entryAt]
  cases itemOf items c with
  | none => rfl
  | some i =>
    simp only [Option.map_some, Option.filter, entry]
    by_cases hz : UcdFile.decValue i.fields.combiningClass = 0
    · simp [hz]
    · simp only [ne_eq, hz, not_false_eq_true, decide_true, if_true, Option.map_some, ccc_text]

/-! ## Defaults of the bidi class -/

theorem sorted_orInsert {V : Type} (k : Nat) (v : V) (m : List (Nat × V)) (h : Sorted m) : Sorted (orInsert k v m) := by
  rw [orInsert]
  split
  · exact h
  · exact sorted_insert k v m h

theorem find_orInsert {V : Type} (c k : Nat) (v : V) (m : List (Nat × V)) (h : Sorted m) : find c (orInsert k v m) = (find c m).or (if k = c then some v else none) := by
  rw [orInsert]
  cases hk : find k m with
  | some x =>
    simp only
    by_cases hc : k = c
    · subst hc
      rw [hk]
      rfl
    · rw [if_neg hc, Option.or_none]
  | none =>
    simp only
    rw [find_insert c k v m h]
    by_cases hc : k = c
    · subst hc
      simp [hk]
    · simp [hc, Ne.symm hc]

theorem orInsert_points {V : Type} (v : V) (c : Nat) : ∀ (l : List Nat) (m : List (Nat × V)), Sorted m → Sorted (l.foldl (fun m c => orInsert c v m) m) ∧
    find c (l.foldl (fun m c => orInsert c v m) m) = (find c m).or (if c ∈ l then some v else none)
  | [], m, h => ⟨h, by simp⟩
  | k :: l, m, h => by
    obtain ⟨h1, h2⟩ := orInsert_points v c l (orInsert k v m) (sorted_orInsert k v m h)
    refine ⟨h1, ?_⟩
    rw [List.foldl_cons, h2, find_orInsert c k v m h, Option.or_assoc]
    congr 1
    by_cases hc : k = c
    · subst hc; simp
    · simp [hc, Ne.symm hc]

theorem defaults_fold (c : Nat) : ∀ (ds : List (Nat × Nat × String)) (m : List (Nat × List Nat)), Sorted m →
    Sorted (ds.foldl (fun m d => (points d.1 d.2.1).foldl (fun m c => orInsert c (str d.2.2) m) m) m) ∧
    find c (ds.foldl (fun m d => (points d.1 d.2.1).foldl (fun m c => orInsert c (str d.2.2) m) m) m) =
      (find c m).or ((ds.find? fun d => decide (IsScalar c ∧ d.1 ≤ c ∧ c ≤ d.2.1)).map fun d => str d.2.2)
  | [], m, h => ⟨h, by simp⟩
  | d :: ds, m, h => by
    obtain ⟨h1, h2⟩ := orInsert_points (str d.2.2) c (points d.1 d.2.1) m h
    obtain ⟨h3, h4⟩ := defaults_fold c ds _ h1
    refine ⟨h3, ?_⟩
    rw [List.foldl_cons, h4, h2, Option.or_assoc]
    congr 1
    rw [List.find?_cons]
    by_cases hc : IsScalar c ∧ d.1 ≤ c ∧ c ≤ d.2.1
    · rw [if_pos ((mem_points _ _ _).2 hc)]
      simp [hc]
    · rw [if_neg fun h' => hc ((mem_points _ _ _).1 h')]
      simp [hc]

theorem defaults_spec (c : Nat) (hc : IsScalar c) : ((bidiClassDefaults.find? fun d => decide (IsScalar c ∧ d.1 ≤ c ∧ c ≤ d.2.1)).map fun d => str d.2.2) = defaultBidiClass c := by
  have hm : ∀ d ∈ bidiClassDefaults, d.1 ≤ c → c ≤ d.2.1 → defaultBidiClass c = some (str d.2.2) := by
    intro d hd h1 h2
    simp only [bidiClassDefaults, List.mem_cons, List.not_mem_nil, or_false] at hd
    simp only [defaultBidiClass, List.any_cons, List.any_nil, Bool.or_false, Bool.or_eq_true, decide_eq_true_eq]
    rcases hd with rfl | rfl | rfl | rfl | rfl | rfl | rfl | rfl | rfl | rfl | rfl | rfl | rfl <;> dsimp only at h1 h2
    all_goals first
      | rw [if_pos (by omega)]; rfl
      | rw [if_neg (by omega), if_pos (by omega)]; rfl
      | rw [if_neg (by omega), if_neg (by omega), if_pos (by omega)]; rfl
  cases hf : bidiClassDefaults.find? fun d => decide (IsScalar c ∧ d.1 ≤ c ∧ c ≤ d.2.1) with
  | some d =>
    have h1 := List.find?_some hf
    simp only [decide_eq_true_eq] at h1
    rw [hm d (List.mem_of_find?_eq_some hf) h1.2.1 h1.2.2]
    rfl
  | none =>
    rw [List.find?_eq_none] at hf
    simp only [hc, true_and, decide_eq_true_eq, bidiClassDefaults, List.forall_mem_cons, List.not_mem_nil, false_imp_iff, implies_true, and_true] at hf
    simp only [defaultBidiClass, List.any_cons, List.any_nil, Bool.or_false, Bool.or_eq_true, decide_eq_true_eq]
    rw [if_neg (by omega), if_neg (by omega), if_neg (by omega)]
    rfl

theorem default_line (c : Nat) (v : List Nat) (h : defaultBidiClass c = some v) : 10 ∉ v := by
  simp only [defaultBidiClass] at h
  split at h
  · cases h; decide
  · split at h
    · cases h; decide
    · split at h
      · cases h; decide
      · cases h

theorem bidi_table (items : List Item) (h : FileOk items) : ∃ s t, bidiClass (UnicodeData.fileText items) = .ok s ∧ TableText.readTable s = some t ∧ WellFormed t ∧
    ∀ c, t.find c = .ok (((itemOf items c).map fun i => i.fields.bidiClass).or (if IsScalar c then defaultBidiClass c else none)) := by
  rw [bidiClass, parse_ok items h.ok, bind_ok]
  have hf : ∀ c, find c (withDefaults (collectMap ((items.flatMap itemEntries).map fun e => (e.character, e.bidiClass)))) =
      ((itemOf items c).map fun i => i.fields.bidiClass).or (if IsScalar c then defaultBidiClass c else none) := by
    intro c
    rw [withDefaults, (defaults_fold c bidiClassDefaults _ (collect_sorted _)).2, collect_map_find items h, entryAt, Option.map_map]
    congr 1
    by_cases hc : IsScalar c
    · rw [defaults_spec c hc, if_pos hc]
    · simp [hc]
  have hs : Sorted (withDefaults (collectMap ((items.flatMap itemEntries).map fun e => (e.character, e.bidiClass)))) :=
    (defaults_fold 0 bidiClassDefaults _ (collect_sorted _)).1
  obtain ⟨s, t, h1, h2, h3, h4⟩ := range_find (fun v : List Nat => v) _ hs (by
    intro c v hv
    rw [hf] at hv
    cases hi : itemOf items c with
    | some i =>
      rw [hi, Option.map_some, Option.some_or, Option.some.injEq] at hv
      subst hv
      exact (item_fields_ok h hi).bidiClass.2.2
    | none =>
      rw [hi, Option.map_none, Option.none_or] at hv
      split at hv
      · exact default_line c v hv
      · cases hv)
  refine ⟨s, t, h1, h2, h3, fun c => ?_⟩
  rw [h4, hf, Option.map_id']

/-! ## Sets -/

theorem filter_set (items : List Item) (h : FileOk items) (p : Entry → Bool) (P : Item → Prop) (hp : ∀ i c, p (entry i.fields i.name c) = true ↔ P i)
    (w : List Nat → Outcome (List Nat))
    (hw : w (UnicodeData.fileText items) = (unicodeDataFromStr (UnicodeData.fileText items) >>= fun es => toRangeCharSet (collectSet ((es.filter p).map (·.character))))) :
    ∃ s t, w (UnicodeData.fileText items) = .ok s ∧ TableText.readTable s = some t ∧ WellFormed t ∧ ∀ c, ∃ b, t.contains c = .ok b ∧ (b = true ↔ ∃ i, itemOf items c = some i ∧ P i) := by
  obtain ⟨s, t, h1, h2, h3, h4⟩ := set_table (.ok (collectSet (((items.flatMap itemEntries).filter p).map (·.character)))) _ rfl (sorted_collectSet _)
  refine ⟨s, t, ?_, h2, h3, fun c => ⟨_, h4 c, ?_⟩⟩
  · rw [hw, parse_ok items h.ok, bind_ok]
    exact h1
  · rw [decide_eq_true_eq, mem_collectSet items h p c, entryAt]
    simp only [Option.map_eq_some_iff]
    constructor
    · rintro ⟨e, ⟨i, hi, rfl⟩, he⟩
      exact ⟨i, hi, (hp i c).1 he⟩
    · rintro ⟨i, hi, he⟩
      exact ⟨_, ⟨i, hi, rfl⟩, (hp i c).2 he⟩

theorem category_contains (cats : List String) (i : Item) (c : Nat) : (cats.map str).contains (entry i.fields i.name c).generalCategory = true ↔ ∃ k ∈ cats, i.fields.category = TableText.text k := by
  rw [List.contains_iff_mem, List.mem_map]
  exact ⟨fun ⟨k, h1, h2⟩ => ⟨k, h1, h2.symm⟩, fun ⟨k, h1, h2⟩ => ⟨k, h1, h2.symm⟩⟩

theorem alphanumeric_table (w sp : Nat → Bool) (items : List Item) (h : FileOk items) (ls : List (UcdFile.Line UcdFile.Row)) (hd : UcdFile.FileOk (UcdFile.PropertyRow UcdFile.derivedLabels) ls) :
    ∃ s t, alphanumeric w sp (UnicodeData.fileText items) (UcdFile.fileText UcdFile.Row.text ls) = .ok s ∧ TableText.readTable s = some t ∧ WellFormed t ∧
    ∀ c, ∃ b, t.contains c = .ok b ∧ (b = true ↔ (∃ i, itemOf items c = some i ∧ ∃ k ∈ ["Nd", "Nl", "No"], i.fields.category = TableText.text k) ∨
      UcdFile.HasProperty (UcdFile.rowsOf ls) "Alphabetic" c) := by
  rw [alphanumeric, parse_ok items h.ok, bind_ok, binary_fields w sp GenSource.derivedArms UcdFile.derivedLabels (by decide +kernel) ls hd, bind_ok]
  have hs : (withCategory ["Nd", "Nl", "No"] (items.flatMap itemEntries)).Pairwise (· < ·) := sorted_collectSet _
  obtain ⟨s, t, h1, h2, h3, h4⟩ := set_table (.ok (extendSet (withCategory ["Nd", "Nl", "No"] (items.flatMap itemEntries)) ((UcdFile.rowsOf ls).foldl (afterRow GenSource.derivedArms) (fun _ => []) "alphabetic"))) _ rfl
    (sorted_extendSet _ _ hs)
  refine ⟨s, t, h1, h2, h3, fun c => ⟨_, h4 c, ?_⟩⟩
  have hl : ∀ l ∈ UcdFile.derivedLabels, fieldOf GenSource.derivedArms (TableText.text l) = some "alphabetic" ↔ l = "Alphabetic" := by decide +kernel
  rw [decide_eq_true_eq, mem_extendSet, (mem_fields GenSource.derivedArms "alphabetic" c (UcdFile.rowsOf ls) (fun _ => []) List.Pairwise.nil).2, or_comm]
  refine or_congr ?_ ?_
  · rw [withCategory, mem_collectSet items h, entryAt]
    simp only [Option.map_eq_some_iff]
    constructor
    · rintro ⟨e, ⟨i, hi, rfl⟩, he⟩
      exact ⟨i, hi, (category_contains _ i c).1 he⟩
    · rintro ⟨i, hi, he⟩
      exact ⟨_, ⟨i, hi, rfl⟩, (category_contains _ i c).2 he⟩
  · rw [UcdFile.HasProperty]
    constructor
    · rintro (h | ⟨hc, r, hr, h1, h2⟩)
      · cases h
      · obtain ⟨_, _, _, l, hl1, hl2⟩ := rows_ok hd r hr
        rw [hl2] at h1
        have := (hl l hl1).1 h1
        subst this
        exact ⟨hc, r, hr, hl2, h2⟩
    · rintro ⟨hc, r, hr, h1, h2⟩
      refine .inr ⟨hc, r, hr, ?_, h2⟩
      rw [h1]
      exact (hl "Alphabetic" (by decide)).2 rfl

end Proofs.GenUcdTables
