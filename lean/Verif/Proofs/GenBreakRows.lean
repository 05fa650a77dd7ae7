import Verif.Proofs.GenBreakTests

/-! # Proofs about the rows and the table written from break tests -/
namespace Proofs.GenBreakRows
open Spec Spec.UcdFile Spec.TestFile Model Model.Regex Model.Gen Model.GenSource Model.GenUcdWriter Model.GenTests
open Proofs.Regex Proofs.GenSource Proofs.GenFiles Proofs.GenIdna Proofs.GenNames Proofs.Gen Proofs.GenTests Proofs.GenBreakTests

/-! ## The parts of a text -/

theorem pieces_cut (a : List Nat) (x : Nat) (rest : List (Nat × Bool)) : pieces (a.map (fun c => (c, false)) ++ (x, true) :: rest) = (a ++ [x]) :: pieces rest := by
  induction a with
  | nil => rfl
  | cons c a ih => rw [List.map_cons, List.cons_append, pieces, ih]; rfl

theorem pieces_ne {l : List (Nat × Bool)} (h : l ≠ []) : pieces l ≠ [] := by
  cases l with
  | nil => exact absurd rfl h
  | cons e l =>
    obtain ⟨c, b⟩ := e
    rw [pieces]
    split
    · simp
    · split <;> simp

/-- the parts written up to now, each with a comma after it -/
def partsText (ps : List (List Nat)) : List Nat := ps.flatMap fun p => charsEscape p ++ str ", "

theorem joinStrings_append (ps : List (List Nat)) (p : List Nat) : joinStrings (ps ++ [p]) = partsText ps ++ charsEscape p := by
  induction ps with
  | nil => rfl
  | cons q ps ih =>
    have : joinStrings (q :: (ps ++ [p])) = charsEscape q ++ str ", " ++ joinStrings (ps ++ [p]) := by
      cases ps <;> simp [joinStrings, UcdNames.joinWith]
    rw [List.cons_append, this, ih]
    simp [partsText]

theorem clusterLoop_ok (chars : List Nat) (cut : Nat → Bool → Outcome Bool) : ∀ (bs : List Bool) (i : Nat) (ds : List Bool) (cs a : List Nat) (x : Nat) (ps : List (List Nat)),
    chars.drop (i + 1) = cs → bs.length = cs.length → ds.length = cs.length → (∀ j b d, bs[j]? = some b → ds[j]? = some d → cut (i + j) b = .ok d) →
    ∃ qs q, clusterLoop chars cut bs i (partsText ps) (a ++ [x]) = .ok (partsText (ps ++ qs), q) ∧ qs ++ [q] = pieces (a.map (fun c => (c, false)) ++ (x :: cs).zip (ds ++ [true]))
  | [], i, ds, cs, a, x, ps, h1, h2, h3, h4 => by
    have hc : cs = [] := List.length_eq_zero_iff.1 h2.symm
    subst hc
    have hd : ds = [] := List.length_eq_zero_iff.1 h3
    subst hd
    exact ⟨[], a ++ [x], by simp [clusterLoop], by rw [List.nil_append, List.nil_append, List.zip_cons_cons, List.zip_nil_left, pieces_cut]; rfl⟩
  | b :: bs, i, ds, cs, a, x, ps, h1, h2, h3, h4 => by
    cases cs with
    | nil => cases h2
    | cons c cs =>
      cases ds with
      | nil => cases h3
      | cons d ds =>
        have hcut := h4 0 b d rfl rfl
        have hget : chars[i + 1]? = some c := by
          have := congrArg (·[0]?) h1
          simpa using this
        have hdrop : chars.drop (i + 1 + 1) = cs := by
          have := congrArg (List.drop 1) h1
          simpa [Nat.add_comm] using this
        have hrest : ∀ j b d, bs[j]? = some b → ds[j]? = some d → cut (i + 1 + j) b = .ok d := by
          intro j b' d' hb hd
          have := h4 (j + 1) b' d' (by simpa using hb) (by simpa using hd)
          rwa [show i + (j + 1) = i + 1 + j by omega] at this
        rw [clusterLoop, Nat.add_zero] at *
        rw [hcut, hget]
        simp only [bind_ok, unwrap]
        cases d with
        | true =>
          obtain ⟨qs, q, e1, e2⟩ := clusterLoop_ok chars cut bs (i + 1) ds cs [] c (ps ++ [a ++ [x]]) hdrop (by simpa using h2) (by simpa using h3) hrest
          refine ⟨(a ++ [x]) :: qs, q, ?_, ?_⟩
          · rw [if_pos rfl]
            have : partsText ps ++ (charsEscape (a ++ [x]) ++ str ", ") = partsText (ps ++ [a ++ [x]]) := by simp [partsText]
            rw [this]
            simpa using e1
          · rw [List.cons_append (a := true), List.zip_cons_cons, pieces_cut, List.cons_append, e2]
            rfl
        | false =>
          obtain ⟨qs, q, e1, e2⟩ := clusterLoop_ok chars cut bs (i + 1) ds cs (a ++ [x]) c ps hdrop (by simpa using h2) (by simpa using h3) hrest
          refine ⟨qs, q, ?_, ?_⟩
          · rw [if_neg (by simp)]
            exact e1
          · rw [e2]
            simp

theorem clusters_ok (items : List BreakItem) (cut : Nat → Bool → Outcome Bool) (d : BreakItem → Bool) (hne : items ≠ []) (hlast : ∀ i, items.getLast? = some i → d i = true)
    (hcut : ∀ j i, items.dropLast[j]? = some i → cut j i.boundary = .ok (d i)) :
    clusters (items.map fun i => hexValue i.code) (items.dropLast.map BreakItem.boundary) cut = .ok (joinStrings (pieces (items.map fun i => (hexValue i.code, d i)))) := by
  cases items with
  | nil => exact absurd rfl hne
  | cons i0 items =>
    obtain ⟨qs, q, e1, e2⟩ := clusterLoop_ok ((i0 :: items).map fun i => hexValue i.code) cut ((i0 :: items).dropLast.map BreakItem.boundary) 0 ((i0 :: items).dropLast.map d)
      (items.map fun i => hexValue i.code) [] (hexValue i0.code) [] (by simp) (by simp) (by simp) (by
        intro j b d' hb hd
        rw [List.getElem?_map] at hb hd
        cases hj : (i0 :: items).dropLast[j]? with
        | none =>
          rw [hj] at hb
          cases hb
        | some i =>
          rw [hj] at hb hd
          cases hb
          cases hd
          rw [Nat.zero_add]
          exact hcut j i hj)
    have hz : ((i0 :: items).map fun i => hexValue i.code).zip (((i0 :: items).dropLast.map d) ++ [true]) = (i0 :: items).map fun i => (hexValue i.code, d i) := by
      obtain ⟨init, l, hl⟩ : ∃ init l, i0 :: items = init ++ [l] := ⟨(i0 :: items).dropLast, (i0 :: items).getLast (by simp), (List.dropLast_append_getLast _).symm⟩
      have : d l = true := hlast l (by rw [hl]; simp)
      rw [hl, List.dropLast_concat]
      simp only [List.map_append, List.map_cons, List.map_nil]
      rw [List.zip_append (by simp), List.zip_map']
      simp [this]
    have e0 : (List.map (fun i : BreakItem => hexValue i.code) (i0 :: items))[0]? = some (hexValue i0.code) := rfl
    rw [clusters, e0]
    simp only [bind_ok, unwrap]
    have e1' : clusterLoop (List.map (fun i => hexValue i.code) (i0 :: items)) cut (List.map BreakItem.boundary (i0 :: items).dropLast) 0 [] [hexValue i0.code] = .ok (partsText ([] ++ qs), q) := e1
    rw [e1']
    simp only [bind_ok, pure_ok, List.nil_append]
    rw [← joinStrings_append, e2, List.map_nil, List.nil_append]
    have : hexValue i0.code :: items.map (fun i => hexValue i.code) = (i0 :: items).map fun i => hexValue i.code := rfl
    rw [this, hz]

theorem row_ne {r : BreakRow} (hr : r.Ok) : r.items ≠ [] := by
  obtain ⟨i, hi, _⟩ := hr.last
  intro e
  rw [e] at hi
  cases hi

theorem row_last {r : BreakRow} (hr : r.Ok) : ∀ i, r.items.getLast? = some i → i.boundary = true := by
  obtain ⟨i, hi, hb⟩ := hr.last
  intro j hj
  rw [hi] at hj
  cases hj
  exact hb

theorem parts_ok (r : BreakRow) (hr : r.Ok) : clusters (testOf r).chars (testOf r).breaks (fun _ b => .ok b) = .ok (joinStrings r.parts) :=
  clusters_ok r.items _ BreakItem.boundary (row_ne hr) (row_last hr) fun _ _ _ => rfl

theorem extended_iff (i : BreakItem) : legacyShouldBreak i.rule = decide (BreakRow.ExtendedOnly i) := by
  unfold legacyShouldBreak
  have e1 : str "9.1" = TableText.text "9.1" := rfl
  have e2 : str "9.2" = TableText.text "9.2" := rfl
  rw [e1, e2, Bool.eq_iff_iff, Bool.or_eq_true, beq_iff_eq, beq_iff_eq, decide_eq_true_iff]
  rfl

theorem legacyText_ok (r : BreakRow) (hr : r.Ok) : legacyText (testOf r) = .ok (match r.legacy with
    | none => str "None"
    | some l => str "Some(&[" ++ joinStrings l ++ str "])") := by
  have hany : (testOf r).rules.any legacyShouldBreak = decide (∃ i ∈ r.items.dropLast, BreakRow.ExtendedOnly i) := by
    rw [Bool.eq_iff_iff, decide_eq_true_iff, List.any_eq_true]
    constructor
    · rintro ⟨x, hx, hb⟩
      obtain ⟨i, hi, rfl⟩ := List.mem_map.1 hx
      rw [extended_iff, decide_eq_true_iff] at hb
      exact ⟨i, hi, hb⟩
    · rintro ⟨i, hi, hb⟩
      exact ⟨i.rule, List.mem_map.2 ⟨i, hi, rfl⟩, by rw [extended_iff, decide_eq_true_iff]; exact hb⟩
  rw [legacyText, hany]
  unfold BreakRow.legacy
  by_cases h : ∃ i ∈ r.items.dropLast, BreakRow.ExtendedOnly i
  · rw [if_pos (decide_eq_true h), if_pos h]
    have := clusters_ok r.items (legacyCut (testOf r).rules) (fun i => i.boundary || decide (BreakRow.ExtendedOnly i)) (row_ne hr)
      (fun i hi => by rw [row_last hr i hi]; rfl) (fun j i hj => by
        rw [legacyCut]
        cases hb : i.boundary with
        | true => rfl
        | false =>
          have : (testOf r).rules[j]? = some i.rule := by
            rw [testOf, List.getElem?_map, hj]
            rfl
          rw [if_neg (by simp), this, Bool.false_or, ← extended_iff]
          rfl)
    have e : clusters (testOf r).chars (testOf r).breaks (legacyCut (testOf r).rules) = _ := this
    rw [e]
    rfl
  · rw [if_neg (by simpa using h), if_neg h]

/-! ## Rows -/

theorem row_of_test {ls : List (Line BreakRow)} (hf : BreakFileOk ls) {r : BreakRow} (h : r ∈ testsOf ls) : r.Ok ∧ r.IsTest := by
  rw [testsOf, List.mem_filter] at h
  refine ⟨?_, by simpa using h.2⟩
  obtain ⟨l, hl, hr⟩ := List.mem_filterMap.1 h.1
  cases l with
  | row r' =>
    cases hr
    exact hf (.row r) hl
  | other t => cases hr

theorem parts_ne {r : BreakRow} (hr : r.Ok) : r.parts ≠ [] := pieces_ne (by simpa using row_ne hr)

/-- the text of the third column -/
def legacyColumn (r : BreakRow) : List Nat := match r.legacy with
  | none => str "None"
  | some l => str "Some(&[" ++ joinStrings l ++ str "])"

/-- the line of a test -/
def graphemeLine (r : BreakRow) : List Nat :=
  str "    (" ++ (charsEscape r.chars ++ (str ", " ++ (str "&[" ++ (joinStrings r.parts ++ (str "]" ++ (str ", " ++ (legacyColumn r ++ str "),")))))))

theorem graphemeRow_ok (r : BreakRow) (hr : r.Ok) : graphemeRow (testOf r) = .ok (graphemeLine r ++ [10]) := by
  rw [graphemeRow, parts_ok r hr, legacyText_ok r hr]
  simp only [bind_ok, pure_ok]
  congr 1
  unfold graphemeLine legacyColumn
  simp [testOf, str]

theorem readGrapheme_ok (r : BreakRow) (hr : r.Ok) : readGrapheme (graphemeLine r) = some (r.chars, r.parts, r.legacy) := by
  rw [readGrapheme, graphemeLine, show str "    (" = TableText.text "    (" from rfl, after_append]
  simp only [Option.bind_eq_bind, Option.bind_some]
  rw [readString_ok]
  simp only [Option.bind_some]
  rw [show str ", " = TableText.text ", " from rfl, after_append]
  simp only [Option.bind_some]
  rw [readSlice_ok _ (parts_ne hr)]
  simp only [Option.bind_some]
  rw [after_append]
  simp only [Option.bind_some]
  unfold legacyColumn
  cases h : r.legacy with
  | none =>
    have e : str "None" ++ str ")," = TableText.text "None)," := rfl
    simp only [e, if_true]
    rfl
  | some l =>
    have hl : l ≠ [] := by
      unfold BreakRow.legacy at h
      split at h
      · cases h
        exact pieces_ne (by simpa using row_ne hr)
      · cases h
    have e : str "Some(&[" ++ joinStrings l ++ str "])" ++ str ")," = TableText.text "Some(" ++ (str "&[" ++ (joinStrings l ++ (str "]" ++ str ")),"))) := by
      simp [str, TableText.text]
    simp only
    rw [e, after_append, if_neg]
    · simp only [Option.bind_some]
      rw [readSlice_ok _ hl]
      simp only [Option.bind_some]
      rw [show str "))," = TableText.text "))," from rfl, if_pos rfl]
      rfl
    · simp [TableText.text]

theorem legacy_line (r : BreakRow) : 10 ∉ legacyColumn r := by
  unfold legacyColumn
  split
  · decide
  · simp only [List.mem_append, not_or]
    exact ⟨⟨by decide, strings_line _⟩, by decide⟩

theorem grapheme_array (h : Classes w sp) (ls : List (Line BreakRow)) (hf : BreakFileOk ls) :
    ∃ s, graphemeTests w sp (fileText BreakRow.text ls) = .ok s ∧ readArray readGrapheme s = some ((testsOf ls).map fun r => (r.chars, r.parts, r.legacy)) := by
  have hm : mapAll graphemeRow ((testsOf ls).map testOf) = .ok ((testsOf ls).map fun r => graphemeLine r ++ [10]) :=
    mapAll_map _ _ _ _ fun r hr => graphemeRow_ok r (row_of_test hf hr).1
  refine ⟨_, ?_, readArray_ok graphemeLine readGrapheme _ (testsOf ls) fun r hr => ⟨readGrapheme_ok r (row_of_test hf hr).1, ?_⟩⟩
  · rw [graphemeTests, tests_ok h ls hf]
    simp only [bind_ok]
    rw [hm]
    rfl
  · simp only [graphemeLine, List.mem_append, not_or]
    exact ⟨by decide, escapes_line _, by decide, by decide, strings_line _, by decide, by decide, legacy_line r, by decide⟩

/-- the line of a test of words -/
def wordLine (r : BreakRow) : List Nat := str "    (" ++ (charsEscape r.chars ++ (str ", " ++ (str "&[" ++ (joinStrings r.parts ++ (str "]" ++ str "),")))))

theorem wordRow_ok (r : BreakRow) (hr : r.Ok) : wordRow (testOf r) = .ok (wordLine r ++ [10]) := by
  rw [wordRow, parts_ok r hr]
  simp only [bind_ok, pure_ok]
  congr 1
  unfold wordLine
  simp [testOf, str]

theorem readWord_ok (r : BreakRow) (hr : r.Ok) : readWord (wordLine r) = some (r.chars, r.parts) := by
  rw [readWord, wordLine, show str "    (" = TableText.text "    (" from rfl, after_append]
  simp only [Option.bind_eq_bind, Option.bind_some]
  rw [readString_ok]
  simp only [Option.bind_some]
  rw [show str ", " = TableText.text ", " from rfl, after_append]
  simp only [Option.bind_some]
  rw [readSlice_ok _ (parts_ne hr)]
  simp only [Option.bind_some]
  rw [show str ")," = TableText.text ")," from rfl, if_pos rfl]
  rfl

theorem word_array (h : Classes w sp) (ls : List (Line BreakRow)) (hf : BreakFileOk ls) :
    ∃ s, wordTests w sp (fileText BreakRow.text ls) = .ok s ∧ readArray readWord s = some ((testsOf ls).map fun r => (r.chars, r.parts)) := by
  have hm : mapAll wordRow ((testsOf ls).map testOf) = .ok ((testsOf ls).map fun r => wordLine r ++ [10]) :=
    mapAll_map _ _ _ _ fun r hr => wordRow_ok r (row_of_test hf hr).1
  refine ⟨_, ?_, readArray_ok wordLine readWord _ (testsOf ls) fun r hr => ⟨readWord_ok r (row_of_test hf hr).1, ?_⟩⟩
  · rw [wordTests, tests_ok h ls hf]
    simp only [bind_ok]
    rw [hm]
    rfl
  · simp only [wordLine, List.mem_append, not_or]
    exact ⟨by decide, escapes_line _, by decide, by decide, strings_line _, by decide, by decide⟩

/-! ## Values -/

/-- the characters of a test and their values -/
def pairs (r : BreakRow) : List (Nat × List Nat) := r.items.map fun i => (hexValue i.code, i.value)

/-- one character with its value -/
def valueStep (m : List (Nat × List Nat)) (e : Nat × List Nat) : Outcome (List (Nat × List Nat)) :=
  match find e.1 m with
  | some v => if v = e.2 then .ok m else .panic
  | none => .ok (put e.1 e.2 m)

theorem valueLoop_eq (gcbs : List (List Nat)) : ∀ (l : List (Nat × List Nat)) (i : Nat) (m : List (Nat × List Nat)), gcbs.drop i = l.map Prod.snd →
    valueLoop gcbs (l.map Prod.fst) i m = foldOutcome valueStep m l
  | [], _, _, _ => rfl
  | (c, v) :: l, i, m, h => by
    have hget : gcbs[i]? = some v := by
      have := congrArg (·[0]?) h
      simpa using this
    have hdrop : gcbs.drop (i + 1) = l.map Prod.snd := by
      have := congrArg (List.drop 1) h
      simpa [Nat.add_comm] using this
    rw [List.map_cons, valueLoop, hget, foldOutcome, valueStep]
    simp only [bind_ok, unwrap]
    cases find c m with
    | none => exact valueLoop_eq gcbs l (i + 1) _ hdrop
    | some v' =>
      simp only
      split
      · exact valueLoop_eq gcbs l (i + 1) _ hdrop
      · rfl

theorem fold_append {α σ : Type} (f : σ → α → Outcome σ) : ∀ (a b : List α) (s : σ), foldOutcome f s (a ++ b) = (foldOutcome f s a).bind fun s' => foldOutcome f s' b
  | [], _, _ => rfl
  | x :: a, b, s => by
    rw [List.cons_append, foldOutcome, foldOutcome]
    cases f s x with
    | panic => rfl
    | ok s' =>
      simp only [bind_ok']
      exact fold_append f a b s'

theorem fold_tests : ∀ (rs : List BreakRow) (m : List (Nat × List Nat)),
    foldOutcome (fun m t => valueLoop t.charGcbs t.chars 0 m) m (rs.map testOf) = foldOutcome valueStep m (rs.flatMap pairs)
  | [], _ => rfl
  | r :: rs, m => by
    have h1 : valueLoop (testOf r).charGcbs (testOf r).chars 0 m = foldOutcome valueStep m (pairs r) := by
      have : (testOf r).chars = (pairs r).map Prod.fst := by simp [testOf, pairs, BreakRow.chars]
      rw [this]
      exact valueLoop_eq _ _ 0 m (by simp [testOf, pairs])
    rw [List.map_cons, foldOutcome, h1, List.flatMap_cons, fold_append]
    congr 1
    funext m
    exact fold_tests rs m

/-- the map holds what has been seen -/
def Holds (m done : List (Nat × List Nat)) : Prop := Sorted m ∧ ∀ c v, find c m = some v ↔ (c, v) ∈ done

theorem values_fold : ∀ (l done m : List (Nat × List Nat)), Holds m done → (∃ m', foldOutcome valueStep m l = .ok m' ∧ Holds m' (done ++ l)) ∨
    (foldOutcome valueStep m l = .panic ∧ ∃ c v v', v ≠ v' ∧ (c, v) ∈ done ++ l ∧ (c, v') ∈ done ++ l)
  | [], done, m, h => .inl ⟨m, rfl, by simpa using h⟩
  | (c, v) :: l, done, m, h => by
    rw [foldOutcome, valueStep]
    have e : done ++ (c, v) :: l = (done ++ [(c, v)]) ++ l := by simp
    cases hf : find c m with
    | none =>
      simp only [bind_ok']
      rw [e]
      refine values_fold l (done ++ [(c, v)]) (put c v m) ⟨sorted_insert _ _ _ h.1, fun c' v' => ?_⟩
      rw [find_insert _ _ _ _ h.1]
      simp only [List.mem_append, List.mem_singleton, Prod.mk.injEq, ← h.2]
      by_cases hc : c' = c
      · subst hc
        rw [if_pos rfl, hf]
        simp [eq_comm]
      · rw [if_neg hc]
        simp [hc]
    | some v' =>
      simp only
      by_cases hv : v' = v
      · subst hv
        rw [if_pos rfl, bind_ok', e]
        refine values_fold l _ m ⟨h.1, fun c' v'' => ?_⟩
        rw [h.2, List.mem_append, List.mem_singleton]
        refine ⟨.inl, ?_⟩
        rintro (h' | h')
        · exact h'
        · cases h'
          exact (h.2 _ _).1 hf
      · rw [if_neg hv]
        exact .inr ⟨rfl, c, v, v', fun e => hv e.symm, by simp, by simp [(h.2 _ _).1 hf]⟩

theorem holds_nil : Holds [] [] := ⟨by simp [Sorted], fun c v => by simp [find]⟩

theorem value_table (h : Classes w sp) (ls : List (Line BreakRow)) (hf : BreakFileOk ls)
    (hc : ∀ c v v', (c, v) ∈ (testsOf ls).flatMap pairs → (c, v') ∈ (testsOf ls).flatMap pairs → v = v') :
    ∃ s t, valueTests w sp (fileText BreakRow.text ls) = .ok s ∧ TableText.readTable s = some t ∧ WellFormed t ∧ ∀ c, ∃ o, t.find c = .ok o ∧ ∀ v, o = some v ↔ (c, v) ∈ (testsOf ls).flatMap pairs := by
  rcases values_fold ((testsOf ls).flatMap pairs) [] [] holds_nil with ⟨m, h1, h2⟩ | ⟨_, c, v, v', h1, h2, h3⟩
  · rw [List.nil_append] at h2
    obtain ⟨t, h3, h4, h5⟩ := direct_find (fun v => v) m h2.1 (fun c v hv => by
      rw [h2.2, List.mem_flatMap] at hv
      obtain ⟨r, hr, hv⟩ := hv
      obtain ⟨i, hi, e⟩ := List.mem_map.1 hv
      cases e
      intro h10
      exact absurd (((row_of_test hf hr).1.items i hi).value.2 10 h10) (by unfold UcdFile.IsWord; omega))
    refine ⟨_, t, ?_, h3, h4, fun c => ⟨_, h5 c, fun v => ?_⟩⟩
    · rw [valueTests, tests_ok h ls hf]
      simp only [bind_ok]
      rw [fold_tests, h1]
      rfl
    · rw [← h2.2]
      simp
  · exact absurd (hc c v v' (by simpa using h2) (by simpa using h3)) h1

theorem value_panic (h : Classes w sp) (ls : List (Line BreakRow)) (hf : BreakFileOk ls)
    (hc : ∃ c v v', v ≠ v' ∧ (c, v) ∈ (testsOf ls).flatMap pairs ∧ (c, v') ∈ (testsOf ls).flatMap pairs) : valueTests w sp (fileText BreakRow.text ls) = .panic := by
  rcases values_fold ((testsOf ls).flatMap pairs) [] [] holds_nil with ⟨m, h1, h2⟩ | ⟨h1, _⟩
  · obtain ⟨c, v, v', h3, h4, h5⟩ := hc
    rw [List.nil_append] at h2
    rw [← h2.2] at h4 h5
    rw [h4] at h5
    cases h5
    exact absurd rfl h3
  · rw [valueTests, tests_ok h ls hf]
    simp only [bind_ok]
    rw [fold_tests, h1]
    rfl

end Proofs.GenBreakRows
