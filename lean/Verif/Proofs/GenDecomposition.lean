import Verif.Proofs.GenUcdTables
import Verif.Proofs.GenExclusions

/-! # Proofs about the tables of decompositions and compositions -/
namespace Proofs.GenDecomposition
open Spec Spec.UnicodeData Model Model.Gen Model.GenSource Model.GenUnicodeData Model.GenUcdWriter Proofs.GenSource Proofs.GenFiles Proofs.GenBinary Proofs.GenUnicodeData Proofs.GenUcdTables

/-! ## Reading slices -/

theorem readChars_ok (stop : List Nat) (hs : stop.head? ≠ some 39) : ∀ (cs : List Nat) (n : Nat), cs.length < n → readChars stop n (charsText cs ++ stop) = some cs
  | [], n, h => by
    cases n with
    | zero => omega
    | succ n => rw [readChars, charsText, List.flatMap_nil, List.nil_append, if_pos rfl]
  | c :: cs, n, h => by
    cases n with
    | zero => omega
    | succ n =>
      have e : charsText (c :: cs) ++ stop = str "'" ++ (escapeUnicode c ++ (str "'" ++ (TableText.text "," ++ (charsText cs ++ stop)))) := by
        rw [charsText, List.flatMap_cons]
        simp only [List.append_assoc]
        rfl
      rw [e, readChars, if_neg, Proofs.Gen.readChar_escape]
      · simp only [Option.bind_eq_bind, Option.bind_some, Proofs.Gen.after_append, readChars_ok stop hs cs n (by simpa using h), pure]
      · intro h0
        rw [← h0] at hs
        exact hs rfl

theorem chars_length : ∀ cs : List Nat, cs.length ≤ (charsText cs).length
  | [] => by simp
  | c :: cs => by
    have := chars_length cs
    have e : charsText (c :: cs) = (str "'" ++ escapeUnicode c ++ str "',") ++ charsText cs := by
      rw [charsText, List.flatMap_cons]
      rfl
    rw [e, List.length_append, List.length_append]
    have : (str "',").length = 2 := by decide
    simp only [List.length_cons]
    omega

theorem chars_line (cs : List Nat) : 10 ∉ charsText cs := by
  rw [charsText, List.mem_flatMap]
  rintro ⟨c, _, h⟩
  simp only [List.mem_append] at h
  rcases h with (h | h) | h
  · exact absurd h (by decide)
  · exact Proofs.Gen.escape_line c h
  · exact absurd h (by decide)

theorem slice_ok (cs : List Nat) : readSlice (str "&[" ++ charsText cs ++ str "]") = some cs := by
  have e : str "&[" ++ charsText cs ++ str "]" = TableText.text "&[" ++ (charsText cs ++ TableText.text "]") := by
    rw [List.append_assoc]
    rfl
  rw [readSlice, e, Proofs.Gen.after_append]
  simp only [Option.bind_eq_bind, Option.bind_some]
  refine readChars_ok _ (by decide) cs _ ?_
  have := chars_length cs
  rw [List.length_append]
  omega

theorem typed_ok (name cs : List Nat) (hn : 44 ∉ name) : readTyped (str "(" ++ name ++ str ", &[" ++ charsText cs ++ str "])") = some (name, cs) := by
  have e : str "(" ++ name ++ str ", &[" ++ charsText cs ++ str "])" = TableText.text "(" ++ (name ++ 44 :: (TableText.text " &[" ++ (charsText cs ++ TableText.text "])"))) := by
    simp only [List.append_assoc]
    rfl
  obtain ⟨h1, h2⟩ := GenIdna.takeWhile_append_stop (· ≠ 44) name (TableText.text " &[" ++ (charsText cs ++ TableText.text "])")) (by
    intro c hc
    rw [decide_eq_true_eq]
    rintro rfl
    exact hn hc) 44 (by rfl)
  rw [readTyped, e, Proofs.Gen.after_append]
  simp only [Option.bind_eq_bind, Option.bind_some, h1, h2]
  have e2 : 44 :: (TableText.text " &[" ++ (charsText cs ++ TableText.text "])")) = TableText.text ", &[" ++ (charsText cs ++ TableText.text "])") := rfl
  rw [e2, Proofs.Gen.after_append]
  simp only [Option.bind_some]
  rw [readChars_ok _ (by decide) cs _ (by have := chars_length cs; rw [List.length_append]; omega)]
  rfl

/-! ## Decompositions -/

theorem decompositionMap_sorted (es : List Entry) : Sorted (decompositionMap es) := collect_sorted _

theorem decompositionMap_find (items : List Item) (h : FileOk items) (c : Nat) : find c (decompositionMap (items.flatMap itemEntries)) = canonicalOf items c := by
  have h1 := collect_find items h (fun x => match x.decompositionType, x.decompositionMapping with
    | none, some m => some m
    | _, _ => none) c
  have e : ((items.flatMap itemEntries).filterMap fun x => (match x.decompositionType, x.decompositionMapping with
      | none, some m => some m
      | _, _ => none).map fun v => (x.character, v)) = (items.flatMap itemEntries).filterMap fun x => match x.decompositionType, x.decompositionMapping with
      | none, some m => some (x.character, m)
      | _, _ => none := by
    refine List.filterMap_congr fun x _ => ?_
    cases x.decompositionType <;> cases x.decompositionMapping <;> rfl
  rw [e] at h1
  have h2 : find c (decompositionMap (items.flatMap itemEntries)) = _ := h1
  rw [h2, canonicalOf, entryAt]
  cases itemOf items c with
  | none => rfl
  | some i =>
    simp only [Option.map_some, Option.bind_some, entry]
    rcases i.fields.decomposition with _ | ⟨tag, ps⟩
    · rfl
    · cases tag <;> rfl

theorem canonical_table (items : List Item) (h : FileOk items) : ∃ s t, canonicalDecompositionMapping (UnicodeData.fileText items) = .ok s ∧ TableText.readTable s = some t ∧ WellFormed t ∧
    ∀ c, ∃ v, t.find c = .ok v ∧ v.map readSlice = (canonicalOf items c).map some := by
  rw [canonicalDecompositionMapping, parse_ok items h.ok, bind_ok]
  obtain ⟨t, h1, h2, h3⟩ := direct_find (fun raw => str "&[" ++ charsText raw ++ str "]") _ (decompositionMap_sorted (items.flatMap itemEntries)) (by
    intro c v _
    simp only [List.mem_append, not_or]
    exact ⟨⟨by decide, chars_line _⟩, by decide⟩)
  refine ⟨_, t, rfl, h1, h2, fun c => ⟨_, h3 c, ?_⟩⟩
  rw [decompositionMap_find items h, Option.map_map]
  cases canonicalOf items c with
  | none => rfl
  | some cs => simp only [Option.map_some, Function.comp_apply, slice_ok]

theorem tag_names : ∀ p ∈ compatibilityTags, capitalize (lowercase (TableText.text p.1)) = TableText.text p.2 ∧ 44 ∉ TableText.text p.2 ∧ 10 ∉ TableText.text p.2 := by decide +kernel

theorem compatibility_table (items : List Item) (h : FileOk items) (ht : ∀ c tag m, compatibilityOf items c = some (tag, m) → ∃ p ∈ compatibilityTags, tag = TableText.text p.1) :
    ∃ s t, compatibilityDecompositionMapping (UnicodeData.fileText items) = .ok s ∧ TableText.readTable s = some t ∧ WellFormed t ∧
    ∀ c, ∃ v, t.find c = .ok v ∧ (compatibilityOf items c = none → v = none) ∧
      ∀ p ∈ compatibilityTags, ∀ m, compatibilityOf items c = some (TableText.text p.1, m) → v.map readTyped = some (some (TableText.text p.2, m)) := by
  rw [compatibilityDecompositionMapping, parse_ok items h.ok, bind_ok]
  have h1 := collect_find items h (fun x => match x.decompositionType, x.decompositionMapping with
    | some t, some m => some (t, m)
    | _, _ => none)
  have e : ((items.flatMap itemEntries).filterMap fun x => (match x.decompositionType, x.decompositionMapping with
      | some t, some m => some (t, m)
      | _, _ => none).map fun v => (x.character, v)) = (items.flatMap itemEntries).filterMap fun x => match x.decompositionType, x.decompositionMapping with
      | some t, some m => some (x.character, (t, m))
      | _, _ => none := by
    refine List.filterMap_congr fun x _ => ?_
    cases x.decompositionType <;> cases x.decompositionMapping <;> rfl
  rw [e] at h1
  have hf : ∀ c, find c (collectMap ((items.flatMap itemEntries).filterMap fun x => match x.decompositionType, x.decompositionMapping with
      | some t, some m => some (x.character, (t, m))
      | _, _ => none)) = compatibilityOf items c := by
    intro c
    rw [h1, compatibilityOf, entryAt]
    cases itemOf items c with
    | none => rfl
    | some i =>
      simp only [Option.map_some, Option.bind_some, entry]
      rcases i.fields.decomposition with _ | ⟨tag, ps⟩
      · rfl
      · cases tag <;> rfl
  obtain ⟨t, h1, h2, h3⟩ := direct_find (fun v : List Nat × List Nat => str "(" ++ capitalize (lowercase v.1) ++ str ", &[" ++ charsText v.2 ++ str "])") _
      (collect_sorted ((items.flatMap itemEntries).filterMap fun x => match x.decompositionType, x.decompositionMapping with
      | some t, some m => some (x.character, (t, m))
      | _, _ => none)) (by
    intro c v hv
    rw [hf] at hv
    obtain ⟨p, hp, hp'⟩ := ht c v.1 v.2 hv
    obtain ⟨h1, _, h2⟩ := tag_names p hp
    simp only [List.mem_append, not_or, hp', h1]
    exact ⟨⟨⟨⟨by decide, h2⟩, by decide⟩, chars_line _⟩, by decide⟩)
  refine ⟨_, t, rfl, h1, h2, fun c => ⟨_, h3 c, ?_, ?_⟩⟩
  · intro hn
    rw [hf, hn]
    rfl
  · intro p hp m hm
    obtain ⟨h1, h2, _⟩ := tag_names p hp
    rw [hf, hm]
    simp only [Option.map_some, h1, typed_ok _ _ h2]

/-! ## Compositions -/

/-- the pairs made from the entries of the map of decompositions for a first character -/
def pairsOf (excl : List Nat) (a : Nat) (D : List (Nat × List Nat)) : List (Nat × Nat) := D.filterMap fun e => match e.2 with
  | [l, f] => if l = a ∧ excl.contains e.1 = false then some (f, e.1) else none
  | _ => none

theorem mem_pairsOf (excl : List Nat) (a : Nat) (D : List (Nat × List Nat)) (p : Nat × Nat) : p ∈ pairsOf excl a D ↔ (p.2, [a, p.1]) ∈ D ∧ p.2 ∉ excl := by
  rw [pairsOf, List.mem_filterMap]
  obtain ⟨b, c⟩ := p
  constructor
  · rintro ⟨⟨k, m⟩, he, h⟩
    simp only at h
    split at h
    · split at h
      · rename_i hc
        rw [Option.some.injEq, Prod.mk.injEq] at h
        obtain ⟨rfl, rfl⟩ := h
        obtain ⟨rfl, hx⟩ := hc
        exact ⟨he, fun hm => by rw [List.contains_iff_mem.2 hm] at hx; cases hx⟩
      · cases h
    · cases h
  · rintro ⟨h1, h2⟩
    refine ⟨_, h1, ?_⟩
    simp only
    rw [if_pos ⟨trivial, by rw [Bool.eq_false_iff, ne_eq, List.contains_iff_mem]; exact h2⟩]

theorem compose_fold (excl : List Nat) : ∀ (D : List (Nat × List Nat)) (m : List (Nat × List (Nat × Nat))), Sorted m → (∀ e ∈ D, e.2.length = 1 ∨ e.2.length = 2) → (∀ a, find a m ≠ some []) →
    ∃ m', foldOutcome (composeStep excl) m D = .ok m' ∧ Sorted m' ∧ (∀ a, find a m' ≠ some []) ∧ ∀ a, (find a m').getD [] = (find a m).getD [] ++ pairsOf excl a D
  | [], m, hm, _, h0 => ⟨m, rfl, hm, h0, fun a => by simp [pairsOf]⟩
  | (c, ds) :: D, m, hm, hD, h0 => by
    have hD' : ∀ e ∈ D, e.2.length = 1 ∨ e.2.length = 2 := fun e he => hD e (by simp [he])
    have skip : ∀ a, pairsOf excl a [(c, ds)] = [] → pairsOf excl a ((c, ds) :: D) = pairsOf excl a D := by
      intro a h
      have : pairsOf excl a ((c, ds) :: D) = pairsOf excl a [(c, ds)] ++ pairsOf excl a D := by
        rw [pairsOf, pairsOf, pairsOf, ← List.filterMap_append]
        rfl
      rw [this, h, List.nil_append]
    rcases hD (c, ds) (by simp) with h1 | h2
    · obtain ⟨m', e1, e2, e3, e4⟩ := compose_fold excl D m hm hD' h0
      refine ⟨m', ?_, e2, e3, fun a => ?_⟩
      · rw [foldOutcome, composeStep, if_pos h1]
        exact e1
      · rw [e4, skip a]
        match ds, h1 with
        | [x], _ => rfl
    · match ds, h2 with
      | [l, f], _ =>
        by_cases hx : excl.contains c = true
        · obtain ⟨m', e1, e2, e3, e4⟩ := compose_fold excl D m hm hD' h0
          refine ⟨m', ?_, e2, e3, fun a => ?_⟩
          · rw [foldOutcome, composeStep, if_neg (by simp)]
            simp only
            rw [if_pos hx]
            exact e1
          · rw [e4, skip a]
            simp only [pairsOf, List.filterMap_cons, List.filterMap_nil, hx]
            simp
        · rw [Bool.not_eq_true] at hx
          obtain ⟨m', e1, e2, e3, e4⟩ := compose_fold excl D (put l ((find l m).getD [] ++ [(f, c)]) m) (sorted_insert _ _ _ hm) hD' (by
            intro a
            rw [find_insert a _ _ m hm]
            split
            · simp
            · exact h0 a)
          refine ⟨m', ?_, e2, e3, fun a => ?_⟩
          · rw [foldOutcome, composeStep, if_neg (by simp)]
            simp only
            rw [if_neg (by simpa using hx)]
            exact e1
          · have e5 : pairsOf excl a ((c, [l, f]) :: D) = (if l = a then [(f, c)] else []) ++ pairsOf excl a D := by
              simp only [pairsOf, List.filterMap_cons, hx, and_true]
              split <;> rename_i h <;> split at h <;> simp_all
            rw [e4, e5, find_insert a _ _ m hm]
            by_cases hl : a = l
            · subst hl
              simp
            · rw [if_neg hl, if_neg (Ne.symm hl)]
              simp

/-- a mapping of three or more characters stops the generator -/
theorem compose_panic (excl : List Nat) (e : Nat × List Nat) (he : 3 ≤ e.2.length) : ∀ (D : List (Nat × List Nat)) (m : List (Nat × List (Nat × Nat))), e ∈ D →
    foldOutcome (composeStep excl) m D = .panic
  | x :: D, m, h => by
    rw [foldOutcome]
    rcases List.mem_cons.1 h with rfl | h
    · have : composeStep excl m e = .panic := by
        rw [composeStep, if_neg (by omega)]
        split
        · rename_i h2
          rw [h2] at he
          simp at he
        · rfl
      rw [this]
      rfl
    · cases composeStep excl m x with
      | ok m' => exact compose_panic excl e he D m' h
      | panic => rfl

/-! ## Sorting -/

theorem mem_insertByKey (e : Nat × Nat) : ∀ (l : List (Nat × Nat)) (x : Nat × Nat), x ∈ insertByKey e l ↔ x = e ∨ x ∈ l
  | [], x => by simp [insertByKey]
  | y :: l, x => by
    rw [insertByKey]
    split
    · simp
    · rw [List.mem_cons, mem_insertByKey e l x, List.mem_cons]
      tauto

theorem sorted_insertByKey (e : Nat × Nat) : ∀ (l : List (Nat × Nat)), Sorted l → (∀ x ∈ l, x.1 ≠ e.1) → Sorted (insertByKey e l)
  | [], _, _ => by simp [insertByKey, Sorted]
  | y :: l, h, hn => by
    obtain ⟨h1, h2⟩ := List.pairwise_cons.1 h
    have := hn y (by simp)
    rw [insertByKey]
    split
    · rename_i hlt
      refine List.pairwise_cons.2 ⟨?_, h⟩
      intro x hx
      rcases List.mem_cons.1 hx with rfl | hx
      · exact hlt
      · have := h1 x hx
        omega
    · refine List.pairwise_cons.2 ⟨?_, sorted_insertByKey e l h2 fun x hx => hn x (by simp [hx])⟩
      intro x hx
      rcases (mem_insertByKey e l x).1 hx with rfl | hx
      · omega
      · exact h1 x hx

theorem sort_ok : ∀ (l acc : List (Nat × Nat)), Sorted acc → (acc ++ l).Pairwise (fun x y => x.1 ≠ y.1) → Sorted (l.foldl (fun s e => insertByKey e s) acc) ∧
    ∀ x, x ∈ l.foldl (fun s e => insertByKey e s) acc ↔ x ∈ acc ∨ x ∈ l
  | [], acc, h, _ => ⟨h, by simp⟩
  | e :: l, acc, h, hd => by
    rw [List.pairwise_append] at hd
    obtain ⟨d1, d2, d3⟩ := hd
    rw [List.pairwise_cons] at d2
    obtain ⟨h1, h2⟩ := sort_ok l (insertByKey e acc) (sorted_insertByKey e acc h fun x hx => d3 x hx e (by simp)) (by
      rw [List.pairwise_append]
      refine ⟨?_, d2.2, ?_⟩
      · refine (sorted_insertByKey e acc h fun x hx => d3 x hx e (by simp)).imp fun h => Nat.ne_of_lt h
      · intro x hx y hy
        rcases (mem_insertByKey e acc x).1 hx with rfl | hx
        · exact d2.1 y hy
        · exact d3 x hx y (by simp [hy]))
    refine ⟨h1, fun x => ?_⟩
    rw [List.foldl_cons, h2, mem_insertByKey, List.mem_cons]
    tauto

/-! ## Inner tables -/

theorem readPairs_ok : ∀ (v : List (Nat × Nat)) (n : Nat), v.length < n →
    readPairs n ((v.flatMap fun p => str "('" ++ escapeUnicode p.1 ++ str "','" ++ escapeUnicode p.2 ++ str "'),") ++ TableText.text "])") = some v
  | [], n, h => by
    cases n with
    | zero => omega
    | succ n => rw [readPairs, List.flatMap_nil, List.nil_append, if_pos rfl]
  | (a, b) :: v, n, h => by
    cases n with
    | zero => omega
    | succ n =>
      have e : (((a, b) :: v).flatMap fun p => str "('" ++ escapeUnicode p.1 ++ str "','" ++ escapeUnicode p.2 ++ str "'),") ++ TableText.text "])" =
          TableText.text "(" ++ (str "'" ++ (escapeUnicode a ++ (str "'" ++ (TableText.text "," ++ (str "'" ++ (escapeUnicode b ++ (str "'" ++ (TableText.text ")," ++
            ((v.flatMap fun p => str "('" ++ escapeUnicode p.1 ++ str "','" ++ escapeUnicode p.2 ++ str "'),") ++ TableText.text "])"))))))))) := by
        rw [List.flatMap_cons]
        simp only [List.append_assoc]
        rfl
      rw [e, readPairs, if_neg, Proofs.Gen.after_append]
      · simp only [Option.bind_eq_bind, Option.bind_some, Proofs.Gen.readChar_escape, Proofs.Gen.after_append, readPairs_ok v n (by simpa using h), pure]
      · intro h0
        cases h0

theorem pairs_length : ∀ v : List (Nat × Nat), v.length ≤ (v.flatMap fun p => str "('" ++ escapeUnicode p.1 ++ str "','" ++ escapeUnicode p.2 ++ str "'),").length
  | [] => by simp
  | p :: v => by
    have := pairs_length v
    rw [List.flatMap_cons, List.length_append, List.length_append]
    have : (str "'),").length = 3 := by decide
    simp only [List.length_cons]
    omega

theorem inner_ok (v : List (Nat × Nat)) : readInner (pairsText v) = some (.direct v) := by
  have e : pairsText v = TableText.text "CharDataTable::Direct(&[" ++ ((v.flatMap fun p => str "('" ++ escapeUnicode p.1 ++ str "','" ++ escapeUnicode p.2 ++ str "'),") ++ TableText.text "])") := by
    rw [pairsText, List.append_assoc]
    rfl
  rw [readInner, e, Proofs.Gen.after_append]
  simp only [Option.bind_eq_bind, Option.bind_some]
  rw [readPairs_ok v _ (by have := pairs_length v; rw [List.length_append]; omega)]
  rfl

theorem pairs_line (v : List (Nat × Nat)) : 10 ∉ pairsText v := by
  rw [pairsText]
  simp only [List.mem_append, not_or, List.mem_flatMap]
  refine ⟨⟨by decide, ?_⟩, by decide⟩
  rintro ⟨p, _, ((((h | h) | h) | h) | h)⟩
  · exact absurd h (by decide)
  · exact Proofs.Gen.escape_line _ h
  · exact absurd h (by decide)
  · exact Proofs.Gen.escape_line _ h
  · exact absurd h (by decide)

theorem find_map {V W : Type} (f : V → W) (c : Nat) : ∀ (m : List (Nat × V)), find c (m.map fun e => (e.1, f e.2)) = (find c m).map f
  | [] => rfl
  | (k, v) :: m => by
    rw [List.map_cons, find_cons, find_cons, find_map f c m]
    split <;> rfl

/-- a direct table sorted by its keys -/
theorem direct_inner (v : List (Nat × Nat)) (hv : Sorted v) : WellFormed (.direct v) ∧ ∀ b, ∃ o, (CharDataTable.direct v).find b = .ok o ∧ ∀ c, o = some c ↔ (b, c) ∈ v := by
  have hw : WellFormed (.direct v) := by
    refine ⟨?_, ?_⟩
    · intro e he
      rw [entries, List.mem_map] at he
      obtain ⟨x, _, rfl⟩ := he
      exact Nat.le_refl _
    · rw [entries, List.pairwise_map]
      exact hv
  refine ⟨hw, fun b => ?_⟩
  obtain ⟨o, h1, h2, _⟩ := Props.Tables.c08_find (.direct v) hw b
  refine ⟨o, h1, fun c => ?_⟩
  rw [h2]
  simp only [entries, List.mem_map, Covers]
  constructor
  · rintro ⟨e, ⟨⟨k, x⟩, hx, rfl⟩, ⟨h3, h4⟩, rfl⟩
    have : k = b := by simp only at h3 h4; omega
    subst this
    exact hx
  · intro h
    exact ⟨_, ⟨(b, c), h, rfl⟩, ⟨Nat.le_refl _, Nat.le_refl _⟩, rfl⟩

theorem composition_table (items : List Item) (h : FileOk items) (ls : List (UcdFile.Line UcdFile.Row)) (hn : UcdFile.FileOk NormalizationRow ls)
    (h12 : ∀ c m, canonicalOf items c = some m → m.length = 1 ∨ m.length = 2)
    (hu : ∀ a b c c', Composes items (UcdFile.HasProperty (UcdFile.rowsOf ls) "Full_Composition_Exclusion") a b c →
      Composes items (UcdFile.HasProperty (UcdFile.rowsOf ls) "Full_Composition_Exclusion") a b c' → c = c') :
    ∃ s t, canonicalCompositionMapping (UnicodeData.fileText items) (UcdFile.fileText UcdFile.Row.text ls) = .ok s ∧ TableText.readTable s = some t ∧ WellFormed t ∧
    ∀ a, ∃ inner, InnerTable t a inner ∧ WellFormed inner ∧ ∀ b, ∃ o, inner.find b = .ok o ∧
      ∀ c, o = some c ↔ Composes items (UcdFile.HasProperty (UcdFile.rowsOf ls) "Full_Composition_Exclusion") a b c := by
  obtain ⟨excl, hx1, hx2⟩ := GenExclusions.exclusions_ok ls hn
  have hs := decompositionMap_sorted (items.flatMap itemEntries)
  have hfind := decompositionMap_find items h
  have hmem : ∀ c m, (c, m) ∈ decompositionMap (items.flatMap itemEntries) ↔ canonicalOf items c = some m := by
    intro c m
    rw [mem_iff_find _ hs, hfind]
  obtain ⟨M, e1, e2, e3, e4⟩ := compose_fold excl (decompositionMap (items.flatMap itemEntries)) [] List.Pairwise.nil (fun e he => h12 e.1 e.2 ((hmem _ _).1 he)) (by
    intro a
    simp [find])
  have e4 : ∀ a, (find a M).getD [] = pairsOf excl a (decompositionMap (items.flatMap itemEntries)) := fun a => by rw [e4]; rfl
  have hp : ∀ a b c, (b, c) ∈ pairsOf excl a (decompositionMap (items.flatMap itemEntries)) ↔
      Composes items (UcdFile.HasProperty (UcdFile.rowsOf ls) "Full_Composition_Exclusion") a b c := by
    intro a b c
    rw [mem_pairsOf, hmem, hx2]
    rfl
  have hsort : ∀ a, Sorted (sortByKey (pairsOf excl a (decompositionMap (items.flatMap itemEntries)))) ∧
      ∀ x, x ∈ sortByKey (pairsOf excl a (decompositionMap (items.flatMap itemEntries))) ↔ x ∈ pairsOf excl a (decompositionMap (items.flatMap itemEntries)) := by
    intro a
    obtain ⟨s1, s2⟩ := sort_ok (pairsOf excl a (decompositionMap (items.flatMap itemEntries))) [] List.Pairwise.nil (by
      rw [List.nil_append]
      have hd : (pairsOf excl a (decompositionMap (items.flatMap itemEntries))).Pairwise fun x y => x.2 ≠ y.2 := by
        rw [pairsOf, List.pairwise_filterMap]
        refine hs.imp ?_
        rintro ⟨k, m⟩ ⟨k', m'⟩ hlt x hx y hy
        simp only at hx hy hlt
        split at hx
        · split at hx
          · cases hx
            split at hy
            · split at hy
              · cases hy
                exact Nat.ne_of_lt hlt
              · cases hy
            · cases hy
          · cases hx
        · cases hx
      refine (hd.imp_of_mem ?_)
      rintro ⟨b, c⟩ ⟨b', c'⟩ hb hb' hne (heq : b = b')
      subst heq
      exact hne (hu a b c c' ((hp a b c).1 hb) ((hp a b c').1 hb')))
    refine ⟨s1, fun x => ?_⟩
    rw [sortByKey, s2]
    simp
  rw [canonicalCompositionMapping, parse_ok items h.ok, bind_ok, hx1, bind_ok, e1, bind_ok]
  have hms : Sorted (M.map fun e => (e.1, sortByKey e.2)) := by
    rw [Sorted, List.pairwise_map]
    exact e2
  obtain ⟨t, h1, h2, h3⟩ := direct_find pairsText _ hms (fun c v _ => pairs_line v)
  refine ⟨_, t, rfl, h1, h2, fun a => ?_⟩
  have h3 := h3 a
  rw [find_map sortByKey, Option.map_map] at h3
  have key : ∀ v, Sorted v → (∀ b c, (b, c) ∈ v ↔ Composes items (UcdFile.HasProperty (UcdFile.rowsOf ls) "Full_Composition_Exclusion") a b c) →
      WellFormed (.direct v) ∧ ∀ b, ∃ o, (CharDataTable.direct v).find b = .ok o ∧
      ∀ c, o = some c ↔ Composes items (UcdFile.HasProperty (UcdFile.rowsOf ls) "Full_Composition_Exclusion") a b c := by
    intro v hv hc
    obtain ⟨w1, w2⟩ := direct_inner v hv
    refine ⟨w1, fun b => ?_⟩
    obtain ⟨o, o1, o2⟩ := w2 b
    exact ⟨o, o1, fun c => (o2 c).trans (hc b c)⟩
  have e4 := e4 a
  cases hf : find a M with
  | none =>
    rw [hf] at h3 e4
    refine ⟨.direct [], .inl ⟨h3, rfl⟩, key [] List.Pairwise.nil fun b c => ?_⟩
    rw [← hp a b c, ← e4]
    rfl
  | some v =>
    rw [hf] at h3 e4
    have e4 : v = pairsOf excl a (decompositionMap (items.flatMap itemEntries)) := e4
    subst e4
    exact ⟨_, .inr ⟨_, h3, inner_ok _⟩, key _ (hsort a).1 fun b c => by rw [(hsort a).2, hp]⟩

/-- a character with a canonical mapping of three characters stops the generator -/
theorem composition_panic (items : List Item) (h : FileOk items) (ls : List (UcdFile.Line UcdFile.Row)) (hn : UcdFile.FileOk NormalizationRow ls) (c : Nat) (m : List Nat)
    (hc : canonicalOf items c = some m) (hm : 3 ≤ m.length) :
    canonicalCompositionMapping (UnicodeData.fileText items) (UcdFile.fileText UcdFile.Row.text ls) = .panic := by
  obtain ⟨excl, hx1, _⟩ := GenExclusions.exclusions_ok ls hn
  rw [canonicalCompositionMapping, parse_ok items h.ok, bind_ok, hx1, bind_ok,
    compose_panic excl (c, m) hm _ [] ((mem_iff_find _ (decompositionMap_sorted _) c m).2 (by rw [decompositionMap_find items h, hc]))]
  rfl

end Proofs.GenDecomposition
