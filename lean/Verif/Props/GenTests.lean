import Verif.Proofs.GenBreakRows

/-! # C74: the test data written by the generator says what the test files of the Unicode Character Database say

The form of the files, and the readers of the Rust text of the tests, are in `Spec.TestFile`. -/
namespace Props.GenTests
open Spec Spec.UcdFile Spec.TestFile Model Model.GenTests Proofs.GenBreakTests Proofs.GenBreakRows

/-- **C74**: from every `NormalizationTest.txt`, an array with the five texts of each row, in the order of the file. -/
theorem c74_normalization (ls : List (Line NormRow)) (hf : FileOk NormRow.Ok ls) :
    ∃ s, normTests (fileText NormRow.text ls) = .ok s ∧ readArray readNorm s = some ((rowsOf ls).map NormRow.values) :=
  Proofs.GenTests.norm_table ls hf

/-- What parts are: together they are the text, none is empty, and one ends after a character exactly if there is a boundary after it. -/
theorem c74_parts (l : List (Nat × Bool)) (hl : ∀ e, l.getLast? = some e → e.2 = true) :
    (pieces l).flatten = l.map Prod.fst ∧ [] ∉ pieces l ∧ ∀ k, (∃ n, ((pieces l).take n).flatten.length = k + 1) ↔ ∃ c, l[k]? = some (c, true) := by
  induction l with
  | nil => simp [pieces]
  | cons e r ih =>
    obtain ⟨c, b⟩ := e
    cases r with
    | nil =>
      have hb : b = true := hl (c, b) rfl
      subst hb
      refine ⟨rfl, by simp [pieces], fun k => ?_⟩
      constructor
      · rintro ⟨n, hn⟩
        cases n with
        | zero => simp at hn
        | succ n =>
          have : k = 0 := by simpa [pieces, eq_comm] using hn
          exact ⟨c, by rw [this]; rfl⟩
      · rintro ⟨d, hd⟩
        cases k with
        | zero => exact ⟨1, rfl⟩
        | succ k => simp at hd
    | cons e' r =>
      obtain ⟨h1, h2, h3⟩ := ih (by simpa using hl)
      have hne : pieces (e' :: r) ≠ [] := Proofs.GenBreakRows.pieces_ne (by simp)
      cases b with
      | true =>
        have e : pieces ((c, true) :: e' :: r) = [c] :: pieces (e' :: r) := by rw [pieces, if_pos rfl]
        rw [e]
        refine ⟨by simp [h1], by simpa using h2, fun k => ?_⟩
        cases k with
        | zero =>
          simp only [List.getElem?_cons_zero, Option.some.injEq, Prod.mk.injEq, and_true, exists_eq', iff_true]
          exact ⟨1, rfl⟩
        | succ k =>
          rw [List.getElem?_cons_succ, ← h3]
          constructor
          · rintro ⟨n, hn⟩
            cases n with
            | zero => simp at hn
            | succ n => exact ⟨n, by simpa [Nat.add_comm 1] using hn⟩
          · rintro ⟨n, hn⟩
            exact ⟨n + 1, by simpa [Nat.add_comm 1] using hn⟩
      | false =>
        obtain ⟨p, ps, hp⟩ := List.exists_cons_of_ne_nil hne
        have e : pieces ((c, false) :: e' :: r) = (c :: p) :: ps := by rw [pieces, if_neg (by simp), hp]
        rw [hp] at h1 h2 h3
        rw [e]
        refine ⟨by simpa using h1, fun h => by simp at h h2; exact h2.2 h, fun k => ?_⟩
        cases k with
        | zero =>
          simp only [List.getElem?_cons_zero, Option.some.injEq, Prod.mk.injEq, Bool.false_eq_true, and_false, exists_false, iff_false]
          rintro ⟨n, hn⟩
          cases n with
          | zero => simp at hn
          | succ n =>
            have hp0 : p ≠ [] := fun h => h2 (by simp [h])
            have := List.length_pos_iff.2 hp0
            simp only [List.take_succ_cons, List.flatten_cons, List.length_append, List.length_cons] at hn
            omega
        | succ k =>
          rw [List.getElem?_cons_succ, ← h3]
          constructor
          · rintro ⟨n, hn⟩
            cases n with
            | zero => simp at hn
            | succ n =>
              simp only [List.take_succ_cons, List.flatten_cons, List.length_append, List.length_cons] at hn
              exact ⟨n + 1, by simp only [List.take_succ_cons, List.flatten_cons, List.length_append]; omega⟩
          · rintro ⟨n, hn⟩
            cases n with
            | zero => simp at hn
            | succ n =>
              simp only [List.take_succ_cons, List.flatten_cons, List.length_append] at hn
              exact ⟨n + 1, by simp only [List.take_succ_cons, List.flatten_cons, List.length_append, List.length_cons]; omega⟩

/-- **C74**: from every `GraphemeBreakTest.txt`, an array with each test whose code points are all characters: its text, its parts, and, if a rule is used that only extended
grapheme clusters have, its parts in legacy grapheme clusters. `w` and `sp` say which characters beyond ASCII the crate `regex` takes for word characters and white space:
not the signs `÷` and `×`. -/
theorem c74_grapheme (w sp : Nat → Bool) (hw : w 247 = false ∧ w 215 = false) (hs : sp 247 = false ∧ sp 215 = false) (ls : List (Line BreakRow)) (hf : BreakFileOk ls) :
    ∃ s, graphemeTests w sp (fileText BreakRow.text ls) = .ok s ∧ readArray readGrapheme s = some ((testsOf ls).map fun r => (r.chars, r.parts, r.legacy)) :=
  grapheme_array ⟨hw.1, hw.2, hs.1, hs.2⟩ ls hf

/-- **C74**: from every `WordBreakTest.txt`, an array with the text and the parts of each test whose code points are all characters. -/
theorem c74_word (w sp : Nat → Bool) (hw : w 247 = false ∧ w 215 = false) (hs : sp 247 = false ∧ sp 215 = false) (ls : List (Line BreakRow)) (hf : BreakFileOk ls) :
    ∃ s, wordTests w sp (fileText BreakRow.text ls) = .ok s ∧ readArray readWord s = some ((testsOf ls).map fun r => (r.chars, r.parts)) :=
  word_array ⟨hw.1, hw.2, hs.1, hs.2⟩ ls hf

/-- a test of the file has the character `c` with the value `v` -/
def Says (ls : List (Line BreakRow)) (c : Nat) (v : List Nat) : Prop := ∃ r ∈ testsOf ls, ∃ i ∈ r.items, hexValue i.code = c ∧ i.value = v

theorem says_iff (ls : List (Line BreakRow)) (c : Nat) (v : List Nat) : (c, v) ∈ (testsOf ls).flatMap pairs ↔ Says ls c v := by
  simp only [List.mem_flatMap, pairs, List.mem_map, Prod.mk.injEq, Says]

/-- **C74**: if the tests do not contradict each other about the value of a character, the generator writes a table with exactly these values. -/
theorem c74_values (w sp : Nat → Bool) (hw : w 247 = false ∧ w 215 = false) (hs : sp 247 = false ∧ sp 215 = false) (ls : List (Line BreakRow)) (hf : BreakFileOk ls)
    (hc : ∀ c v v', Says ls c v → Says ls c v' → v = v') :
    ∃ s t, valueTests w sp (fileText BreakRow.text ls) = .ok s ∧ TableText.readTable s = some t ∧ WellFormed t ∧ ∀ c, ∃ o, t.find c = .ok o ∧ ∀ v, o = some v ↔ Says ls c v := by
  simp only [← says_iff] at *
  exact value_table ⟨hw.1, hw.2, hs.1, hs.2⟩ ls hf hc

/-- **C74**: and if they do, it panics. -/
theorem c74_values_panic (w sp : Nat → Bool) (hw : w 247 = false ∧ w 215 = false) (hs : sp 247 = false ∧ sp 215 = false) (ls : List (Line BreakRow)) (hf : BreakFileOk ls)
    (c : Nat) (v v' : List Nat) (h1 : Says ls c v) (h2 : Says ls c v') (h3 : v ≠ v') : valueTests w sp (fileText BreakRow.text ls) = .panic := by
  simp only [← says_iff] at *
  exact value_panic ⟨hw.1, hw.2, hs.1, hs.2⟩ ls hf ⟨c, v, v', h3, h1, h2⟩

/-! ## Cases that meet the hypotheses -/

instance decHex (s : List Nat) : Decidable (UcdFile.IsHex s) := inferInstanceAs (Decidable (_ ∧ _ ∧ _))
instance decWord (c : Nat) : Decidable (UcdFile.IsWord c) := inferInstanceAs (Decidable (_ ∨ _))
instance decBlank (c : Nat) : Decidable (UcdFile.IsBlank c) := inferInstanceAs (Decidable (_ ∨ _))
instance decText (ps : List (List Nat)) : Decidable (IsText ps) := inferInstanceAs (Decidable (_ ∧ _))

/-- `÷ 0020 × 0903 ÷ 0061 ÷ # ÷ [0.2] SPACE (Other) × [9.1] DEVANAGARI SIGN VISARGA (SpacingMark) ÷ [999.0] LATIN SMALL LETTER A (Other) ÷ [0.3]` -/
def exampleRow : BreakRow where
  items := [⟨TableText.text "0020", TableText.text "SPACE", TableText.text "Other", false, TableText.text "9.1"⟩,
    ⟨TableText.text "0903", TableText.text "DEVANAGARI SIGN VISARGA", TableText.text "SpacingMark", true, TableText.text "999.0"⟩,
    ⟨TableText.text "0061", TableText.text "LATIN SMALL LETTER A", TableText.text "Other", true, TableText.text "0.3"⟩]
  gap := [9]
  gap2 := [32, 32]

/-- a test with a surrogate -/
def exampleSurrogate : BreakRow where
  items := [⟨TableText.text "D800", TableText.text "<surrogate-D800>", TableText.text "Control", true, TableText.text "0.3"⟩]
  gap := [9]
  gap2 := [32]

def exampleFile : List (Line BreakRow) := [.other (TableText.text "# Auxiliary"), .other [], .row exampleRow, .other [], .other [], .row exampleSurrogate, .other (TableText.text "#"), .other []]

theorem exampleRow_ok : exampleRow.Ok where
  items := by
    intro i hi
    simp only [exampleRow, List.mem_cons, List.not_mem_nil, or_false] at hi
    rcases hi with rfl | rfl | rfl <;> exact ⟨by decide +kernel, by decide +kernel, by decide +kernel, by decide +kernel⟩
  last := ⟨_, rfl, rfl⟩
  gap := by decide
  gap2 := by decide

theorem exampleSurrogate_ok : exampleSurrogate.Ok where
  items := by
    intro i hi
    simp only [exampleSurrogate, List.mem_cons, List.not_mem_nil, or_false] at hi
    subst hi
    exact ⟨by decide +kernel, by decide +kernel, by decide +kernel, by decide +kernel⟩
  last := ⟨_, rfl, rfl⟩
  gap := by decide
  gap2 := by decide

theorem exampleFile_ok : BreakFileOk exampleFile := by
  intro l hl
  simp only [exampleFile, List.mem_cons, List.not_mem_nil, or_false] at hl
  rcases hl with rfl | rfl | rfl | rfl | rfl | rfl | rfl | rfl
  · exact ⟨by decide, by simp [TableText.text]⟩
  · exact ⟨by decide, by simp [TableText.text]⟩
  · exact exampleRow_ok
  · exact ⟨by decide, by simp [TableText.text]⟩
  · exact ⟨by decide, by simp [TableText.text]⟩
  · exact exampleSurrogate_ok
  · exact ⟨by decide, by simp [TableText.text]⟩
  · exact ⟨by decide, by simp [TableText.text]⟩

/-- the test with the surrogate is none; the other has the parts ` ःa` by extended and ` `, `ः`, `a` by legacy grapheme clusters -/
example : testsOf exampleFile = [exampleRow] ∧ exampleRow.parts = [[0x20, 0x903], [0x61]] ∧ exampleRow.legacy = some [[0x20], [0x903], [0x61]] := by
  refine ⟨?_, by decide +kernel, by decide +kernel⟩
  have h1 : exampleRow.IsTest := by decide +kernel
  have h2 : ¬ exampleSurrogate.IsTest := by decide +kernel
  simp [testsOf, rowsOf, exampleFile, h1, h2]

/-- its values do not contradict each other -/
example : Says exampleFile 0x20 (TableText.text "Other") := by
  have h1 : exampleRow.IsTest := by decide +kernel
  exact ⟨exampleRow, by simp [testsOf, rowsOf, exampleFile, h1], _, List.mem_cons_self, by decide +kernel, rfl⟩

/-- the model on the text of the file -/
example : graphemeTests (fun _ => false) (fun _ => false) (fileText BreakRow.text exampleFile) =
    .ok (TableText.text "&[\n    (\"\\u{20}\\u{903}\\u{61}\", &[\"\\u{20}\\u{903}\", \"\\u{61}\"], Some(&[\"\\u{20}\", \"\\u{903}\", \"\\u{61}\"])),\n]") := by decide +kernel

def exampleNorm : NormRow := ⟨[TableText.text "1E0A"], [TableText.text "1E0A"], [TableText.text "0044", TableText.text "0307"], [TableText.text "1E0A"],
  [TableText.text "0044", TableText.text "0307"], TableText.text " (Ḋ; Ḋ; D◌̇; Ḋ; D◌̇; ) LATIN CAPITAL LETTER D WITH DOT ABOVE"⟩

example : FileOk NormRow.Ok [.other (TableText.text "@Part0 # Specific cases"), .row exampleNorm] ∧ exampleNorm.values = [[0x1E0A], [0x1E0A], [0x44, 0x307], [0x1E0A], [0x44, 0x307]] := by
  refine ⟨?_, by decide +kernel⟩
  intro l hl
  simp only [List.mem_cons, List.not_mem_nil, or_false] at hl
  rcases hl with rfl | rfl
  · exact ⟨by decide, by simp [TableText.text, TableText.digit]⟩
  · exact ⟨by decide +kernel, by decide +kernel, by decide +kernel, by decide +kernel, by decide +kernel, by decide +kernel⟩

end Props.GenTests
