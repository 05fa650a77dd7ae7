import Verif.Proofs.GenBinary

/-! # C62, C63: the tables written by the generator say what the data files say

A data file (`Spec.UcdFile`) is any sequence of comments, empty lines and rows. `readTable` (`Spec.TableText`) reads the Rust text of a table, and `find` and `contains`
are what the library asks a table. -/
namespace Props.GenFiles
open Spec Spec.UcdFile Model Model.GenSource Model.GenWriter Proofs.GenFiles Proofs.GenIdna Proofs.GenBinary

/-! ## C62: tables of values -/

/-- What follows of a writer of tables: the file it writes from the text `file` is a table that can be read, is well formed, and says `say c` about every `c`. -/
def Writes (writer : List Nat → Outcome (List Nat)) (file : List Nat) (say : Nat → Option (List Nat)) : Prop :=
  ∃ s t, writer file = .ok s ∧ TableText.readTable s = some t ∧ WellFormed t ∧ ∀ c, t.find c = .ok (say c)

/-- **C62**: from every file of grapheme, word or sentence break properties, the generator writes a table that gives each character the value of its row, and no value
to the characters without a row. -/
theorem c62_breaks (ls : List (Line Row)) (hf : FileOk Row.Ok ls) :
    Writes graphemeClusterBreak (fileText Row.text ls) (fun c => (valueOf ((rowsOf ls).map Row.triple) c).map (TableText.text "GCB::" ++ ·)) ∧
    Writes wordBreak (fileText Row.text ls) (fun c => (valueOf ((rowsOf ls).map Row.triple) c).map (TableText.text "WB::" ++ ·)) ∧
    Writes sentenceBreak (fileText Row.text ls) (fun c => (valueOf ((rowsOf ls).map Row.triple) c).map (TableText.text "SB::" ++ ·)) :=
  ⟨break_table (TableText.text "GCB::") (by decide) ls hf, break_table (TableText.text "WB::") (by decide) ls hf, break_table (TableText.text "SB::") (by decide) ls hf⟩

/-- **C62**: from every `Blocks.txt`, a table that gives each character the name of its block, between quotation marks. -/
theorem c62_blocks (ls : List (Line BlockRow)) (hf : FileOk BlockRow.Ok ls) :
    Writes blocks (fileText BlockRow.text ls) (fun c => (valueOf ((rowsOf ls).map BlockRow.triple) c).map fun v => TableText.text "\"" ++ v ++ TableText.text "\"") := by
  refine table_rows (fun v => TableText.text "\"" ++ v ++ TableText.text "\"") _ _ (blocks_map ls hf) fun x hx => ?_
  rw [List.mem_map] at hx
  obtain ⟨r, hr, rfl⟩ := hx
  simp only [List.mem_append, not_or]
  exact ⟨⟨by decide, (rows_ok hf r hr).name.1⟩, by decide⟩

/-- **C62**: from every `DerivedAge.txt`, a table that gives each character the version of its row as a Rust expression. -/
theorem c62_ages (ls : List (Line AgeRow)) (hf : FileOk AgeRow.Ok ls) :
    Writes ageValues (fileText AgeRow.text ls) (fun c => (valueOf ((rowsOf ls).map AgeRow.triple) c).map versionLiteral) := by
  obtain ⟨s, t, h1, h2, h3, h4⟩ := table_rows (fun v : List Nat => v) _ _ (age_map ls hf) (by
    intro x hx
    rw [List.mem_map] at hx
    obtain ⟨r, hr, rfl⟩ := hx
    exact version_line _)
  refine ⟨s, t, h1, h2, h3, fun c => ?_⟩
  rw [h4, Option.map_id', ← valueOf_map (rowsOf ls) (fun r => r.triple.1) (fun r => r.triple.2.1) (fun r => r.triple.2.2) versionLiteral _ (fun r _ => rfl) c]

/-- **C62**: from every `IdnaMappingTable.txt`, a table whose value for each character is the status of its row and, for the statuses that have one, its mapping. -/
theorem c62_idna (ls : List (Line IdnaRow)) (hf : FileOk IdnaRow.Ok ls) : ∃ s t, idnaMapping (fileText IdnaRow.text ls) = .ok s ∧ TableText.readTable s = some t ∧ WellFormed t ∧
    ∀ c, ∃ v, t.find c = .ok v ∧ v.map readIdna = (valueOf ((rowsOf ls).map IdnaRow.triple) c).map some :=
  idna_table ls hf

/-! ## C63: sets -/

/-- The file `name` is written from the text `file` as the set of the characters with `P`. -/
def WritesSet (writer : String → List Nat → Outcome (List Nat)) (name : String) (file : List Nat) (P : Nat → Prop) : Prop :=
  ∃ s t, writer name file = .ok s ∧ TableText.readTable s = some t ∧ WellFormed t ∧ ∀ c, ∃ b, t.contains c = .ok b ∧ (b = true ↔ P c)

/-- **C63**: from every `PropList.txt`, the generator writes for each property it has a table for exactly the characters of the rows of that property; `w` and `sp` say which
characters beyond ASCII the crate `regex` takes for word characters and white space. -/
theorem c63_prop_list (w sp : Nat → Bool) (ls : List (Line Row)) (hf : FileOk (PropertyRow propListLabels) ls) (p : String × String) (hp : p ∈ propListFiles) :
    WritesSet (binaryTable w sp propListArms propListTables) p.1 (fileText Row.text ls) (HasProperty (rowsOf ls) p.2) := by
  have h : ∀ p ∈ propListFiles, ∃ field ∈ propListTables.lookup p.1, ∀ l ∈ propListLabels, fieldOf propListArms (TableText.text l) = some field ↔ l = p.2 := by decide +kernel
  obtain ⟨field, h1, h2⟩ := h p hp
  exact binary_table w sp propListArms propListLabels propListTables p.1 p.2 (by decide +kernel) ⟨field, h1, h2⟩ ls hf

/-- **C63**: likewise from every `DerivedCoreProperties.txt`. -/
theorem c63_derived (w sp : Nat → Bool) (ls : List (Line Row)) (hf : FileOk (PropertyRow derivedLabels) ls) (p : String × String) (hp : p ∈ derivedFiles) :
    WritesSet (binaryTable w sp derivedArms derivedTables) p.1 (fileText Row.text ls) (HasProperty (rowsOf ls) p.2) := by
  have h : ∀ p ∈ derivedFiles, ∃ field ∈ derivedTables.lookup p.1, ∀ l ∈ derivedLabels, fieldOf derivedArms (TableText.text l) = some field ↔ l = p.2 := by decide +kernel
  obtain ⟨field, h1, h2⟩ := h p hp
  exact binary_table w sp derivedArms derivedLabels derivedTables p.1 p.2 (by decide +kernel) ⟨field, h1, h2⟩ ls hf

/-- **C63**: likewise from every `emoji-data.txt`. -/
theorem c63_emoji (w sp : Nat → Bool) (ls : List (Line Row)) (hf : FileOk (PropertyRow emojiLabels) ls) (p : String × String) (hp : p ∈ emojiFiles) :
    WritesSet (binaryTable w sp emojiArms emojiTables) p.1 (fileText Row.text ls) (HasProperty (rowsOf ls) p.2) := by
  have h : ∀ p ∈ emojiFiles, ∃ field ∈ emojiTables.lookup p.1, ∀ l ∈ emojiLabels, fieldOf emojiArms (TableText.text l) = some field ↔ l = p.2 := by decide +kernel
  obtain ⟨field, h1, h2⟩ := h p hp
  exact binary_table w sp emojiArms emojiLabels emojiTables p.1 p.2 (by decide +kernel) ⟨field, h1, h2⟩ ls hf

/-! ## The hypotheses are met -/

/-- `000A..000D    ; Control # Cc` -/
def exampleRow (label : String) : Row := ⟨⟨TableText.text "000A", some (TableText.text "000D")⟩, TableText.text "    ", TableText.text " ", TableText.text label, TableText.text " # Cc"⟩

theorem example_range : (Range.mk (TableText.text "000A") (some (TableText.text "000D"))).Ok :=
  ⟨⟨by decide, by decide, by decide⟩, by
    intro h hh
    cases hh
    exact ⟨by decide, by decide, by decide⟩⟩

theorem blanks_ok (s : String) (h : (TableText.text s).all (fun c => c == 9 || c == 32) = true) : ∀ c ∈ TableText.text s, IsBlank c := by
  intro c hc
  rw [List.all_eq_true] at h
  have := h c hc
  unfold IsBlank
  simpa using this

theorem example_ok (label : String) (h : TableText.text label ≠ [] ∧ ∀ c ∈ TableText.text label, Regex.word c = true) : (exampleRow label).Ok where
  range := example_range
  pad := ⟨(by decide : TableText.text "    " ≠ []), blanks_ok "    " (by decide)⟩
  pad2 := ⟨(by decide : TableText.text " " ≠ []), blanks_ok " " (by decide)⟩
  value := ⟨h.1, fun c hc => (word_of c).1 (h.2 c hc)⟩
  tail := ⟨(by decide : 10 ∉ TableText.text " # Cc"), by
    intro c (hc : (TableText.text " # Cc").head? = some c)
    rw [show (TableText.text " # Cc").head? = some 32 by decide, Option.some.injEq] at hc
    subst hc
    unfold IsWord
    omega⟩

example : FileOk Row.Ok [.other (TableText.text "# GraphemeBreakProperty-10.0.0.txt"), .other [], .row (exampleRow "Control")] ∧
    (valueOf ((rowsOf [.other (TableText.text "# GraphemeBreakProperty-10.0.0.txt"), .other [], .row (exampleRow "Control")]).map Row.triple) 0xB).map (TableText.text "GCB::" ++ ·) =
      some (TableText.text "GCB::Control") := by
  refine ⟨?_, by decide +kernel⟩
  intro l hl
  simp only [List.mem_cons, List.not_mem_nil, or_false] at hl
  rcases hl with rfl | rfl | rfl
  · exact ⟨by decide, by intro c hc; cases hc; rfl⟩
  · exact ⟨by decide, by intro c hc; cases hc⟩
  · exact example_ok "Control" (by decide)

example : PropertyRow propListLabels (exampleRow "White_Space") ∧ HasProperty [exampleRow "White_Space"] "White_Space" 0xD :=
  ⟨⟨example_ok "White_Space" (by decide), by decide, by decide, "White_Space", by decide, rfl⟩, by decide, exampleRow "White_Space", by simp, rfl, by decide, by decide⟩

/-- `0000..007F; Basic Latin` -/
example : (BlockRow.mk (TableText.text "0000") (TableText.text "007F") [] (TableText.text " ") (TableText.text "Basic Latin")).Ok where
  lo := ⟨by decide, by decide, by decide⟩
  hi := ⟨by decide, by decide, by decide⟩
  pad := by simp
  pad2 := by unfold IsBlank; decide
  name := ⟨by decide, by
    intro c (hc : (TableText.text "Basic Latin").head? = some c)
    rw [show (TableText.text "Basic Latin").head? = some 66 by decide, Option.some.injEq] at hc
    subst hc
    unfold IsBlank
    omega⟩

/-- `20AC          ; 2.1 #       EURO SIGN` -/
example : (AgeRow.mk ⟨TableText.text "20AC", none⟩ (TableText.text "          ") (TableText.text " ") (TableText.text "2") (TableText.text "1") none (TableText.text " # EURO SIGN")).Ok where
  range := ⟨⟨by decide, by decide, by decide⟩, by simp⟩
  pad := ⟨by decide, by unfold IsBlank; decide⟩
  pad2 := ⟨by decide, by unfold IsBlank; decide⟩
  major := ⟨by decide, by decide, by decide⟩
  minor := ⟨by decide, by decide, by decide⟩
  micro := by simp
  tail := ⟨by decide, by
    intro c (hc : (TableText.text " # EURO SIGN").head? = some c)
    rw [show (TableText.text " # EURO SIGN").head? = some 32 by decide, Option.some.injEq] at hc
    subst hc
    omega⟩

/-- `00A8          ; disallowed_STD3_mapped ; 0020 0308     # 1.1  DIAERESIS` -/
def exampleIdna : IdnaRow :=
  ⟨⟨TableText.text "00A8", none⟩, TableText.text "          ", TableText.text " ", ("disallowed_STD3_mapped", "DisallowedStd3Mapped", true), TableText.text " ",
    some (TableText.text " ", [TableText.text "0020", TableText.text "0308"], TableText.text "     "), none, TableText.text " 1.1  DIAERESIS"⟩

example : exampleIdna.Ok where
  range := ⟨⟨by decide, by decide, by decide⟩, by simp [exampleIdna]⟩
  ends := ⟨by decide, .inl ⟨by decide, by decide⟩⟩
  pad := by unfold IsBlank; decide
  pad2 := by unfold IsBlank; decide
  status := by decide
  pad3 := by unfold IsBlank; decide
  mapping := by
    intro b ps b' h
    cases h
    refine ⟨by unfold IsBlank; decide, by unfold IsHex; decide, by unfold IsBlank; decide, by simp⟩
  flag := by
    intro d f d' h
    cases h
  comment := by decide

example : valueOf [exampleIdna.triple] 0xA8 = some (TableText.text "DisallowedStd3Mapped", some [0x20, 0x308]) := by decide +kernel

end Props.GenFiles
