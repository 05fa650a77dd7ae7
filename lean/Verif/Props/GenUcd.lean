import Verif.Props.GenFiles
import Verif.Proofs.GenDecomposition
import Verif.Proofs.GenNames
import Verif.Proofs.GenVersion

/-! # C64–C68: the tables the generator writes from `UnicodeData.txt`, `Jamo.txt`, `NameAliases.txt` and `ReadMe.txt` say what these files say

A `UnicodeData.txt` (`Spec.UnicodeData`) is any ascending sequence of single lines and of ranges on two lines. `itemOf items c` is what the file says about the character `c`. -/
namespace Props.GenUcd
open Spec Spec.UnicodeData Spec.UcdNames Model Model.GenSource Model.GenUnicodeData Model.GenUcdWriter Model.GenVersion
open Proofs.GenUcdTables Proofs.GenDecomposition Proofs.GenNames Proofs.GenVersion Props.GenFiles

/-! ## C64: values and sets -/

/-- The set written from the text `file` is that of the characters with `P`. -/
def WritesChars (writer : List Nat → Outcome (List Nat)) (file : List Nat) (P : Nat → Prop) : Prop :=
  ∃ s t, writer file = .ok s ∧ TableText.readTable s = some t ∧ WellFormed t ∧ ∀ c, ∃ b, t.contains c = .ok b ∧ (b = true ↔ P c)

/-- the file says that `c` has one of the categories `cats` -/
def HasCategory (items : List Item) (cats : List String) (c : Nat) : Prop := ∃ i, itemOf items c = some i ∧ ∃ k ∈ cats, i.fields.category = TableText.text k

/-- **C64**: the table of general categories gives each character, alone on its line or inside a range, the category of its line, and no value to the others. -/
theorem c64_category (items : List Item) (h : FileOk items) :
    Writes generalCategory (UnicodeData.fileText items) (fun c => (itemOf items c).map fun i => i.fields.category) := category_table items h

/-- **C64**: the table of bidirectional classes gives each character the class of its line; to a character without a line the default of `DerivedBidiClass.txt`, where that is R, AL or ET. -/
theorem c64_bidi_class (items : List Item) (h : FileOk items) :
    Writes bidiClass (UnicodeData.fileText items) (fun c => ((itemOf items c).map fun i => i.fields.bidiClass).or (if IsScalar c then defaultBidiClass c else none)) := bidi_table items h

/-- **C64**: the table of combining classes has the characters whose class is not 0, with that class. -/
theorem c64_combining_class (items : List Item) (h : FileOk items) :
    Writes canonicalCombiningClass (UnicodeData.fileText items) (fun c => ((itemOf items c).filter fun i => UcdFile.decValue i.fields.combiningClass ≠ 0).map fun i =>
      TableText.text ("CanonicalCombiningClass(" ++ toString (UcdFile.decValue i.fields.combiningClass) ++ ")")) := ccc_table items h

/-- **C64**: the set of mirrored characters is that of the lines with `Y`. -/
theorem c64_mirrored (items : List Item) (h : FileOk items) :
    WritesChars bidiMirrored (UnicodeData.fileText items) (fun c => ∃ i, itemOf items c = some i ∧ i.fields.mirrored = true) :=
  filter_set items h (fun x => x.bidiMirrored) (fun i => i.fields.mirrored = true) (fun _ _ => Iff.rfl) bidiMirrored rfl

/-- **C64**: the sets of control, numeric and combining characters are those of the categories Cc, of Nd, Nl and No, and of Mn, Mc and Me. -/
theorem c64_categories (items : List Item) (h : FileOk items) :
    WritesChars control (UnicodeData.fileText items) (HasCategory items ["Cc"]) ∧
    WritesChars numeric (UnicodeData.fileText items) (HasCategory items ["Nd", "Nl", "No"]) ∧
    WritesChars generalCategoryMark (UnicodeData.fileText items) (HasCategory items ["Mn", "Mc", "Me"]) :=
  ⟨filter_set items h _ _ (category_contains ["Cc"]) control rfl, filter_set items h _ _ (category_contains ["Nd", "Nl", "No"]) numeric rfl,
    filter_set items h _ _ (category_contains ["Mn", "Mc", "Me"]) generalCategoryMark rfl⟩

/-- **C64**: the set of alphanumeric characters, made from two files, is that of the numeric characters and those that `DerivedCoreProperties.txt` calls alphabetic. -/
theorem c64_alphanumeric (w sp : Nat → Bool) (items : List Item) (h : FileOk items) (ls : List (UcdFile.Line UcdFile.Row)) (hd : UcdFile.FileOk (UcdFile.PropertyRow UcdFile.derivedLabels) ls) :
    WritesChars (fun file => alphanumeric w sp file (UcdFile.fileText UcdFile.Row.text ls)) (UnicodeData.fileText items)
      (fun c => HasCategory items ["Nd", "Nl", "No"] c ∨ UcdFile.HasProperty (UcdFile.rowsOf ls) "Alphabetic" c) := alphanumeric_table w sp items h ls hd

/-! ## C65: decompositions and compositions -/

/-- **C65**: the table of canonical decomposition mappings has the mappings of the lines whose field of the decomposition has no tag, and nothing else. -/
theorem c65_canonical (items : List Item) (h : FileOk items) : ∃ s t, canonicalDecompositionMapping (UnicodeData.fileText items) = .ok s ∧ TableText.readTable s = some t ∧ WellFormed t ∧
    ∀ c, ∃ v, t.find c = .ok v ∧ v.map readSlice = (canonicalOf items c).map some := canonical_table items h

/-- **C65**: the table of compatibility decomposition mappings has the type and the mapping of the lines whose field of the decomposition has a tag, and nothing else. -/
theorem c65_compatibility (items : List Item) (h : FileOk items) (ht : ∀ c tag m, compatibilityOf items c = some (tag, m) → ∃ p ∈ compatibilityTags, tag = TableText.text p.1) :
    ∃ s t, compatibilityDecompositionMapping (UnicodeData.fileText items) = .ok s ∧ TableText.readTable s = some t ∧ WellFormed t ∧
    ∀ c, ∃ v, t.find c = .ok v ∧ (compatibilityOf items c = none → v = none) ∧
      ∀ p ∈ compatibilityTags, ∀ m, compatibilityOf items c = some (TableText.text p.1, m) → v.map readTyped = some (some (TableText.text p.2, m)) := compatibility_table items h ht

/-- **C65**: in the table of compositions, `a` and `b` give `c` exactly if `a b` is the canonical decomposition mapping of `c` and `c` is not excluded from composition. This holds for the
files whose mappings have one or two characters and where two characters with the same mapping are not both composed. -/
theorem c65_composition (items : List Item) (h : FileOk items) (ls : List (UcdFile.Line UcdFile.Row)) (hn : UcdFile.FileOk NormalizationRow ls)
    (h12 : ∀ c m, canonicalOf items c = some m → m.length = 1 ∨ m.length = 2)
    (hu : ∀ a b c c', Composes items (UcdFile.HasProperty (UcdFile.rowsOf ls) "Full_Composition_Exclusion") a b c →
      Composes items (UcdFile.HasProperty (UcdFile.rowsOf ls) "Full_Composition_Exclusion") a b c' → c = c') :
    ∃ s t, canonicalCompositionMapping (UnicodeData.fileText items) (UcdFile.fileText UcdFile.Row.text ls) = .ok s ∧ TableText.readTable s = some t ∧ WellFormed t ∧
    ∀ a, ∃ inner, InnerTable t a inner ∧ WellFormed inner ∧ ∀ b, ∃ o, inner.find b = .ok o ∧
      ∀ c, o = some c ↔ Composes items (UcdFile.HasProperty (UcdFile.rowsOf ls) "Full_Composition_Exclusion") a b c := composition_table items h ls hn h12 hu

/-- **C65**: a canonical mapping of three characters or more makes the generator panic; it does not write a wrong table. -/
theorem c65_long_mapping (items : List Item) (h : FileOk items) (ls : List (UcdFile.Line UcdFile.Row)) (hn : UcdFile.FileOk NormalizationRow ls) (c : Nat) (m : List Nat)
    (hc : canonicalOf items c = some m) (hm : 3 ≤ m.length) :
    canonicalCompositionMapping (UnicodeData.fileText items) (UcdFile.fileText UcdFile.Row.text ls) = .panic := composition_panic items h ls hn c m hc hm

/-! ## C66: names -/

/-- **C66**: the table of names and the file of its constants, read together, give each character its name, and no name to the characters whose line has a label such as `<control>`;
no constant is defined twice. -/
theorem c66_names (items : List Item) (h : FileOk items) (hn : ∀ c n, nameOf items c = some n → IsName n) :
    ∃ sv consts sm t, nameValues (UnicodeData.fileText items) = .ok sv ∧ readConsts sv = some consts ∧ (consts.map (·.1)).Nodup ∧
      nameMap (UnicodeData.fileText items) = .ok sm ∧ TableText.readTable sm = some t ∧ WellFormed t ∧
      ∀ c, ∃ v, t.find c = .ok v ∧ v.map (readName consts) = (nameOf items c).map some := name_tables items h hn

/-- **C66**: the table of the short names of jamo gives each character the short name of its row. -/
theorem c66_jamo (ls : List (UcdFile.Line JamoRow)) (h : UcdFile.FileOk JamoRow.Ok ls) :
    ∃ s t, jamo (UcdFile.fileText JamoRow.text ls) = .ok s ∧ TableText.readTable s = some t ∧ WellFormed t ∧
      ∀ c, ∃ v, t.find c = .ok v ∧ v.map readQuoted = (UcdFile.valueOf ((UcdFile.rowsOf ls).map JamoRow.triple) c).map some := jamo_table ls h

/-! ## C67: name aliases -/

/-- **C67**: each of the five tables of aliases gives each character its aliases of that type, in the order of the file and each once. -/
theorem c67_aliases (type : String × String × String) (ht : type ∈ aliasTypes) (ls : List (UcdFile.Line AliasRow)) (h : UcdFile.FileOk AliasRow.Ok ls) :
    ∃ s t, nameAliases type.2.2 (UcdFile.fileText AliasRow.text ls) = .ok s ∧ TableText.readTable s = some t ∧ WellFormed t ∧
      ∀ c, ∃ v, t.find c = .ok v ∧ v.map (fun v => (readList v).bind (traverse readQuoted)) = (nonempty (aliasesOf (UcdFile.rowsOf ls) type c)).map some := aliases_table type ht ls h

/-- **C67**: the table of types gives each character the types of its aliases, each once. -/
theorem c67_types (ls : List (UcdFile.Line AliasRow)) (h : UcdFile.FileOk AliasRow.Ok ls) :
    ∃ s t, nameAliasTypes (UcdFile.fileText AliasRow.text ls) = .ok s ∧ TableText.readTable s = some t ∧ WellFormed t ∧
      ∀ c, ∃ v, t.find c = .ok v ∧ v.map readList = (nonempty (typesOf (UcdFile.rowsOf ls) c)).map some := types_table ls h

/-! ## C68: versions -/

/-- **C68**: the version written to every directory of tables is the first one that `ReadMe.txt` names after `for Version `. -/
theorem c68_unicode (nd : Nat → Bool) (pre a b c post : List Nat) (ha : UcdFile.IsDec a) (hb : UcdFile.IsDec b) (hc : UcdFile.IsDec c)
    (hpost : ∀ d, post.head? = some d → ¬ (48 ≤ d ∧ d ≤ 57) ∧ (127 < d → nd d = false))
    (hfirst : First (TableText.text "for Version ") pre (a ++ 46 :: (b ++ 46 :: (c ++ post)))) :
    unicodeVersion nd (pre ++ (TableText.text "for Version " ++ (a ++ 46 :: (b ++ 46 :: (c ++ post))))) =
      .ok (UcdFile.versionLiteral (UcdFile.decValue a, UcdFile.decValue b, UcdFile.decValue c)) := unicode_version nd pre a b c post ha hb hc hpost hfirst

/-- **C68**: likewise for the version of the emoji data, which has no third number. -/
theorem c68_emoji (nd : Nat → Bool) (pre a b post : List Nat) (ha : UcdFile.IsDec a ∧ UcdFile.decValue a ≤ 255) (hb : UcdFile.IsDec b ∧ UcdFile.decValue b ≤ 255)
    (hpost : ∀ d, post.head? = some d → ¬ (48 ≤ d ∧ d ≤ 57) ∧ (127 < d → nd d = false))
    (hfirst : First (TableText.text "Unicode Emoji, Version ") pre (a ++ 46 :: (b ++ post))) :
    emojiVersion nd (pre ++ (TableText.text "Unicode Emoji, Version " ++ (a ++ 46 :: (b ++ post)))) = .ok (UcdFile.versionLiteral (UcdFile.decValue a, UcdFile.decValue b, 0)) :=
  emoji_version nd pre a b post ha hb hpost hfirst

/-- **C68**: a file that does not name a version makes the generator panic; no version is written. -/
theorem c68_no_version (nd : Nat → Bool) (file : List Nat) :
    (¬ TableText.text "for Version " <:+: file → unicodeVersion nd file = .panic) ∧ (¬ TableText.text "Unicode Emoji, Version " <:+: file → emojiVersion nd file = .panic) :=
  ⟨unicode_version_panic nd file, emoji_version_panic nd file⟩

/-! ## The hypotheses are met -/

/-- the fields of a line with nothing optional -/
def plain (category ccc bidi : String) : UnicodeData.Fields :=
  ⟨TableText.text category, TableText.text ccc, TableText.text bidi, none, none, none, none, false, none, none, none, none⟩

/-- five lines of `UnicodeData.txt` and one range -/
def exampleItems : List Item :=
  [.single (TableText.text "0009") (TableText.text "<control>") { plain "Cc" "0" "S" with oldName := some (TableText.text "CHARACTER TABULATION") },
   .single (TableText.text "0028") (TableText.text "LEFT PARENTHESIS") { plain "Ps" "0" "ON" with mirrored := true, oldName := some (TableText.text "OPENING PARENTHESIS") },
   .single (TableText.text "00BD") (TableText.text "VULGAR FRACTION ONE HALF")
     { plain "No" "0" "ON" with decomposition := some (some (TableText.text "fraction"), [TableText.text "0031", TableText.text "2044", TableText.text "0032"]), numeric := some (TableText.text "1/2") },
   .single (TableText.text "00C5") (TableText.text "LATIN CAPITAL LETTER A WITH RING ABOVE")
     { plain "Lu" "0" "L" with decomposition := some (none, [TableText.text "0041", TableText.text "030A"]), lower := some (TableText.text "00E5") },
   .single (TableText.text "030A") (TableText.text "COMBINING RING ABOVE") (plain "Mn" "230" "NSM"),
   .single (TableText.text "212B") (TableText.text "ANGSTROM SIGN") { plain "Lu" "0" "L" with decomposition := some (none, [TableText.text "00C5"]) },
   .range (TableText.text "4E00") (TableText.text "9FEA") (TableText.text "CJK Ideograph") (plain "Lo" "0" "L")]

theorem plain_ok (category ccc bidi : String) (h1 : TableText.text category ≠ [] ∧ IsField (TableText.text category)) (h2 : TableText.text ccc ≠ [] ∧
    (∀ c ∈ TableText.text ccc, 48 ≤ c ∧ c ≤ 57) ∧ UcdFile.decValue (TableText.text ccc) ≤ 255) (h3 : TableText.text bidi ≠ [] ∧ IsField (TableText.text bidi)) : (plain category ccc bidi).Ok := by
  constructor <;> first | exact h1 | exact h2 | exact h3 | (simp [plain])

theorem field_ok (s : String) (h : TableText.text s ≠ [] ∧ 59 ∉ TableText.text s ∧ 10 ∉ TableText.text s) : TableText.text s ≠ [] ∧ IsField (TableText.text s) := h

instance (s : List Nat) : Decidable (IsField s) := inferInstanceAs (Decidable (59 ∉ s ∧ 10 ∉ s))
instance (s : List Nat) : Decidable (UcdFile.IsHex s) := inferInstanceAs (Decidable (_ ∧ _ ∧ _))
instance (s : List Nat) : Decidable (IsChar s) := inferInstanceAs (Decidable (_ ∧ _))

theorem example_items : FileOk exampleItems where
  ok := by
    intro i hi
    simp only [exampleItems, List.mem_cons, List.not_mem_nil, or_false] at hi
    rcases hi with rfl | rfl | rfl | rfl | rfl | rfl | rfl
    · exact ⟨by decide, by decide, by decide, by decide, { plain_ok "Cc" "0" "S" (by decide) (by decide) (by decide) with oldName := by rintro t h; cases h; decide }⟩
    · exact ⟨by decide, by decide, by decide, by decide, { plain_ok "Ps" "0" "ON" (by decide) (by decide) (by decide) with oldName := by rintro t h; cases h; decide }⟩
    · exact ⟨by decide, by decide, by decide, by decide, { plain_ok "No" "0" "ON" (by decide) (by decide) (by decide) with
        decomposition := by
          rintro tag ps h
          cases h
          exact ⟨by rintro t h; cases h; decide, by simp, by decide⟩
        numeric := by rintro t h; cases h; decide }⟩
    · exact ⟨by decide, by decide, by decide, by decide, { plain_ok "Lu" "0" "L" (by decide) (by decide) (by decide) with
        decomposition := by
          rintro tag ps h
          cases h
          exact ⟨(by rintro t h; cases h), by simp, by decide⟩
        lower := by rintro t h; cases h; decide }⟩
    · exact ⟨by decide, by decide, by decide, by decide, plain_ok "Mn" "230" "NSM" (by decide) (by decide) (by decide)⟩
    · exact ⟨by decide, by decide, by decide, by decide, { plain_ok "Lu" "0" "L" (by decide) (by decide) (by decide) with
        decomposition := by
          rintro tag ps h
          cases h
          exact ⟨(by rintro t h; cases h), by simp, by decide⟩ }⟩
    · exact ⟨by decide, by decide, by decide, .inl ⟨by decide, by decide⟩, ⟨by decide, by decide, by decide⟩, plain_ok "Lo" "0" "L" (by decide) (by decide) (by decide)⟩
  ascending := by decide

/-- what the example says -/
example : (itemOf exampleItems 0x5000).map (fun i => i.fields.category) = some (TableText.text "Lo") ∧ itemOf exampleItems 0x41 = none ∧
    defaultBidiClass 0x5FF = some (TableText.text "R") ∧ canonicalOf exampleItems 0xC5 = some [0x41, 0x30A] ∧
    compatibilityOf exampleItems 0xBD = some (TableText.text "fraction", [0x31, 0x2044, 0x32]) ∧ nameOf exampleItems 0x9 = none ∧ nameOf exampleItems 0x5000 = none ∧
    nameOf exampleItems 0x28 = some (TableText.text "LEFT PARENTHESIS") := by decide +kernel

theorem example_of (c : Nat) (i : Item) (h : itemOf exampleItems c = some i) : i ∈ exampleItems ∧ i.first ≤ c ∧ c ≤ i.last :=
  ((Proofs.GenUnicodeData.itemOf_eq_some exampleItems example_items.ascending (by decide) c i).1 h).2

theorem example_canonical (c : Nat) (m : List Nat) (h : canonicalOf exampleItems c = some m) : (c = 0xC5 ∧ m = [0x41, 0x30A]) ∨ (c = 0x212B ∧ m = [0xC5]) := by
  rw [canonicalOf, Option.bind_eq_some_iff] at h
  obtain ⟨i, hi, h⟩ := h
  obtain ⟨hm, h1, h2⟩ := example_of c i hi
  simp only [exampleItems, List.mem_cons, List.not_mem_nil, or_false] at hm
  rcases hm with rfl | rfl | rfl | rfl | rfl | rfl | rfl
  · cases h
  · cases h
  · cases h
  · have e : (Item.single (TableText.text "00C5") (TableText.text "LATIN CAPITAL LETTER A WITH RING ABOVE")
        { plain "Lu" "0" "L" with decomposition := some (none, [TableText.text "0041", TableText.text "030A"]), lower := some (TableText.text "00E5") }).first = 0xC5 := by decide
    exact .inl ⟨Nat.le_antisymm (e ▸ h2) (e ▸ h1), by cases h; decide⟩
  · cases h
  · have e : (Item.single (TableText.text "212B") (TableText.text "ANGSTROM SIGN") { plain "Lu" "0" "L" with decomposition := some (none, [TableText.text "00C5"]) }).first = 0x212B := by decide
    exact .inr ⟨Nat.le_antisymm (e ▸ h2) (e ▸ h1), by cases h; decide⟩
  · cases h

/-- `212B          ; Full_Composition_Exclusion # L&       ANGSTROM SIGN` -/
def exclusionRow : UcdFile.Row :=
  ⟨⟨TableText.text "212B", none⟩, TableText.text "          ", TableText.text " ", TableText.text "Full_Composition_Exclusion", TableText.text " # L&       ANGSTROM SIGN"⟩

theorem exclusion_row : NormalizationRow exclusionRow := by
  refine ⟨⟨⟨⟨by decide, by decide, by decide⟩, by simp [exclusionRow]⟩, ⟨by decide, blanks_ok _ (by decide)⟩, ⟨by decide, blanks_ok _ (by decide)⟩,
    ⟨by decide, fun c hc => (Proofs.GenFiles.word_of c).1 ((by decide : ∀ c ∈ TableText.text "Full_Composition_Exclusion", Regex.word c = true) c hc)⟩, by decide, ?_⟩,
    fun _ => ⟨by decide, TableText.text " L&       ANGSTROM SIGN", by decide⟩⟩
  intro c (hc : (TableText.text " # L&       ANGSTROM SIGN").head? = some c)
  rw [show (TableText.text " # L&       ANGSTROM SIGN").head? = some 32 by decide, Option.some.injEq] at hc
  subst hc
  unfold UcdFile.IsWord
  omega

/-- the generator on the example: U+0041 and U+030A compose to U+00C5 and to nothing else -/
example : ∃ s t, canonicalCompositionMapping (UnicodeData.fileText exampleItems) (UcdFile.fileText UcdFile.Row.text [.other (TableText.text "# comment"), .row exclusionRow]) = .ok s ∧
    TableText.readTable s = some t ∧ ∃ inner, InnerTable t 0x41 inner ∧ inner.find 0x30A = .ok (some 0xC5) ∧ inner.find 0x301 = .ok none := by
  obtain ⟨s, t, h1, h2, _, h4⟩ := c65_composition exampleItems example_items [.other (TableText.text "# comment"), .row exclusionRow] (by
    intro l hl
    simp only [List.mem_cons, List.not_mem_nil, or_false] at hl
    rcases hl with rfl | rfl
    · exact ⟨by decide, by intro c hc; cases hc; rfl⟩
    · exact exclusion_row)
    (by
      intro c m h
      rcases example_canonical c m h with ⟨_, rfl⟩ | ⟨_, rfl⟩
      · exact .inr rfl
      · exact .inl rfl)
    (by
      intro a b c c' h h'
      rcases example_canonical c _ h.1 with ⟨h1, _⟩ | ⟨_, h2⟩
      · rcases example_canonical c' _ h'.1 with ⟨h1', _⟩ | ⟨_, h2⟩
        · exact h1.trans h1'.symm
        · simp at h2
      · simp at h2)
  obtain ⟨inner, h5, _, h6⟩ := h4 0x41
  refine ⟨s, t, h1, h2, inner, h5, ?_, ?_⟩
  · obtain ⟨o, h7, h8⟩ := h6 0x30A
    rw [h7, (h8 0xC5).2 ⟨by decide +kernel, ?_⟩]
    rintro ⟨_, r, hr, _, h9, h10⟩
    simp only [UcdFile.rowsOf, List.filterMap_cons, List.filterMap_nil, List.mem_singleton] at hr
    subst hr
    exact absurd h9 (by decide)
  · obtain ⟨o, h7, h8⟩ := h6 0x301
    rw [h7]
    cases o with
    | none => rfl
    | some c =>
      have := ((h8 c).1 rfl).1
      rcases example_canonical c _ this with ⟨_, h⟩ | ⟨_, h⟩ <;> simp at h

/-- the name of U+0028 in the example -/
example : IsName (TableText.text "LEFT PARENTHESIS") := ⟨[TableText.text "LEFT", TableText.text "PARENTHESIS"], by simp, by decide, by decide⟩

/-- `1101; GG # HANGUL CHOSEONG SSANGKIYEOK`, and the jamo without a short name -/
example : (JamoRow.mk (TableText.text "1101") (TableText.text " ") (TableText.text "GG") (TableText.text " # HANGUL CHOSEONG SSANGKIYEOK")).Ok ∧
    (JamoRow.mk (TableText.text "110B") (TableText.text "    ") [] (TableText.text "# HANGUL CHOSEONG IEUNG")).Ok := by
  refine ⟨⟨by decide, blanks_ok _ (by decide), by decide, by decide, ?_⟩, ⟨by decide, blanks_ok _ (by decide), by decide, by decide, ?_⟩⟩
  · intro c (hc : (TableText.text " # HANGUL CHOSEONG SSANGKIYEOK").head? = some c)
    rw [show (TableText.text " # HANGUL CHOSEONG SSANGKIYEOK").head? = some 32 by decide, Option.some.injEq] at hc
    subst hc
    exact ⟨by omega, fun h => absurd h (by decide)⟩
  · intro c (hc : (TableText.text "# HANGUL CHOSEONG IEUNG").head? = some c)
    rw [show (TableText.text "# HANGUL CHOSEONG IEUNG").head? = some 35 by decide, Option.some.injEq] at hc
    subst hc
    exact ⟨by omega, fun _ => by unfold UcdFile.IsBlank; omega⟩

/-- two aliases of U+0000 and one that is repeated -/
def exampleAliases : List AliasRow :=
  [⟨TableText.text "0000", TableText.text "NULL", ("control", "ControlCodeNames", "controls.rsv")⟩,
   ⟨TableText.text "0000", TableText.text "NUL", ("abbreviation", "NameAbbreviations", "abbreviations.rsv")⟩,
   ⟨TableText.text "0000", TableText.text "NULL", ("control", "ControlCodeNames", "controls.rsv")⟩]

example : (∀ r ∈ exampleAliases, r.Ok) ∧ aliasesOf exampleAliases ("control", "ControlCodeNames", "controls.rsv") 0 = [TableText.text "NULL"] ∧
    typesOf exampleAliases 0 = [TableText.text "ControlCodeNames", TableText.text "NameAbbreviations"] := by
  refine ⟨?_, by decide +kernel, by decide +kernel⟩
  intro r hr
  simp only [exampleAliases, List.mem_cons, List.not_mem_nil, or_false] at hr
  rcases hr with rfl | rfl | rfl <;> exact ⟨by decide, by decide, by decide⟩

/-- `… for Version 10.0.0 of the Unicode Standard.` -/
example : unicodeVersion (fun _ => false) (TableText.text "This directory contains final data files\nfor Version 10.0.0 of the Unicode Standard.\n") =
    .ok (TableText.text "UnicodeVersion { major: 10, minor: 0, micro: 0 }") := by
  have h := c68_unicode (fun _ => false) (TableText.text "This directory contains final data files\n") (TableText.text "10") (TableText.text "0") (TableText.text "0")
    (TableText.text " of the Unicode Standard.\n") ⟨by decide, by decide, by decide⟩ ⟨by decide, by decide, by decide⟩ ⟨by decide, by decide, by decide⟩ (by
      intro c hc
      rw [show (TableText.text " of the Unicode Standard.\n").head? = some 32 by decide, Option.some.injEq] at hc
      subst hc
      exact ⟨by omega, by omega⟩) (by
      intro u v huv hv hp
      have h1 : ∀ k < (TableText.text "This directory contains final data files\n").length, ¬ TableText.text "for Version " <+: (TableText.text "This directory contains final data files\n").drop k ++
          (TableText.text "for Version " ++ (TableText.text "10" ++ 46 :: (TableText.text "0" ++ 46 :: (TableText.text "0" ++ TableText.text " of the Unicode Standard.\n")))) := by decide +kernel
      have h2 := h1 u.length (by
        rw [huv, List.length_append]
        have := List.length_pos_iff.2 hv
        omega)
      rw [huv, List.drop_left] at h2
      exact h2 hp)
  exact h

end Props.GenUcd
