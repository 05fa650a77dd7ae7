import Verif.Model.Inspector
import Verif.Props.Name
import Verif.Props.Cli
import Verif.Props.Blocks
import Verif.Props.Property

/-! # Property C73: the command `unic-inspector` -/
namespace Props.Inspector
open Model Model.Inspector Proofs.Name Proofs.StepFn

/-- the check made on every piece of the table of categories and that of abbreviations -/
def abbrOk (g : Data.GeneralCategory) (a : Option (List String)) : Bool :=
  match g with
  | .Control => match a with
    | some (_ :: _) => true
    | _ => false
  | .Unassigned | .PrivateUse | .Surrogate => a.isNone
  | _ => true

theorem abbr_ok (c : Nat) : abbrOk (Ucd.generalCategory c) (Ucd.nameAliasesOf c .NameAbbreviations) = true := by
  rw [Ucd.nameAliasesOf, Ucd.abbreviationsTable, Props.Blocks.dSF_find _ Proofs.UcdTables.abbreviationsTable_asc, Proofs.UcdSF.generalCategory_sf]
  exact SF.all₂ abbrOk _ _ (by decide +kernel) c

/-- the control characters -/
def controls : List Nat := List.range 32 ++ List.range' 127 33

def controlEntries : List (Nat × Nat × Unit) := [(0, 31, ()), (127, 159, ())]

theorem control_range (c : Nat) (h : Ucd.generalCategory c = .Control) : c ∈ controls := by
  have hk := SF.all₂ (fun g (o : Option Unit) => !decide (g = .Control) || o.isSome) Proofs.UcdSF.generalCategorySF (SF.ofEntries controlEntries) (by decide +kernel) c
  rw [← Proofs.UcdSF.generalCategory_sf, h, SF.ofEntries, SF.eval, evalSF_steps _ 0 c (by decide)] at hk
  simp only [decide_true, Bool.not_true, Bool.false_or] at hk
  obtain ⟨e, he, h1, h2⟩ := (lookup_isSome _ _).1 hk
  simp only [controlEntries, List.mem_cons, List.not_mem_nil, or_false] at he
  simp only [controls, List.mem_append, List.mem_range, List.mem_range'_1]
  rcases he with rfl | rfl <;> simp only at h1 h2 <;> omega

/-- the first abbreviation of a control character -/
def abbr (c : Nat) : List Nat := match Ucd.nameAliasesOf c .NameAbbreviations with
  | some (a :: _) => Model.Name.str a
  | _ => []

theorem abbr_inj : (controls.map abbr).Nodup := by decide +kernel

theorem abbr_text : ∀ c ∈ controls, abbr c ≠ [] ∧ (abbr c).length ≤ 4 ∧ (∀ x ∈ abbr c, x ≠ 0x20 ∧ x ≠ 0x3C ∧ x < 256) := by decide +kernel

/-- the names of the table of up to four letters, as their entries -/
theorem names_short : (Data.names.all fun ch => ch.all fun e => Nat.ble 0x10000000000 e.2 || !((controls.map fun c => val (abbr c) * 256 + 0x20).contains e.2)) = true := by
  decide +kernel

theorem abbr_not_name {a c : Nat} {nm : Model.Name.Name} (hn : Model.Name.of c = .ok (some nm)) (ha : a ∈ controls) : Model.Name.display nm ≠ .ok (abbr a) := by
  obtain ⟨h0, h1, h2⟩ := abbr_text a ha
  have hpre : ∀ P ∈ prefixes, ∀ s, P ++ s ≠ abbr a := by
    intro P hP s e
    have := (prefixes_top P hP).2.2.2
    exact (h2 0x20 (by rw [← e]; simp [this])).1 rfl
  intro hd
  rcases of_cases hn with ⟨rfl, h3, h4⟩ | ⟨P, hP, rfl, _⟩ | ⟨n, rfl, hm, hs⟩
  · obtain ⟨l, v, t, hl, hv, ht, hc, hd'⟩ := syllable_parts h3 h4
    rw [display_NR1 hl hv ht hd', Outcome.ok.injEq] at hd
    exact hpre _ (by simp [prefixes]) _ hd
  · rw [Model.Name.display, Outcome.ok.injEq] at hd
    exact hpre _ (List.mem_of_mem_tail hP) _ hd
  · rw [pieces_display (name_end hm), Outcome.ok.injEq] at hd
    have hv := val_bytes (n / 256)
    rw [hd] at hv
    have he := name_end hm
    have hk := names_all names_short hm
    have hn' : val (abbr a) * 256 + 0x20 = n := by omega
    simp only [Bool.or_eq_true] at hk
    rcases hk with hk | hk
    · have hb := val_lt (abbr a) fun x hx => (h2 x hx).2.2
      have : 256 ^ (abbr a).length ≤ 256 ^ 4 := Nat.pow_le_pow_right (by omega) h1
      have := Nat.le_of_ble_eq_true hk
      omega
    · simp only [Bool.not_eq_true', List.contains_eq_mem, decide_eq_false_iff_not] at hk
      exact hk (List.mem_map.2 ⟨a, ha, hn'⟩)

/-- the rows of the help: what a row says of a character, in the words of the property -/
structure IsRow (c : Nat) (r : Row) : Prop where
  /-- the character -/
  char : r.char = [c]
  /-- its code point: `U+` and at least four digits (`c49_notation`) -/
  code : r.code = Cli.unicodeNotation c
  /-- the name of a character that has one -/
  named : ∀ nm, Model.Name.of c = .ok (some nm) → Model.Name.display nm = .ok r.name
  /-- the first abbreviation of a control character -/
  control : Ucd.generalCategory c = .Control → ∃ a rest, Ucd.nameAliasesOf c .NameAbbreviations = some (a :: rest) ∧ r.name = Model.Name.str a
  /-- `<none>` for these only -/
  none : r.name = Model.Name.str "<none>" ↔ Ucd.generalCategory c ∈ [.Unassigned, .PrivateUse, .Surrogate]
  /-- the long name of the category -/
  long : r.category = Model.Name.str (Ucd.generalCategory c).longName
  /-- the category can be read back -/
  category : ∀ x : String, Model.Name.str x = r.category →
    Property.fromStr (Property.enumArms Data.GeneralCategory.allValues Data.GeneralCategory.abbrName Data.GeneralCategory.longName) x = some (Ucd.generalCategory c)

theorem str_inj {x y : String} (h : Model.Name.str x = Model.Name.str y) : x = y := by
  apply String.toList_injective
  exact List.map_injective_iff.2 (fun a b h => Props.Property.toNat_inj h) h

theorem none_text : Model.Name.str "<none>" = [0x3C, 0x6E, 0x6F, 0x6E, 0x65, 0x3E] := rfl

theorem dn_some {c : Nat} {nm : Model.Name.Name} (h : Model.Name.of c = .ok (some nm)) : displayName c = Model.Name.display nm := by
  unfold displayName
  simp only [h]

theorem dn_abbr {c : Nat} {a : String} {rest : List String} (h : Model.Name.of c = .ok none) (ha : Ucd.nameAliasesOf c .NameAbbreviations = some (a :: rest)) :
    displayName c = .ok (Model.Name.str a) ∧ abbr c = Model.Name.str a := by
  unfold displayName abbr
  simp only [h, ha, and_self]

theorem dn_none {c : Nat} (h : Model.Name.of c = .ok none) (ha : Ucd.nameAliasesOf c .NameAbbreviations = none) :
    displayName c = .ok (Model.Name.str "<none>") := by
  unfold displayName
  simp only [h, ha]

theorem row_of {c : Nat} {s : List Nat} (h : displayName c = .ok s) :
    row c = .ok ⟨[c], Cli.unicodeNotation c, s, Model.Name.str (Data.GeneralCategory.longName (Ucd.generalCategory c))⟩ := by
  unfold row
  simp only [h, Cli.unicodeNotation]

theorem displayName_control {c : Nat} (h : Ucd.generalCategory c = .Control) :
    displayName c = .ok (abbr c) ∧ ∃ a rest, Ucd.nameAliasesOf c .NameAbbreviations = some (a :: rest) ∧ abbr c = Model.Name.str a := by
  obtain ⟨o, ho, hnamed⟩ := Props.Name.c58_named c
  have hk := abbr_ok c
  rw [h] at hk
  cases o with
  | some nm => exact absurd h (hnamed.1 rfl).1
  | none =>
    cases ha : Ucd.nameAliasesOf c .NameAbbreviations with
    | none => rw [ha] at hk; simp [abbrOk] at hk
    | some l =>
      cases l with
      | nil => rw [ha] at hk; simp [abbrOk] at hk
      | cons a rest =>
        obtain ⟨h1, h2⟩ := dn_abbr ho ha
        exact ⟨h2 ▸ h1, a, rest, rfl, h2⟩

theorem displayName_none {c : Nat} (h : Ucd.generalCategory c ∈ [.Unassigned, .PrivateUse, .Surrogate]) :
    displayName c = .ok (Model.Name.str "<none>") ∧ Model.Name.of c = .ok none := by
  obtain ⟨o, ho, hnamed⟩ := Props.Name.c58_named c
  have hk := abbr_ok c
  simp only [List.mem_cons, List.not_mem_nil, or_false] at h
  cases o with
  | some nm =>
    obtain ⟨h1, h2, h3, h4⟩ := hnamed.1 rfl
    rcases h with h | h | h
    · exact absurd h h2
    · exact absurd h h3
    · exact absurd h h4
  | none =>
    refine ⟨?_, ho⟩
    have : Ucd.nameAliasesOf c .NameAbbreviations = none := by
      rw [← Option.isNone_iff_eq_none]
      rcases h with h | h | h <;> rw [h] at hk <;> simpa only [abbrOk] using hk
    exact dn_none ho this

theorem displayName_named {c : Nat} {nm : Model.Name.Name} (h : Model.Name.of c = .ok (some nm)) :
    ∃ s, displayName c = .ok s ∧ Model.Name.display nm = .ok s ∧ 0x3C ∉ s := by
  obtain ⟨s, hs, _⟩ := display_len h
  refine ⟨s, (dn_some h).trans hs, hs, ?_⟩
  intro hm
  rcases (display_text h hs).bytes _ hm with h | h
  · unfold Spec.Name.NameByte at h; omega
  · omega

theorem three (c : Nat) : Ucd.generalCategory c = .Control ∨ Ucd.generalCategory c ∈ [.Unassigned, .PrivateUse, .Surrogate] ∨
    ∃ nm, Model.Name.of c = .ok (some nm) := by
  rw [named_category c]
  simp only [List.mem_cons, List.not_mem_nil, or_false]
  by_cases h1 : Ucd.generalCategory c = .Control
  · exact .inl h1
  by_cases h2 : Ucd.generalCategory c = .Unassigned
  · exact .inr (.inl (.inl h2))
  by_cases h3 : Ucd.generalCategory c = .PrivateUse
  · exact .inr (.inl (.inr (.inl h3)))
  by_cases h4 : Ucd.generalCategory c = .Surrogate
  · exact .inr (.inl (.inr (.inr h4)))
  · exact .inr (.inr ⟨h1, h2, h3, h4⟩)

theorem cat_back (g : Data.GeneralCategory) (x : String) (hx : Model.Name.str x = Model.Name.str g.longName) :
    Property.fromStr (Property.enumArms Data.GeneralCategory.allValues Data.GeneralCategory.abbrName Data.GeneralCategory.longName) x = some g := by
  rw [str_inj hx]
  exact (Props.Property.c40_general_category.1 _ _).2 (.inr ((Props.Property.eqIgnoreAsciiCase_iff _ _).1 (by simp [Property.eqIgnoreAsciiCase])))

theorem mk_row {c : Nat} {s : List Nat} (h : displayName c = .ok s)
    (named : ∀ nm, Model.Name.of c = .ok (some nm) → Model.Name.display nm = .ok s)
    (control : Ucd.generalCategory c = .Control → ∃ a rest, Ucd.nameAliasesOf c .NameAbbreviations = some (a :: rest) ∧ s = Model.Name.str a)
    (none : s = Model.Name.str "<none>" ↔ Ucd.generalCategory c ∈ [.Unassigned, .PrivateUse, .Surrogate]) : ∃ r, row c = .ok r ∧ IsRow c r := by
  have hr := row_of h
  exact ⟨_, hr, ⟨rfl, rfl, named, control, none, (by simp only), fun x hx => (by simp only at hx; exact cat_back _ x hx)⟩⟩

/-- **C73.** Every character has a row: the character, its code point, a name and the long name of its general category. The name is the
character's name; for control characters, the first of their abbreviations; and `<none>` for the characters that are unassigned, for private
use or surrogates, and for no others. -/
theorem c73_row (c : Nat) : ∃ r, row c = .ok r ∧ IsRow c r := by
  have hne : ∀ g : Data.GeneralCategory, g = .Control → g ∉ [.Unassigned, .PrivateUse, .Surrogate] := by rintro g rfl; decide
  rcases three c with h | h | ⟨nm, h⟩
  · obtain ⟨h1, a, rest, h2, h3⟩ := displayName_control h
    have hn : ∀ nm, Model.Name.of c ≠ .ok (some nm) := fun nm hn => ((named_category c).1 ⟨nm, hn⟩).1 h
    refine mk_row h1 (fun nm h => absurd h (hn nm)) (fun _ => ⟨a, rest, h2, h3⟩) ?_
    refine ⟨fun e => ?_, fun e => absurd e (hne _ h)⟩
    have := (abbr_text c (control_range c h)).2.2 0x3C (by rw [e, none_text]; simp)
    omega
  · obtain ⟨h1, h2⟩ := displayName_none h
    exact mk_row h1 (fun nm hn => (by rw [h2] at hn; cases hn)) (fun hc => absurd h (hne _ hc)) ⟨fun _ => h, fun _ => rfl⟩
  · obtain ⟨s, h1, h2, h3⟩ := displayName_named h
    obtain ⟨g1, g2, g3, g4⟩ := (named_category c).1 ⟨nm, h⟩
    refine mk_row h1 (fun nm' hn => ?_) (fun hc => absurd hc g1) ?_
    · rw [h] at hn
      cases hn
      exact h2
    · refine ⟨fun e => ?_, fun e => ?_⟩
      · rw [e, none_text] at h3
        simp at h3
      · simp only [List.mem_cons, List.not_mem_nil, or_false] at e
        rcases e with e | e | e
        · exact absurd e g2
        · exact absurd e g3
        · exact absurd e g4

/-- **C73.** The command never panics; it shows one row for each character of the strings joined by spaces, in their order. -/
theorem c73_run (strings : List (List Nat)) : ∃ rs, run strings = .ok rs ∧ List.Forall₂ IsRow (Cli.joinSpace strings) rs := by
  unfold run
  generalize Cli.joinSpace strings = l
  induction l with
  | nil => exact ⟨[], rfl, .nil⟩
  | cons c l ih =>
    obtain ⟨r, h1, h2⟩ := c73_row c
    obtain ⟨rs, h3, h4⟩ := ih
    exact ⟨r :: rs, by rw [rows, h1]; simp only; rw [h3], .cons h2 h4⟩

/-- **C73.** Two characters are shown with the same name only if this is `<none>`. -/
theorem c73_names_differ (a b : Nat) (r q : Row) (ha : row a = .ok r) (hb : row b = .ok q) (h : r.name = q.name)
    (hn : r.name ≠ Model.Name.str "<none>") : a = b := by
  have key : ∀ c r, row c = .ok r → displayName c = .ok r.name := by
    intro c r h
    unfold row at h
    split at h
    · cases h
    · rename_i name hd
      cases h
      exact hd
  have ha' := key a r ha
  have hb' := key b q hb
  rw [← h] at hb'
  rcases three a with h1 | h1 | ⟨x, h1⟩
  · have e1 := (displayName_control h1).1
    rw [ha', Outcome.ok.injEq] at e1
    rcases three b with h2 | h2 | ⟨y, h2⟩
    · have e2 := (displayName_control h2).1
      rw [hb', Outcome.ok.injEq] at e2
      exact List.inj_on_of_nodup_map abbr_inj (control_range a h1) (control_range b h2) (by rw [← e1, e2])
    · have e2 := (displayName_none h2).1
      rw [hb', Outcome.ok.injEq] at e2
      exact absurd e2 hn
    · obtain ⟨s, e2, e3, _⟩ := displayName_named h2
      rw [hb', Outcome.ok.injEq] at e2
      exact absurd (by rw [e3, ← e2, e1]) (abbr_not_name h2 (control_range a h1))
  · have e1 := (displayName_none h1).1
    rw [ha', Outcome.ok.injEq] at e1
    exact absurd e1 hn
  · obtain ⟨s, e1, e3, _⟩ := displayName_named h1
    rw [ha', Outcome.ok.injEq] at e1
    rcases three b with h2 | h2 | ⟨y, h2⟩
    · have e2 := (displayName_control h2).1
      rw [hb', Outcome.ok.injEq] at e2
      exact absurd (by rw [e3, ← e1, e2]) (abbr_not_name h1 (control_range b h2))
    · have e2 := (displayName_none h2).1
      rw [hb', Outcome.ok.injEq] at e2
      exact absurd e2 hn
    · obtain ⟨s', e2, e4, _⟩ := displayName_named h2
      rw [hb', Outcome.ok.injEq] at e2
      exact display_inj h1 h2 (by rw [e3, e4, ← e1, e2])

/-- A syllable, a control character and a character for private use. -/
example : row 0xAC01 = .ok ⟨[0xAC01], Model.Name.str "U+AC01", Model.Name.str "HANGUL SYLLABLE GAG", Model.Name.str "Other_Letter"⟩ := by decide +kernel
example : displayName 0x0A = .ok (Model.Name.str "LF") := by
  rw [(displayName_control (by decide +kernel)).1, show abbr 0x0A = Model.Name.str "LF" by decide +kernel]
example : displayName 0xE000 = .ok (Model.Name.str "<none>") := (displayName_none (by decide +kernel)).1

end Props.Inspector
