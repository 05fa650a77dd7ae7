import Verif.Model.Property

/-! # Properties C40 and C41: property value names -/
namespace Props.Property
open Data Model.Property

/-- Two strings are equal up to the case of ASCII letters: same length, and at each position equal
characters or the two cases of one ASCII letter. -/
def SameUpToAsciiCase (a b : String) : Prop :=
  a.toList.length = b.toList.length ∧ ∀ i (h : i < a.toList.length) (h' : i < b.toList.length),
    a.toList[i] = b.toList[i] ∨
    ∃ k, k < 26 ∧ ((a.toList[i].toNat = 65 + k ∧ b.toList[i].toNat = 97 + k) ∨
                   (a.toList[i].toNat = 97 + k ∧ b.toList[i].toNat = 65 + k))

theorem toNat_ofNat_small (n : Nat) (h : n < 128) : (Char.ofNat n).toNat = n := by
  have hv : n.isValidChar := Or.inl (by omega)
  simp only [Char.ofNat, hv, ↓reduceDIte]
  rfl

theorem asciiLower_toNat (c : Char) :
    (asciiLower c).toNat = if 65 ≤ c.toNat ∧ c.toNat ≤ 90 then c.toNat + 32 else c.toNat := by
  have hA : 'A'.toNat = 65 := rfl
  have hZ : 'Z'.toNat = 90 := rfl
  simp only [asciiLower, hA, hZ]
  split
  · next h => rw [toNat_ofNat_small _ (by omega)]
  · rfl

theorem toNat_inj {a b : Char} (h : a.toNat = b.toNat) : a = b := by
  apply Char.ext
  exact UInt32.toNat_inj.1 h

theorem asciiLower_eq_iff (a b : Char) : asciiLower a = asciiLower b ↔
    a = b ∨ ∃ k, k < 26 ∧ ((a.toNat = 65 + k ∧ b.toNat = 97 + k) ∨ (a.toNat = 97 + k ∧ b.toNat = 65 + k)) := by
  constructor
  · intro h
    have h' : (asciiLower a).toNat = (asciiLower b).toNat := by rw [h]
    rw [asciiLower_toNat, asciiLower_toNat] at h'
    by_cases hab : a.toNat = b.toNat
    · exact .inl (toNat_inj hab)
    · right
      split at h' <;> split at h'
      · omega
      · exact ⟨a.toNat - 65, by omega, by omega⟩
      · exact ⟨b.toNat - 65, by omega, by omega⟩
      · omega
  · intro h
    apply toNat_inj
    rw [asciiLower_toNat, asciiLower_toNat]
    rcases h with rfl | ⟨k, hk, h | h⟩
    · rfl
    · rw [if_pos (by omega), if_neg (by omega)]; omega
    · rw [if_neg (by omega), if_pos (by omega)]; omega

/-- The comparison used by the code is equality up to ASCII case. -/
theorem eqIgnoreAsciiCase_iff (a b : String) : eqIgnoreAsciiCase a b = true ↔ SameUpToAsciiCase a b := by
  simp only [eqIgnoreAsciiCase, beq_iff_eq, SameUpToAsciiCase]
  constructor
  · intro h
    have hl : a.toList.length = b.toList.length := by simpa using congrArg List.length h
    refine ⟨hl, fun i h1 h2 => ?_⟩
    have : (a.toList.map asciiLower)[i]'(by simpa using h1) = (b.toList.map asciiLower)[i]'(by simpa using h2) := by
      simp only [h]
    rw [List.getElem_map, List.getElem_map, asciiLower_eq_iff] at this
    exact this
  · rintro ⟨hl, h⟩
    apply List.ext_getElem
    · simpa using hl
    · intro i h1 h2
      rw [List.getElem_map, List.getElem_map, asciiLower_eq_iff]
      exact h i (by simpa using h1) (by simpa using h2)

/-- Arms are unambiguous: arms equal up to case have the same value. -/
def unambiguous {V : Type} [DecidableEq V] (arms : List (String × V)) : Bool :=
  arms.all fun a => arms.all fun b => !(eqIgnoreAsciiCase a.1 b.1) || decide (a.2 = b.2)

theorem eqI_symm {a b : String} (h : eqIgnoreAsciiCase a b = true) : eqIgnoreAsciiCase b a = true := by
  simp only [eqIgnoreAsciiCase, beq_iff_eq] at *; exact h.symm
theorem eqI_trans {a b c : String} (h : eqIgnoreAsciiCase a b = true) (h' : eqIgnoreAsciiCase b c = true) :
    eqIgnoreAsciiCase a c = true := by
  simp only [eqIgnoreAsciiCase, beq_iff_eq] at *; exact h.trans h'

/-- Parsing succeeds with `v` exactly on the strings equal up to case to an arm of `v`. -/
theorem fromStr_iff {V : Type} [DecidableEq V] (arms : List (String × V)) (hu : unambiguous arms = true)
    (s : String) (v : V) : fromStr arms s = some v ↔ ∃ n, (n, v) ∈ arms ∧ SameUpToAsciiCase s n := by
  have hu' : ∀ a ∈ arms, ∀ b ∈ arms, eqIgnoreAsciiCase a.1 b.1 = true → a.2 = b.2 := by
    intro a ha b hb h
    have := List.all_eq_true.1 (List.all_eq_true.1 hu a ha) b hb
    simpa [h] using this
  simp only [← eqIgnoreAsciiCase_iff]
  -- every successful result comes from an arm equal up to case
  have sound : ∀ w, fromStr arms s = some w → ∃ n, (n, w) ∈ arms ∧ eqIgnoreAsciiCase s n = true := by
    intro w h
    unfold fromStr at h
    cases h1 : arms.find? (fun a => a.1 == s) with
    | some a =>
      simp only [h1, Option.some.injEq] at h
      have hp := List.find?_some h1
      simp only [beq_iff_eq] at hp
      refine ⟨a.1, by rw [← h]; exact List.mem_of_find?_eq_some h1, ?_⟩
      simp [eqIgnoreAsciiCase, hp]
    | none =>
      simp only [h1] at h
      cases h2 : arms.find? (fun a => eqIgnoreAsciiCase s a.1) with
      | none => simp [h2] at h
      | some a =>
        simp only [h2, Option.map_some, Option.some.injEq] at h
        exact ⟨a.1, by rw [← h]; exact List.mem_of_find?_eq_some h2, by simpa using List.find?_some h2⟩
  constructor
  · exact sound v
  · rintro ⟨n, hn, he⟩
    cases hf : fromStr arms s with
    | none =>
      exfalso
      unfold fromStr at hf
      cases h1 : arms.find? (fun a => a.1 == s) with
      | some a => simp [h1] at hf
      | none =>
        simp only [h1, Option.map_eq_none_iff, List.find?_eq_none] at hf
        exact hf _ hn he
    | some w =>
      obtain ⟨m, hm, hme⟩ := sound w hf
      have := hu' _ hm _ hn (eqI_trans (eqI_symm hme) he)
      simp only at this
      rw [this]

/-- What C40 says of one enumerated property. -/
def NamesParseBack {V : Type} (all : List V) (abbr long : V → String) : Prop :=
  (∀ s v, fromStr (enumArms all abbr long) s = some v ↔
    SameUpToAsciiCase s (abbr v) ∨ SameUpToAsciiCase s (long v)) ∧
  all.Nodup ∧ ∀ v, v ∈ all

theorem namesParseBack_of {V : Type} [DecidableEq V] (all : List V) (abbr long : V → String)
    (hu : unambiguous (enumArms all abbr long) = true) (hn : all.Nodup) (ha : ∀ v, v ∈ all) :
    NamesParseBack all abbr long := by
  refine ⟨fun s v => ?_, hn, ha⟩
  rw [fromStr_iff _ hu]
  simp only [enumArms, List.mem_flatMap, List.mem_cons, List.not_mem_nil, or_false, Prod.mk.injEq]
  constructor
  · rintro ⟨n, ⟨w, _, ⟨rfl, rfl⟩ | ⟨rfl, rfl⟩⟩, h⟩
    · exact .inl h
    · exact .inr h
  · rintro (h | h)
    · exact ⟨_, ⟨v, ha v, .inl ⟨rfl, rfl⟩⟩, h⟩
    · exact ⟨_, ⟨v, ha v, .inr ⟨rfl, rfl⟩⟩, h⟩

/-- **C40.** For every enumerated property: a string parses to a value exactly when it is that value's
abbreviated or long name up to ASCII case, and `all_values` lists every value once. -/
theorem c40_general_category : NamesParseBack GeneralCategory.allValues GeneralCategory.abbrName GeneralCategory.longName :=
  namesParseBack_of _ _ _ (by decide +kernel) (by decide) (by intro v; cases v <;> decide)
theorem c40_bidi_class : NamesParseBack BidiClass.allValues BidiClass.abbrName BidiClass.longName :=
  namesParseBack_of _ _ _ (by decide +kernel) (by decide) (by intro v; cases v <;> decide)
theorem c40_grapheme_cluster_break : NamesParseBack GraphemeClusterBreak.allValues GraphemeClusterBreak.abbrName
    GraphemeClusterBreak.longName :=
  namesParseBack_of _ _ _ (by decide +kernel) (by decide) (by intro v; cases v <;> decide)
theorem c40_word_break : NamesParseBack WordBreak.allValues WordBreak.abbrName WordBreak.longName :=
  namesParseBack_of _ _ _ (by decide +kernel) (by decide) (by intro v; cases v <;> decide)
theorem c40_sentence_break : NamesParseBack SentenceBreak.allValues SentenceBreak.abbrName SentenceBreak.longName :=
  namesParseBack_of _ _ _ (by decide +kernel) (by decide) (by intro v; cases v <;> decide)
theorem c40_decomposition_type : NamesParseBack DecompositionType.allValues DecompositionType.abbrName
    DecompositionType.longName :=
  namesParseBack_of _ _ _ (by decide +kernel) (by decide) (by intro v; cases v <;> decide)

/-- Non-vacuity: a mixed-case long name and an unknown name. -/
example : fromStr (enumArms GeneralCategory.allValues GeneralCategory.abbrName GeneralCategory.longName) "uPPercase_letter"
      = some .UppercaseLetter ∧
    fromStr (enumArms GeneralCategory.allValues GeneralCategory.abbrName GeneralCategory.longName) "Lx" = none := by
  decide +kernel

/-- **C41.** A binary property parses exactly y/yes/t/true and n/no/f/false up to ASCII case. -/
theorem c41_binary_parse (s : String) (b : Bool) : fromStr binaryArms s = some b ↔
    ∃ n ∈ (if b then ["y", "yes", "t", "true"] else ["n", "no", "f", "false"]), SameUpToAsciiCase s n := by
  rw [fromStr_iff _ (by decide +kernel)]
  cases b <;> simp [binaryArms]

/-- **C41.** Printed, abbreviated and long forms of a binary value parse back to it. -/
theorem c41_binary_roundtrip (b : Bool) : fromStr binaryArms (binaryHuman b) = some b ∧
    fromStr binaryArms (binaryAbbr b) = some b ∧ fromStr binaryArms (binaryLong b) = some b := by
  cases b <;> decide +kernel

end Props.Property
