import Verif.Proofs.NameSpec
import Verif.Props.Shipped

/-! # Properties C45 (length and order of names) and C58 (texts of names) -/
namespace Props.Name
open Model Model.Name Spec.Name Proofs.Name Props.Shipped

/-! ## C45: length and order -/

/-- **C45.** Displaying the name of any character succeeds, and `len` is the number of bytes displayed. -/
theorem c45_len (c : Nat) (nm : Name) (h : «of» c = .ok (some nm)) : ∃ s, display nm = .ok s ∧ len nm = .ok s.length := display_len h

/-- **C45.** Names of characters can always be compared (no panic); they compare equal only if they are the same name; swapping them swaps the result. -/
theorem c45_order (a b : Nat) (x y : Name) (hx : «of» a = .ok (some x)) (hy : «of» b = .ok (some y)) :
    ∃ o, Model.Name.cmp x y = .ok o ∧ Model.Name.cmp y x = .ok o.swap ∧ (o = .eq ↔ x = y) := by
  refine ⟨_, cmp_key hx hy, ?_, ?_⟩
  · rw [cmp_key hy hx, Std.OrientedOrd.eq_swap]
  · constructor
    · intro h
      exact key_inj hx hy (Std.LawfulEqOrd.eq_of_compare h)
    · rintro rfl
      exact Std.ReflOrd.compare_self

/-- **C45.** The order is transitive: with `isLE` for "less or equal". -/
theorem c45_trans (a b c : Nat) (x y z : Name) (hx : «of» a = .ok (some x)) (hy : «of» b = .ok (some y)) (hz : «of» c = .ok (some z))
    (o p : Ordering) (h1 : Model.Name.cmp x y = .ok o) (h2 : Model.Name.cmp y z = .ok p) (ho : o.isLE) (hp : p.isLE) :
    ∃ r, Model.Name.cmp x z = .ok r ∧ r.isLE ∧ (r = .eq → o = .eq ∧ p = .eq) := by
  rw [cmp_key hx hy, Outcome.ok.injEq] at h1
  rw [cmp_key hy hz, Outcome.ok.injEq] at h2
  subst h1 h2
  have hle := Std.TransOrd.isLE_trans ho hp
  refine ⟨_, cmp_key hx hz, hle, ?_⟩
  intro he
  have e := Std.LawfulEqOrd.eq_of_compare he
  rw [e] at ho
  have hs : compare (key z) (key y) = (compare (key y) (key z)).swap := Std.OrientedOrd.eq_swap
  have h3 : compare (key y) (key z) = .eq := by
    rw [hs] at ho
    cases h : compare (key y) (key z) <;> rw [h] at ho hp <;> simp_all
  exact ⟨by rw [e, hs, h3]; rfl, h3⟩

/-- **C45.** A character has at most one name and different characters have different names, so the order is also one of the named characters. -/
theorem c45_distinct (a b : Nat) (x : Name) (hx : «of» a = .ok (some x)) (hy : «of» b = .ok (some x)) : a = b := display_inj hx hy rfl

/-- A syllable, two ideographs and two listed names, in the order of their names. -/
example : (∃ x, «of» 0x4E00 = .ok (some x) ∧ x = .NR2 PREFIX_CJK_UNIFIED_IDEOGRAPH 0x4E00) ∧ (∃ x, «of» 0xAC01 = .ok (some x) ∧ x = .NR1 0xAC01) ∧
    Model.Name.cmp (.NR2 PREFIX_CJK_UNIFIED_IDEOGRAPH 0x4E00) (.NR1 0xAC01) = .ok .lt := by
  refine ⟨⟨_, rfl, rfl⟩, ⟨_, rfl, rfl⟩, ?_⟩
  decide +kernel

/-- Values of the public enum that `Name::of` never returns do not have these properties: the length of `NR2("", '\0')` is zero though it shows as `0`,
`NR3(&[])` panics when displayed, and a name of the second rule with the prefix of syllables compares equal to every syllable. -/
theorem c45_not_constructed : len (.NR2 [] 0) = .ok 0 ∧ display (.NR2 [] 0) = .ok [0x30] ∧ display (.NR3 []) = .panic ∧
    Model.Name.cmp (.NR1 0xAC00) (.NR2 PREFIX_HANGUL_SYLLABLE 0) = .ok .eq ∧ Model.Name.cmp (.NR1 0xAC01) (.NR2 PREFIX_HANGUL_SYLLABLE 0) = .ok .eq := by
  decide +kernel

/-! ## C58: texts -/

/-- **C58.** Looking up a name never panics, and exactly the characters that are not controls, surrogates, private use or unassigned have a name. -/
theorem c58_named (c : Nat) : ∃ r, «of» c = .ok r ∧ (r.isSome ↔
    Ucd.generalCategory c ≠ .Control ∧ Ucd.generalCategory c ≠ .Unassigned ∧ Ucd.generalCategory c ≠ .PrivateUse ∧ Ucd.generalCategory c ≠ .Surrogate) := by
  obtain ⟨r, hr⟩ := of_total c
  refine ⟨r, hr, ?_⟩
  rw [← named_category c, hr]
  cases r <;> simp

/-- **C58.** No two characters have names with the same text. -/
theorem c58_unique (a b : Nat) (x y : Name) (hx : «of» a = .ok (some x)) (hy : «of» b = .ok (some y)) (h : display x = display y) : a = b :=
  display_inj hx hy h

/-- **C58.** Every name is made of words of upper-case letters, digits and hyphens, separated by single spaces. -/
theorem c58_text (c : Nat) (nm : Name) (s : List Nat) (h : «of» c = .ok (some nm)) (hs : display nm = .ok s) : NameText s := display_text h hs

/-- **C58.** Hangul syllables are named by rule NR1. -/
theorem c58_hangul (l v t : Nat) (hl : l < 19) (hv : v < 21) (ht : t < 28) :
    ∃ nm, «of» (Spec.Hangul.syllable l v t) = .ok (some nm) ∧ display nm = .ok (syllableName l v t) := by
  have h1 : 0xAC00 ≤ Spec.Hangul.syllable l v t := by unfold Spec.Hangul.syllable; omega
  have h2 : Spec.Hangul.syllable l v t ≤ 0xD7A3 := by unfold Spec.Hangul.syllable; omega
  refine ⟨.NR1 (Spec.Hangul.syllable l v t), ?_, ?_⟩
  · rw [«of», if_pos]
    simp only [inRange, Bool.and_eq_true, decide_eq_true_eq]
    exact ⟨h1, h2⟩
  · obtain ⟨l', v', t', hl', hv', ht', hc, hd⟩ := syllable_parts h1 h2
    have : l = l' ∧ v = v' ∧ t = t' := by
      unfold Spec.Hangul.syllable at hc
      omega
    obtain ⟨rfl, rfl, rfl⟩ := this
    rw [display_NR1 hl hv ht hd, jn_l l hl, jn_v v hv, jn_t t ht, syllableName, hangul_text, List.append_assoc, List.append_assoc]

/-- The name of U+AC01 is "HANGUL SYLLABLE GAG". -/
example : syllableName 0 0 1 = text "HANGUL SYLLABLE GAG" ∧ Spec.Hangul.syllable 0 0 1 = 0xAC01 := by decide +kernel

/-- **C58.** Ideographs are named by rule NR2. -/
theorem c58_ideograph (c : Nat) (e : Nat × Nat × String) (he : e ∈ ideographs) (h1 : e.1 ≤ c) (h2 : c ≤ e.2.1) :
    ∃ nm, «of» c = .ok (some nm) ∧ display nm = .ok (text e.2.2 ++ hex c) := by
  have key : ∀ (P : List Nat) (s : String), text s = P → 0 < c → «of» c = .ok (some (.NR2 P c)) →
      ∃ nm, «of» c = .ok (some nm) ∧ display nm = .ok (text s ++ hex c) := by
    intro P s hP h0 h
    exact ⟨_, h, by rw [display, hP, hex_fmt h0]⟩
  have e1 : text "CJK UNIFIED IDEOGRAPH-" = PREFIX_CJK_UNIFIED_IDEOGRAPH := rfl
  have e2 : text "TANGUT IDEOGRAPH-" = PREFIX_TANGUT_IDEOGRAPH := rfl
  have e3 : text "NUSHU CHARACTER-" = PREFIX_NUSHU_CHARACTER := rfl
  have e4 : text "CJK COMPATIBILITY IDEOGRAPH-" = PREFIX_CJK_COMPATIBILITY_IDEOGRAPH := rfl
  have o := «of».eq_1 c
  simp only [inRange, Bool.or_eq_true, Bool.and_eq_true, decide_eq_true_eq] at o
  simp only [ideographs, List.mem_cons, List.not_mem_nil, or_false] at he
  rcases he with rfl | rfl | rfl | rfl | rfl | rfl | rfl | rfl | rfl | rfl | rfl | rfl <;> simp only at h1 h2
  iterate 7
    refine key _ _ e1 (by omega) ?_
    rw [o, if_neg (by omega), if_pos (by omega)]
  · refine key _ _ e2 (by omega) ?_
    rw [o, if_neg (by omega), if_neg (by omega), if_pos (by omega)]
  · refine key _ _ e3 (by omega) ?_
    rw [o, if_neg (by omega), if_neg (by omega), if_neg (by omega), if_pos (by omega)]
  iterate 3
    refine key _ _ e4 (by omega) ?_
    rw [o, if_neg (by omega), if_neg (by omega), if_neg (by omega), if_neg (by omega), if_pos (by omega)]

/-- The name of U+4E00 is "CJK UNIFIED IDEOGRAPH-4E00". -/
example : (0x4E00, 0x9FEA, "CJK UNIFIED IDEOGRAPH-") ∈ ideographs ∧ hex 0x4E00 = text "4E00" := by
  refine ⟨by decide +kernel, ?_⟩
  norm_num [hex]
  decide +kernel

/-! ## C09: the tables of names -/

theorem names_scalar : (Data.names.all fun ch => ch.all fun e => Nat.blt e.1 0xD800 || (Nat.ble 0xE000 e.1 && Nat.blt e.1 0x110000)) = true := by decide +kernel

/-- **C09 (names).** The table of names and that of short names of jamo are strictly ascending, with scalar values as keys; so lookups in them never panic. -/
theorem c09_name_tables : Good namesTable ∧ Good jamoTable := by
  refine ⟨⟨namesTable_wf, ?_⟩, good_of_ok (by decide +kernel)⟩
  intro e he
  simp only [namesTable, Spec.entries, List.map_map, List.mem_map] at he
  obtain ⟨x, hx, rfl⟩ := he
  have h := names_all names_scalar hx
  simp only [Bool.or_eq_true, Bool.and_eq_true, Nat.blt_eq, Nat.ble_eq] at h
  have : Spec.IsScalar x.1 := by
    unfold Spec.IsScalar
    omega
  exact ⟨this, this⟩

end Props.Name
