import Verif.Proofs.NameBytes
import Verif.Proofs.NameData
import Verif.Proofs.Hangul

/-! Names of characters: where they come from, their texts and their order. -/
namespace Proofs.Name
open Spec Model Model.Name Data Proofs.StepFn Proofs.Tables Proofs.UcdSF

/-! ## The table -/

theorem ascFrom_map {V W : Type} (f : V → W) : ∀ (l : List (Nat × V)) (b : Nat),
    ascFrom b ((l.map fun e => (e.1, f e.2)).map fun e => (e.1, e.1, e.2)) = ascFrom b (directEntries l)
  | [], _ => rfl
  | (c, v) :: l, b => by
    simp only [directEntries, List.map_cons, ascFrom]
    have := ascFrom_map f l (c + 1)
    simp only [directEntries] at this
    rw [this]

theorem namesTable_wf : WellFormed namesTable := by
  refine wellFormed_of_asc _ ?_
  rw [namesTable, entries, ascFrom_map]
  exact names_asc

theorem find_names (c : Nat) : (∃ n, (c, n) ∈ Data.names.flatten ∧ namesTable.find c = .ok (some (pieces n))) ∨
    ((∀ n, (c, n) ∉ Data.names.flatten) ∧ namesTable.find c = .ok none) := by
  rcases search_table _ namesTable_wf c with ⟨e, he, hc, hf, _⟩ | ⟨hn, hf, _⟩
  · left
    simp only [namesTable, entries, List.map_map, List.mem_map, Function.comp_apply] at he
    obtain ⟨⟨k, n⟩, hm, rfl⟩ := he
    simp only [Covers] at hc
    obtain rfl : k = c := by omega
    exact ⟨n, hm, hf⟩
  · right
    refine ⟨fun n hm => hn (c, c, pieces n) ?_ ⟨Nat.le_refl _, Nat.le_refl _⟩, hf⟩
    simp only [namesTable, entries, List.map_map, List.mem_map, Function.comp_apply]
    exact ⟨(c, n), hm, rfl⟩

theorem names_all {p : Nat × Nat → Bool} (h : Data.names.all (fun ch => ch.all p) = true) {e : Nat × Nat} (he : e ∈ Data.names.flatten) : p e = true := by
  obtain ⟨ch, h1, h2⟩ := List.mem_flatten.1 he
  exact List.all_eq_true.1 (List.all_eq_true.1 h ch h1) e h2

theorem name_end {c n : Nat} (h : (c, n) ∈ Data.names.flatten) : n % 256 = 0x20 := by
  have := names_all names_end h
  exact Nat.eq_of_beq_eq_true this

/-- different characters of the table have different names -/
theorem name_inj {c c' n : Nat} (h : (c, n) ∈ Data.names.flatten) (h' : (c', n) ∈ Data.names.flatten) : c = c' := by
  have h1 := Nat.eq_of_beq_eq_true (names_all names_tree h)
  have h2 := Nat.eq_of_beq_eq_true (names_all names_tree h')
  simp only at h1 h2
  rw [← h1, h2]

/-! ## Prefixes -/

theorem topFast_div : ∀ (fuel n : Nat), ∃ j, topFast fuel n = n / 256 ^ j
  | 0, n => ⟨0, by simp [topFast]⟩
  | fuel + 1, n => by
    rw [topFast]
    cases h : Nat.blt n 0x10000000000000000000000000000000000
    · obtain ⟨j, hj⟩ := topFast_div fuel (n / 0x10000000000000000)
      refine ⟨8 + j, ?_⟩
      rw [cond_false, hj, Nat.div_div_eq_div_mul, Nat.pow_add]
    · exact ⟨0, by simp⟩

theorem topSlow_div : ∀ (fuel n : Nat), ∃ j, topSlow fuel n = n / 256 ^ j
  | 0, n => ⟨0, by simp [topSlow]⟩
  | fuel + 1, n => by
    rw [topSlow]
    cases h : Nat.blt n 0x1000000000000000000
    · obtain ⟨j, hj⟩ := topSlow_div fuel (n / 256)
      refine ⟨1 + j, ?_⟩
      rw [cond_false, hj, Nat.div_div_eq_div_mul, Nat.pow_add, Nat.pow_one]
    · exact ⟨0, by simp⟩

theorem topFast_ge : ∀ (fuel n : Nat), 256 ^ 8 ≤ n → 256 ^ 8 ≤ topFast fuel n
  | 0, n, h => h
  | fuel + 1, n, h => by
    rw [topFast]
    cases hb : Nat.blt n 0x10000000000000000000000000000000000
    · rw [cond_false]
      have : ¬ n < 0x10000000000000000000000000000000000 := by
        intro hlt
        rw [Nat.blt, Nat.ble_eq_true_of_le hlt] at hb
        cases hb
      exact topFast_ge fuel _ (by omega)
    · exact h

theorem topSlow_ge : ∀ (fuel n : Nat), 256 ^ 8 ≤ n → 256 ^ 8 ≤ topSlow fuel n
  | 0, n, h => h
  | fuel + 1, n, h => by
    rw [topSlow]
    cases hb : Nat.blt n 0x1000000000000000000
    · rw [cond_false]
      have : ¬ n < 0x1000000000000000000 := by
        intro hlt
        rw [Nat.blt, Nat.ble_eq_true_of_le hlt] at hb
        cases hb
      exact topSlow_ge fuel _ (by omega)
    · exact h

theorem div_unique {n j k x y : Nat} (hx : n / 256 ^ j = x) (hy : n / 256 ^ k = y) (x1 : 256 ^ 8 ≤ x) (x2 : x < 256 ^ 9) (y1 : 256 ^ 8 ≤ y) (y2 : y < 256 ^ 9) : x = y := by
  rcases Nat.lt_trichotomy j k with h | h | h
  · obtain ⟨m, rfl⟩ : ∃ m, k = j + (1 + m) := ⟨k - j - 1, by omega⟩
    rw [Nat.pow_add, ← Nat.div_div_eq_div_mul, hx, Nat.pow_add, ← Nat.div_div_eq_div_mul] at hy
    have := Nat.div_le_self (x / 256 ^ 1) (256 ^ m)
    omega
  · subst h; omega
  · obtain ⟨m, rfl⟩ : ∃ m, j = k + (1 + m) := ⟨j - k - 1, by omega⟩
    rw [Nat.pow_add, ← Nat.div_div_eq_div_mul, hy, Nat.pow_add, ← Nat.div_div_eq_div_mul] at hx
    have := Nat.div_le_self (y / 256 ^ 1) (256 ^ m)
    omega

/-- the first nine bytes of a name -/
theorem top_eq {n : Nat} {P s : List Nat} (h : bytes n = P ++ s) (hP : P.length = 9) (h1 : 256 ^ 8 ≤ val P) (ht : top n < 256 ^ 9) :
    256 ^ 8 ≤ n ∧ top n = val P := by
  have hs : val s < 256 ^ s.length := val_lt s fun b hb => bytes_lt n b (by rw [h]; simp [hb])
  have hp : val P < 256 ^ 9 := by
    rw [← hP]; exact val_lt P fun b hb => bytes_lt n b (by rw [h]; simp [hb])
  have hv := val_bytes n
  rw [h, val_append] at hv
  have hd : n / 256 ^ s.length = val P := by
    rw [← hv, Nat.mul_comm, Nat.mul_add_div (Nat.pow_pos (by omega)), Nat.div_eq_of_lt hs, Nat.add_zero]
  have hn : 256 ^ 8 ≤ n := by
    have := Nat.div_le_self n (256 ^ s.length)
    omega
  obtain ⟨j, hj⟩ := topFast_div 12 n
  obtain ⟨k, hk⟩ := topSlow_div 8 (topFast 12 n)
  have ht' : n / 256 ^ (j + k) = top n := by
    rw [top, hk, hj, Nat.pow_add, Nat.div_div_eq_div_mul]
  exact ⟨hn, div_unique ht' hd (topSlow_ge 8 _ (topFast_ge 12 n hn)) ht h1 hp⟩

/-- the prefixes of the derived names -/
def prefixes : List (List Nat) :=
  [PREFIX_HANGUL_SYLLABLE, PREFIX_CJK_UNIFIED_IDEOGRAPH, PREFIX_TANGUT_IDEOGRAPH, PREFIX_NUSHU_CHARACTER, PREFIX_CJK_COMPATIBILITY_IDEOGRAPH]

theorem prefixes_top : ∀ P ∈ prefixes, (P.take 9).length = 9 ∧ 256 ^ 8 ≤ val (P.take 9) ∧ notPrefix (val (P.take 9)) = false ∧ 0x20 ∈ P := by decide +kernel

/-- a name of the table that is used does not start with the prefix of a derived name -/
theorem name_prefix {c n : Nat} (h : (c, n) ∈ Data.names.flatten) (hs : shadowed c = false) {P s : List Nat} (hP : P ∈ prefixes) : bytes (n / 256) ≠ P ++ s := by
  intro hb
  obtain ⟨p1, p2, p3, _⟩ := prefixes_top P hP
  have hck := names_all names_prefix h
  simp only [hs, Bool.false_or, noPrefix, Bool.or_eq_true] at hck
  have hbn : bytes n = P.take 9 ++ (P.drop 9 ++ s ++ [0x20]) := by
    rw [bytes_end (name_end h), hb, ← List.append_assoc, ← List.append_assoc, List.take_append_drop]
  rcases hck with hck | hck
  · have hlt : n < 256 ^ 8 := Nat.le_of_ble_eq_true hck
    have hv := val_bytes n
    rw [hbn, val_append] at hv
    have : 256 ^ 8 * 1 ≤ val (P.take 9) * 256 ^ (P.drop 9 ++ s ++ [0x20]).length := Nat.mul_le_mul p2 (Nat.pow_pos (by omega))
    omega
  · have ht : top n < 256 ^ 9 := by
      simp only [notPrefix, Bool.and_eq_true] at hck
      exact Nat.le_of_ble_eq_true hck.1.1.1.1.1
    rw [(top_eq hbn p1 p2 ht).2, p3] at hck
    cases hck

/-! ## `Name::of` -/

/-- what `Name::of` gives -/
theorem of_cases {c : Nat} {nm : Name} (h : «of» c = .ok (some nm)) :
    (nm = .NR1 c ∧ 0xAC00 ≤ c ∧ c ≤ 0xD7A3) ∨ (∃ P ∈ prefixes.tail, nm = .NR2 P c ∧ 0x3400 ≤ c) ∨
      (∃ n, nm = .NR3 (pieces n) ∧ (c, n) ∈ Data.names.flatten ∧ shadowed c = false) := by
  unfold «of» at h
  simp only [inRange, Bool.or_eq_true, Bool.and_eq_true, decide_eq_true_eq] at h
  split_ifs at h with h1 h2 h3 h4 h5
  · simp only [Outcome.ok.injEq, Option.some.injEq] at h
    exact .inl ⟨h.symm, h1⟩
  · simp only [Outcome.ok.injEq, Option.some.injEq] at h
    exact .inr (.inl ⟨_, by simp [prefixes], h.symm, by omega⟩)
  · simp only [Outcome.ok.injEq, Option.some.injEq] at h
    exact .inr (.inl ⟨_, by simp [prefixes], h.symm, by omega⟩)
  · simp only [Outcome.ok.injEq, Option.some.injEq] at h
    exact .inr (.inl ⟨_, by simp [prefixes], h.symm, by omega⟩)
  · simp only [Outcome.ok.injEq, Option.some.injEq] at h
    exact .inr (.inl ⟨_, by simp [prefixes], h.symm, by omega⟩)
  · refine .inr (.inr ?_)
    rcases find_names c with ⟨n, hm, hf⟩ | ⟨_, hf⟩
    · rw [hf] at h
      simp only [Outcome.map, Option.map_some, Outcome.ok.injEq, Option.some.injEq] at h
      refine ⟨n, h.symm, hm, ?_⟩
      simp only [shadowed, inRange, Bool.or_eq_false_iff, Bool.and_eq_false_iff, decide_eq_false_iff_not]
      omega
    · rw [hf] at h
      simp [Outcome.map] at h

attribute [local irreducible] Data.names PREFIX_HANGUL_SYLLABLE PREFIX_CJK_UNIFIED_IDEOGRAPH PREFIX_TANGUT_IDEOGRAPH PREFIX_NUSHU_CHARACTER PREFIX_CJK_COMPATIBILITY_IDEOGRAPH

/-! ## Hangul syllables -/

/-- the short name of a jamo -/
def jn (c : Nat) : List Nat := match jamoShortName c with | .ok s => s | .panic => []

/-- the consonants of short names of jamo -/
def consonant (b : Nat) : Bool := [0x47, 0x4E, 0x44, 0x52, 0x4D, 0x42, 0x53, 0x4A, 0x43, 0x4B, 0x54, 0x50, 0x48, 0x4C].contains b

theorem jamo_l : ∀ l, l < 19 → jamoShortName (0x1100 + l) = .ok (jn (0x1100 + l)) ∧ (jn (0x1100 + l)).all consonant = true := by decide +kernel
theorem jamo_v : ∀ v, v < 21 → jamoShortName (0x1161 + v) = .ok (jn (0x1161 + v)) ∧ (jn (0x1161 + v)).all (fun b => !consonant b) = true ∧ jn (0x1161 + v) ≠ [] := by decide +kernel
theorem jamo_t : ∀ t, t < 28 → 0 < t → jamoShortName (0x11A7 + t) = .ok (jn (0x11A7 + t)) ∧ (jn (0x11A7 + t)).all consonant = true ∧ jn (0x11A7 + t) ≠ [] := by decide +kernel
theorem jamo_l_inj : ∀ l, l < 19 → ∀ l', l' < 19 → jn (0x1100 + l) = jn (0x1100 + l') → l = l' := by decide +kernel
theorem jamo_v_inj : ∀ l, l < 21 → ∀ l', l' < 21 → jn (0x1161 + l) = jn (0x1161 + l') → l = l' := by decide +kernel
theorem jamo_t_inj : ∀ l, l < 28 → ∀ l', l' < 28 → 0 < l → 0 < l' → jn (0x11A7 + l) = jn (0x11A7 + l') → l = l' := by decide +kernel

/-- a syllable with its parts -/
theorem syllable_parts {c : Nat} (h1 : 0xAC00 ≤ c) (h2 : c ≤ 0xD7A3) : ∃ l v t, l < 19 ∧ v < 21 ∧ t < 28 ∧ c = 0xAC00 + (l * 21 + v) * 28 + t ∧
    Hangul.decomposeSyllable c = [0x1100 + l, 0x1161 + v] ++ if t = 0 then [] else [0x11A7 + t] := by
  refine ⟨(c - 0xAC00) / 588, (c - 0xAC00) % 588 / 28, (c - 0xAC00) % 28, by omega, by omega, by omega, by omega, ?_⟩
  rw [Proofs.Hangul.decomposeSyllable_def]
  by_cases h : (c - 0xAC00) % 28 = 0
  · rw [if_neg (by omega), if_pos h]; rfl
  · rw [if_pos (by omega), if_neg h]; rfl

/-- the name of the trailing consonant, if there is one -/
def tail (t : Nat) : List Nat := if t = 0 then [] else jn (0x11A7 + t)

section
variable {c l v t : Nat} (hl : l < 19) (hv : v < 21) (ht : t < 28) (hd : Hangul.decomposeSyllable c = [0x1100 + l, 0x1161 + v] ++ if t = 0 then [] else [0x11A7 + t])
include hl hv ht hd

theorem display_NR1 : display (.NR1 c) = .ok (PREFIX_HANGUL_SYLLABLE ++ (jn (0x1100 + l) ++ (jn (0x1161 + v) ++ tail t))) := by
  rw [display, hd]
  by_cases h : t = 0
  · subst h
    simp only [if_true, List.append_nil, writeJamos, (jamo_l l hl).1, (jamo_v v hv).1, tail, List.append_assoc]
  · simp only [if_neg h, List.cons_append, List.nil_append, writeJamos, (jamo_l l hl).1, (jamo_v v hv).1, (jamo_t t ht (by omega)).1, tail, List.append_assoc]

theorem len_NR1 : len (.NR1 c) = .ok (PREFIX_HANGUL_SYLLABLE ++ (jn (0x1100 + l) ++ (jn (0x1161 + v) ++ tail t))).length := by
  rw [len, hd]
  by_cases h : t = 0
  · subst h
    simp only [if_true, List.append_nil, countJamos, (jamo_l l hl).1, (jamo_v v hv).1, tail, List.length_append, Nat.add_assoc]
  · simp only [if_neg h, List.cons_append, List.nil_append, countJamos, (jamo_l l hl).1, (jamo_v v hv).1, (jamo_t t ht (by omega)).1, tail, List.length_append, Nat.add_assoc]

theorem collect_NR1 : collectJamoShortNames c = .ok [some (jn (0x1100 + l)), some (jn (0x1161 + v)), if t = 0 then none else some (jn (0x11A7 + t))] := by
  rw [collectJamoShortNames, hd]
  by_cases h : t = 0
  · subst h
    simp [collectJamos, JAMO_BUFFER_SIZE, (jamo_l l hl).1, (jamo_v v hv).1]
  · simp [h, collectJamos, JAMO_BUFFER_SIZE, (jamo_l l hl).1, (jamo_v v hv).1, (jamo_t t ht (by omega)).1]
end

theorem takeWhile_all {p : Nat → Bool} : ∀ (a b : List Nat), a.all p = true → (∀ x, b.head? = some x → p x = false) →
    (a ++ b).takeWhile p = a ∧ (a ++ b).dropWhile p = b
  | [], [], _, _ => by simp
  | [], x :: b, _, h => by
    have := h x rfl
    simp [this]
  | y :: a, b, h1, h2 => by
    simp only [List.all_cons, Bool.and_eq_true] at h1
    obtain ⟨h3, h4⟩ := takeWhile_all a b h1.2 h2
    simp [h1.1, h3, h4]

theorem append_unique {p : Nat → Bool} {a b a' b' : List Nat} (ha : a.all p = true) (ha' : a'.all p = true) (hb : ∀ x, b.head? = some x → p x = false)
    (hb' : ∀ x, b'.head? = some x → p x = false) (h : a ++ b = a' ++ b') : a = a' ∧ b = b' := by
  obtain ⟨h1, h2⟩ := takeWhile_all a b ha hb
  obtain ⟨h3, h4⟩ := takeWhile_all a' b' ha' hb'
  rw [h] at h1 h2
  exact ⟨by rw [← h1, h3], by rw [← h2, h4]⟩

theorem head_append {x : Nat} {a b : List Nat} (hne : a ≠ []) (h : (a ++ b).head? = some x) : x ∈ a := by
  cases a with
  | nil => exact absurd rfl hne
  | cons y a => simp at h; simp [h]

theorem head_vowel {v : Nat} (hv : v < 21) (r : List Nat) (x : Nat) (h : (jn (0x1161 + v) ++ r).head? = some x) : consonant x = false := by
  obtain ⟨_, h2, h3⟩ := jamo_v v hv
  have := List.all_eq_true.1 h2 x (head_append h3 h)
  simpa using this

theorem head_tail {t : Nat} (ht : t < 28) (x : Nat) (h : (tail t).head? = some x) : (!consonant x) = false := by
  unfold tail at h
  split_ifs at h with h0
  · simp at h
  · obtain ⟨_, h2, h3⟩ := jamo_t t ht (by omega)
    have := List.all_eq_true.1 h2 x (head_append (b := []) h3 (by simpa using h))
    simp [this]

theorem tail_inj {t t' : Nat} (ht : t < 28) (ht' : t' < 28) (h : tail t = tail t') : t = t' := by
  unfold tail at h
  split_ifs at h with h1 h2 h2
  · omega
  · exact absurd h.symm (jamo_t t' ht' (by omega)).2.2
  · exact absurd h (jamo_t t ht (by omega)).2.2
  · exact jamo_t_inj t ht t' ht' (by omega) (by omega) h

/-- the text of a syllable name determines its parts -/
theorem syllable_text {l v t l' v' t' : Nat} (hl : l < 19) (hv : v < 21) (ht : t < 28) (hl' : l' < 19) (hv' : v' < 21) (ht' : t' < 28)
    (h : jn (0x1100 + l) ++ (jn (0x1161 + v) ++ tail t) = jn (0x1100 + l') ++ (jn (0x1161 + v') ++ tail t')) : l = l' ∧ v = v' ∧ t = t' := by
  obtain ⟨h1, h2⟩ := append_unique (jamo_l l hl).2 (jamo_l l' hl').2 (head_vowel hv _) (head_vowel hv' _) h
  obtain ⟨h3, h4⟩ := append_unique (jamo_v v hv).2.1 (jamo_v v' hv').2.1 (head_tail ht) (head_tail ht') h2
  exact ⟨jamo_l_inj l hl l' hl' h1, jamo_v_inj v hv v' hv' h3, tail_inj ht ht' h4⟩

/-! ## The order -/

/-- the short names of jamo as strings -/
def optKey : Option (List Nat) → List Nat
  | none => []
  | some s => 0 :: s

/-- the jamo of a syllable to compare by -/
def jamoKey : Outcome (List (Option (List Nat))) → List (List Nat)
  | .ok js => PREFIX_HANGUL_SYLLABLE :: js.map optKey
  | .panic => []

/-- what names are compared by -/
def key : Name → List (List Nat)
  | .NR1 c => jamoKey (collectJamoShortNames c)
  | .NR2 pre c => [pre, [c]]
  | .NR3 ps => ps

theorem key_NR1 (c : Nat) : key (.NR1 c) = jamoKey (collectJamoShortNames c) := rfl
theorem jamoKey_ok (js : List (Option (List Nat))) : jamoKey (.ok js) = PREFIX_HANGUL_SYLLABLE :: js.map optKey := rfl
theorem jamoKey_panic : jamoKey .panic = [] := rfl
theorem cmp_11 (c d : Nat) {js js' : List (Option (List Nat))} (h : collectJamoShortNames c = .ok js) (h' : collectJamoShortNames d = .ok js') :
    Model.Name.cmp (.NR1 c) (.NR1 d) = .ok (compare js js') := by
  have e : Model.Name.cmp (.NR1 c) (.NR1 d) = cmpJamos (collectJamoShortNames c) (collectJamoShortNames d) := rfl
  rw [e, h, h']
  rfl
theorem cmp_12 (c d : Nat) (P : List Nat) : Model.Name.cmp (.NR1 c) (.NR2 P d) = .ok (compare PREFIX_HANGUL_SYLLABLE P) := rfl
theorem cmp_13 (c : Nat) (f : List Nat) (r : List (List Nat)) : Model.Name.cmp (.NR1 c) (.NR3 (f :: r)) = .ok (compare PREFIX_HANGUL_SYLLABLE f) := rfl
theorem cmp_21 (c d : Nat) (P : List Nat) : Model.Name.cmp (.NR2 P c) (.NR1 d) = .ok (compare P PREFIX_HANGUL_SYLLABLE) := rfl
theorem cmp_22 (c d : Nat) (P Q : List Nat) : Model.Name.cmp (.NR2 P c) (.NR2 Q d) = .ok (if P = Q then compare c d else compare P Q) := rfl
theorem cmp_23 (c : Nat) (P f : List Nat) (r : List (List Nat)) : Model.Name.cmp (.NR2 P c) (.NR3 (f :: r)) = .ok (compare P f) := rfl
theorem cmp_31 (c : Nat) (f : List Nat) (r : List (List Nat)) : Model.Name.cmp (.NR3 (f :: r)) (.NR1 c) = .ok (compare f PREFIX_HANGUL_SYLLABLE) := rfl
theorem cmp_32 (c : Nat) (P f : List Nat) (r : List (List Nat)) : Model.Name.cmp (.NR3 (f :: r)) (.NR2 P c) = .ok (compare f P) := rfl
theorem cmp_33 (f : List Nat) (r qs : List (List Nat)) : Model.Name.cmp (.NR3 (f :: r)) (.NR3 qs) = .ok (compare (f :: r) qs) := rfl

theorem compare_cons {α : Type} [Ord α] (x y : α) (xs ys : List α) : compare (x :: xs) (y :: ys) = (compare x y).then (compare xs ys) :=
  List.compareLex_cons_cons

theorem compare_refl (a : List Nat) : compare a a = .eq := Std.ReflCmp.compare_self

theorem compare_options : ∀ (a b : List (Option (List Nat))),
    compare (a.map optKey) (b.map optKey) = compare a b
  | [], [] => rfl
  | [], _ :: _ => rfl
  | _ :: _, [] => rfl
  | x :: a, y :: b => by
    rw [List.map_cons, List.map_cons, compare_cons, compare_cons, compare_options a b]
    congr 1
    cases x <;> cases y
    · rfl
    · rfl
    · rfl
    · exact (compare_cons _ _ _ _).trans rfl

theorem name_first {c : Nat} {nm : Name} (h : «of» c = .ok (some nm)) : ∃ first rest, key nm = first :: rest ∧
    (match nm with
      | .NR1 _ => first = PREFIX_HANGUL_SYLLABLE
      | .NR2 P _ => first = P ∧ P ∈ prefixes.tail
      | .NR3 ps => ps = first :: rest ∧ 0x20 ∉ first) := by
  rcases of_cases h with ⟨rfl, h1, h2⟩ | ⟨P, hP, rfl, _⟩ | ⟨n, rfl, hm, _⟩
  · obtain ⟨l, v, t, hl, hv, ht, _, hd⟩ := syllable_parts h1 h2
    exact ⟨_, _, by rw [key_NR1, collect_NR1 hl hv ht hd, jamoKey_ok], rfl⟩
  · exact ⟨_, _, rfl, rfl, hP⟩
  · obtain ⟨p, rest, hp, _⟩ := pieces_text (name_end hm)
    refine ⟨p, rest, hp, hp, pieces_space p (by rw [hp]; simp)⟩

theorem prefixes_tail : ∀ P ∈ prefixes.tail, P ≠ PREFIX_HANGUL_SYLLABLE := by decide +kernel

theorem compare_ne {a b : List Nat} (h : a ≠ b) (o : Ordering) : (compare a b).then o = compare a b := by
  cases hc : compare a b with
  | eq => exact absurd (Std.LawfulEqOrd.eq_of_compare hc) h
  | lt => rfl
  | gt => rfl

theorem cmp_key {a b : Nat} {x y : Name} (hx : «of» a = .ok (some x)) (hy : «of» b = .ok (some y)) : Model.Name.cmp x y = .ok (compare (key x) (key y)) := by
  obtain ⟨fx, rx, kx, px⟩ := name_first hx
  obtain ⟨fy, ry, ky, py⟩ := name_first hy
  have sp : ∀ P ∈ prefixes, 0x20 ∈ P := fun P h => (prefixes_top P h).2.2.2
  have sh : 0x20 ∈ PREFIX_HANGUL_SYLLABLE := sp _ (by simp [prefixes])
  have st : ∀ P ∈ prefixes.tail, 0x20 ∈ P := fun P h => sp P (List.mem_of_mem_tail h)
  rw [kx, ky, compare_cons]
  cases x with
  | NR1 c =>
    cases y with
    | NR1 c' =>
      simp only at px py
      subst px py
      rw [key_NR1] at kx ky
      rcases h1 : collectJamoShortNames c with js | _
      · rcases h2 : collectJamoShortNames c' with js' | _
        · rw [h1, jamoKey_ok] at kx
          rw [h2, jamoKey_ok] at ky
          simp only [List.cons.injEq, true_and] at kx ky
          rw [cmp_11 c c' h1 h2, ← kx, ← ky, compare_options, compare_refl]; rfl
        · rw [h2, jamoKey_panic] at ky; simp at ky
      · rw [h1, jamoKey_panic] at kx; simp at kx
    | NR2 P c' =>
      simp only at px py
      obtain ⟨rfl, hP⟩ := py
      subst px
      rw [cmp_12, compare_ne (prefixes_tail _ hP).symm]
    | NR3 ps =>
      simp only at px py
      obtain ⟨rfl, hs⟩ := py
      subst px
      rw [cmp_13, compare_ne (fun e => hs (by rw [← e]; exact sh))]
  | NR2 P c =>
    cases y with
    | NR1 c' =>
      simp only at px py
      obtain ⟨rfl, hP⟩ := px
      subst py
      rw [cmp_21, compare_ne (prefixes_tail _ hP)]
    | NR2 Q c' =>
      simp only at px py
      obtain ⟨rfl, _⟩ := px
      obtain ⟨rfl, _⟩ := py
      simp only [key, List.cons.injEq, true_and] at kx ky
      rw [cmp_22]
      split_ifs with h
      · rw [h, ← kx, ← ky, compare_refl, compare_cons, compare_cons]
        cases hc : compare c c' <;> simp [Ordering.then, hc] <;> rfl
      · rw [compare_ne h]
    | NR3 ps =>
      simp only at px py
      obtain ⟨rfl, hP⟩ := px
      obtain ⟨rfl, hs⟩ := py
      rw [cmp_23, compare_ne (fun e => hs (by rw [← e]; exact st _ hP))]
  | NR3 ps =>
    simp only at px
    obtain ⟨rfl, hs⟩ := px
    cases y with
    | NR1 c' =>
      simp only at py
      subst py
      rw [cmp_31, compare_ne (fun e => hs (by rw [e]; exact sh))]
    | NR2 P c' =>
      simp only at py
      obtain ⟨rfl, hP⟩ := py
      rw [cmp_32, compare_ne (fun e => hs (by rw [e]; exact st _ hP))]
    | NR3 ps' =>
      simp only at py
      obtain ⟨rfl, _⟩ := py
      rw [cmp_33, compare_cons]

theorem key_inj {a b : Nat} {x y : Name} (hx : «of» a = .ok (some x)) (hy : «of» b = .ok (some y)) (h : key x = key y) : x = y := by
  have sp : ∀ P ∈ prefixes, 0x20 ∈ P := fun P h => (prefixes_top P h).2.2.2
  have sh : 0x20 ∈ PREFIX_HANGUL_SYLLABLE := sp _ (by simp [prefixes])
  have st : ∀ P ∈ prefixes.tail, 0x20 ∈ P := fun P h => sp P (List.mem_of_mem_tail h)
  obtain ⟨fx, rx, kx, px⟩ := name_first hx
  obtain ⟨fy, ry, ky, py⟩ := name_first hy
  rw [kx, ky, List.cons.injEq] at h
  obtain ⟨rfl, rfl⟩ := h
  rcases of_cases hx with ⟨rfl, h1, h2⟩ | ⟨P, hP, rfl, _⟩ | ⟨n, rfl, hm, _⟩ <;> rcases of_cases hy with ⟨rfl, h1', h2'⟩ | ⟨P', hP', rfl, _⟩ | ⟨n', rfl, hm', _⟩
  · obtain ⟨l, v, t, hl, hv, ht, hc, hd⟩ := syllable_parts h1 h2
    obtain ⟨l', v', t', hl', hv', ht', hc', hd'⟩ := syllable_parts h1' h2'
    rw [key_NR1, collect_NR1 hl hv ht hd, jamoKey_ok] at kx
    rw [key_NR1, collect_NR1 hl' hv' ht' hd', jamoKey_ok] at ky
    rw [← ky] at kx
    simp only [List.map_cons, List.map_nil, optKey, List.cons.injEq, true_and, and_true] at kx
    obtain ⟨k1, k2, k3⟩ := kx
    have e1 := jamo_l_inj l hl l' hl' k1
    have e2 := jamo_v_inj v hv v' hv' k2
    have e3 : t = t' := by
      by_cases t1 : t = 0 <;> by_cases t2 : t' = 0
      · omega
      · simp [t1, t2] at k3
      · simp [t1, t2] at k3
      · simp only [t1, t2, if_false, List.cons.injEq, true_and] at k3
        exact jamo_t_inj t ht t' ht' (by omega) (by omega) k3
    have : a = b := by omega
    rw [this]
  · simp only at px py
    exact absurd (py.1.symm.trans px) (prefixes_tail _ hP')
  · simp only at px py
    exact absurd (by rw [px]; exact sh) py.2
  · simp only at px py
    exact absurd (px.1.symm.trans py) (prefixes_tail _ hP)
  · simp only at px py
    obtain ⟨rfl, _⟩ := px
    obtain ⟨rfl, _⟩ := py
    simp only [key, List.cons.injEq, true_and] at kx ky
    rw [← ky] at kx
    simpa using kx
  · simp only at px py
    exact absurd (by rw [px.1]; exact st _ hP) py.2
  · simp only at px py
    exact absurd (by rw [py]; exact sh) px.2
  · simp only at px py
    exact absurd (by rw [py.1]; exact st _ hP') px.2
  · simp only at px py
    rw [px.1, py.1]

/-! ## Texts -/

theorem display_len {c : Nat} {nm : Name} (h : «of» c = .ok (some nm)) : ∃ s, display nm = .ok s ∧ len nm = .ok s.length := by
  rcases of_cases h with ⟨rfl, h1, h2⟩ | ⟨P, hP, rfl, hc⟩ | ⟨n, rfl, hm, _⟩
  · obtain ⟨l, v, t, hl, hv, ht, hc, hd⟩ := syllable_parts h1 h2
    exact ⟨_, display_NR1 hl hv ht hd, len_NR1 hl hv ht hd⟩
  · exact ⟨_, rfl, by rw [len, hex_length (by omega), List.length_append]⟩
  · obtain ⟨p, rest, hp, _⟩ := pieces_text (name_end hm)
    rw [hp]
    exact ⟨_, rfl, len_NR3 p rest⟩

/-- none of the prefixes of derived names starts another -/
theorem prefixes_free : ∀ P ∈ prefixes, ∀ Q ∈ prefixes, P.take 9 = Q.take 9 → P = Q := by decide +kernel

theorem prefix_eq {P Q s t : List Nat} (hP : P ∈ prefixes) (hQ : Q ∈ prefixes) (h : P ++ s = Q ++ t) : P = Q := by
  apply prefixes_free P hP Q hQ
  have h1 := (prefixes_top P hP).1
  have h2 := (prefixes_top Q hQ).1
  rw [List.length_take] at h1 h2
  have := congrArg (List.take 9) h
  rwa [List.take_append_of_le_length (by omega), List.take_append_of_le_length (by omega)] at this

theorem display_inj {a b : Nat} {x y : Name} (hx : «of» a = .ok (some x)) (hy : «of» b = .ok (some y)) (h : display x = display y) : a = b := by
  have tl : ∀ {P}, P ∈ prefixes.tail → P ∈ prefixes := fun h => List.mem_of_mem_tail h
  have hh : PREFIX_HANGUL_SYLLABLE ∈ prefixes := by simp [prefixes]
  rcases of_cases hx with ⟨rfl, h1, h2⟩ | ⟨P, hP, rfl, _⟩ | ⟨n, rfl, hm, hs⟩ <;> rcases of_cases hy with ⟨rfl, h1', h2'⟩ | ⟨P', hP', rfl, _⟩ | ⟨n', rfl, hm', hs'⟩
  · obtain ⟨l, v, t, hl, hv, ht, hc, hd⟩ := syllable_parts h1 h2
    obtain ⟨l', v', t', hl', hv', ht', hc', hd'⟩ := syllable_parts h1' h2'
    rw [display_NR1 hl hv ht hd, display_NR1 hl' hv' ht' hd', Outcome.ok.injEq] at h
    have := syllable_text hl hv ht hl' hv' ht' (List.append_cancel_left h)
    omega
  · obtain ⟨l, v, t, hl, hv, ht, hc, hd⟩ := syllable_parts h1 h2
    rw [display_NR1 hl hv ht hd, display, Outcome.ok.injEq] at h
    exact absurd (prefix_eq hh (tl hP') h).symm (prefixes_tail _ hP')
  · obtain ⟨l, v, t, hl, hv, ht, hc, hd⟩ := syllable_parts h1 h2
    rw [display_NR1 hl hv ht hd, pieces_display (name_end hm'), Outcome.ok.injEq] at h
    exact absurd h.symm (name_prefix hm' hs' hh)
  · obtain ⟨l, v, t, hl, hv, ht, hc, hd⟩ := syllable_parts h1' h2'
    rw [display_NR1 hl hv ht hd, display, Outcome.ok.injEq] at h
    exact absurd (prefix_eq (tl hP) hh h) (prefixes_tail _ hP)
  · rw [display, display, Outcome.ok.injEq] at h
    obtain rfl := prefix_eq (tl hP) (tl hP') h
    exact hex_inj (List.append_cancel_left h)
  · rw [pieces_display (name_end hm'), display, Outcome.ok.injEq] at h
    exact absurd h.symm (name_prefix hm' hs' (tl hP))
  · obtain ⟨l, v, t, hl, hv, ht, hc, hd⟩ := syllable_parts h1' h2'
    rw [display_NR1 hl hv ht hd, pieces_display (name_end hm), Outcome.ok.injEq] at h
    exact absurd h (name_prefix hm hs hh)
  · rw [pieces_display (name_end hm), display, Outcome.ok.injEq] at h
    exact absurd h (name_prefix hm hs (tl hP'))
  · rw [pieces_display (name_end hm), pieces_display (name_end hm'), Outcome.ok.injEq] at h
    have hn : n = n' := by
      apply bytes_inj
      rw [bytes_end (name_end hm), bytes_end (name_end hm'), h]
    subst hn
    exact name_inj hm hm'

/-! ## Which characters have names -/

theorem chunkRuns_mem : ∀ (r : List (Nat × Nat)) (lo hi c : Nat), lo ≤ hi →
    ((∃ e ∈ chunkRuns r lo hi, Covers e c) ↔ (lo ≤ c ∧ c ≤ hi) ∨ c ∈ r.map Prod.fst)
  | [], lo, hi, c, _ => by simp [chunkRuns, Covers]
  | (k, n) :: r, lo, hi, c, h => by
    rw [chunkRuns]
    split_ifs with hk
    · rw [chunkRuns_mem r lo k c (by omega)]
      simp only [List.map_cons, List.mem_cons]
      constructor
      · rintro (h1 | h1)
        · by_cases hc : c = k
          · exact .inr (.inl hc)
          · exact .inl (by omega)
        · exact .inr (.inr h1)
      · rintro (h1 | h1 | h1)
        · exact .inl (by omega)
        · exact .inl (by omega)
        · exact .inr h1
    · have ih := chunkRuns_mem r k k c (Nat.le_refl _)
      simp only [List.mem_cons, exists_eq_or_imp, ih, List.map_cons]
      rw [show Covers (lo, hi, ()) c ↔ lo ≤ c ∧ c ≤ hi from Iff.rfl]
      constructor
      · rintro (h1 | h1 | h1)
        · exact .inl h1
        · exact .inr (.inl (by omega))
        · exact .inr (.inr h1)
      · rintro (h1 | h1 | h1)
        · exact .inl h1
        · exact .inr (.inl (by omega))
        · exact .inr (.inr h1)

theorem chunkRunsOf_mem (ch : List (Nat × Nat)) (c : Nat) : (∃ e ∈ chunkRunsOf ch, Covers e c) ↔ c ∈ ch.map Prod.fst := by
  cases ch with
  | nil => simp [chunkRunsOf]
  | cons e r =>
    rw [chunkRunsOf, chunkRuns_mem r e.1 e.1 c (Nat.le_refl _), List.map_cons, List.mem_cons]
    constructor
    · rintro (h | h)
      · exact .inl (by omega)
      · exact .inr h
    · rintro (h | h)
      · exact .inl (by omega)
      · exact .inr h

theorem nameRuns_mem (c : Nat) : (∃ e ∈ nameRuns, Covers e c) ↔ ∃ n, (c, n) ∈ Data.names.flatten := by
  simp only [nameRuns, List.mem_flatten, List.mem_map]
  constructor
  · rintro ⟨e, ⟨_, ⟨ch, h1, rfl⟩, h2⟩, h3⟩
    obtain ⟨⟨k, n⟩, h4, h5⟩ := List.mem_map.1 ((chunkRunsOf_mem ch c).1 ⟨e, h2, h3⟩)
    simp only at h5
    subst h5
    exact ⟨n, ch, h1, h4⟩
  · rintro ⟨n, ch, h1, h2⟩
    obtain ⟨e, h3, h4⟩ := (chunkRunsOf_mem ch c).2 (List.mem_map.2 ⟨_, h2, rfl⟩)
    exact ⟨e, ⟨_, ⟨ch, h1, rfl⟩, h3⟩, h4⟩

theorem lookup_isSome {V : Type} : ∀ (l : List (Nat × Nat × V)) (c : Nat), (lookup l c).isSome = true ↔ ∃ e ∈ l, Covers e c
  | [], c => by simp [lookup]
  | (lo, hi, v) :: r, c => by
    rw [lookup]
    split_ifs with h
    · simp only [Option.isSome_some, true_iff]
      exact ⟨_, List.mem_cons_self .., h⟩
    · rw [lookup_isSome r c]
      simp only [List.mem_cons, exists_eq_or_imp, Covers, h, false_or]

theorem named_iff (c : Nat) : (∃ nm, «of» c = .ok (some nm)) ↔ (∃ n, (c, n) ∈ Data.names.flatten) ∨ ∃ e ∈ derived, Covers e c := by
  unfold «of»
  simp only [inRange, Bool.or_eq_true, Bool.and_eq_true, decide_eq_true_eq]
  have hd : (∃ e ∈ derived, Covers e c) ↔ (0x3400 ≤ c ∧ c ≤ 0x4DB5) ∨ (0x4E00 ≤ c ∧ c ≤ 0x9FEA) ∨ (0xAC00 ≤ c ∧ c ≤ 0xD7A3) ∨ (0xF900 ≤ c ∧ c ≤ 0xFA6D) ∨
      (0xFA70 ≤ c ∧ c ≤ 0xFAD9) ∨ (0x17000 ≤ c ∧ c ≤ 0x187EC) ∨ (0x1B170 ≤ c ∧ c ≤ 0x1B2FB) ∨ (0x20000 ≤ c ∧ c ≤ 0x2A6D6) ∨ (0x2A700 ≤ c ∧ c ≤ 0x2B734) ∨
      (0x2B740 ≤ c ∧ c ≤ 0x2B81D) ∨ (0x2B820 ≤ c ∧ c ≤ 0x2CEA1) ∨ (0x2CEB0 ≤ c ∧ c ≤ 0x2EBE0) ∨ (0x2F800 ≤ c ∧ c ≤ 0x2FA1D) := by
    simp [derived, Covers]
  rw [hd]
  split_ifs with h1 h2 h3 h4 h5
  · simp only [Outcome.ok.injEq, Option.some.injEq, exists_eq', true_iff]; omega
  · simp only [Outcome.ok.injEq, Option.some.injEq, exists_eq', true_iff]; omega
  · simp only [Outcome.ok.injEq, Option.some.injEq, exists_eq', true_iff]; omega
  · simp only [Outcome.ok.injEq, Option.some.injEq, exists_eq', true_iff]; omega
  · simp only [Outcome.ok.injEq, Option.some.injEq, exists_eq', true_iff]; omega
  · rcases find_names c with ⟨n, hm, hf⟩ | ⟨hn, hf⟩
    · rw [hf]
      simp only [Outcome.map, Option.map_some, Outcome.ok.injEq, Option.some.injEq, exists_eq', true_iff]
      exact .inl ⟨n, hm⟩
    · rw [hf]
      simp only [Outcome.map, Option.map_none, Outcome.ok.injEq, reduceCtorEq, exists_false, false_iff, not_or, not_exists]
      exact ⟨hn, by omega⟩

theorem of_total (c : Nat) : ∃ r, «of» c = .ok r := by
  unfold «of»
  split_ifs
  · exact ⟨_, rfl⟩
  · exact ⟨_, rfl⟩
  · exact ⟨_, rfl⟩
  · exact ⟨_, rfl⟩
  · exact ⟨_, rfl⟩
  · rcases find_names c with ⟨n, _, hf⟩ | ⟨_, hf⟩ <;> rw [hf] <;> exact ⟨_, rfl⟩

theorem named_category (c : Nat) : (∃ nm, «of» c = .ok (some nm)) ↔
    Ucd.generalCategory c ≠ .Control ∧ Ucd.generalCategory c ≠ .Unassigned ∧ Ucd.generalCategory c ≠ .PrivateUse ∧ Ucd.generalCategory c ≠ .Surrogate := by
  have h := SF.all₃ namedOk generalCategorySF (SF.ofEntries nameRuns) (SF.ofEntries derived) names_category c
  rw [← generalCategory_sf, SF.ofEntries, SF.eval, evalSF_steps _ 0 c nameRuns_asc, SF.ofEntries, SF.eval, evalSF_steps _ 0 c derived_asc] at h
  rw [named_iff, ← nameRuns_mem, ← lookup_isSome, ← lookup_isSome, ← Bool.or_eq_true]
  revert h
  generalize (lookup nameRuns c) = a
  generalize (lookup derived c) = b
  generalize Ucd.generalCategory c = g
  intro h
  cases g <;> simp_all [namedOk]

end Proofs.Name
