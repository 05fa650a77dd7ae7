import Verif.Model.Cli
import Verif.Proofs.Hex
import Verif.Proofs.Utf

/-! # Properties C47 and C49: command-line formats and code point notation -/
namespace Props.Cli
open Model Model.Cli Model.Hex Model.Utf Proofs.Hex Proofs.Utf

theorem split_cons_sep {sep : Nat → Bool} {c : Nat} (h : sep c = true) (cs : List Nat) :
    split sep (c :: cs) = [] :: split sep cs := by rw [split, if_pos h]

theorem split_ne_nil (sep : Nat → Bool) (cs : List Nat) : split sep cs ≠ [] := by
  cases cs with
  | nil => simp [split]
  | cons c cs =>
    rw [split]
    split
    · simp
    · split <;> simp

theorem split_token (sep : Nat → Bool) (t cs : List Nat) (ht : ∀ c ∈ t, sep c = false) (u : List Nat) (us : List (List Nat))
    (h : split sep cs = u :: us) : split sep (t ++ cs) = (t ++ u) :: us := by
  induction t with
  | nil => exact h
  | cons c t ih =>
    have hc : sep c = false := ht c (by simp)
    rw [List.cons_append, split, if_neg (by simp [hc]), ih (fun c hc => ht c (by simp [hc]))]
    rfl

theorem split_join (sep : Nat → Bool) (hsp : sep 32 = true) (ts : List (List Nat)) (hne : ts ≠ [])
    (ht : ∀ t ∈ ts, ∀ c ∈ t, sep c = false) : split sep (joinSpace ts) = ts := by
  induction ts with
  | nil => exact absurd rfl hne
  | cons t ts ih =>
    cases ts with
    | nil =>
      rw [joinSpace]
      have := split_token sep t [] (ht t (by simp)) [] [] rfl
      simpa using this
    | cons u ts =>
      rw [joinSpace]
      have := split_token sep t (32 :: joinSpace (u :: ts)) (ht t (by simp)) [] (u :: ts) (by
        rw [split_cons_sep hsp, ih (by simp) (fun t h => ht t (by simp [h]))])
      simpa using this

theorem joinSpace_append (a b : List (List Nat)) (ha : a ≠ []) (hb : b ≠ []) :
    joinSpace (a ++ b) = joinSpace a ++ 32 :: joinSpace b := by
  induction a with
  | nil => exact absurd rfl ha
  | cons t a ih =>
    cases a with
    | nil =>
      cases b with
      | nil => exact absurd rfl hb
      | cons u b => simp [joinSpace]
    | cons v a =>
      have := ih (by simp)
      simp only [List.cons_append, joinSpace, List.append_assoc] at this ⊢
      rw [this]

theorem joinSpace_flatten (tss : List (List (List Nat))) (h : ∀ ts ∈ tss, ts ≠ []) :
    joinSpace (tss.map joinSpace) = joinSpace tss.flatten := by
  induction tss with
  | nil => rfl
  | cons ts tss ih =>
    cases tss with
    | nil => simp [joinSpace]
    | cons us tss =>
      have := ih (fun t ht => h t (by simp [ht]))
      rw [List.flatten_cons, joinSpace_append _ _ (h ts (by simp))]
      · simp only [List.map_cons, joinSpace] at this ⊢
        rw [this]
      · simp [h us (by simp)]

theorem traverse_ok (f : List Nat → Option Nat) (g : Nat → List Nat) (s : List Nat) (h : ∀ c ∈ s, f (g c) = some c) :
    traverse f (s.map g) = .ok s := by
  induction s with
  | nil => rfl
  | cons c s ih =>
    rw [List.map_cons, traverse, h c (by simp), ih (fun c hc => h c (by simp [hc]))]

theorem hexdigit_word (w : Nat → Bool) (c : Nat) (h : (48 ≤ c ∧ c ≤ 57) ∨ (65 ≤ c ∧ c ≤ 70)) : isWord w c = true := by
  unfold isWord
  rw [if_pos (by omega)]
  simp only [Bool.or_eq_true, Bool.and_eq_true, decide_eq_true_eq, beq_iff_eq]
  omega

theorem space_not_word (w : Nat → Bool) : isWord w 32 = false := rfl

/-- **C47.** Writing a non-empty string as code points and parsing the output gives the string back.
(`w` is the regex crate's notion of a non-ASCII word character; the result holds for any.) -/
theorem c47_codepoints (w : Nat → Bool) (s : List Nat) (hs : ∀ c ∈ s, Spec.IsScalar c) (hne : s ≠ []) :
    codepoints w (writeAsCodepoints s) = .ok s := by
  unfold codepoints writeAsCodepoints
  rw [split_join _ (by simp [space_not_word]) _ (by simpa using hne)]
  · apply traverse_ok
    intro c hc
    have := hs c hc
    have h1 : stripU (writeCharAsCodepoint c) = fmt 4 c := by simp [writeCharAsCodepoint, stripU]
    rw [h1, parse_fmt _ _ _ (by simp only [Spec.IsScalar] at this; omega)]
    simp [charFromU32_scalar, this]
  · intro t ht c hc
    obtain ⟨x, _, rfl⟩ := List.mem_map.1 ht
    simp only [writeCharAsCodepoint, List.cons_append, List.nil_append, List.mem_cons] at hc
    rcases hc with rfl | rfl | hc
    · simp [isWord]
    · simp
    · simp [hexdigit_word w c ((fmt_ok 4 x).1 c hc)]

theorem hex_tokens (w : Nat → Bool) (k : Nat) (us : List Nat) (t : List Nat)
    (ht : t ∈ us.map fun b => [48, 120] ++ fmt k b) : ∀ c ∈ t, (!isWord w c) = false := by
  intro c hc
  obtain ⟨x, _, rfl⟩ := List.mem_map.1 ht
  simp only [List.cons_append, List.nil_append, List.mem_cons] at hc
  rcases hc with rfl | rfl | hc
  · simp [isWord]
  · simp [isWord]
  · simp [hexdigit_word w c ((fmt_ok k x).1 c hc)]

theorem hex_parse (w : Nat → Bool) (k max : Nat) (us : List Nat) (hne : us ≠ []) (h : ∀ u ∈ us, u ≤ max) :
    traverse (fun token => fromStrRadix16 max (strip0x token))
      (split (fun c => !isWord w c) (joinSpace (us.map fun b => [48, 120] ++ fmt k b))) = .ok us := by
  rw [split_join _ (by simp [space_not_word]) _ (by simpa using hne) (fun t ht => hex_tokens w k us t ht)]
  apply traverse_ok
  intro c hc
  have h1 : strip0x ([48, 120] ++ fmt k c) = fmt k c := by simp [strip0x]
  rw [h1, parse_fmt _ _ _ (h c hc)]

theorem flat_join (enc : Nat → List Nat) (g : Nat → List Nat) (s : List Nat) (hne : ∀ c, enc c ≠ []) :
    joinSpace (s.map fun c => joinSpace ((enc c).map g)) = joinSpace ((s.flatMap enc).map g) := by
  have h := joinSpace_flatten (s.map fun c => (enc c).map g) (by
    intro ts hts
    obtain ⟨c, _, rfl⟩ := List.mem_map.1 hts
    simpa using hne c)
  rw [List.map_map] at h
  rw [show (fun c => joinSpace ((enc c).map g)) = joinSpace ∘ (fun c => (enc c).map g) from rfl, h]
  congr 1
  induction s with
  | nil => rfl
  | cons c s ih => simp [List.flatMap_cons] at ih ⊢; rw [ih (by
      have := joinSpace_flatten (s.map fun c => (enc c).map g) (by
        intro ts hts
        obtain ⟨c, _, rfl⟩ := List.mem_map.1 hts
        simpa using hne c)
      simpa [List.map_map] using this)]

/-- **C47.** The same for UTF-8 hexadecimal. -/
theorem c47_utf8_hex (w : Nat → Bool) (s : List Nat) (hs : ∀ c ∈ s, Spec.IsScalar c) (hne : s ≠ []) :
    utf8Hex w (writeAsUtf8Hex s) = .ok s := by
  have h1 : writeAsUtf8Hex s = joinSpace ((s.flatMap encodeUtf8).map fun b => [48, 120] ++ fmt 2 b) :=
    flat_join encodeUtf8 _ s encodeUtf8_ne_nil
  unfold utf8Hex
  rw [h1, hex_parse w 2 0xFF]
  · simp only [decodeUtf8_encode s hs]
  · intro h
    cases s with
    | nil => exact hne rfl
    | cons c s => rw [List.flatMap_cons] at h; exact encodeUtf8_ne_nil c (List.append_eq_nil_iff.1 h).1
  · intro u hu
    obtain ⟨c, hc, hu⟩ := List.mem_flatMap.1 hu
    exact encodeUtf8_byte c (hs c hc) u hu

/-- **C47.** The same for UTF-16 hexadecimal. -/
theorem c47_utf16_hex (w : Nat → Bool) (s : List Nat) (hs : ∀ c ∈ s, Spec.IsScalar c) (hne : s ≠ []) :
    utf16Hex w (writeAsUtf16Hex s) = .ok s := by
  have h1 : writeAsUtf16Hex s = joinSpace ((s.flatMap encodeUtf16).map fun b => [48, 120] ++ fmt 4 b) :=
    flat_join encodeUtf16 _ s encodeUtf16_ne_nil
  unfold utf16Hex
  rw [h1, hex_parse w 4 0xFFFF]
  · simp only [decodeUtf16_encode s hs]
  · intro h
    cases s with
    | nil => exact hne rfl
    | cons c s => rw [List.flatMap_cons] at h; exact encodeUtf16_ne_nil c (List.append_eq_nil_iff.1 h).1
  · intro u hu
    obtain ⟨c, hc, hu⟩ := List.mem_flatMap.1 hu
    exact encodeUtf16_unit c (hs c hc) u hu

/-- **C47, limit.** On the empty string the round trip fails: all three parsers panic on the empty text
that the writers produce. -/
theorem c47_empty_panics (w : Nat → Bool) :
    codepoints w (writeAsCodepoints []) = .panic ∧ utf8Hex w (writeAsUtf8Hex []) = .panic ∧
    utf16Hex w (writeAsUtf16Hex []) = .panic := ⟨rfl, rfl, rfl⟩

/-- Non-vacuity: a string with characters of all four UTF-8 lengths. -/
example : writeAsUtf16Hex [0x1F600] = "0xD83D 0xDE00".toList.map Char.toNat ∧
    writeAsUtf8Hex [0x41, 0xE9] = "0x41 0xC3 0xA9".toList.map Char.toNat ∧
    codepoints (fun _ => true) (writeAsCodepoints [0x41, 0xE9, 0x20AC, 0x1F600]) = .ok [0x41, 0xE9, 0x20AC, 0x1F600] := by
  decide +kernel

/-- Specification: an upper-case hexadecimal digit with its value. -/
def IsHexDigit (ch v : Nat) : Prop := (48 ≤ ch ∧ ch ≤ 57 ∧ v = ch - 48) ∨ (65 ≤ ch ∧ ch ≤ 70 ∧ v = ch - 65 + 10)

/-- Specification: `ds` is a base-16 numeral of value `n`. -/
inductive Numeral : List Nat → Nat → Prop
  | nil : Numeral [] 0
  | snoc {ds n ch v} : Numeral ds n → IsHexDigit ch v → Numeral (ds ++ [ch]) (n * 16 + v)

theorem digitChar_spec {d : Nat} (h : d < 16) : IsHexDigit (digitChar d) d := by
  unfold digitChar IsHexDigit; split <;> omega

theorem digits_numeral (fuel n : Nat) (h : n ≤ fuel) : Numeral (digits fuel n) n := by
  induction fuel generalizing n with
  | zero => obtain rfl : n = 0 := by omega
            exact Numeral.snoc Numeral.nil (digitChar_spec (by omega))
  | succ fuel ih =>
    rw [digits]
    split
    · rename_i h'
      have := Numeral.snoc Numeral.nil (digitChar_spec h')
      simpa using this
    · have := Numeral.snoc (ih (n / 16) (by omega)) (digitChar_spec (Nat.mod_lt n (by omega : 0 < 16)))
      rwa [show n / 16 * 16 + n % 16 = n by omega] at this

theorem zeros_numeral (k : Nat) : Numeral (List.replicate k 48) 0 := by
  induction k with
  | zero => exact Numeral.nil
  | succ k ih =>
    rw [List.replicate_succ']
    simpa using Numeral.snoc ih (show IsHexDigit 48 0 by unfold IsHexDigit; omega)

theorem numeral_append {a b : List Nat} {n : Nat} (ha : Numeral a 0) (hb : Numeral b n) : Numeral (a ++ b) n := by
  induction hb with
  | nil => simpa using ha
  | snoc _ hd ih => rw [← List.append_assoc]; exact Numeral.snoc ih hd

/-- **C49.** The notation is `U+` followed by an upper-case hexadecimal numeral of the code point, with
exactly as many digits as needed but at least four. -/
theorem c49_notation (c : Nat) (hc : Spec.IsScalar c) : ∃ ds, unicodeNotation c = [85, 43] ++ ds ∧ Numeral ds c ∧
    ds.length = (if c < 0x10000 then 4 else if c < 0x100000 then 5 else 6) := by
  refine ⟨fmt 4 c, rfl, numeral_append (zeros_numeral _) (digits_numeral c c (Nat.le_refl _)), ?_⟩
  obtain ⟨h1, h2, h3⟩ := digits_length c c (Nat.le_refl _)
  simp only [fmt, List.length_append, List.length_replicate]
  generalize (digits c c).length = k at *
  have hb : c < 0x110000 := hc.1
  have key : k ≤ 6 := by
    by_contra hk
    have h4 := h2 (by rintro rfl; exact absurd (h3 rfl) (by omega))
    have : 16 ^ 6 ≤ 16 ^ (k - 1) := Nat.pow_le_pow_right (by omega) (by omega)
    omega
  split_ifs with e1 e2
  · have : k ≤ 4 := by
      by_contra hk
      have h4 := h2 (by rintro rfl; exact absurd (h3 rfl) (by omega))
      have : 16 ^ 4 ≤ 16 ^ (k - 1) := Nat.pow_le_pow_right (by omega) (by omega)
      omega
    omega
  · interval_cases k <;> simp at * <;> omega
  · interval_cases k <;> simp at * <;> omega

/-- **C49.** The notation determines the character. -/
theorem c49_notation_injective (a b : Nat) (h : unicodeNotation a = unicodeNotation b) : a = b := by
  have h' : fmt 4 a = fmt 4 b := by simpa [unicodeNotation] using h
  rw [← (fmt_ok 4 a).2.1, ← (fmt_ok 4 b).2.1, h']

/-- Non-vacuity. -/
example : unicodeNotation 0x9 = "U+0009".toList.map Char.toNat ∧ unicodeNotation 0x10FFFF = "U+10FFFF".toList.map Char.toNat := by
  decide +kernel

end Props.Cli
