import Verif.Proofs.Echo

/-! # Property C72: the command `unic-echo` -/
namespace Props.Echo
open Model Model.Echo Spec.Echo Proofs.Echo Model.Utf

/-! ## String literals -/

/-- the formats that write a string literal -/
def literalFormats : List OutputFormat :=
  [.BracesEscape, .Js6Escape, .RustEscape, .BracesEscapeAll, .Js6EscapeAll, .RustEscapeAll, .BracesEscapeControl, .Js6EscapeControl, .RustEscapeControl]

/-- **C72.** The escaping formats write a string literal that denotes the text, in Rust and in ECMAScript 6. (`shown` is the set of
characters that `escape_debug` of the standard library writes as they are; the line and paragraph separators are not in it.) -/
theorem c72_literal (shown : Nat → Bool) (hshown : ∀ c, shown c = true → c ≠ 0x2028 ∧ c ≠ 0x2029) (o : OutputFormat) (ho : o ∈ literalFormats)
    (s : List Nat) (hs : ∀ c ∈ s, Spec.IsScalar c) : Literal (write shown o s) s := by
  have h1 : Literal (writeWithControlNUnicodeBracesEscape s) s := by
    refine ⟨_, rfl, ?_⟩
    rw [escapeDefault_debug]
    exact body_flatMap _ s fun c hc l t h => body_escape (fun c h => by simp at h; omega) (hs c hc) h
  have h2 : Literal (writeWithAllBracesEscape s) s :=
    ⟨_, rfl, body_flatMap _ s fun c hc l t h => body_escapeUnicode (hs c hc) h⟩
  have h3 : Literal (writeWithControlBracesEscape shown s) s :=
    ⟨_, rfl, body_flatMap _ s fun c hc l t h => body_escape hshown (hs c hc) h⟩
  simp only [literalFormats, List.mem_cons, List.not_mem_nil, or_false] at ho
  rcases ho with rfl | rfl | rfl | rfl | rfl | rfl | rfl | rfl | rfl <;> first | exact h1 | exact h2 | exact h3

/-- **C72.** A literal denotes one text, so that the output determines the text. -/
theorem c72_literal_unique (l s t : List Nat) (hs : Literal l s) (ht : Literal l t) : s = t := by
  obtain ⟨a, rfl, ha⟩ := hs
  obtain ⟨b, hb, hb'⟩ := ht
  simp only [List.cons.injEq, true_and] at hb
  obtain rfl := List.append_cancel_right hb
  exact body_unique ha t hb'

/-- **C72.** Two texts with the same output in an escaping format are the same. -/
theorem c72_literal_injective (shown : Nat → Bool) (hshown : ∀ c, shown c = true → c ≠ 0x2028 ∧ c ≠ 0x2029) (o : OutputFormat)
    (ho : o ∈ literalFormats) (s t : List Nat) (hs : ∀ c ∈ s, Spec.IsScalar c) (ht : ∀ c ∈ t, Spec.IsScalar c)
    (h : write shown o s = write shown o t) : s = t :=
  c72_literal_unique _ s t (c72_literal shown hshown o ho s hs) (h ▸ c72_literal shown hshown o ho t ht)

theorem pieces (f : Nat → List Nat) (P : List Nat → Nat → Prop) (s : List Nat) (h : ∀ c ∈ s, P (f c) c) :
    ∃ ps, List.Forall₂ P ps s ∧ s.flatMap f = ps.flatten := by
  refine ⟨s.map f, ?_, rfl⟩
  induction s with
  | nil => exact List.Forall₂.nil
  | cons c s ih => exact List.Forall₂.cons (h c (by simp)) (ih fun x hx => h x (by simp [hx]))

theorem escape_debug (shown : Nat → Bool) (c : Nat) (hc : Spec.IsScalar c) :
    if shown c = true ∧ c ∉ [9, 10, 13, 34, 39, 92] then escapeDebug shown c = [c] else Escape (escapeDebug shown c) c := by
  have hu : Escape (Gen.escapeUnicode c) c := by
    have := body_escapeUnicode hc Body.nil
    rw [List.append_nil] at this
    exact ⟨_, by rw [← List.append_nil (Gen.escapeUnicode c)]; exact escapeUnicode_eq c [], this⟩
  unfold escapeDebug
  by_cases h1 : c = 9
  · subst h1; simp; exact ⟨_, rfl, Body.simple (by simp) Body.nil⟩
  by_cases h2 : c = 13
  · subst h2; simp; exact ⟨_, rfl, Body.simple (by simp) Body.nil⟩
  by_cases h3 : c = 10
  · subst h3; simp; exact ⟨_, rfl, Body.simple (by simp) Body.nil⟩
  by_cases h4 : c = 39 ∨ c = 34 ∨ c = 92
  · rcases h4 with rfl | rfl | rfl <;> simp <;> exact ⟨_, rfl, Body.simple (by simp) Body.nil⟩
  by_cases h5 : shown c = true
  · rw [if_pos ⟨h5, by simp; omega⟩, if_neg h1, if_neg h2, if_neg h3, if_neg h4, if_pos h5]
  · rw [if_neg (fun h => h5 h.1), if_neg h1, if_neg h2, if_neg h3, if_neg h4, if_neg h5]
    exact hu

/-- **C72.** Which characters are escaped. With `braces-escape`, those outside `U+0020..=U+007E` and the quotes and backslash; with
`braces-escape-control`, those not shown, the quotes, backslash, tab and line ends; with `braces-escape-all`, all, as `\u{…}`. -/
theorem c72_escaped (shown : Nat → Bool) (s : List Nat) (hs : ∀ c ∈ s, Spec.IsScalar c) :
    (∃ ps, List.Forall₂ (fun p c => if 0x20 ≤ c ∧ c ≤ 0x7E ∧ c ∉ [34, 39, 92] then p = [c] else Escape p c) ps s ∧
      write shown .BracesEscape s = 34 :: (ps.flatten ++ [34])) ∧
    (∃ ps, List.Forall₂ (fun p c => if shown c = true ∧ c ∉ [9, 10, 13, 34, 39, 92] then p = [c] else Escape p c) ps s ∧
      write shown .BracesEscapeControl s = 34 :: (ps.flatten ++ [34])) ∧
    (∃ ps, List.Forall₂ (fun p c => ∃ ds, Numeral ds c ∧ p = [92, 117, 123] ++ ds ++ [125]) ps s ∧
      write shown .BracesEscapeAll s = 34 :: (ps.flatten ++ [34])) := by
  refine ⟨?_, ?_, ?_⟩
  · obtain ⟨ps, h1, h2⟩ := pieces escapeDefault (fun p c => if decide (0x20 ≤ c ∧ c ≤ 0x7E) = true ∧ c ∉ [9, 10, 13, 34, 39, 92] then p = [c] else Escape p c) s (fun c hc => by
      have := escape_debug (fun c => decide (0x20 ≤ c ∧ c ≤ 0x7E)) c (hs c hc)
      rw [← escapeDefault_debug] at this
      exact this)
    refine ⟨ps, h1.imp ?_, by rw [← h2]; rfl⟩
    intro p c h
    by_cases hc : 0x20 ≤ c ∧ c ≤ 0x7E ∧ c ∉ [34, 39, 92]
    · rw [if_pos hc]
      rwa [if_pos ⟨by simp; omega, by have := hc.2.2; simp at this ⊢; omega⟩] at h
    · rw [if_neg hc]
      rwa [if_neg (fun h => hc ⟨by simp at h; omega, by simp at h; omega, by simp at h ⊢; omega⟩)] at h
  · obtain ⟨ps, h1, h2⟩ := pieces (escapeDebug shown) (fun p c => if shown c = true ∧ c ∉ [9, 10, 13, 34, 39, 92] then p = [c] else Escape p c) s (fun c hc => escape_debug shown c (hs c hc))
    exact ⟨ps, h1, by rw [← h2]; rfl⟩
  · obtain ⟨ps, h1, h2⟩ := pieces Gen.escapeUnicode (fun p c => ∃ ds, Numeral ds c ∧ p = [92, 117, 123] ++ ds ++ [125]) s (fun c _ =>
      ⟨_, hexLower_numeral c c (Nat.le_refl _), rfl⟩)
    exact ⟨ps, h1, by rw [← h2]; rfl⟩

/-- **C72.** The alternative names of a format write the same. -/
theorem c72_aliases (shown : Nat → Bool) (s : List Nat) :
    write shown .Js6Escape s = write shown .BracesEscape s ∧ write shown .RustEscape s = write shown .BracesEscape s ∧
    write shown .Js6EscapeAll s = write shown .BracesEscapeAll s ∧ write shown .RustEscapeAll s = write shown .BracesEscapeAll s ∧
    write shown .Js6EscapeControl s = write shown .BracesEscapeControl s ∧ write shown .RustEscapeControl s = write shown .BracesEscapeControl s ∧
    write shown .Codepoint s = write shown .Codepoints s := ⟨rfl, rfl, rfl, rfl, rfl, rfl, rfl⟩

theorem hexLower_ascii (c : Nat) : ∀ x ∈ Gen.hexLower c c, 0x20 ≤ x ∧ x ≤ 0x7E := by
  intro x hx
  obtain ⟨v, hv⟩ := numeral_digit (hexLower_numeral c c (Nat.le_refl _)) hx
  unfold HexDigit at hv; omega

theorem escapeUnicode_ascii (c : Nat) : ∀ x ∈ Gen.escapeUnicode c, 0x20 ≤ x ∧ x ≤ 0x7E := by
  intro x hx
  rw [← List.append_nil (Gen.escapeUnicode c), escapeUnicode_eq] at hx
  simp only [List.mem_cons, List.mem_append, List.not_mem_nil, or_false] at hx
  rcases hx with rfl | rfl | rfl | hx | rfl
  · omega
  · omega
  · omega
  · exact hexLower_ascii c x hx
  · omega

/-- **C72.** `braces-escape` and `braces-escape-all` write printable ASCII only. -/
theorem c72_ascii (shown : Nat → Bool) (o : OutputFormat) (ho : o ∈ literalFormats.take 6) (s : List Nat) :
    ∀ x ∈ write shown o s, 0x20 ≤ x ∧ x ≤ 0x7E := by
  have quote : ∀ x ∈ Gen.str "\"", 0x20 ≤ x ∧ x ≤ 0x7E := by decide
  have key : ∀ f : Nat → List Nat, (∀ c, ∀ x ∈ f c, 0x20 ≤ x ∧ x ≤ 0x7E) → ∀ x ∈ Gen.str "\"" ++ s.flatMap f ++ Gen.str "\"", 0x20 ≤ x ∧ x ≤ 0x7E := by
    intro f hf x hx
    rcases List.mem_append.1 hx with hx | hx
    · rcases List.mem_append.1 hx with hx | hx
      · exact quote x hx
      · obtain ⟨c, _, hx⟩ := List.mem_flatMap.1 hx
        exact hf c x hx
    · exact quote x hx
  have h1 : ∀ x ∈ writeWithControlNUnicodeBracesEscape s, 0x20 ≤ x ∧ x ≤ 0x7E := by
    refine key _ ?_
    intro c x hx
    unfold escapeDefault at hx
    split_ifs at hx with h1 h2 h3 h4 h5
    · simp at hx; omega
    · simp at hx; omega
    · simp at hx; omega
    · simp at hx; omega
    · simp at hx; omega
    · exact escapeUnicode_ascii c x hx
  have h2 : ∀ x ∈ writeWithAllBracesEscape s, 0x20 ≤ x ∧ x ≤ 0x7E := key _ escapeUnicode_ascii
  simp only [literalFormats, List.take, List.mem_cons, List.not_mem_nil, or_false] at ho
  rcases ho with rfl | rfl | rfl | rfl | rfl | rfl <;> first | exact h1 | exact h2

/-! ## What the parsers accept -/

theorem sep_codepoints (w : Nat → Bool) : (fun c => ¬ Word w c ∧ c ≠ 43) = fun c => (!(Cli.isWord w c || c == 43)) = true := by
  funext c
  rw [← word_iff]
  simp

theorem sep_hex (w : Nat → Bool) : (fun c => ¬ Word w c) = fun c => (!Cli.isWord w c) = true := by
  funext c
  rw [← word_iff]
  simp

/-- **C72.** The text is read as code points if it is a list of tokens separated by single characters that are no word characters and
no `+`, where a token is an optional `U+` or `u+`, an optional `+`, and the hexadecimal number of a scalar value. It is then the list of
these, and everything else panics. -/
theorem c72_codepoints (w : Nat → Bool) (s t : List Nat) :
    parse w .Codepoints s = .ok t ↔ ∃ ts, Cut (fun c => ¬ Word w c ∧ c ≠ 43) s ts ∧
      List.Forall₂ (fun tok c => Token codepointPrefixes tok c ∧ Spec.IsScalar c) ts t := by
  have hf : ∀ tok c, (Hex.fromStrRadix16 0xFFFFFFFF (Cli.stripU tok)).bind charFromU32 = some c ↔ Token codepointPrefixes tok c ∧ Spec.IsScalar c := by
    intro tok c
    rw [Option.bind_eq_some_iff]
    constructor
    · rintro ⟨a, h1, h2⟩
      rw [Proofs.Utf.charFromU32_scalar] at h2
      split_ifs at h2 with h3
      cases h2
      exact ⟨((stripU_iff _ _ _).1 h1).2, h3⟩
    · rintro ⟨h1, h2⟩
      refine ⟨c, (stripU_iff _ _ _).2 ⟨by unfold Spec.IsScalar at h2; omega, h1⟩, ?_⟩
      rw [Proofs.Utf.charFromU32_scalar, if_pos h2]
  rw [parse, Cli.codepoints, traverse_iff, sep_codepoints]
  simp only [hf, cut_iff]
  simp

theorem hex_iff (w : Nat → Bool) (max : Nat) (s us : List Nat) :
    Cli.traverse (fun token => Hex.fromStrRadix16 max (Cli.strip0x token)) (Cli.split (fun c => !Cli.isWord w c) s) = .ok us ↔
    ∃ ts, Cut (fun c => ¬ Word w c) s ts ∧ List.Forall₂ (fun tok b => b ≤ max ∧ Token hexPrefixes tok b) ts us := by
  rw [traverse_iff, sep_hex]
  simp only [strip0x_iff, cut_iff]
  simp

/-- **C72.** The text is read as UTF-8 if it is a list of tokens separated by single characters that are no word characters, where a
token is an optional `0x` or `0X` and the hexadecimal number of a byte, and the bytes are the encoding of a text. It is then that text, and
everything else panics. -/
theorem c72_utf8_hex (w : Nat → Bool) (s t : List Nat) :
    parse w .Utf8Hex s = .ok t ↔ (∀ c ∈ t, Spec.IsScalar c) ∧ ∃ ts, Cut (fun c => ¬ Word w c) s ts ∧
      List.Forall₂ (fun tok b => b ≤ 0xFF ∧ Token hexPrefixes tok b) ts (t.flatMap encodeUtf8) := by
  rw [parse, Cli.utf8Hex]
  constructor
  · intro h
    split at h
    · cases h
    · rename_i bytes hb
      split at h
      · rename_i s' hd
        cases h
        obtain ⟨h1, h2⟩ := (decodeUtf8_iff _ _).1 hd
        exact ⟨h1, h2 ▸ (hex_iff w 0xFF s bytes).1 hb⟩
      · cases h
  · rintro ⟨h1, h2⟩
    rw [(hex_iff w 0xFF s _).2 h2]
    simp only [(decodeUtf8_iff _ _).2 ⟨h1, rfl⟩]

/-- **C72.** The same for UTF-16 and its code units. -/
theorem c72_utf16_hex (w : Nat → Bool) (s t : List Nat) :
    parse w .Utf16Hex s = .ok t ↔ (∀ c ∈ t, Spec.IsScalar c) ∧ ∃ ts, Cut (fun c => ¬ Word w c) s ts ∧
      List.Forall₂ (fun tok u => u ≤ 0xFFFF ∧ Token hexPrefixes tok u) ts (t.flatMap encodeUtf16) := by
  rw [parse, Cli.utf16Hex]
  constructor
  · intro h
    split at h
    · cases h
    · rename_i units hb
      split at h
      · rename_i s' hd
        cases h
        have hu := (hex_iff w 0xFFFF s units).1 hb
        have hle : ∀ u ∈ units, u ≤ 0xFFFF := by
          obtain ⟨ts, hcut, hf⟩ := hu
          clear hd hb hcut
          induction hf with
          | nil => simp
          | cons h _ ih => simpa using ⟨h.1, ih⟩
        obtain ⟨h1, h2⟩ := decodeUtf16_some _ hle _ hd
        exact ⟨h1, h2 ▸ hu⟩
      · cases h
  · rintro ⟨h1, h2⟩
    rw [(hex_iff w 0xFFFF s _).2 h2]
    simp only [Proofs.Utf.decodeUtf16_encode t h1]

theorem token_ne_nil {ps : List (List Nat)} {v : Nat} : ¬ Token ps [] v := by
  rintro ⟨p, plus, ds, _, _, hn, e⟩
  have := (numeral_val hn).2.2
  simp at e
  exact this e.2.2

theorem cut_last {sep : Nat → Prop} {s : List Nat} {c : Nat} (hc : sep c) {l : List Nat} (hl : l = s ++ [c]) {ts : List (List Nat)}
    (h : Cut sep l ts) : [] ∈ ts := by
  induction h generalizing s with
  | last h => exact absurd hc (h c (by simp [hl]))
  | @more t d s' ts' h1 h2 h3 ih =>
    cases s' using List.reverseRecOn with
    | nil =>
      generalize hn : ([] : List Nat) = l at h3
      cases h3 with
      | last _ => simp [← hn]
      | more _ _ _ => simp at hn
    | append_singleton s'' e _ =>
      have : (t ++ d :: s'') ++ [e] = s ++ [c] := by rw [← hl]; simp
      have he := List.append_inj_right' this rfl
      simp only [List.cons.injEq, and_true] at he
      exact List.mem_cons_of_mem _ (ih (s := s'') (by rw [he]))

theorem mem_forall {P : List Nat → Nat → Prop} {ts : List (List Nat)} {vs : List Nat} (h : List.Forall₂ P ts vs) (hm : [] ∈ ts) : ∃ v, P [] v := by
  induction h with
  | nil => cases hm
  | cons h _ ih =>
    rcases List.mem_cons.1 hm with rfl | hm
    · exact ⟨_, h⟩
    · exact ih hm

/-- **C72.** A text that ends in a newline, as the output does without `-n`, is refused by all formats but the plain one. -/
theorem c72_newline (w : Nat → Bool) (i : InputFormat) (hi : i ≠ .Plain) (s : List Nat) : parse w i (s ++ [10]) = .panic := by
  have h10 : ¬ Word w 10 := by unfold Word; omega
  cases hp : parse w i (s ++ [10]) with
  | panic => rfl
  | ok t =>
    exfalso
    have hcp : ¬ parse w .Codepoints (s ++ [10]) = .ok t := by
      intro hp
      obtain ⟨ts, h1, h2⟩ := (c72_codepoints w _ _).1 hp
      obtain ⟨v, hv⟩ := mem_forall h2 (cut_last (by exact ⟨h10, by omega⟩) rfl h1)
      exact token_ne_nil hv.1
    cases i with
    | Plain => exact hi rfl
    | Codepoint => exact hcp hp
    | Codepoints => exact hcp hp
    | Utf8Hex =>
      obtain ⟨_, ts, h1, h2⟩ := (c72_utf8_hex w _ _).1 hp
      obtain ⟨v, hv⟩ := mem_forall h2 (cut_last (by exact h10) rfl h1)
      exact token_ne_nil hv.2
    | Utf16Hex =>
      obtain ⟨_, ts, h1, h2⟩ := (c72_utf16_hex w _ _).1 hp
      obtain ⟨v, hv⟩ := mem_forall h2 (cut_last (by exact h10) rfl h1)
      exact token_ne_nil hv.2

/-! ## Format names -/

theorem lower_iff (a b : Nat) : lower a = lower b ↔ SameLetter a b := by
  unfold lower SameLetter; split_ifs <;> omega

theorem names_iff (s n : List Nat) : ((s.filter (· ≠ 45)).map lower == n.map lower) = true ↔ Names s n := by
  rw [beq_iff_eq, Names]
  generalize s.filter (· ≠ 45) = l
  induction l generalizing n with
  | nil => cases n <;> simp
  | cons a l ih =>
    cases n with
    | nil => simp
    | cons b n => simp only [List.map_cons, List.cons.injEq, List.forall₂_cons, lower_iff, ih]

/-- **C72.** A format name is accepted if it is the name of a variant up to hyphens and ASCII case, and gives that variant. -/
theorem c72_names (s : List Nat) :
    (∀ i, fromStr InputFormat.variants s = some i ↔ ∃ n, (n, i) ∈ InputFormat.variants ∧ Names s (Gen.str n)) ∧
    (∀ o, fromStr OutputFormat.variants s = some o ↔ ∃ n, (n, o) ∈ OutputFormat.variants ∧ Names s (Gen.str n)) := by
  have key : ∀ {F : Type} (vs : List (String × F)), (vs.map fun v => (Gen.str v.1).map lower).Nodup → ∀ f,
      fromStr vs s = some f ↔ ∃ n, (n, f) ∈ vs ∧ Names s (Gen.str n) := by
    intro F vs hd f
    unfold fromStr
    induction vs with
    | nil => simp
    | cons v vs ih =>
      rw [List.map_cons, List.nodup_cons] at hd
      have ih := ih hd.2
      rw [List.find?_cons]
      cases hv : ((s.filter (· ≠ 45)).map lower == (Gen.str v.1).map lower) with
      | true =>
        simp only [Option.map_some, Option.some.injEq]
        constructor
        · rintro rfl
          exact ⟨v.1, by simp, (names_iff _ _).1 hv⟩
        · rintro ⟨n, hn, hs⟩
          rcases List.mem_cons.1 hn with rfl | hn
          · rfl
          · exfalso
            have h2 := (names_iff _ _).2 hs
            rw [beq_iff_eq] at hv h2
            exact hd.1 (List.mem_map.2 ⟨(n, f), hn, by rw [← h2, hv]⟩)
      | false =>
        simp only
        rw [ih]
        constructor
        · rintro ⟨n, hn, hs⟩
          exact ⟨n, by simp [hn], hs⟩
        · rintro ⟨n, hn, hs⟩
          rcases List.mem_cons.1 hn with rfl | hn
          · rw [(names_iff _ _).2 hs] at hv; cases hv
          · exact ⟨n, hn, hs⟩
  exact ⟨key _ (by decide), key _ (by decide)⟩

/-- **C72.** The names that the help text of the command lists are accepted, and mean what it says. -/
theorem c72_help :
    (∀ v ∈ [("plain", InputFormat.Plain), ("codepoints", .Codepoints), ("utf8-hex", .Utf8Hex), ("utf16-hex", .Utf16Hex)],
      fromStr InputFormat.variants (Gen.str v.1) = some v.2) ∧
    (∀ v ∈ [("plain", OutputFormat.Plain), ("codepoints", .Codepoints), ("utf8-hex", .Utf8Hex), ("utf16-hex", .Utf16Hex),
        ("braces-escape", .BracesEscape), ("js6-escape", .Js6Escape), ("rust-escape", .RustEscape),
        ("braces-escape-all", .BracesEscapeAll), ("js6-escape-all", .Js6EscapeAll), ("rust-escape-all", .RustEscapeAll),
        ("braces-escape-control", .BracesEscapeControl), ("js6-escape-control", .Js6EscapeControl), ("rust-escape-control", .RustEscapeControl)],
      fromStr OutputFormat.variants (Gen.str v.1) = some v.2) := by
  decide +kernel

/-! ## Conversions -/

/-- the output format of the same name -/
def same : InputFormat → OutputFormat
  | .Plain => .Plain | .Codepoint => .Codepoint | .Codepoints => .Codepoints | .Utf8Hex => .Utf8Hex | .Utf16Hex => .Utf16Hex

theorem same_name {name : List Nat} {i : InputFormat} (h : fromStr InputFormat.variants name = some i) :
    fromStr OutputFormat.variants name = some (same i) := by
  obtain ⟨n, hn, hs⟩ := ((c72_names name).1 i).1 h
  refine ((c72_names name).2 (same i)).2 ⟨n, ?_, hs⟩
  simp only [InputFormat.variants, List.mem_cons, List.not_mem_nil, or_false, Prod.mk.injEq] at hn
  rcases hn with ⟨rfl, rfl⟩ | ⟨rfl, rfl⟩ | ⟨rfl, rfl⟩ | ⟨rfl, rfl⟩ | ⟨rfl, rfl⟩ <;> simp [OutputFormat.variants, same]

/-- **C72.** Reading back what was written: if the strings, not all empty, are echoed with `-n -o NAME`, and the output is given, in one
argument or in several, to a second command with `-i NAME`, this second command does what it would do on the first strings in the plain
format, for any output format and with or without `-n`. -/
theorem c72_convert (w shown : Nat → Bool) (name : List Nat) (hname : fromStr InputFormat.variants name ≠ none)
    (strings : List (List Nat)) (hs : ∀ c ∈ Cli.joinSpace strings, Spec.IsScalar c) (hne : Cli.joinSpace strings ≠ [])
    (text : List Nat) (h1 : run w shown true none (some name) strings = .out text)
    (strings' : List (List Nat)) (h2 : Cli.joinSpace strings' = text) (n : Bool) (out : Option (List Nat)) :
    run w shown n (some name) out strings' = run w shown n none out strings := by
  obtain ⟨i, hi⟩ := Option.ne_none_iff_exists'.1 hname
  have ht : text = write shown (same i) (Cli.joinSpace strings) := by
    simp only [run, formatArg, parse, same_name hi, if_true, List.append_nil, Result.out.injEq] at h1
    exact h1.symm
  have hp : parse w i text = .ok (Cli.joinSpace strings) := by
    rw [ht]
    cases i with
    | Plain => rfl
    | Codepoint => exact Props.Cli.c47_codepoints w _ hs hne
    | Codepoints => exact Props.Cli.c47_codepoints w _ hs hne
    | Utf8Hex => exact Props.Cli.c47_utf8_hex w _ hs hne
    | Utf16Hex => exact Props.Cli.c47_utf16_hex w _ hs hne
  have hp' : parse w .Plain (Cli.joinSpace strings) = .ok (Cli.joinSpace strings) := rfl
  simp only [run, formatArg, hi, h2, hp, hp']

/-- **C72.** The first command always succeeds; with `-o NAME` absent or good the plain format never panics. -/
theorem c72_total (w shown : Nat → Bool) (n : Bool) (out : Option (List Nat)) (strings : List (List Nat)) :
    run w shown n none out strings ≠ .panic ∧
    (run w shown n none out strings = .exit ↔ ∃ name, out = some name ∧ ∀ v ∈ OutputFormat.variants, ¬ Names name (Gen.str v.1)) := by
  cases out with
  | none => simp [run, formatArg, parse]
  | some name =>
    have hn := (c72_names name).2
    simp only [run, formatArg, parse]
    cases hf : fromStr OutputFormat.variants name with
    | none =>
      simp only [ne_eq, reduceCtorEq, not_false_eq_true, true_and, true_iff]
      refine ⟨name, rfl, fun v hv hs => ?_⟩
      have := (hn v.2).2 ⟨v.1, hv, hs⟩
      rw [hf] at this; cases this
    | some o =>
      simp only [ne_eq, reduceCtorEq, not_false_eq_true, true_and, false_iff]
      rintro ⟨m, hm, hno⟩
      cases hm
      obtain ⟨n, hv, hs⟩ := (hn o).1 hf
      exact hno _ hv hs

/-- **C72.** The output is the text in the output format, followed by one newline unless `-n` is given. -/
theorem c72_newline_switch (w shown : Nat → Bool) (input output : Option (List Nat)) (strings : List (List Nat)) (text : List Nat) :
    run w shown false input output strings = .out text ↔ ∃ t, text = t ++ [10] ∧ run w shown true input output strings = .out t := by
  unfold run
  split
  · simp
  · split
    · simp
    · split
      · simp
      · simp [eq_comm]

/-! ## Examples -/

private def s (x : String) : List Nat := x.toList.map Char.toNat

/-- Non-vacuity: `unic-echo -o rust-escape 'a"é' '☺'`, the same with `-control` for a set of shown characters, and reading code points. -/
example :
    run (fun _ => true) (fun c => decide (0x20 ≤ c) && c != 0x2028 && c != 0x2029) false none (some (s "Rust-Escape")) [s "a\"é", s "☺"] =
      .out (s "\"a\\\"\\u{e9} \\u{263a}\"\n") ∧
    run (fun _ => true) (fun c => decide (0x20 ≤ c) && c != 0x2028 && c != 0x2029) true none (some (s "js6-escape-control")) [s "a\"é", s "☺\n"] =
      .out (s "\"a\\\"é ☺\\n\"") ∧
    run (fun _ => true) (fun _ => true) true (some (s "codepoints")) none [s "u+61,0041", s "+E9"] = .out (s "aAé") ∧
    run (fun _ => true) (fun _ => true) true (some (s "codepoints")) none [s "U+61, 41"] = .panic ∧
    run (fun _ => true) (fun _ => true) true (some (s "base64")) none [s "U+61, 41"] = .exit := by
  decide +kernel

/-- Non-vacuity of `c72_convert`. -/
example : run (fun _ => true) (fun _ => true) true none (some (s "utf16-hex")) [s "a", s "😀"] = .out (s "0x0061 0x0020 0xD83D 0xDE00") ∧
    run (fun _ => true) (fun _ => true) false (some (s "utf16-hex")) (some (s "utf8-hex")) [s "0x0061", s "0x0020", s "0xD83D 0xDE00"] =
      .out (s "0x61 0x20 0xF0 0x9F 0x98 0x80\n") := by
  decide +kernel

end Props.Echo
