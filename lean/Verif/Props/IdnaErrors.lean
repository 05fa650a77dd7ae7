import Verif.Proofs.IdnaErrors
import Verif.Props.Idna

/-! # C83: the errors of the IDNA conversions -/
namespace Props.IdnaErrors
open Model Model.Idna Model.IdnaMapping Data Spec.Idna Proofs.Idna Props.Idna

/-- **C83.** Whatever `to_unicode` returns, the string and the errors are those of UTS #46 processing: the errors of the characters in their order,
then the errors of the labels in theirs; the string has all labels, undecodable ones empty. -/
theorem c83_to_unicode (chk : Bool) (d : List Nat) (flags : Flags) (s : List Nat) (es : List Error) (h : toUnicode chk d flags = .ok (s, es)) :
    ∃ ces outs, Processed (data chk) flags.useStd3AsciiRules false d ces outs ∧ Labels s (outs.map Prod.fst) ∧ es = ces ++ outs.filterMap Prod.snd := by
  rw [toUnicode, toUnicodeWith] at h
  have := processing_errors d _ s es h
  rw [tables_shipped] at this
  exact this

/-- **C83.** Whatever `to_ascii` returns, it is the name made of the ASCII forms of the labels if no error is found, and otherwise the list of the
errors of the characters, the labels, the ASCII forms and the lengths. -/
theorem c83_to_ascii (chk : Bool) (d : List Nat) (flags : Flags) (res : Except (List Error) (List Nat)) (h : toAscii chk d flags = .ok res) :
    ∃ ces outs forms lengths, Processed (data chk) flags.useStd3AsciiRules flags.transitionalProcessing d ces outs ∧
      List.Forall₂ (AsciiResult (data chk)) (outs.map Prod.fst) forms ∧
      (flags.verifyDnsLength = true → LengthErrors (join (forms.map Prod.fst)) lengths) ∧ (flags.verifyDnsLength = false → lengths = []) ∧
      res = (if ces ++ outs.filterMap Prod.snd ++ forms.filterMap Prod.snd ++ lengths = [] then .ok (join (forms.map Prod.fst))
        else .error (ces ++ outs.filterMap Prod.snd ++ forms.filterMap Prod.snd ++ lengths)) := by
  rw [toAscii] at h
  have := toAsciiWith_errors d flags res h
  rw [tables_shipped] at this
  exact this

theorem labelResult_kind {D : Tables} {std3 tr b : Bool} {p : List Nat} {o : List Nat × Option Error} (h : LabelResult D std3 tr b p o) :
    o.2 = none ∨ o.2 = some .ValidityCriteria ∨ o.2 = some .PunycodeError := by cases h <;> simp

theorem asciiResult_kind {D : Tables} {l : List Nat} {o : List Nat × Option Error} (h : AsciiResult D l o) : o.2 = none ∨ o.2 = some .PunycodeError := by
  cases h <;> simp

theorem charError_kind {std3 : Bool} {m : Mapping} {e : Error} (h : charError std3 m = some e) :
    e = .DissallowedCharacter ∨ e = .DissallowedByStd3AsciiRules ∨ e = .DissallowedMappedInStd3 := by
  cases m <;> simp only [charError] at h <;> (try split at h) <;> simp_all

/-- **C83.** Of the errors of `to_unicode` the five kinds mean, in the order of their declaration: a label cannot be decoded; a label that is not empty, as it is or decoded,
is not valid; STD3 rules are asked for and the name has a character they forbid, or one they forbid that would be mapped otherwise; the name has a
disallowed character. Lengths are not checked. -/
theorem c83_kinds (chk : Bool) (d : List Nat) (flags : Flags) (s : List Nat) (es : List Error) (h : toUnicode chk d flags = .ok (s, es)) :
    (∃ parts b, Labels (Normal.nfc (d.flatMap fun c => match mappingOf c with | .ok m => replacement false c m | .panic => [])) parts ∧ (b = true ↔ BidiGuess (data chk) d parts) ∧
      (Error.PunycodeError ∈ es ↔ ∃ q, ace ++ q ∈ parts ∧ ∀ l, ¬ (data chk).decodes q l) ∧
      (Error.ValidityCriteria ∈ es ↔ ∃ p ∈ parts, ∃ l, ((∃ q, p = ace ++ q ∧ (data chk).decodes q l) ∨ (¬ ace <+: p ∧ l = p)) ∧ l ≠ [] ∧
        ¬ ValidLabel (data chk) flags.useStd3AsciiRules false b l)) ∧
    (Error.DissallowedByStd3AsciiRules ∈ es ↔ flags.useStd3AsciiRules = true ∧ ∃ c ∈ d, mappingOf c = .ok .DisallowedStd3Valid) ∧
    (Error.DissallowedMappedInStd3 ∈ es ↔ flags.useStd3AsciiRules = true ∧ ∃ c ∈ d, ∃ r, mappingOf c = .ok (.DisallowedStd3Mapped r)) ∧
    (Error.DissallowedCharacter ∈ es ↔ ∃ c ∈ d, mappingOf c = .ok .Disallowed) ∧
    Error.TooLongForDns ∉ es ∧ Error.TooShortForDns ∉ es := by
  obtain ⟨ces, outs, ⟨ms, parts, b, h1, rfl, h2, h3, h4⟩, h5, rfl⟩ := c83_to_unicode chk d flags s es h
  have h1' : List.Forall₂ (fun c m => mappingOf c = .ok m) d ms := h1
  have hmap : (List.zipWith (replacement false) d ms).flatten = d.flatMap fun c => match mappingOf c with | .ok m => replacement false c m | .panic => [] := by
    clear h2 h3 h4 h5 h h1
    induction h1' with
    | nil => rfl
    | cons e _ ih => rw [List.zipWith_cons_cons, List.flatten_cons, List.flatMap_cons, ih, e]
  have hco : ∀ e, e ∈ ms.filterMap (charError flags.useStd3AsciiRules) ↔ ∃ c ∈ d, ∃ m, mappingOf c = .ok m ∧ charError flags.useStd3AsciiRules m = some e := by
    intro e
    rw [List.mem_filterMap]
    constructor
    · rintro ⟨m, hm, he⟩
      obtain ⟨c, hc, hr⟩ := forall₂_right h1' hm
      exact ⟨c, hc, m, hr, he⟩
    · rintro ⟨c, hc, m, hr, he⟩
      obtain ⟨m', hm, hr'⟩ := forall₂_left h1' hc
      rw [hr] at hr'
      simp only [Outcome.ok.injEq] at hr'
      subst hr'
      exact ⟨m, hm, he⟩
  have hlo : ∀ e, e ∈ outs.filterMap Prod.snd ↔ ∃ p ∈ parts, ∃ l, LabelResult (data chk) flags.useStd3AsciiRules false b p (l, some e) := by
    intro e
    rw [List.mem_filterMap]
    constructor
    · rintro ⟨⟨l, x⟩, ho, he⟩
      obtain ⟨p, hp, hr⟩ := forall₂_right h4 ho
      simp only at he
      subst he
      exact ⟨p, hp, l, hr⟩
    · rintro ⟨p, hp, l, hr⟩
      obtain ⟨⟨l', x⟩, ho, hr'⟩ := forall₂_left h4 hp
      refine ⟨_, ho, ?_⟩
      have hdet : ∀ {q l l' : List Nat}, (data chk).decodes q l → (data chk).decodes q l' → l = l' := by
        intro q l l' a b
        have a' : Punycode.decodeToString chk q = .ok (some l) := a
        have b' : Punycode.decodeToString chk q = .ok (some l') := b
        rw [a'] at b'; simpa using b'
      cases hr with
      | aceInvalid q l hq hd hl hv =>
        cases hr' with
        | ace q' l' hq' hd' hv' =>
          have : q = q' := List.append_cancel_left (hq.symm.trans hq'); subst this
          have := hdet hd hd'; subst this
          rcases hv' with h | h
          · exact absurd h hl
          · exact absurd h hv
        | aceInvalid q' l' hq' hd' hl' hv' => rfl
        | undecodable q' hq' hd' =>
          have : q = q' := List.append_cancel_left (hq.symm.trans hq'); subst this
          exact absurd hd (hd' l)
        | plain hn _ => exact absurd ⟨q, hq.symm⟩ hn
        | plainInvalid hn _ _ => exact absurd ⟨q, hq.symm⟩ hn
      | undecodable q hq hd =>
        cases hr' with
        | ace q' l' hq' hd' hv' =>
          have : q = q' := List.append_cancel_left (hq.symm.trans hq'); subst this
          exact absurd hd' (hd l')
        | aceInvalid q' l' hq' hd' hl' hv' =>
          have : q = q' := List.append_cancel_left (hq.symm.trans hq'); subst this
          exact absurd hd' (hd l')
        | undecodable q' hq' hd' => rfl
        | plain hn _ => exact absurd ⟨q, hq.symm⟩ hn
        | plainInvalid hn _ _ => exact absurd ⟨q, hq.symm⟩ hn
      | plainInvalid hn hp' hv =>
        cases hr' with
        | ace q' l' hq' hd' hv' => exact absurd ⟨q', hq'.symm⟩ hn
        | aceInvalid q' l' hq' hd' hl' hv' => exact absurd ⟨q', hq'.symm⟩ hn
        | undecodable q' hq' hd' => exact absurd ⟨q', hq'.symm⟩ hn
        | plain _ hv' =>
          rcases hv' with h | h
          · exact absurd h hp'
          · exact absurd h hv
        | plainInvalid _ _ _ => rfl
  have hl3 : ∀ e, e ∈ outs.filterMap Prod.snd → e = .ValidityCriteria ∨ e = .PunycodeError := by
    intro e he
    obtain ⟨p, hp, l, hr⟩ := (hlo e).1 he
    rcases labelResult_kind hr with h | h | h
    · simp at h
    · simp only [Option.some.injEq] at h; exact .inl h
    · simp only [Option.some.injEq] at h; exact .inr h
  have hc3 : ∀ e, e ∈ ms.filterMap (charError flags.useStd3AsciiRules) → e = .DissallowedCharacter ∨ e = .DissallowedByStd3AsciiRules ∨ e = .DissallowedMappedInStd3 := by
    intro e he
    obtain ⟨c, _, m, _, hm⟩ := (hco e).1 he
    exact charError_kind hm
  have onlyL : ∀ e, (e = .ValidityCriteria ∨ e = .PunycodeError) → (e ∈ ms.filterMap (charError flags.useStd3AsciiRules) ++ outs.filterMap Prod.snd ↔ e ∈ outs.filterMap Prod.snd) := by
    intro e he
    rw [List.mem_append]
    refine ⟨fun h => h.resolve_left fun hc => ?_, .inr⟩
    rcases he with rfl | rfl <;> simpa using hc3 _ hc
  have onlyC : ∀ e, (e ≠ .ValidityCriteria ∧ e ≠ .PunycodeError) → (e ∈ ms.filterMap (charError flags.useStd3AsciiRules) ++ outs.filterMap Prod.snd ↔
      ∃ c ∈ d, ∃ m, mappingOf c = .ok m ∧ charError flags.useStd3AsciiRules m = some e) := by
    intro e he
    rw [List.mem_append, ← hco e]
    refine ⟨fun h => h.resolve_right fun hl => ?_, .inl⟩
    rcases hl3 _ hl with h | h
    · exact he.1 h
    · exact he.2 h
  refine ⟨⟨parts, b, ?_, h3, ?_, ?_⟩, ?_, ?_, ?_, ?_, ?_⟩
  · rw [← hmap]
    have := h2
    rw [data_nfc] at this
    exact this
  · rw [onlyL _ (.inr rfl), hlo]
    constructor
    · rintro ⟨p, hp, l, hr⟩
      cases hr with
      | undecodable q hq hd => exact ⟨q, hq ▸ hp, hd⟩
    · rintro ⟨q, hq, hd⟩
      exact ⟨_, hq, [], .undecodable q rfl hd⟩
  · rw [onlyL _ (.inl rfl), hlo]
    constructor
    · rintro ⟨p, hp, l, hr⟩
      cases hr with
      | aceInvalid q l hq hd hl hv => exact ⟨p, hp, l, .inl ⟨q, hq, hd⟩, hl, hv⟩
      | plainInvalid hn hp' hv => exact ⟨p, hp, p, .inr ⟨hn, rfl⟩, hp', hv⟩
    · rintro ⟨p, hp, l, ⟨q, hq, hd⟩ | ⟨hn, rfl⟩, hl, hv⟩
      · exact ⟨p, hp, l, .aceInvalid q l hq hd hl hv⟩
      · exact ⟨l, hp, l, .plainInvalid hn hl hv⟩
  · rw [onlyC _ (by simp)]
    constructor
    · rintro ⟨c, hc, m, hm, he⟩
      cases m <;> simp only [charError] at he <;> (try split at he) <;> simp only [reduceCtorEq, Option.some.injEq] at he
      rename_i hs
      exact ⟨hs, c, hc, hm⟩
    · rintro ⟨hs, c, hc, hm⟩
      exact ⟨c, hc, _, hm, by rw [charError, if_pos hs]⟩
  · rw [onlyC _ (by simp)]
    constructor
    · rintro ⟨c, hc, m, hm, he⟩
      cases m <;> simp only [charError] at he <;> (try split at he) <;> simp only [reduceCtorEq, Option.some.injEq] at he
      rename_i hs
      exact ⟨hs, c, hc, _, hm⟩
    · rintro ⟨hs, c, hc, r, hm⟩
      exact ⟨c, hc, _, hm, by rw [charError, if_pos hs]⟩
  · rw [onlyC _ (by simp)]
    constructor
    · rintro ⟨c, hc, m, hm, he⟩
      cases m <;> first
        | exact ⟨c, hc, hm⟩
        | (simp only [charError] at he; (try split at he) <;> simp only [reduceCtorEq, Option.some.injEq] at he)
    · rintro ⟨c, hc, hm⟩
      exact ⟨c, hc, _, hm, rfl⟩
  · rw [onlyC _ (by simp)]
    rintro ⟨c, hc, m, hm, he⟩
    simpa using charError_kind he
  · rw [onlyC _ (by simp)]
    rintro ⟨c, hc, m, hm, he⟩
    simpa using charError_kind he

/-- "-⑴_.xn--" followed by a private-use character and a full stop: under STD3 rules two characters are forbidden, one is disallowed, a label begins with a hyphen,
another does not decode; and names with an empty and a long label. -/
example : toUnicode true [0x2D, 0x2474, 0x5F, 0x2E, 0x78, 0x6E, 0x2D, 0x2D, 0xE000, 0x2E] f101 =
      .ok ([0x2D, 0x28, 0x31, 0x29, 0x5F, 0x2E, 0x2E], [.DissallowedMappedInStd3, .DissallowedByStd3AsciiRules, .DissallowedCharacter, .ValidityCriteria, .PunycodeError]) ∧
    toAscii true [0x61, 0x2E, 0x2E, 0x62] f101 = .ok (.error [.TooShortForDns]) ∧
    toAscii true (List.replicate 64 0x61) f101 = .ok (.error [.TooLongForDns]) := by
  rw [toAscii, toAscii, toUnicode, shipped_eq]
  decide +kernel

end Props.IdnaErrors
