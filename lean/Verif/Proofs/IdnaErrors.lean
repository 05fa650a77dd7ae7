import Verif.Spec.IdnaErrors
import Verif.Proofs.IdnaAscii

/-! The errors recorded by the IDNA functions, for any character data. -/
namespace Proofs.Idna
open Model Model.Idna Data Proofs.Punycode Spec.Idna

variable {u : Deps} {chk : Bool}

theorem mapChar_errors (flags : Flags) (c : Nat) (m : Mapping) (out : List Nat) (errors : List Error) (h : u.mapping c = .ok m) :
    mapChar u flags c out errors = .ok (out ++ replacement flags.transitionalProcessing c m, errors ++ (charError flags.useStd3AsciiRules m).toList) := by
  unfold mapChar
  rw [h, bind_ok]
  cases m <;> simp only [replacement, charError] <;> (try split) <;> simp [pure_eq]

theorem mapChars_errors (flags : Flags) {d : List Nat} {ms : List Mapping} (h : List.Forall₂ (fun c m => u.mapping c = .ok m) d ms) : ∀ (out : List Nat) (errors : List Error),
    mapChars u flags d out errors =
      .ok (out ++ (List.zipWith (replacement flags.transitionalProcessing) d ms).flatten, errors ++ ms.filterMap (charError flags.useStd3AsciiRules)) := by
  induction h with
  | nil => intro out errors; simp [mapChars]
  | @cons c m d ms h1 _ ih =>
    intro out errors
    rw [mapChars, mapChar_errors flags c m out errors h1, bind_ok]
    simp only
    rw [ih]
    rw [List.filterMap_cons]
    cases charError flags.useStd3AsciiRules m <;> simp

theorem validate_cases {flags : Flags} {l : List Nat} {b : Bool} {errors es : List Error} (h : validate u l b flags errors = .ok es) :
    (validate u l b flags [] = .ok [] ∧ es = errors) ∨ (validate u l b flags [] = .ok [.ValidityCriteria] ∧ es = errors ++ [.ValidityCriteria]) := by
  cases l with
  | nil => simp only [validate, Outcome.ok.injEq] at h ⊢; left; exact ⟨trivial, h.symm⟩
  | cons c l =>
    unfold validate at h ⊢
    simp only at h ⊢
    split at h
    · rename_i h1
      rw [if_pos h1]
      simp only [Outcome.ok.injEq] at h
      exact .inr ⟨rfl, h.symm⟩
    · rename_i h1
      rw [if_neg h1]
      split at h
      · rename_i h2
        rw [if_pos h2]
        simp only [Outcome.ok.injEq] at h
        exact .inr ⟨rfl, h.symm⟩
      · rename_i h2
        rw [if_neg h2]
        split at h
        · rename_i h3
          rw [if_pos h3]
          simp only [Outcome.ok.injEq] at h
          exact .inr ⟨rfl, h.symm⟩
        · rename_i h3
          rw [if_neg h3]
          rw [bind_eq_ok] at h
          obtain ⟨v, hv, h⟩ := h
          rw [hv, bind_ok]
          split at h
          · rename_i h4
            rw [if_pos h4]
            simp only [pure_eq, Outcome.ok.injEq] at h
            exact .inr ⟨rfl, h.symm⟩
          · rename_i h4
            rw [if_neg h4]
            split at h
            · rename_i h5
              rw [if_pos h5]
              simp only [pure_eq, Outcome.ok.injEq] at h
              exact .inr ⟨rfl, h.symm⟩
            · rename_i h5
              rw [if_neg h5]
              simp only [pure_eq, Outcome.ok.injEq] at h
              exact .inl ⟨rfl, h.symm⟩

theorem validate_errors {flags : Flags} {l : List Nat} {b : Bool} {errors es : List Error} (h : validate u l b flags errors = .ok es) :
    (es = errors ∧ (l = [] ∨ ValidLabel (tables u chk) flags.useStd3AsciiRules flags.transitionalProcessing b l)) ∨
    (es = errors ++ [.ValidityCriteria] ∧ l ≠ [] ∧ ¬ ValidLabel (tables u chk) flags.useStd3AsciiRules flags.transitionalProcessing b l) := by
  have hi := validate_iff (chk := chk) (u := u) flags l b []
  rcases validate_cases h with ⟨h1, h2⟩ | ⟨h1, h2⟩
  · exact .inl ⟨h2, (hi.1 h1).2⟩
  · right
    have hn : ¬ (l = [] ∨ ValidLabel (tables u chk) flags.useStd3AsciiRules flags.transitionalProcessing b l) := by
      intro hv
      rw [hi.2 ⟨rfl, hv⟩] at h1
      simp at h1
    rw [not_or] at hn
    exact ⟨h2, hn⟩

theorem fold_sep (first : Bool) (v d : List Nat) (outs : List (List Nat)) : (if outs = [] then sep first v ++ d else sep false (sep first v ++ d) ++ join outs) =
    sep first v ++ join (d :: outs) := by
  rw [← join_sep]
  split
  · rfl
  · simp [sep]

theorem validateLabels_errors (flags : Flags) (b : Bool) : ∀ (ls : List (List Nat)) (first : Bool) (v : List Nat) (errors : List Error) (s : List Nat) (es : List Error),
    validateLabels u chk flags b ls first v errors = .ok (s, es) →
      ∃ outs : List (List Nat × Option Error), List.Forall₂ (LabelResult (tables u chk) flags.useStd3AsciiRules flags.transitionalProcessing b) ls outs ∧
        s = (if outs.map Prod.fst = [] then v else sep first v ++ join (outs.map Prod.fst)) ∧ es = errors ++ outs.filterMap Prod.snd := by
  intro ls
  induction ls with
  | nil =>
    intro first v errors s es h
    simp only [validateLabels, Outcome.ok.injEq, Prod.mk.injEq] at h
    exact ⟨[], .nil, by simp [h.1], by simp [h.2]⟩
  | cons l ls ih =>
    intro first v errors s es h
    rw [validateLabels] at h
    change (if hasPrefix l = true then (Model.Punycode.decodeToString chk (l.drop 4) >>= fun o => match o with
        | some decoded => validate u decoded b { flags with transitionalProcessing := false } errors >>= fun errors =>
          validateLabels u chk flags b ls false (sep first v ++ decoded) errors
        | none => validateLabels u chk flags b ls false (sep first v) (errors ++ [.PunycodeError]))
      else validate u l b flags errors >>= fun errors => validateLabels u chk flags b ls false (sep first v ++ l) errors) = _ at h
    have fin : ∀ (d : List Nat) (e : Option Error), LabelResult (tables u chk) flags.useStd3AsciiRules flags.transitionalProcessing b l (d, e) →
        validateLabels u chk flags b ls false (sep first v ++ d) (errors ++ e.toList) = .ok (s, es) →
        ∃ outs : List (List Nat × Option Error), List.Forall₂ (LabelResult (tables u chk) flags.useStd3AsciiRules flags.transitionalProcessing b) (l :: ls) outs ∧
        s = (if outs.map Prod.fst = [] then v else sep first v ++ join (outs.map Prod.fst)) ∧ es = errors ++ outs.filterMap Prod.snd := by
      intro d e hl h
      obtain ⟨outs, h1, h2, h3⟩ := ih _ _ _ _ _ h
      refine ⟨(d, e) :: outs, .cons hl h1, ?_, ?_⟩
      · rw [h2, fold_sep]; simp
      · rw [h3]; cases e <;> simp
    by_cases hp : hasPrefix l = true
    · rw [if_pos hp] at h
      obtain ⟨q, hq⟩ := (hasPrefix_iff l).1 hp
      have hdrop : l.drop 4 = q := by rw [← hq]; rfl
      rw [hdrop, bind_eq_ok] at h
      obtain ⟨o, ho, h⟩ := h
      cases o with
      | none =>
        refine fin [] (some .PunycodeError) (.undecodable q hq.symm ?_) (by simpa using h)
        intro l hl
        have : Model.Punycode.decodeToString chk q = .ok (some l) := hl
        rw [ho] at this; simp at this
      | some dcd =>
        simp only [bind_eq_ok] at h
        obtain ⟨es1, h1, h2⟩ := h
        rcases validate_errors (chk := chk) h1 with ⟨rfl, hv⟩ | ⟨rfl, hne, hv⟩
        · exact fin dcd none (.ace q dcd hq.symm ho hv) (by simpa using h2)
        · exact fin dcd (some .ValidityCriteria) (.aceInvalid q dcd hq.symm ho hne hv) (by simpa using h2)
    · rw [if_neg hp, bind_eq_ok] at h
      have hn : ¬ ace <+: l := fun h => hp ((hasPrefix_iff l).2 h)
      obtain ⟨es1, h1, h2⟩ := h
      rcases validate_errors (chk := chk) h1 with ⟨rfl, hv⟩ | ⟨rfl, hne, hv⟩
      · exact fin l none (.plain hn hv) (by simpa using h2)
      · exact fin l (some .ValidityCriteria) (.plainInvalid hn hne hv) (by simpa using h2)

theorem bidiLabels_errors : ∀ (ls : List (List Nat)) (b b' : Bool), bidiLabels u chk ls b = .ok b' →
      (b' = true ↔ b = true ∨ ∃ q, ace ++ q ∈ ls ∧ ((∀ l, ¬ (tables u chk).decodes q l) ∨ ∃ l, (tables u chk).decodes q l ∧ ∃ c ∈ l, Rtl u.bidi c)) := by
  intro ls
  induction ls with
  | nil =>
    intro b b' h
    simp only [bidiLabels, Outcome.ok.injEq] at h
    simp [h]
  | cons l ls ih =>
    intro b b' h
    rw [bidiLabels] at h
    by_cases hp : hasPrefix l = true
    · rw [if_pos hp] at h
      obtain ⟨q, hq⟩ := (hasPrefix_iff l).1 hp
      have hdrop : l.drop 4 = q := by rw [← hq]; rfl
      rw [hdrop, bind_eq_ok] at h
      obtain ⟨o, ho, h⟩ := h
      have hl : ∀ q', ace ++ q' ∈ l :: ls ↔ q' = q ∨ ace ++ q' ∈ ls := by
        intro q'
        rw [List.mem_cons, ← hq, List.append_cancel_left_eq]
      cases o with
      | none =>
        simp only at h
        rw [ih _ _ h]
        refine ⟨fun _ => .inr ⟨q, (hl q).2 (.inl rfl), .inl ?_⟩, fun _ => .inl rfl⟩
        intro l hl
        have : Model.Punycode.decodeToString chk q = .ok (some l) := hl
        rw [ho] at this; simp at this
      | some d =>
        simp only at h
        rw [ih _ _ h]
        have hany : d.any (isRtlChar u) = true ↔ ∃ c ∈ d, Rtl u.bidi c := by simp [isRtlChar_iff]
        constructor
        · rintro (h3 | ⟨q', h3, h4⟩)
          · split at h3
            · rename_i h5
              exact .inr ⟨q, (hl q).2 (.inl rfl), .inr ⟨d, ho, hany.1 h5⟩⟩
            · exact .inl h3
          · exact .inr ⟨q', (hl q').2 (.inr h3), h4⟩
        · rintro (h3 | ⟨q', h3, h4⟩)
          · left; split <;> simp [h3]
          · rcases (hl q').1 h3 with rfl | h3
            · left
              rcases h4 with h4 | ⟨l', h4, h5⟩
              · exact absurd ho (h4 d)
              · have h6 : Model.Punycode.decodeToString chk q' = .ok (some l') := h4
                rw [ho] at h6
                simp only [Outcome.ok.injEq, Option.some.injEq] at h6
                subst h6
                rw [if_pos (hany.2 h5)]
            · exact .inr ⟨q', h3, h4⟩
    · rw [if_neg hp] at h
      rw [ih _ _ h]
      have hl : ∀ q', ace ++ q' ∈ l :: ls ↔ ace ++ q' ∈ ls := by
        intro q'
        rw [List.mem_cons]
        exact ⟨fun h => h.resolve_left fun e => hp ((hasPrefix_iff l).2 ⟨q', e⟩), .inr⟩
      simp only [hl]

theorem labelResult_dot {std3 tr b : Bool} {p : List Nat} {o : List Nat × Option Error} (hp : 0x2E ∉ p) (h : LabelResult (tables u chk) std3 tr b p o) : 0x2E ∉ o.1 := by
  have hdec : ∀ q l, p = ace ++ q → (tables u chk).decodes q l → 0x2E ∉ l := by
    intro q l hq hd hm
    have hd' : Model.Punycode.decode chk q = .ok (some l) := hd
    rcases decode_mem hd' _ hm with h1 | h1
    · apply hp; rw [hq, List.mem_append]; exact .inr h1
    · omega
  cases h with
  | ace q l h hd _ => exact hdec q l h hd
  | aceInvalid q l h hd _ _ => exact hdec q l h hd
  | undecodable => simp
  | plain => exact hp
  | plainInvalid => exact hp

/-- processing, with all errors -/
theorem processing_errors (d : List Nat) (flags : Flags) (s : List Nat) (es : List Error) (h : processing u chk d flags = .ok (s, es)) :
    ∃ ces outs, Processed (tables u chk) flags.useStd3AsciiRules flags.transitionalProcessing d ces outs ∧ Labels s (outs.map Prod.fst) ∧ es = ces ++ outs.filterMap Prod.snd := by
  unfold processing at h
  have hany : d.any (isRtlChar u) = true ↔ ∃ c ∈ d, Rtl u.bidi c := by simp [isRtlChar_iff]
  rw [bind_eq_ok] at h
  obtain ⟨⟨mapped, errors⟩, h1, h⟩ := h
  simp only at h
  obtain ⟨ms, hms⟩ := mapChars_status flags d _ _ _ h1
  rw [mapChars_errors flags hms] at h1
  simp only [List.nil_append, Outcome.ok.injEq, Prod.mk.injEq] at h1
  obtain ⟨rfl, rfl⟩ := h1
  obtain ⟨b, hb, hv⟩ : ∃ b, (if (!d.any (isRtlChar u)) = true then bidiLabels u chk (splitDot (u.nfc (List.zipWith (replacement flags.transitionalProcessing) d ms).flatten)) (d.any (isRtlChar u))
      else Outcome.ok (d.any (isRtlChar u))) = .ok b ∧
      validateLabels u chk flags b (splitDot (u.nfc (List.zipWith (replacement flags.transitionalProcessing) d ms).flatten)) true [] (ms.filterMap (charError flags.useStd3AsciiRules)) = .ok (s, es) := by
    split at h <;> rw [bind_eq_ok] at h
    · rename_i hc
      obtain ⟨b, hb, h⟩ := h
      exact ⟨b, by rw [if_pos hc]; exact hb, h⟩
    · rename_i hc
      obtain ⟨b, hb, h⟩ := h
      exact ⟨b, by rw [if_neg hc]; exact hb, h⟩
  obtain ⟨outs, h4, h5, h6⟩ := validateLabels_errors flags b _ _ _ _ _ _ hv
  refine ⟨_, outs, ⟨ms, _, b, hms, rfl, splitDot_labels _, ?_, h4⟩, ⟨?_, ?_, ?_⟩, h6⟩
  · by_cases hc : d.any (isRtlChar u) = true
    · rw [hc] at hb
      simp only [Bool.not_true, Bool.false_eq_true, if_false, Outcome.ok.injEq] at hb
      exact ⟨fun _ => .inl (hany.1 hc), fun _ => hb.symm⟩
    · rw [if_pos (by simpa using hc)] at hb
      rw [bidiLabels_errors _ _ _ hb, hany]
      rfl
  · intro he
    rw [List.map_eq_nil_iff] at he
    rw [he] at h4
    generalize hh : splitDot (u.nfc (List.zipWith (replacement flags.transitionalProcessing) d ms).flatten) = ls at h4
    cases h4
    exact absurd hh (splitDot_ne _)
  · intro l hl
    obtain ⟨o, ho, rfl⟩ := List.mem_map.1 hl
    obtain ⟨p, hp, hr⟩ := forall₂_right h4 ho
    exact labelResult_dot ((splitDot_labels _).2.1 p hp) hr
  · rw [h5, if_neg]
    · rfl
    · intro he
      rw [List.map_eq_nil_iff] at he
      rw [he] at h4
      generalize hh : splitDot (u.nfc (List.zipWith (replacement flags.transitionalProcessing) d ms).flatten) = ls at h4
      cases h4
      exact absurd hh (splitDot_ne _)

theorem asciiLabels_errors : ∀ (ls : List (List Nat)) (first : Bool) (v : List Nat) (errors : List Error) (r : List Nat) (es : List Error),
    asciiLabels chk ls first v errors = .ok (r, es) → ∃ outs : List (List Nat × Option Error), List.Forall₂ (AsciiResult (tables u chk)) ls outs ∧
      r = (if outs.map Prod.fst = [] then v else sep first v ++ join (outs.map Prod.fst)) ∧ es = errors ++ outs.filterMap Prod.snd := by
  intro ls
  induction ls with
  | nil =>
    intro first v errors s es h
    simp only [asciiLabels, Outcome.ok.injEq, Prod.mk.injEq] at h
    exact ⟨[], .nil, by simp [h.1], by simp [h.2]⟩
  | cons l ls ih =>
    intro first v errors r es h
    rw [asciiLabels] at h
    change (if l.all (· < 0x80) = true then asciiLabels chk ls false (sep first v ++ l) errors
      else Model.Punycode.encodeStr chk l >>= fun o => match o with
        | some x => asciiLabels chk ls false (sep first v ++ PUNYCODE_PREFIX ++ x) errors
        | none => asciiLabels chk ls false (sep first v) (errors ++ [.PunycodeError])) = _ at h
    have fin : ∀ (d : List Nat) (e : Option Error), AsciiResult (tables u chk) l (d, e) →
        asciiLabels chk ls false (sep first v ++ d) (errors ++ e.toList) = .ok (r, es) →
        ∃ outs : List (List Nat × Option Error), List.Forall₂ (AsciiResult (tables u chk)) (l :: ls) outs ∧
        r = (if outs.map Prod.fst = [] then v else sep first v ++ join (outs.map Prod.fst)) ∧ es = errors ++ outs.filterMap Prod.snd := by
      intro d e hl h
      obtain ⟨outs, h1, h2, h3⟩ := ih _ _ _ _ _ h
      refine ⟨(d, e) :: outs, .cons hl h1, ?_, ?_⟩
      · rw [h2, fold_sep]; simp
      · rw [h3]; cases e <;> simp
    have hall : l.all (· < 0x80) = true ↔ ∀ c ∈ l, c < 0x80 := by simp
    by_cases ha : ∀ c ∈ l, c < 0x80
    · rw [if_pos (hall.2 ha)] at h
      exact fin l none (.ascii ha) (by simpa using h)
    · rw [if_neg (fun h => ha (hall.1 h)), bind_eq_ok] at h
      obtain ⟨o, ho, h⟩ := h
      cases o with
      | none =>
        refine fin [] (some .PunycodeError) (.error ha ?_) (by simpa using h)
        intro q hq
        have : Model.Punycode.encodeStr chk l = .ok (some q) := hq
        rw [ho] at this; simp at this
      | some q => exact fin (ace ++ q) none (.ace ha q ho) (by simpa [PUNYCODE_PREFIX, ace] using h)

theorem asciiResult_ascii {l : List Nat} {o : List Nat × Option Error} (h : AsciiResult (tables u chk) l o) : ∀ c ∈ o.1, c < 0x80 := by
  cases h with
  | ascii h => exact h
  | ace h q hq => exact asciiForm_ascii (u := u) (chk := chk) (.ace h q hq rfl)
  | error => simp

theorem withoutRoot_iff {r n : List Nat} : WithoutRoot r n ↔ n = withoutRoot r := by
  unfold WithoutRoot withoutRoot
  have key : ∀ m, r = m ++ [0x2E] → r.getLast? = some 0x2E ∧ r.dropLast = m := by rintro m rfl; simp
  constructor
  · rintro (h | ⟨h1, h2⟩)
    · obtain ⟨a, b⟩ := key n h
      rw [if_pos a, b]
    · rw [if_neg]
      · exact h1.symm
      · intro h
        exact h2 ⟨r.dropLast, (List.dropLast_append_getLast? _ h).symm⟩
  · intro h
    split at h
    · rename_i hl
      left
      rw [h]
      exact (List.dropLast_append_getLast? _ hl).symm
    · rename_i hl
      exact .inr ⟨h.symm, fun ⟨m, hm⟩ => hl (key m hm).1⟩

theorem dnsErrors_lengths {r : List Nat} (ha : ∀ c ∈ r, c < 0x80) (errors : List Error) : ∃ lengths, LengthErrors r lengths ∧ dnsErrors r errors = errors ++ lengths := by
  have hw : ∀ c ∈ withoutRoot r, c < 0x80 := by
    intro c hc
    unfold withoutRoot at hc
    split at hc
    · exact ha c ((List.dropLast_subset _ hc))
    · exact ha c hc
  have hmem : ∀ l ∈ splitDot (withoutRoot r), ∀ c ∈ l, c < 0x80 := by
    intro l hl c hc
    apply hw
    rw [(splitDot_labels (withoutRoot r)).2.2]
    exact mem_join hl hc
  have hs : (((withoutRoot r).isEmpty || (splitDot (withoutRoot r)).any (fun l => l.isEmpty)) = true) ↔ TooShort r := by
    unfold TooShort
    simp only [withoutRoot_iff, labels_iff, exists_eq_left]
    rw [Bool.or_eq_true, List.any_eq_true]
    constructor
    · rintro (h | ⟨l, h1, h2⟩)
      · rw [List.isEmpty_iff] at h; rw [h]; simp [splitDot]
      · rw [List.isEmpty_iff] at h2; subst h2; exact h1
    · intro h; exact .inr ⟨[], h, rfl⟩
  have hl : ((decide (byteLen (withoutRoot r) > 253) || (splitDot (withoutRoot r)).any (fun l => decide (byteLen l > 63))) = true) ↔ TooLong r := by
    unfold TooLong
    simp only [withoutRoot_iff, labels_iff, exists_eq_left]
    rw [Bool.or_eq_true, List.any_eq_true, byteLen_ascii hw, decide_eq_true_iff]
    refine or_congr Iff.rfl (exists_congr fun l => and_congr_right fun h => ?_)
    rw [byteLen_ascii (hmem l h), decide_eq_true_iff]
  unfold dnsErrors
  simp only
  by_cases h1 : TooShort r <;> by_cases h2 : TooLong r
  · exact ⟨[.TooShortForDns] ++ [.TooLongForDns], ⟨_, _, rfl, .inl ⟨h1, rfl⟩, .inl ⟨h2, rfl⟩⟩, by rw [if_pos (hs.2 h1), if_pos (hl.2 h2)]; simp⟩
  · exact ⟨[.TooShortForDns] ++ [], ⟨_, _, rfl, .inl ⟨h1, rfl⟩, .inr ⟨h2, rfl⟩⟩, by rw [if_pos (hs.2 h1), if_neg (fun h => h2 (hl.1 h))]; simp⟩
  · exact ⟨[] ++ [.TooLongForDns], ⟨_, _, rfl, .inr ⟨h1, rfl⟩, .inl ⟨h2, rfl⟩⟩, by rw [if_neg (fun h => h1 (hs.1 h)), if_pos (hl.2 h2)]; simp⟩
  · exact ⟨[] ++ [], ⟨_, _, rfl, .inr ⟨h1, rfl⟩, .inr ⟨h2, rfl⟩⟩, by rw [if_neg (fun h => h1 (hs.1 h)), if_neg (fun h => h2 (hl.1 h))]; simp⟩

/-- `to_ascii`, with all errors -/
theorem toAsciiWith_errors (d : List Nat) (flags : Flags) (res : Except (List Error) (List Nat)) (h : toAsciiWith u chk d flags = .ok res) :
    ∃ ces outs forms lengths, Processed (tables u chk) flags.useStd3AsciiRules flags.transitionalProcessing d ces outs ∧
      List.Forall₂ (AsciiResult (tables u chk)) (outs.map Prod.fst) forms ∧
      (flags.verifyDnsLength = true → LengthErrors (join (forms.map Prod.fst)) lengths) ∧ (flags.verifyDnsLength = false → lengths = []) ∧
      res = (if ces ++ outs.filterMap Prod.snd ++ forms.filterMap Prod.snd ++ lengths = [] then .ok (join (forms.map Prod.fst))
        else .error (ces ++ outs.filterMap Prod.snd ++ forms.filterMap Prod.snd ++ lengths)) := by
  unfold toAsciiWith at h
  rw [bind_eq_ok] at h
  obtain ⟨⟨s, e1⟩, h1, h⟩ := h
  simp only [bind_eq_ok] at h
  obtain ⟨⟨r, e2⟩, h2, h⟩ := h
  obtain ⟨ces, outs, hp, hl, rfl⟩ := processing_errors d flags s e1 h1
  rw [← labels_iff.1 hl] at h2
  obtain ⟨forms, h3, h4, rfl⟩ := asciiLabels_errors (u := u) _ _ _ _ _ _ h2
  have hr : r = join (forms.map Prod.fst) := by
    rw [h4, if_neg]
    · rfl
    · intro he
      rw [List.map_eq_nil_iff] at he
      rw [he] at h3
      generalize hh : outs.map Prod.fst = ls at h3
      cases h3
      exact hl.1 hh
  have ha : ∀ c ∈ join (forms.map Prod.fst), c < 0x80 := by
    intro c hc
    rcases join_mem hc with h1 | ⟨o, ho, hc⟩
    · omega
    · obtain ⟨o', ho', rfl⟩ := List.mem_map.1 ho
      obtain ⟨l, _, hl⟩ := forall₂_right h3 ho'
      exact asciiResult_ascii hl c hc
  have hlen : ∃ lengths, (flags.verifyDnsLength = true → LengthErrors (join (forms.map Prod.fst)) lengths) ∧ (flags.verifyDnsLength = false → lengths = []) ∧
      (if flags.verifyDnsLength = true then dnsErrors r (ces ++ outs.filterMap Prod.snd ++ forms.filterMap Prod.snd) else ces ++ outs.filterMap Prod.snd ++ forms.filterMap Prod.snd) =
        ces ++ outs.filterMap Prod.snd ++ forms.filterMap Prod.snd ++ lengths := by
    cases hf : flags.verifyDnsLength with
    | false => exact ⟨[], by simp, by simp, by simp⟩
    | true =>
      obtain ⟨lengths, h5, h6⟩ := dnsErrors_lengths ha (ces ++ outs.filterMap Prod.snd ++ forms.filterMap Prod.snd)
      exact ⟨lengths, fun _ => h5, by simp, by rw [hr, if_pos rfl, h6]⟩
  obtain ⟨lengths, h5, h6, h7⟩ := hlen
  refine ⟨ces, outs, forms, lengths, hp, h3, h5, h6, ?_⟩
  simp only at h
  rw [h7] at h
  generalize ces ++ outs.filterMap Prod.snd ++ forms.filterMap Prod.snd ++ lengths = e at h ⊢
  split at h
  · rename_i he
    rw [List.isEmpty_iff] at he
    rw [if_pos he, ← hr]
    simp only [pure_eq, Outcome.ok.injEq] at h
    exact h.symm
  · rename_i he
    rw [List.isEmpty_iff] at he
    rw [if_neg he]
    simp only [pure_eq, Outcome.ok.injEq] at h
    exact h.symm

end Proofs.Idna
