import Verif.Model.Idna
import Verif.Spec.Idna
import Verif.Proofs.PunycodeShape

/-! The IDNA functions do what the specification says, for any character data. -/
namespace Proofs.Idna
open Model Model.Idna Data Proofs.Punycode Spec.Idna

/-- the data the model uses, as the specification takes them -/
def tables (u : Deps) (chk : Bool) : Tables where
  status c m := u.mapping c = .ok m
  nfc := u.nfc
  cls := u.bidi
  mark c := u.mark c = true
  decodes q l := Model.Punycode.decodeToString chk q = .ok (some l)
  encodes l q := Model.Punycode.encodeStr chk l = .ok (some q)

variable {u : Deps} {chk : Bool}

/-! ### labels -/

theorem splitDot_ne (s : List Nat) : splitDot s ≠ [] := by
  cases s with
  | nil => simp [splitDot]
  | cons c s => rw [splitDot]; split; simp; split <;> simp

theorem splitDot_cons {c : Nat} (s : List Nat) (h : c ≠ 0x2E) : ∃ l ls, splitDot s = l :: ls ∧ splitDot (c :: s) = (c :: l) :: ls := by
  cases hs : splitDot s with
  | nil => exact absurd hs (splitDot_ne s)
  | cons l ls => exact ⟨l, ls, rfl, by rw [splitDot, if_neg h, hs]⟩

theorem join_cons (l : List Nat) {ls : List (List Nat)} (h : ls ≠ []) : join (l :: ls) = l ++ 0x2E :: join ls := by
  cases ls with
  | nil => exact absurd rfl h
  | cons a b => rfl

theorem join_cons_cons (c : Nat) (l : List Nat) (ls : List (List Nat)) : join ((c :: l) :: ls) = c :: join (l :: ls) := by
  cases ls <;> rfl

theorem splitDot_labels (s : List Nat) : Labels s (splitDot s) := by
  refine ⟨splitDot_ne s, ?_, ?_⟩
  · induction s with
    | nil => simp [splitDot]
    | cons c s ih =>
      by_cases h : c = 0x2E
      · rw [splitDot, if_pos h]
        intro l hl
        rw [List.mem_cons] at hl
        rcases hl with rfl | hl
        · simp
        · exact ih l hl
      · obtain ⟨l, ls, h1, h2⟩ := splitDot_cons s h
        rw [h2]
        rw [h1] at ih
        intro x hx
        rw [List.mem_cons] at hx
        rcases hx with rfl | hx
        · rw [List.mem_cons, not_or]
          exact ⟨fun e => h e.symm, ih l (by simp)⟩
        · exact ih x (by simp [hx])
  · induction s with
    | nil => rfl
    | cons c s ih =>
      by_cases h : c = 0x2E
      · rw [splitDot, if_pos h, join_cons _ (splitDot_ne s), ← ih, h]; rfl
      · obtain ⟨l, ls, h1, h2⟩ := splitDot_cons s h
        rw [h2, join_cons_cons, ← h1, ← ih]

theorem splitDot_append {l : List Nat} (h : 0x2E ∉ l) (s : List Nat) : splitDot (l ++ 0x2E :: s) = l :: splitDot s := by
  induction l with
  | nil => rw [List.nil_append, splitDot, if_pos rfl]
  | cons c l ih =>
    rw [List.mem_cons, not_or] at h
    rw [List.cons_append, splitDot, if_neg (fun e => h.1 e.symm), ih h.2]

theorem splitDot_single {l : List Nat} (h : 0x2E ∉ l) : splitDot l = [l] := by
  induction l with
  | nil => rfl
  | cons c l ih =>
    rw [List.mem_cons, not_or] at h
    rw [splitDot, if_neg (fun e => h.1 e.symm), ih h.2]

theorem splitDot_join {ls : List (List Nat)} (hne : ls ≠ []) (h : ∀ l ∈ ls, 0x2E ∉ l) : splitDot (join ls) = ls := by
  induction ls with
  | nil => exact absurd rfl hne
  | cons l ls ih =>
    by_cases hl : ls = []
    · subst hl
      exact splitDot_single (h l (by simp))
    · rw [join_cons l hl, splitDot_append (h l (by simp)), ih hl (fun x hx => h x (by simp [hx]))]

theorem labels_iff {name : List Nat} {ls : List (List Nat)} : Labels name ls ↔ ls = splitDot name := by
  constructor
  · rintro ⟨h1, h2, rfl⟩
    rw [splitDot_join h1 h2]
  · rintro rfl
    exact splitDot_labels name

/-! ### mapping -/

theorem disallowed_err (flags : Flags) (c : Nat) (m : Mapping) (out : List Nat) (errors : List Error) (h : u.mapping c = .ok m) :
    ∃ es, mapChar u flags c out errors = .ok (out ++ replacement flags.transitionalProcessing c m, errors ++ es) ∧
      (es = [] ↔ ¬ Disallowed flags.useStd3AsciiRules m) := by
  unfold mapChar
  rw [h, bind_ok]
  cases m with
  | Valid => exact ⟨[], by simp [replacement], by simp [Disallowed]⟩
  | Ignored => exact ⟨[], by simp [replacement], by simp [Disallowed]⟩
  | Mapped s => exact ⟨[], by simp [replacement], by simp [Disallowed]⟩
  | Deviation s =>
    refine ⟨[], ?_, by simp [Disallowed]⟩
    simp only [replacement]
    split <;> simp
  | Disallowed => exact ⟨[.DissallowedCharacter], by simp [replacement], by simp [Disallowed]⟩
  | DisallowedStd3Valid =>
    refine ⟨if flags.useStd3AsciiRules then [.DissallowedByStd3AsciiRules] else [], ?_, ?_⟩
    · simp only [replacement]; split <;> simp
    · simp only [Disallowed]; split <;> simp_all
  | DisallowedStd3Mapped s =>
    refine ⟨if flags.useStd3AsciiRules then [.DissallowedMappedInStd3] else [], ?_, ?_⟩
    · simp only [replacement]; split <;> simp
    · simp only [Disallowed]; split <;> simp_all

/-- mapping, when every character has a status -/
theorem mapChars_total (flags : Flags) : ∀ (d : List Nat) (ms : List Mapping) (out : List Nat) (errors : List Error),
    List.Forall₂ (fun c m => u.mapping c = .ok m) d ms →
    ∃ es, mapChars u flags d out errors =
      .ok (out ++ (List.zipWith (replacement flags.transitionalProcessing) d ms).flatten, errors ++ es) ∧
      (es = [] ↔ ∀ m ∈ ms, ¬ Disallowed flags.useStd3AsciiRules m) := by
  intro d
  induction d with
  | nil =>
    intro ms out errors h
    cases h
    exact ⟨[], by simp [mapChars], by simp⟩
  | cons c d ih =>
    intro ms out errors h
    cases h with
    | cons h1 h2 =>
      rename_i m ms
      obtain ⟨e1, h3, h4⟩ := disallowed_err flags c m out errors h1
      obtain ⟨e2, h5, h6⟩ := ih ms (out ++ replacement flags.transitionalProcessing c m) (errors ++ e1) h2
      refine ⟨e1 ++ e2, ?_, ?_⟩
      · rw [mapChars, h3, bind_ok]
        simp only
        rw [h5]
        simp
      · rw [List.append_eq_nil_iff, h4, h6]
        simp

/-- mapping panics only where a character has no status -/
theorem mapChars_status (flags : Flags) : ∀ (d : List Nat) (out : List Nat) (errors : List Error) (r : List Nat × List Error),
    mapChars u flags d out errors = .ok r → ∃ ms, List.Forall₂ (fun c m => u.mapping c = .ok m) d ms := by
  intro d
  induction d with
  | nil => intro _ _ _ _; exact ⟨[], .nil⟩
  | cons c d ih =>
    intro out errors r h
    rw [mapChars, bind_eq_ok] at h
    obtain ⟨⟨o, e⟩, h1, h2⟩ := h
    obtain ⟨ms, hms⟩ := ih _ _ _ h2
    rw [mapChar, bind_eq_ok] at h1
    obtain ⟨m, hm, _⟩ := h1
    exact ⟨m :: ms, .cons hm hms⟩

/-! ### the Bidi rule -/

theorem skipNsm_eq (l : List Nat) : ∃ b, l = b ++ skipNsm u l ∧ (∀ x ∈ b, u.bidi x = .NonspacingMark) ∧
    ∀ c r, skipNsm u l = c :: r → u.bidi c ≠ .NonspacingMark := by
  induction l with
  | nil => exact ⟨[], rfl, by simp, by simp [skipNsm]⟩
  | cons c l ih =>
    rw [skipNsm]
    split
    · rename_i h
      obtain ⟨b, h1, h2, h3⟩ := ih
      refine ⟨c :: b, by rw [List.cons_append, ← h1], ?_, h3⟩
      intro x hx
      rw [List.mem_cons] at hx
      rcases hx with rfl | hx
      · exact h
      · exact h2 x hx
    · rename_i h
      refine ⟨[], rfl, by simp, ?_⟩
      intro c' r hc
      injection hc with hc _
      rw [← hc]; exact h

theorem endsIn_iff (classes : List BidiClass) (hc : BidiClass.NonspacingMark ∉ classes) (l : List Nat) :
    EndsIn u.bidi classes l ↔ ∃ c r, skipNsm u l.reverse = c :: r ∧ u.bidi c ∈ classes := by
  obtain ⟨b, h1, h2, h3⟩ := skipNsm_eq (u := u) l.reverse
  constructor
  · rintro ⟨a, c, b', rfl, hcc, hb'⟩
    -- reverse: b'.reverse ++ c :: a.reverse
    have hc' : u.bidi c ≠ .NonspacingMark := fun e => hc (e ▸ hcc)
    have key : ∀ (b' t : List Nat), (∀ x ∈ b', u.bidi x = .NonspacingMark) → skipNsm u (b' ++ c :: t) = c :: t := by
      intro b' t hb
      induction b' with
      | nil => rw [List.nil_append, skipNsm, if_neg hc']
      | cons x b' ih => rw [List.cons_append, skipNsm, if_pos (hb x (by simp)), ih (fun y hy => hb y (by simp [hy]))]
    refine ⟨c, a.reverse, ?_, hcc⟩
    rw [List.reverse_append, List.reverse_cons, List.append_assoc, List.singleton_append]
    exact key _ _ (fun x hx => hb' x (List.mem_reverse.1 hx))
  · rintro ⟨c, r, h4, h5⟩
    rw [h4] at h1
    refine ⟨r.reverse, c, b.reverse, ?_, h5, fun x hx => h2 x (List.mem_reverse.1 hx)⟩
    rw [← List.reverse_reverse l, h1]
    simp

theorem rtlScan_eq : ∀ (l : List Nat) (en an : Bool), rtlScan u l en an =
    if l.all (fun c => rtlAllowed (u.bidi c)) then
      some (en || l.any (fun c => u.bidi c = .EuropeanNumber), an || l.any (fun c => u.bidi c = .ArabicNumber))
    else none := by
  intro l
  induction l with
  | nil => intro en an; simp [rtlScan]
  | cons c l ih =>
    intro en an
    rw [rtlScan, ih]
    have e : (c :: l).all (fun c => rtlAllowed (u.bidi c)) = (rtlAllowed (u.bidi c) && l.all fun c => rtlAllowed (u.bidi c)) := rfl
    by_cases h : rtlAllowed (u.bidi c) = true
    · rw [if_pos h]
      by_cases h2 : l.all (fun c => rtlAllowed (u.bidi c)) = true
      · have h5 : (c :: l).all (fun c => rtlAllowed (u.bidi c)) = true := by rw [e, h, h2]; rfl
        rw [if_pos h2, if_pos h5]
        simp only [List.any_cons]
        by_cases h3 : u.bidi c = .EuropeanNumber <;> by_cases h4 : u.bidi c = .ArabicNumber <;> simp [h3, h4]
      · rw [if_neg h2, if_neg (by rw [e, h, Bool.true_and]; exact h2)]
    · rw [if_neg h, if_neg (by rw [e, Bool.and_eq_true]; exact fun h' => h h'.1)]

theorem ltrAllowed_iff (b : BidiClass) : ltrAllowed b = true ↔ b ∈
    [BidiClass.LeftToRight, .EuropeanNumber, .EuropeanSeparator, .CommonSeparator, .EuropeanTerminator, .OtherNeutral,
      .BoundaryNeutral, .NonspacingMark] := by cases b <;> simp [ltrAllowed]

theorem rtlAllowed_iff (b : BidiClass) : rtlAllowed b = true ↔ b ∈
    [BidiClass.RightToLeft, .ArabicLetter, .ArabicNumber, .EuropeanNumber, .EuropeanSeparator, .CommonSeparator,
      .EuropeanTerminator, .OtherNeutral, .BoundaryNeutral, .NonspacingMark] := by cases b <;> simp [rtlAllowed]

theorem passesBidi_def (c : Nat) (chars : List Nat) : passesBidi u (c :: chars) true =
    (match u.bidi c with
    | .LeftToRight =>
      if !chars.all (fun c => ltrAllowed (u.bidi c)) then false
      else match skipNsm u (c :: chars).reverse with
        | c :: _ => decide (u.bidi c = .LeftToRight ∨ u.bidi c = .EuropeanNumber)
        | [] => true
    | .RightToLeft | .ArabicLetter =>
      match rtlScan u chars false false with
      | none => false
      | some (foundEn, foundAn) =>
        match skipNsm u (c :: chars).reverse with
        | c :: _ =>
          if u.bidi c = .RightToLeft ∨ u.bidi c = .ArabicLetter ∨ u.bidi c = .EuropeanNumber ∨ u.bidi c = .ArabicNumber then
            !(foundAn && foundEn)
          else false
        | [] => false
    | _ => false) := rfl

/-- an RTL label -/
theorem passes_rtl {c : Nat} {chars : List Nat} (hc : u.bidi c = .RightToLeft ∨ u.bidi c = .ArabicLetter) :
    passesBidi u (c :: chars) true = true ↔ (∀ x ∈ c :: chars, rtlAllowed (u.bidi x) = true) ∧
      EndsIn u.bidi [.RightToLeft, .ArabicLetter, .EuropeanNumber, .ArabicNumber] (c :: chars) ∧
      ¬ ((∃ x ∈ c :: chars, u.bidi x = .EuropeanNumber) ∧ ∃ x ∈ c :: chars, u.bidi x = .ArabicNumber) := by
  have hdef : passesBidi u (c :: chars) true =
      (match rtlScan u chars false false with
      | none => false
      | some (foundEn, foundAn) =>
        match skipNsm u (c :: chars).reverse with
        | c :: _ =>
          if u.bidi c = .RightToLeft ∨ u.bidi c = .ArabicLetter ∨ u.bidi c = .EuropeanNumber ∨ u.bidi c = .ArabicNumber then
            !(foundAn && foundEn)
          else false
        | [] => false) := by
    rw [passesBidi_def]
    rcases hc with h | h <;> rw [h]
  rw [hdef, rtlScan_eq, endsIn_iff _ (by decide)]
  have hrc : rtlAllowed (u.bidi c) = true := by rcases hc with h | h <;> rw [h] <;> rfl
  have hnn : u.bidi c ≠ .EuropeanNumber ∧ u.bidi c ≠ .ArabicNumber := by rcases hc with h | h <;> rw [h] <;> simp
  by_cases h1 : chars.all (fun c => rtlAllowed (u.bidi c)) = true
  · rw [if_pos h1]
    have h1' : ∀ x ∈ c :: chars, rtlAllowed (u.bidi x) = true := by
      intro x hx
      rw [List.mem_cons] at hx
      rcases hx with rfl | hx
      · exact hrc
      · exact List.all_eq_true.1 h1 x hx
    simp only [Bool.false_or]
    cases hs : skipNsm u (c :: chars).reverse with
    | nil => simp
    | cons e r =>
      simp only
      split
      · rename_i he
        have : (∃ c' r', e :: r = c' :: r' ∧ u.bidi c' ∈ [BidiClass.RightToLeft, .ArabicLetter, .EuropeanNumber, .ArabicNumber]) :=
          ⟨e, r, rfl, by simpa using he⟩
        have e1 : (∃ x ∈ c :: chars, u.bidi x = .EuropeanNumber) ↔ (chars.any fun c => decide (u.bidi c = .EuropeanNumber)) = true := by
          simp [hnn.1]
        have e2 : (∃ x ∈ c :: chars, u.bidi x = .ArabicNumber) ↔ (chars.any fun c => decide (u.bidi c = .ArabicNumber)) = true := by
          simp [hnn.2]
        rw [e1, e2]
        constructor
        · intro h
          refine ⟨h1', this, fun ⟨h5, h6⟩ => ?_⟩
          rw [h5, h6] at h
          simp at h
        · rintro ⟨_, _, h⟩
          cases h5 : (chars.any fun c => decide (u.bidi c = .EuropeanNumber)) <;>
            cases h6 : (chars.any fun c => decide (u.bidi c = .ArabicNumber)) <;> simp_all
      · rename_i he
        simp only [Bool.false_eq_true, false_iff, not_and]
        rintro _ ⟨c', r', h2, h3⟩
        injection h2 with h2 _
        subst h2
        exact absurd (by simpa using h3) he
  · rw [if_neg h1]
    simp only [Bool.false_eq_true, false_iff, not_and]
    intro h
    exact absurd (List.all_eq_true.2 fun x hx => h x (by simp [hx])) h1

theorem passes_ltr {c : Nat} {chars : List Nat} (hc : u.bidi c = .LeftToRight) :
    passesBidi u (c :: chars) true = true ↔ (∀ x ∈ c :: chars, ltrAllowed (u.bidi x) = true) ∧
      EndsIn u.bidi [.LeftToRight, .EuropeanNumber] (c :: chars) := by
  rw [passesBidi_def, hc, endsIn_iff _ (by decide)]
  simp only
  by_cases h1 : chars.all (fun c => ltrAllowed (u.bidi c)) = true
  · have h1' : ∀ x ∈ c :: chars, ltrAllowed (u.bidi x) = true := by
      intro x hx
      rw [List.mem_cons] at hx
      rcases hx with rfl | hx
      · rw [hc]; rfl
      · exact List.all_eq_true.1 h1 x hx
    rw [h1]
    simp only [Bool.not_true, Bool.false_eq_true, if_false]
    cases hs : skipNsm u (c :: chars).reverse with
    | nil =>
      exfalso
      obtain ⟨b, h2, h3, _⟩ := skipNsm_eq (u := u) (c :: chars).reverse
      rw [hs, List.append_nil] at h2
      have := h3 c (by rw [← h2]; simp)
      rw [hc] at this
      cases this
    | cons e r =>
      simp only [decide_eq_true_eq]
      constructor
      · intro h
        exact ⟨h1', e, r, rfl, by simpa using h⟩
      · rintro ⟨_, c', r', h2, h3⟩
        injection h2 with h2 _
        subst h2
        simpa using h3
  · have h2 : chars.all (fun c => ltrAllowed (u.bidi c)) = false := by simpa using h1
    rw [h2]
    simp only [Bool.not_false, if_true, Bool.false_eq_true, false_iff, not_and]
    intro h
    exact absurd (List.all_eq_true.2 fun x hx => h x (by simp [hx])) h1

/-- `passes_bidi` is the Bidi rule -/
theorem passesBidi_iff (l : List Nat) (hl : l ≠ []) : passesBidi u l true = true ↔ BidiRule u.bidi l := by
  cases l with
  | nil => exact absurd rfl hl
  | cons c chars =>
    by_cases hL : u.bidi c = .LeftToRight
    · rw [passes_ltr hL]
      constructor
      · rintro ⟨h1, h2⟩
        exact {
          one := ⟨c, chars, rfl, by simp [hL]⟩
          two := fun c' r he h => by injection he with he _; subst he; rw [hL] at h; simp at h
          three := fun c' r he h => by injection he with he _; subst he; rw [hL] at h; simp at h
          four := fun c' r he h => by injection he with he _; subst he; rw [hL] at h; simp at h
          five := fun c' r _ _ x hx => (ltrAllowed_iff _).1 (h1 x hx)
          six := fun c' r _ _ => h2 }
      · intro h
        exact ⟨fun x hx => (ltrAllowed_iff _).2 (h.five c chars rfl hL x hx), h.six c chars rfl hL⟩
    · by_cases hR : u.bidi c = .RightToLeft ∨ u.bidi c = .ArabicLetter
      · rw [passes_rtl hR]
        have hm : u.bidi c ∈ [BidiClass.RightToLeft, .ArabicLetter] := by simpa using hR
        constructor
        · rintro ⟨h1, h2, h3⟩
          exact {
            one := ⟨c, chars, rfl, by rcases hR with h | h <;> simp [h]⟩
            two := fun c' r _ _ x hx => (rtlAllowed_iff _).1 (h1 x hx)
            three := fun c' r _ _ => h2
            four := fun c' r _ _ => h3
            five := fun c' r he h => by injection he with he _; subst he; exact absurd h hL
            six := fun c' r he h => by injection he with he _; subst he; exact absurd h hL }
        · intro h
          exact ⟨fun x hx => (rtlAllowed_iff _).2 (h.two c chars rfl hm x hx), h.three c chars rfl hm, h.four c chars rfl hm⟩
      · constructor
        · intro h
          rw [passesBidi_def] at h
          rw [not_or] at hR
          cases hb : u.bidi c <;> rw [hb] at h <;> first | exact absurd hb hL | exact absurd hb hR.1 | exact absurd hb hR.2 | simp at h
        · intro h
          obtain ⟨c', r, he, h1⟩ := h.one
          injection he with he _
          subst he
          simp only [List.mem_cons, List.not_mem_nil, or_false] at h1
          rcases h1 with h1 | h1
          · exact absurd h1 hL
          · exact absurd h1 hR

/-! ### validity -/

theorem v6_iff (flags : Flags) (m : Mapping) : v6 flags m = false ↔ Allowed flags.useStd3AsciiRules flags.transitionalProcessing m := by
  cases m <;> simp [v6, Allowed]

theorem anyV6_iff (flags : Flags) (l : List Nat) : anyV6 u flags l = .ok false ↔
    ∀ c ∈ l, ∃ m, u.mapping c = .ok m ∧ Allowed flags.useStd3AsciiRules flags.transitionalProcessing m := by
  induction l with
  | nil => simp [anyV6]
  | cons c l ih =>
    rw [anyV6, bind_eq_ok]
    constructor
    · rintro ⟨m, h1, h2⟩
      split at h2
      · simp [pure_eq] at h2
      · rename_i h3
        intro x hx
        rw [List.mem_cons] at hx
        rcases hx with rfl | hx
        · exact ⟨m, h1, (v6_iff _ _).1 (by simpa using h3)⟩
        · exact ih.1 h2 x hx
    · intro h
      obtain ⟨m, h1, h2⟩ := h c (by simp)
      refine ⟨m, h1, ?_⟩
      rw [if_neg (by rw [(v6_iff _ _).2 h2]; simp)]
      exact ih.2 fun x hx => h x (by simp [hx])

theorem validate_iff (flags : Flags) (l : List Nat) (b : Bool) (errors : List Error) :
    validate u l b flags errors = .ok [] ↔ errors = [] ∧
      (l = [] ∨ ValidLabel (tables u chk) flags.useStd3AsciiRules flags.transitionalProcessing b l) := by
  cases l with
  | nil => simp [validate]
  | cons c l =>
    unfold validate
    simp only [List.cons_ne_nil, false_or]
    constructor
    · intro h
      split at h
      · simp at h
      · rename_i h1
        split at h
        · simp at h
        · rename_i h2
          split at h
          · simp at h
          · rename_i h3
            rw [bind_eq_ok] at h
            obtain ⟨v, h4, h⟩ := h
            split at h
            · simp [pure_eq] at h
            · rename_i hv
              split at h
              · simp [pure_eq] at h
              · rename_i h5
                simp only [pure_eq, Outcome.ok.injEq] at h
                have hv : v = false := by simpa using hv
                rw [hv, anyV6_iff] at h4
                refine ⟨h, by simpa [tables] using h1, ?_, ?_, h4, ?_⟩
                · simp only [startsWithHyphen, endsWithHyphen, Bool.or_eq_true, beq_iff_eq, not_or] at h2
                  exact h2
                · intro c' r he hm
                  injection he with he _
                  subst he
                  exact h3 hm
                · intro hb
                  rw [hb] at h5
                  exact (passesBidi_iff _ (by simp)).1 (by simpa using h5)
    · rintro ⟨rfl, h⟩
      have h1 := h.nfc
      rw [if_neg (by simpa [tables] using h1), if_neg, if_neg (show ¬ u.mark c = true from h.mark c l rfl)]
      · rw [(anyV6_iff flags (c :: l)).2 h.status, bind_ok]
        simp only [Bool.false_eq_true, if_false]
        rw [if_neg]
        · rfl
        · cases b with
          | false => simp [passesBidi]
          | true =>
            have := (passesBidi_iff (u := u) (c :: l) (by simp)).2 (h.bidi rfl)
            simp [this]
      · simp only [startsWithHyphen, endsWithHyphen, Bool.or_eq_true, beq_iff_eq, not_or]
        exact h.hyphens

/-- no error is ever removed -/
theorem validate_mono {flags : Flags} {l : List Nat} {b : Bool} {errors es : List Error}
    (h : validate u l b flags errors = .ok es) : ∃ e, es = errors ++ e := by
  unfold validate at h
  cases l with
  | nil => simp only [Outcome.ok.injEq] at h; exact ⟨[], by simp [h]⟩
  | cons c l =>
    simp only at h
    split at h
    · simp only [Outcome.ok.injEq] at h; exact ⟨_, h.symm⟩
    · split at h
      · simp only [Outcome.ok.injEq] at h; exact ⟨_, h.symm⟩
      · split at h
        · simp only [Outcome.ok.injEq] at h; exact ⟨_, h.symm⟩
        · rw [bind_eq_ok] at h
          obtain ⟨v, _, h⟩ := h
          split at h
          · simp only [pure_eq, Outcome.ok.injEq] at h; exact ⟨_, h.symm⟩
          · split at h
            · simp only [pure_eq, Outcome.ok.injEq] at h; exact ⟨_, h.symm⟩
            · simp only [pure_eq, Outcome.ok.injEq] at h; exact ⟨[], by simp [h]⟩

/-! ### processing -/

theorem hasPrefix_iff (l : List Nat) : hasPrefix l = true ↔ ace <+: l := by
  rw [hasPrefix, List.isPrefixOf_iff_prefix]; rfl

theorem drop_ace (q : List Nat) : (ace ++ q).drop 4 = q := rfl

theorem isRtlChar_iff (c : Nat) : isRtlChar u c = true ↔ Rtl u.bidi c := by simp [isRtlChar, Rtl]

/-- what the validation loop has written before a label -/
def sep (first : Bool) (v : List Nat) : List Nat := if !first then v ++ [0x2E] else v

theorem join_sep (v l : List Nat) (ls : List (List Nat)) (first : Bool) :
    (if ls = [] then sep first v ++ l else (sep first v ++ l) ++ 0x2E :: join ls) = sep first v ++ join (l :: ls) := by
  split
  · rename_i h; subst h; rfl
  · rename_i h
    rw [join_cons l h, List.append_assoc]

theorem validateLabels_iff (flags : Flags) (b : Bool) : ∀ (ls : List (List Nat)) (first : Bool) (v : List Nat) (errors : List Error) (s : List Nat),
    validateLabels u chk flags b ls first v errors = .ok (s, []) ↔ errors = [] ∧
      ∃ outs, List.Forall₂ (Converted (tables u chk) flags.useStd3AsciiRules flags.transitionalProcessing b) ls outs ∧
        s = if outs = [] then v else sep first v ++ join outs := by
  intro ls
  induction ls with
  | nil =>
    intro first v errors s
    simp only [validateLabels, Outcome.ok.injEq, Prod.mk.injEq]
    constructor
    · rintro ⟨rfl, rfl⟩
      exact ⟨rfl, [], .nil, by simp⟩
    · rintro ⟨rfl, outs, h, hs⟩
      cases h
      simp at hs
      exact ⟨hs.symm, rfl⟩
  | cons l ls ih =>
    intro first v errors s
    rw [validateLabels]
    change (if hasPrefix l = true then (Model.Punycode.decodeToString chk (l.drop 4) >>= fun o => match o with
        | some decoded => validate u decoded b { flags with transitionalProcessing := false } errors >>= fun errors =>
          validateLabels u chk flags b ls false (sep first v ++ decoded) errors
        | none => validateLabels u chk flags b ls false (sep first v) (errors ++ [.PunycodeError]))
      else validate u l b flags errors >>= fun errors => validateLabels u chk flags b ls false (sep first v ++ l) errors) = _ ↔ _
    have fold : ∀ (d : List Nat) (outs : List (List Nat)), (if outs = [] then sep first v ++ d else sep false (sep first v ++ d) ++ join outs) =
        sep first v ++ join (d :: outs) := by
      intro d outs
      rw [← join_sep]
      split
      · rfl
      · simp [sep]
    by_cases hp : hasPrefix l = true
    · rw [if_pos hp]
      obtain ⟨q, hq⟩ := (hasPrefix_iff l).1 hp
      have hdrop : l.drop 4 = q := by rw [← hq]; rfl
      rw [hdrop, bind_eq_ok]
      constructor
      · rintro ⟨o, ho, h⟩
        cases o with
        | none =>
          simp only at h
          rw [ih] at h
          simp at h
        | some dcd =>
          simp only [bind_eq_ok] at h
          obtain ⟨es, h1, h2⟩ := h
          rw [ih] at h2
          obtain ⟨rfl, outs, h3, h4⟩ := h2
          obtain ⟨h5, h6⟩ := (validate_iff (chk := chk) _ _ _ _).1 h1
          refine ⟨h5, dcd :: outs, .cons (.ace q hq.symm ho h6) h3, ?_⟩
          rw [if_neg (by simp), h4]
          exact fold dcd outs
      · rintro ⟨rfl, outs', h, hs⟩
        cases h with
        | cons hc h3 =>
          rename_i dcd outs
          cases hc with
          | plain hn _ _ => exact absurd ⟨q, hq⟩ hn
          | ace q' hq' hd hv =>
            have : q' = q := by
              have h1 : ace ++ q' = ace ++ q := by rw [← hq', hq]
              exact List.append_cancel_left h1
            subst this
            refine ⟨some dcd, hd, ?_⟩
            simp only [bind_eq_ok]
            refine ⟨[], (validate_iff (chk := chk) _ _ _ _).2 ⟨rfl, hv⟩, ?_⟩
            rw [ih]
            refine ⟨rfl, outs, h3, ?_⟩
            rw [hs, if_neg (by simp)]
            exact (fold dcd outs).symm
    · rw [if_neg hp, bind_eq_ok]
      have hn : ¬ ace <+: l := fun h => hp ((hasPrefix_iff l).2 h)
      constructor
      · rintro ⟨es, h1, h2⟩
        rw [ih] at h2
        obtain ⟨rfl, outs, h3, h4⟩ := h2
        obtain ⟨h5, h6⟩ := (validate_iff (chk := chk) _ _ _ _).1 h1
        refine ⟨h5, l :: outs, .cons (.plain hn rfl h6) h3, ?_⟩
        rw [if_neg (by simp), h4]
        exact fold l outs
      · rintro ⟨rfl, outs', h, hs⟩
        cases h with
        | cons hc h3 =>
          rename_i dcd outs
          cases hc with
          | ace q hq _ _ => exact absurd ⟨q, hq.symm⟩ hn
          | plain _ hl hv =>
            subst hl
            refine ⟨[], (validate_iff (chk := chk) _ _ _ _).2 ⟨rfl, hv⟩, ?_⟩
            rw [ih]
            refine ⟨rfl, outs, h3, ?_⟩
            rw [hs, if_neg (by simp)]
            exact (fold _ outs).symm

/-- the search for right-to-left Punycode labels, when all decode -/
theorem bidiLabels_iff : ∀ (ls : List (List Nat)) (b : Bool), (∀ q, ace ++ q ∈ ls → ∃ l, (tables u chk).decodes q l) →
    ∃ b', bidiLabels u chk ls b = .ok b' ∧
      (b' = true ↔ b = true ∨ ∃ q l, ace ++ q ∈ ls ∧ (tables u chk).decodes q l ∧ ∃ c ∈ l, Rtl u.bidi c) := by
  intro ls
  induction ls with
  | nil => intro b _; exact ⟨b, rfl, by simp⟩
  | cons l ls ih =>
    intro b h
    rw [bidiLabels]
    have h' : ∀ q, ace ++ q ∈ ls → ∃ l, (tables u chk).decodes q l := fun q hq => h q (by simp [hq])
    by_cases hp : hasPrefix l = true
    · rw [if_pos hp]
      obtain ⟨q, hq⟩ := (hasPrefix_iff l).1 hp
      have hdrop : l.drop 4 = q := by rw [← hq]; rfl
      obtain ⟨d, hd⟩ := h q (by simp [hq])
      have hd' : Model.Punycode.decodeToString chk q = .ok (some d) := hd
      rw [hdrop, hd', bind_ok]
      simp only
      obtain ⟨b', h1, h2⟩ := ih (if d.any (isRtlChar u) then true else b) h'
      refine ⟨b', h1, ?_⟩
      rw [h2]
      have hany : d.any (isRtlChar u) = true ↔ ∃ c ∈ d, Rtl u.bidi c := by simp [isRtlChar_iff]
      constructor
      · rintro (h3 | ⟨q', l', h3, h4⟩)
        · split at h3
          · rename_i h5
            exact .inr ⟨q, d, by simp [hq], hd, hany.1 h5⟩
          · exact .inl h3
        · exact .inr ⟨q', l', by simp [h3], h4⟩
      · rintro (h3 | ⟨q', l', h3, h4, h5⟩)
        · left; split <;> simp [h3]
        · rw [List.mem_cons] at h3
          rcases h3 with h3 | h3
          · left
            rw [← hq] at h3
            have : q' = q := List.append_cancel_left h3
            subst this
            have h6 : Model.Punycode.decodeToString chk q' = .ok (some l') := h4
            rw [hd'] at h6
            simp only [Outcome.ok.injEq, Option.some.injEq] at h6
            subst h6
            rw [if_pos (hany.2 h5)]
          · exact .inr ⟨q', l', h3, h4, h5⟩
    · rw [if_neg hp]
      obtain ⟨b', h1, h2⟩ := ih b h'
      refine ⟨b', h1, ?_⟩
      rw [h2]
      constructor
      · rintro (h3 | ⟨q', l', h3, h4⟩)
        · exact .inl h3
        · exact .inr ⟨q', l', by simp [h3], h4⟩
      · rintro (h3 | ⟨q', l', h3, h4⟩)
        · exact .inl h3
        · rw [List.mem_cons] at h3
          rcases h3 with h3 | h3
          · exact absurd ((hasPrefix_iff l).2 ⟨q', h3⟩) hp
          · exact .inr ⟨q', l', h3, h4⟩

theorem forall₂_left {α β : Type} {R : α → β → Prop} {l : List α} {l' : List β} (h : List.Forall₂ R l l') {a : α} (ha : a ∈ l) : ∃ b ∈ l', R a b := by
  induction h with
  | nil => simp at ha
  | cons h1 _ ih =>
    rw [List.mem_cons] at ha
    rcases ha with rfl | ha
    · exact ⟨_, by simp, h1⟩
    · obtain ⟨b, hb, hr⟩ := ih ha
      exact ⟨b, by simp [hb], hr⟩

theorem forall₂_right {α β : Type} {R : α → β → Prop} {l : List α} {l' : List β} (h : List.Forall₂ R l l') {b : β} (hb : b ∈ l') : ∃ a ∈ l, R a b := by
  induction h with
  | nil => simp at hb
  | cons h1 _ ih =>
    rw [List.mem_cons] at hb
    rcases hb with rfl | hb
    · exact ⟨_, by simp, h1⟩
    · obtain ⟨a, ha, hr⟩ := ih hb
      exact ⟨a, by simp [ha], hr⟩

/-- processing without errors -/
theorem processing_iff (d : List Nat) (flags : Flags) (s : List Nat) : processing u chk d flags = .ok (s, []) ↔
    ∃ b mapped parts labels, Accepts (tables u chk) flags.useStd3AsciiRules flags.transitionalProcessing b d mapped parts labels ∧
      (b = true ↔ BidiName (tables u chk) d parts) ∧ s = join labels := by
  unfold processing
  have hany : d.any (isRtlChar u) = true ↔ ∃ c ∈ d, Rtl u.bidi c := by simp [isRtlChar_iff]
  constructor
  · intro h
    rw [bind_eq_ok] at h
    obtain ⟨⟨mapped, errors⟩, h1, h⟩ := h
    simp only at h
    obtain ⟨ms, hms⟩ := mapChars_status flags d _ _ _ h1
    obtain ⟨es, h2, h3⟩ := mapChars_total flags d ms [] [] hms
    rw [h1] at h2
    simp only [List.nil_append, Outcome.ok.injEq, Prod.mk.injEq] at h2
    obtain ⟨rfl, rfl⟩ := h2
    obtain ⟨b, hb, hv⟩ : ∃ b, (if (!d.any (isRtlChar u)) = true then bidiLabels u chk (splitDot (u.nfc (List.zipWith (replacement flags.transitionalProcessing) d ms).flatten)) (d.any (isRtlChar u))
        else Outcome.ok (d.any (isRtlChar u))) = .ok b ∧
        validateLabels u chk flags b (splitDot (u.nfc (List.zipWith (replacement flags.transitionalProcessing) d ms).flatten)) true [] errors = .ok (s, []) := by
      split at h <;> rw [bind_eq_ok] at h
      · rename_i hc
        obtain ⟨b, hb, h⟩ := h
        exact ⟨b, by rw [if_pos hc]; exact hb, h⟩
      · rename_i hc
        obtain ⟨b, hb, h⟩ := h
        exact ⟨b, by rw [if_neg hc]; exact hb, h⟩
    rw [validateLabels_iff] at hv
    obtain ⟨he, outs, h4, h5⟩ := hv
    have hdec : ∀ q, ace ++ q ∈ splitDot (u.nfc (List.zipWith (replacement flags.transitionalProcessing) d ms).flatten) →
        ∃ l, (tables u chk).decodes q l := by
      intro q hq
      obtain ⟨l, _, hc⟩ := forall₂_left h4 hq
      cases hc with
      | plain hn _ _ => exact absurd ⟨q, rfl⟩ hn
      | ace q' hq' hd _ =>
        have : q' = q := (List.append_cancel_left hq').symm
        subst this
        exact ⟨l, hd⟩
    refine ⟨b, _, _, outs, ⟨⟨ms, hms, h3.1 he, rfl⟩, splitDot_labels _, h4⟩, ?_, ?_⟩
    · by_cases hc : d.any (isRtlChar u) = true
      · rw [hc] at hb
        simp only [Bool.not_true, Bool.false_eq_true, if_false, Outcome.ok.injEq] at hb
        exact ⟨fun _ => .inl (hany.1 hc), fun _ => hb.symm⟩
      · rw [if_pos (by simpa using hc)] at hb
        obtain ⟨b', h6, h7⟩ := bidiLabels_iff (u := u) (chk := chk) _ (d.any (isRtlChar u)) hdec
        rw [h6] at hb
        simp only [Outcome.ok.injEq] at hb
        subst hb
        rw [h7, hany]
        rfl
    · rw [h5]
      rw [if_neg]
      · rfl
      · intro he
        rw [he] at h4
        cases hh : splitDot (u.nfc (List.zipWith (replacement flags.transitionalProcessing) d ms).flatten) with
        | nil => exact absurd hh (splitDot_ne _)
        | cons a b => rw [hh] at h4; cases h4
  · rintro ⟨b, mapped, parts, labels, ⟨⟨ms, hms, hd, hm⟩, hp, hc⟩, hb, rfl⟩
    obtain ⟨es, h2, h3⟩ := mapChars_total flags d ms [] [] hms
    have he := h3.2 hd
    subst he
    rw [h2, bind_ok]
    simp only [List.nil_append]
    have hm' : mapped = u.nfc (List.zipWith (replacement flags.transitionalProcessing) d ms).flatten := hm
    rw [← hm']
    rw [labels_iff] at hp
    subst hp
    have hdec : ∀ q, ace ++ q ∈ splitDot mapped → ∃ l, (tables u chk).decodes q l := by
      intro q hq
      obtain ⟨l, _, hc⟩ := forall₂_left hc hq
      cases hc with
      | plain hn _ _ => exact absurd ⟨q, rfl⟩ hn
      | ace q' hq' hd _ =>
        have : q' = q := (List.append_cancel_left hq').symm
        subst this
        exact ⟨l, hd⟩
    have hv : validateLabels u chk flags b (splitDot mapped) true [] [] = .ok (join labels, []) := by
      rw [validateLabels_iff]
      refine ⟨rfl, labels, hc, ?_⟩
      rw [if_neg]
      · rfl
      · intro he
        rw [he] at hc
        cases hh : splitDot mapped with
        | nil => exact absurd hh (splitDot_ne _)
        | cons a b => rw [hh] at hc; cases hc
    by_cases hcc : d.any (isRtlChar u) = true
    · have : b = true := hb.2 (.inl (hany.1 hcc))
      subst this
      rw [hcc]
      simp only [Bool.not_true, Bool.false_eq_true, if_false, bind_ok]
      exact hv
    · obtain ⟨b', h6, h7⟩ := bidiLabels_iff (u := u) (chk := chk) _ (d.any (isRtlChar u)) hdec
      have : b' = b := by
        rw [Bool.eq_iff_iff, h7, hb, hany]
        rfl
      subst this
      rw [if_pos (by simpa using hcc), h6, bind_ok]
      exact hv

end Proofs.Idna
