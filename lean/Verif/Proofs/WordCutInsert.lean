import Verif.Proofs.WordCut

/-! Inserting an Extend, or a letter after a letter, moves the cut of the word iterators by that character and no other way. -/
namespace Proofs.Word
open Data Spec.Segment Model Model.Word Model.Grapheme Proofs.Grapheme

/-- after a character of class `w` one of class `e` is inserted -/
def Ins (w e : WB) : Prop := isNl w = false ∧ ((e = .Extend ∧ w ≠ .ZWJ) ∨ (w = .ALetter ∧ e = .ALetter))

/-! ### forward -/

/-- a position, before and after a character is inserted at `N` -/
def upF (N c : Nat) : Nat := if c < N then c else c + 1

theorem upF_ne (N c : Nat) : upF N c ≠ N := by unfold upF; split <;> omega

theorem scanF_shift (N : Nat) (r : List WB) : ∀ (n sv : Nat) (z : Bool) (st : Word.State), N ≤ n →
    scanF r (n + 1) (upF N sv) z st = upF N (scanF r n sv z st) := by
  induction r with
  | nil =>
    intro n sv z st h
    rw [scanF, scanF]
    split
    · rfl
    · rw [upF, if_neg (by omega)]
  | cons x r ih =>
    intro n sv z st h
    rw [scanF, scanF]
    have hn : n + 1 = upF N n := by rw [upF, if_neg (by omega)]
    cases act z st x with
    | stay => exact ih (n + 1) sv _ _ (by omega)
    | goto st' => exact ih (n + 1) sv _ _ (by omega)
    | save t =>
      show scanF r (n + 1 + 1) (n + 1) _ _ = upF N (scanF r (n + 1) n _ _)
      rw [← ih (n + 1) n _ _ (by omega), ← hn]
    | leave => exact hn
    | leaveNC => exact hn
    | brk => rfl

theorem act_letter (z : Bool) (st : Word.State) : act z st .ALetter = act1 st .ALetter := by
  simp [act, isIgn]

theorem act1_letter (st st' : Word.State) (h : act1 st .ALetter = .goto st') : st' = .Letter := by
  cases st with
  | Regional r => cases r <;> cases h <;> rfl
  | FormatExtend f => cases f <;> cases h <;> rfl
  | _ => cases h <;> rfl

theorem act1_letter_save (st : Word.State) (t : FE) : act1 st .ALetter ≠ .save t := by
  intro h
  cases st with
  | Regional r => cases r <;> cases h
  | FormatExtend f => cases f <;> cases h
  | _ => cases h

theorem scanF_ins {w e : WB} (h : Ins w e) (a b : List WB) : ∀ (n sv : Nat) (z : Bool) (st : Word.State), sv < n + a.length + 1 →
    scanF (a ++ w :: e :: b) n sv z st = upF (n + a.length + 1) (scanF (a ++ w :: b) n sv z st) := by
  induction a with
  | nil =>
    intro n sv z st hs
    simp only [List.nil_append, List.length_nil, Nat.add_zero] at hs ⊢
    have hsv : upF (n + 1) sv = sv := by rw [upF, if_pos (by omega)]
    have hn : upF (n + 1) n = n := by rw [upF, if_pos (by omega)]
    obtain ⟨_, ⟨rfl, hz⟩ | ⟨rfl, rfl⟩⟩ := h
    · have hd : decide (w = WordBreak.ZWJ) = false := decide_eq_false hz
      have hstep : ∀ n sv st, scanF (.Extend :: b) n sv false st = scanF b (n + 1) sv false st := fun _ _ _ => rfl
      conv_lhs => rw [scanF]
      conv_rhs => rw [scanF]
      rw [hd]
      cases act z st w with
      | stay => show scanF (.Extend :: b) _ _ _ _ = upF _ (scanF b _ _ _ _); rw [hstep, ← scanF_shift _ _ _ _ _ _ (Nat.le_refl _), hsv]
      | goto st' => show scanF (.Extend :: b) _ _ _ _ = upF _ (scanF b _ _ _ _); rw [hstep, ← scanF_shift _ _ _ _ _ _ (Nat.le_refl _), hsv]
      | save t => show scanF (.Extend :: b) _ _ _ _ = upF _ (scanF b _ _ _ _); rw [hstep, ← scanF_shift _ _ _ _ _ _ (Nat.le_refl _), hn]
      | leave => exact hn.symm
      | leaveNC => exact hn.symm
      | brk => exact hsv.symm
    · conv_lhs => rw [scanF]
      conv_rhs => rw [scanF]
      rw [act_letter]
      have hstep : ∀ n sv, scanF (.ALetter :: b) n sv false .Letter = scanF b (n + 1) sv false .Letter := fun _ _ => rfl
      have hd : decide (WordBreak.ALetter = WordBreak.ZWJ) = false := rfl
      rw [hd]
      cases ha : act1 st .ALetter with
      | stay => exact absurd ha (act1_ne_stay _ _)
      | goto st' =>
        rw [act1_letter st st' ha]
        show scanF (.ALetter :: b) _ _ _ _ = upF _ (scanF b _ _ _ _); rw [hstep, ← scanF_shift _ _ _ _ _ _ (Nat.le_refl _), hsv]
      | save t => exact absurd ha (act1_letter_save _ _)
      | leave => exact hn.symm
      | leaveNC => exact hn.symm
      | brk => exact hsv.symm
  | cons x a ih =>
    intro n sv z st hs
    rw [List.length_cons] at hs ⊢
    have hN : n + (a.length + 1) + 1 = n + 1 + a.length + 1 := by omega
    rw [hN] at hs ⊢
    rw [List.cons_append, List.cons_append, scanF, scanF]
    have hsv : upF (n + 1 + a.length + 1) sv = sv := by rw [upF, if_pos (by omega)]
    have hn : upF (n + 1 + a.length + 1) n = n := by rw [upF, if_pos (by omega)]
    cases act z st x with
    | stay => exact ih _ _ _ _ (by omega)
    | goto st' => exact ih _ _ _ _ (by omega)
    | save t => exact ih _ _ _ _ (by omega)
    | leave => exact hn.symm
    | leaveNC => exact hn.symm
    | brk => exact hsv.symm

theorem scanF_none (b : List WB) (n : Nat) (h : optB isIgn b.head? = false) : scanF b n 0 false (.FormatExtend .AcceptNone) = n := by
  cases b with
  | nil => rfl
  | cons y b =>
    have hy : isIgn y = false := h
    rw [scanF, act, if_neg (by simp [hy]), if_neg (by simp), if_neg (by simp)]
    rfl

theorem cutF_ins {w e : WB} (h : Ins w e) (a b : List WB) : cutF (a ++ w :: e :: b) = upF (a.length + 1) (cutF (a ++ w :: b)) := by
  cases a with
  | nil =>
    have hcr : w ≠ .CR := by rintro rfl; exact absurd h.1 (by decide)
    rw [List.nil_append, List.nil_append, cutF, cutF, if_neg hcr, if_neg hcr, h.1]
    simp only [List.length_nil, Nat.zero_add, Bool.false_eq_true, if_false, List.head?_cons]
    have h0 : upF 1 0 = 0 := rfl
    obtain ⟨_, ⟨rfl, hz⟩ | ⟨rfl, rfl⟩⟩ := h
    · have hd : decide (w = WordBreak.ZWJ) = false := decide_eq_false hz
      have hstep : ∀ n sv st, scanF (.Extend :: b) n sv false st = scanF b (n + 1) sv false st := fun _ _ _ => rfl
      rw [hd]
      cases startF w with
      | some st =>
        show scanF (.Extend :: b) _ _ _ _ = _
        rw [hstep, ← h0, scanF_shift 1 b 1 0 _ _ (Nat.le_refl _)]; rfl
      | none =>
        show scanF (.Extend :: b) 1 0 false _ = upF 1 (if optB isIgn b.head? then _ else 1)
        rw [hstep]
        split
        · rw [← scanF_shift 1 b 1 0 _ _ (Nat.le_refl _)]; rfl
        · rename_i hb
          rw [scanF_none b _ (by simpa using hb)]; rfl
    · show scanF (.ALetter :: b) 1 0 false .Letter = upF 1 (scanF b 1 0 false .Letter)
      have hstep : scanF (.ALetter :: b) 1 0 false .Letter = scanF b 2 0 false .Letter := rfl
      rw [hstep, ← scanF_shift 1 b 1 0 _ _ (Nat.le_refl _)]; rfl
  | cons x a =>
    rw [List.cons_append, List.cons_append, cutF, cutF, List.length_cons]
    have hh : (a ++ w :: e :: b).head? = (a ++ w :: b).head? := by cases a <;> rfl
    have h1 : upF (a.length + 1 + 1) 1 = 1 := by rw [upF, if_pos (by omega)]
    have hsc : ∀ z st, scanF (a ++ w :: e :: b) 1 0 z st = upF (a.length + 1 + 1) (scanF (a ++ w :: b) 1 0 z st) := by
      intro z st
      rw [scanF_ins h a b 1 0 z st (by omega)]
      congr 1; omega
    rw [hh]
    split
    · split
      · rename_i hl
        cases a with
        | nil =>
          have : w = .LF := by simpa using hl
          rw [this] at h; exact absurd h.1 (by decide)
        | cons y a => rw [upF, if_pos (by simp)]
      · exact h1.symm
    · split
      · exact h1.symm
      · cases startF x with
        | some st => exact hsc _ _
        | none =>
          show (if optB isIgn _ then _ else _) = upF _ (if optB isIgn _ then _ else _)
          split
          · exact hsc _ _
          · exact h1.symm

/-! ### backward -/

/-- a position from the end, before and after a character is inserted -/
def upB (M c : Nat) : Nat := if c ≤ M then c else c + 1

theorem upB_ne (M c : Nat) : upB M c ≠ M + 1 := by unfold upB; split <;> omega

theorem takeWhile_stop {α : Type} (p : α → Bool) (l r r' : List α) (x : α) (h : p x = false) :
    (l ++ x :: r).takeWhile p = (l ++ x :: r').takeWhile p := by
  induction l with
  | nil => simp [h]
  | cons y l ih =>
    rw [List.cons_append, List.cons_append, List.takeWhile_cons, List.takeWhile_cons, ih]

theorem oddRI_ins {w e : WB} (h : Ins w e) (B A : List WB) : oddRI (B ++ e :: w :: A) = oddRI (B ++ w :: A) := by
  unfold oddRI
  obtain ⟨_, ⟨rfl, _⟩ | ⟨rfl, rfl⟩⟩ := h
  · rw [List.filter_append, List.filter_cons, if_neg (by simp), ← List.filter_append]
  · rw [List.filter_append, List.filter_append, List.filter_cons_of_pos (by rfl), List.filter_cons_of_pos (by rfl),
      takeWhile_stop _ _ _ (A.filter _) _ (by rfl)]

theorem oddRI_drop {w e : WB} (h : Ins w e) (B A : List WB) (p : Nat) :
    oddRI ((B ++ e :: w :: A).drop (upB B.length p)) = oddRI ((B ++ w :: A).drop p) := by
  unfold upB
  split
  · rename_i hp
    rw [List.drop_append_of_le_length hp, List.drop_append_of_le_length hp, oddRI_ins h]
  · rename_i hp
    obtain ⟨q, rfl⟩ : ∃ q, p = B.length + (q + 1) := ⟨p - B.length - 1, by omega⟩
    have e1 : List.drop (B.length + (q + 1 + 1)) B = [] := List.drop_eq_nil_of_le (by omega)
    have e2 : List.drop (B.length + (q + 1)) B = [] := List.drop_eq_nil_of_le (by omega)
    rw [show B.length + (q + 1) + 1 = B.length + (q + 1 + 1) by omega, List.drop_append, List.drop_append, e1, e2]
    simp

theorem scanB_shift {w e : WB} (h : Ins w e) (B A : List WB) (r : List WB) : ∀ (n sv : Nat) (st sst : Word.State), B.length < n →
    scanB (B ++ e :: w :: A) r (n + 1) (upB B.length sv) st sst = upB B.length (scanB (B ++ w :: A) r n sv st sst) := by
  induction r with
  | nil =>
    intro n sv st sst hn
    rw [scanB, scanB]
    split
    · rfl
    · rw [upB, if_neg (by omega)]
  | cons x r ih =>
    intro n sv st sst hn
    have e1 : ∀ m, B.length < m → m + 1 = upB B.length m := fun m hm => by rw [upB, if_neg (by omega)]
    have ih1 := ih (n + 1) n
    rw [← e1 n hn] at ih1
    have ih2 := ih (n + 1) (n + 1)
    rw [← e1 (n + 1) (by omega)] at ih2
    rw [scanB, scanB, oddRI_drop h, e1 n hn, oddRI_drop h, ← e1 n hn]
    split
    · split
      · exact ih1 _ _ (by omega)
      · exact ih (n + 1) sv _ _ (by omega)
    · split
      · cases bact (oddRI ((B ++ w :: A).drop sv)) sst x with
        | goto st' => exact ih (n + 1) sv _ _ (by omega)
        | save t => exact ih (n + 1) sv _ _ (by omega)
        | saveQ => exact ih2 _ _ (by omega)
        | leave => rfl
        | brk => exact e1 (n + 1) (by omega)
      · cases bact (oddRI ((B ++ w :: A).drop n)) st x with
        | goto st' => exact ih (n + 1) sv _ _ (by omega)
        | save t => exact ih1 _ _ (by omega)
        | saveQ => exact ih2 _ _ (by omega)
        | leave => exact e1 n hn
        | brk =>
          show (if rewinds st then _ else _) = upB _ (if rewinds st then _ else _)
          split
          · rfl
          · exact e1 (n + 1) (by omega)

/-- the saved state matters in `AcceptNone` only -/
theorem scanB_sst (full r : List WB) : ∀ (n sv : Nat) (st sst sst' : Word.State), st ≠ .Start → st ≠ .FormatExtend .AcceptNone →
    scanB full r n sv st sst = scanB full r n sv st sst' := by
  induction r with
  | nil => intro n sv st sst sst' _ _; rfl
  | cons x r ih =>
    intro n sv st sst sst' hs hn
    rw [scanB, scanB, if_neg hn, if_neg hn]
    split
    · split
      · rfl
      · exact ih _ _ _ _ _ hs hn
    · have hf := bact_facts (oddRI (full.drop n)) st x hs
      cases hb : bact (oddRI (full.drop n)) st x with
      | goto st' =>
        rw [hb] at hf
        simp only [BAct.facts, Bool.and_eq_true, bne_iff_ne] at hf
        exact ih _ _ _ _ _ hf.1.1.2 hf.1.2
      | save t =>
        rw [hb] at hf
        simp only [BAct.facts, Bool.and_eq_true, beq_iff_eq] at hf
        refine ih _ _ _ _ _ (by intro e; cases e) ?_
        intro e; cases e; cases hf.1
      | saveQ => exact ih _ _ _ _ _ (by intro e; cases e) (by intro e; cases e)
      | leave => rfl
      | brk => rfl

/-- the saved position matters in the states that rewind only -/
theorem scanB_sv (full r : List WB) : ∀ (n sv sv' : Nat) (st sst : Word.State), st ≠ .Start → rewinds st = false →
    scanB full r n sv st sst = scanB full r n sv' st sst := by
  induction r with
  | nil => intro n sv sv' st sst _ h; simp [scanB, h]
  | cons x r ih =>
    intro n sv sv' st sst hs hr
    have hn : st ≠ .FormatExtend .AcceptNone := by rintro rfl; cases hr
    rw [scanB, scanB, if_neg hn, if_neg hn]
    split
    · split
      · rfl
      · exact ih _ _ _ _ _ hs hr
    · have hf := bact_facts (oddRI (full.drop n)) st x hs
      cases hb : bact (oddRI (full.drop n)) st x with
      | goto st' =>
        rw [hb] at hf
        simp only [BAct.facts, Bool.and_eq_true, bne_iff_ne, Bool.not_eq_true'] at hf
        exact ih _ _ _ _ _ hf.1.1.2 hf.1.1.1
      | save t => rfl
      | saveQ => rfl
      | leave => rfl
      | brk => simp only [hr, Bool.false_eq_true, if_false]

theorem bact_letter_goto {odd : Bool} {st st' : Word.State} (h : bact odd st .ALetter = .goto st') : st' = .Letter := by
  cases st with
  | Regional r => cases r <;> cases h <;> rfl
  | FormatExtend f => cases f <;> cases h <;> rfl
  | _ => cases h <;> rfl

theorem bact_letter_save {odd : Bool} {st : Word.State} : (∀ t, bact odd st .ALetter ≠ .save t) ∧ bact odd st .ALetter ≠ .saveQ ∧
    (bact odd st .ALetter = .brk → rewinds st = true) := by
  refine ⟨fun t h => ?_, fun h => ?_, fun h => ?_⟩
  · cases st with
    | Regional r => cases r <;> cases h
    | FormatExtend f => cases f <;> cases h
    | _ => cases h
  · cases st with
    | Regional r => cases r <;> cases h
    | FormatExtend f => cases f <;> cases h
    | _ => cases h
  · cases st with
    | Regional r => cases r <;> cases h
    | FormatExtend f => cases f <;> first | (cases h; done) | rfl
    | _ => cases h


theorem bact_stay_leave {odd : Bool} {st : Word.State} {w : WB} (h : st.folds = false) (hn : st ≠ .FormatExtend .AcceptNone)
    (hs : st ≠ .Start) (hw : isNl w = false) : bact odd st w ≠ .leave := by
  intro hb
  cases st with
  | Regional r => cases r <;> cases h
  | FormatExtend f => cases f <;> cases w <;> first | (cases hb; done) | (cases hw; done) | exact hn rfl
  | Start => exact hs rfl
  | _ => cases h

theorem scanB_ins {w e : WB} (h : Ins w e) (B A B2 : List WB) : ∀ (n sv : Nat) (st sst : Word.State), n + B2.length = B.length → sv ≤ B.length →
    st ≠ .Start → (st = .FormatExtend .AcceptNone → sst.folds = true ∧ sst ≠ .Start) →
    scanB (B ++ e :: w :: A) (B2 ++ e :: w :: A) n sv st sst = upB B.length (scanB (B ++ w :: A) (B2 ++ w :: A) n sv st sst) := by
  induction B2 with
  | nil =>
    intro n sv st sst hn hv hs hss
    have hN : n = B.length := by simpa using hn
    subst hN
    have hsv : upB B.length sv = sv := by rw [upB, if_pos hv]
    have hM : upB B.length B.length = B.length := by rw [upB, if_pos (Nat.le_refl _)]
    have hM1 : upB B.length (B.length + 1) = B.length + 1 + 1 := by rw [upB, if_neg (by omega)]
    have hd1 : (B ++ e :: w :: A).drop (B.length + 1) = (B ++ w :: A).drop B.length := by
      rw [List.drop_left, List.drop_append, List.drop_eq_nil_of_le (by omega)]; simp
    have hdM := oddRI_drop h B A B.length
    have hdv := oddRI_drop h B A sv
    rw [hM] at hdM
    rw [hsv] at hdv
    have shift : ∀ p st sst, scanB (B ++ e :: w :: A) A (B.length + 1 + 1) (upB B.length p) st sst =
        upB B.length (scanB (B ++ w :: A) A (B.length + 1) p st sst) := fun p st sst => scanB_shift h B A A _ p st sst (by omega)
    have shM := shift B.length
    have shS := shift sv
    have sh1 := shift (B.length + 1)
    rw [hM] at shM
    rw [hsv] at shS
    rw [hM1] at sh1
    have hw := h.1
    rw [List.nil_append, List.nil_append]
    obtain ⟨_, ⟨rfl, hz⟩ | ⟨rfl, rfl⟩⟩ := h
    · conv_lhs => rw [scanB, if_pos (Or.inl rfl)]
      by_cases hi : w = .Extend ∨ w = .Format
      · have hi' : ∀ st : Word.State, w = .Extend ∨ w = .Format ∨ (w = .ZWJ ∧ st ≠ .Zwj) := fun st => by tauto
        conv_rhs => rw [scanB, if_pos (hi' _)]
        split
        · rw [scanB, if_pos (hi' _), if_neg (by decide), shM]
        · rw [scanB, if_pos (hi' _), if_neg (by assumption), shS]
      · have hi' : ∀ st : Word.State, ¬ (w = .Extend ∨ w = .Format ∨ (w = .ZWJ ∧ st ≠ .Zwj)) := fun st => by tauto
        conv_rhs => rw [scanB, if_neg (hi' _)]
        by_cases hf : st.folds = true
        · have hne : st ≠ .FormatExtend .AcceptNone := by rintro rfl; cases hf
          rw [if_pos hf, if_neg hne, scanB, if_neg (hi' _), if_pos rfl, hdM]
          have hb := bact_facts (oddRI ((B ++ w :: A).drop B.length)) st w hs
          revert hb
          cases bact (oddRI ((B ++ w :: A).drop B.length)) st w with
          | goto st' =>
            intro hb
            simp only [BAct.facts, Bool.and_eq_true, bne_iff_ne, Bool.not_eq_true'] at hb
            show scanB _ A (B.length + 1 + 1) B.length st' st = upB _ (scanB _ A _ _ st' sst)
            rw [shM, scanB_sst _ A _ _ st' st sst hb.1.1.2 hb.1.2, scanB_sv _ A _ B.length sv st' sst hb.1.1.2 hb.1.1.1]
          | save t =>
            intro hb
            simp only [BAct.facts, Bool.and_eq_true, beq_iff_eq] at hb
            show scanB _ A (B.length + 1 + 1) B.length (.FormatExtend t) st = upB _ (scanB _ A _ _ (.FormatExtend t) sst)
            rw [shM, scanB_sst _ A _ _ (.FormatExtend t) st sst (by intro e; cases e) (by intro e; cases e; cases hb.1)]
          | saveQ =>
            intro _
            show scanB _ A (B.length + 1 + 1) _ (.FormatExtend .AcceptQLetter) st = upB _ (scanB _ A _ _ (.FormatExtend .AcceptQLetter) sst)
            rw [sh1, scanB_sst _ A _ _ _ st sst (by intro e; cases e) (by intro e; cases e)]
          | leave => intro _; exact hM.symm
          | brk =>
            intro _
            show _ = upB _ (if rewinds st then _ else _)
            rw [(folds_plain hf).1]
            exact hM1.symm
        · rw [if_neg hf, scanB, if_neg (hi' _)]
          split
          · rw [hdv]
            cases bact (oddRI ((B ++ w :: A).drop sv)) sst w with
            | goto st' => exact shS _ _
            | save t => exact shS _ _
            | saveQ => exact sh1 _ _
            | leave => exact hsv.symm
            | brk => exact hM1.symm
          · rename_i hne
            rw [hd1]
            have hl := bact_stay_leave (odd := oddRI ((B ++ w :: A).drop B.length)) (Bool.eq_false_iff.mpr hf) hne hs hw
            have hb := bact_facts (oddRI ((B ++ w :: A).drop B.length)) st w hs
            revert hb hl
            cases bact (oddRI ((B ++ w :: A).drop B.length)) st w with
            | goto st' => intro _ _; exact shS _ _
            | save t =>
              intro _ hb
              simp only [BAct.facts, Bool.and_eq_true] at hb
              exact absurd hb.2 hf
            | saveQ => intro _ _; exact sh1 _ _
            | leave => intro h; exact absurd rfl h
            | brk =>
              intro _ _
              show (if rewinds st then _ else _) = upB _ (if rewinds st then _ else _)
              split
              · exact hsv.symm
              · exact hM1.symm
    · have hi' : ∀ st : Word.State, ¬ (WordBreak.ALetter = .Extend ∨ WordBreak.ALetter = .Format ∨ (WordBreak.ALetter = .ZWJ ∧ st ≠ .Zwj)) := fun st => by simp
      have hstep : ∀ p sst, scanB (B ++ .ALetter :: .ALetter :: A) (.ALetter :: A) (B.length + 1) p .Letter sst =
          scanB (B ++ .ALetter :: .ALetter :: A) A (B.length + 1 + 1) p .Letter sst := fun _ _ => rfl
      conv_lhs => rw [scanB, if_neg (hi' _)]
      conv_rhs => rw [scanB, if_neg (hi' _)]
      rw [hdv, hdM]
      split
      · rename_i hst
        have hl := bact_letter_save (odd := oddRI ((B ++ .ALetter :: A).drop sv)) (st := sst)
        have hg := @bact_letter_goto (oddRI ((B ++ .ALetter :: A).drop sv)) sst
        revert hl hg
        cases bact (oddRI ((B ++ .ALetter :: A).drop sv)) sst .ALetter with
        | goto st' =>
          intro _ hg
          rw [hg rfl]
          show scanB _ (.ALetter :: A) _ _ _ _ = _
          rw [hstep]; exact shS _ _
        | save t => intro hl; exact absurd rfl (hl.1 t)
        | saveQ => intro hl; exact absurd rfl hl.2.1
        | leave => intro _ _; exact hsv.symm
        | brk =>
          intro hl
          have := hl.2.2 rfl
          rw [(folds_plain (hss hst).1).1] at this
          cases this
      · have hl := bact_letter_save (odd := oddRI ((B ++ .ALetter :: A).drop B.length)) (st := st)
        have hg := @bact_letter_goto (oddRI ((B ++ .ALetter :: A).drop B.length)) st
        revert hl hg
        cases bact (oddRI ((B ++ .ALetter :: A).drop B.length)) st .ALetter with
        | goto st' =>
          intro _ hg
          rw [hg rfl]
          show scanB _ (.ALetter :: A) _ _ _ _ = _
          rw [hstep]; exact shS _ _
        | save t => intro hl; exact absurd rfl (hl.1 t)
        | saveQ => intro hl; exact absurd rfl hl.2.1
        | leave => intro _ _; exact hM.symm
        | brk =>
          intro hl _
          show (if rewinds st then _ else _) = upB _ (if rewinds st then _ else _)
          rw [hl.2.2 rfl]
          exact hsv.symm
  | cons x B3 ih =>
    intro n sv st sst hn hv hs hss
    rw [List.length_cons] at hn
    have hM : ∀ p, p ≤ B.length → upB B.length p = p := fun p hp => by rw [upB, if_pos hp]
    have hdn := oddRI_drop h B A n
    have hdv := oddRI_drop h B A sv
    rw [hM n (by omega)] at hdn
    rw [hM sv hv] at hdv
    have ih' := fun p st sst => ih (n + 1) p st sst (by omega)
    have hne : ∀ {t : FE}, Word.State.FormatExtend t ≠ .Start := fun h => by cases h
    rw [List.cons_append, List.cons_append, scanB, scanB, hdn, hdv]
    split
    · split
      · rename_i hf
        exact ih' n _ _ (by omega) hne (fun _ => ⟨hf, hs⟩)
      · exact ih' sv _ _ hv hs hss
    · split
      · rename_i hst
        obtain ⟨hf, hs'⟩ := hss hst
        have hb := bact_facts (oddRI ((B ++ w :: A).drop sv)) sst x hs'
        revert hb
        cases bact (oddRI ((B ++ w :: A).drop sv)) sst x with
        | goto st' =>
          intro hb
          simp only [BAct.facts, Bool.and_eq_true, bne_iff_ne] at hb
          exact ih' sv _ _ hv hb.1.1.2 (fun h => absurd h hb.1.2)
        | save t =>
          intro hb
          simp only [BAct.facts, Bool.and_eq_true, beq_iff_eq] at hb
          exact ih' sv _ _ hv hne (fun h => by cases h; cases hb.1)
        | saveQ => intro _; exact ih' (n + 1) _ _ (by omega) hne (fun h => by cases h)
        | leave => intro _; exact (hM _ hv).symm
        | brk => intro _; exact (hM (n + 1) (by omega)).symm
      · have hb := bact_facts (oddRI ((B ++ w :: A).drop n)) st x hs
        revert hb
        cases bact (oddRI ((B ++ w :: A).drop n)) st x with
        | goto st' =>
          intro hb
          simp only [BAct.facts, Bool.and_eq_true, bne_iff_ne] at hb
          exact ih' sv _ _ hv hb.1.1.2 (fun h => absurd h hb.1.2)
        | save t =>
          intro hb
          simp only [BAct.facts, Bool.and_eq_true, beq_iff_eq] at hb
          exact ih' n _ _ (by omega) hne (fun h => by cases h; cases hb.1)
        | saveQ => intro _; exact ih' (n + 1) _ _ (by omega) hne (fun h => by cases h)
        | leave => intro _; exact (hM n (by omega)).symm
        | brk =>
          intro _
          show (if rewinds st then _ else _) = upB _ (if rewinds st then _ else _)
          split
          · exact (hM _ hv).symm
          · exact (hM _ (by omega)).symm

theorem bact_any (odd : Bool) (w : WB) : bact odd (.FormatExtend .AcceptAny) w = bact false (.FormatExtend .AcceptAny) w := by
  cases w <;> rfl

theorem bact_any_save (w : WB) (t : FE) : bact false (.FormatExtend .AcceptAny) w ≠ .save t := by
  cases w <;> (intro h; cases h)

theorem cutB_ins {w e : WB} (h : Ins w e) (B A : List WB) : cutB (B ++ e :: w :: A) = upB B.length (cutB (B ++ w :: A)) := by
  have hne : ∀ {t : FE}, Word.State.FormatExtend t ≠ .Start := fun h => by cases h
  have hlf : w ≠ .LF := by rintro rfl; exact absurd h.1 (by decide)
  have hcr : w ≠ .CR := by rintro rfl; exact absurd h.1 (by decide)
  have hec : e ≠ .CR := by rintro rfl; obtain ⟨_, ⟨h, _⟩ | ⟨_, h⟩⟩ := h <;> cases h
  cases B with
  | nil =>
    have shift : ∀ p st sst, scanB (e :: w :: A) A (1 + 1) (upB 0 p) st sst =
        upB 0 (scanB (w :: A) A 1 p st sst) := fun p st sst => scanB_shift h [] A A _ p st sst (by decide)
    have sh1 : ∀ st, st ≠ .Start → rewinds st = false → ∀ p, scanB (e :: w :: A) A (1 + 1) p st .Start = upB 0 (scanB (w :: A) A 1 1 st .Start) := by
      intro st h1 h2 p
      rw [← shift, scanB_sv _ _ _ p _ _ _ h1 h2]
    have hw := h.1
    rw [List.nil_append, List.nil_append]
    conv_rhs => rw [cutB, if_neg hlf, hw]
    simp only [Bool.false_eq_true, if_false, List.length_nil]
    obtain ⟨_, ⟨rfl, hz⟩ | ⟨rfl, rfl⟩⟩ := h
    · show scanB (.Extend :: w :: A) (w :: A) 1 1 (.FormatExtend .AcceptAny) .Start = _
      by_cases hi : w = .Extend ∨ w = .Format
      · rw [scanB, if_pos (by tauto), if_neg (by decide)]
        have hb : bact false (.FormatExtend .AcceptAny) w = .goto (.FormatExtend .AcceptAny) := by rcases hi with rfl | rfl <;> rfl
        rw [hb]
        exact sh1 _ hne rfl _
      · rw [scanB, if_neg (by tauto), if_neg (by decide), bact_any]
        have hl := bact_stay_leave (odd := false) (st := .FormatExtend .AcceptAny) (w := w) rfl (by decide) hne hw
        have hb := bact_facts false (.FormatExtend .AcceptAny) w hne
        have hsv := bact_any_save w
        revert hb hl hsv
        cases bact false (.FormatExtend .AcceptAny) w with
        | goto st' =>
          intro _ hb _
          simp only [BAct.facts, Bool.and_eq_true, bne_iff_ne, Bool.not_eq_true'] at hb
          exact sh1 _ hb.1.1.2 hb.1.1.1 _
        | save t => intro _ _ hs; exact absurd rfl (hs t)
        | saveQ => intro _ _ _; exact shift 1 _ _
        | leave => intro hl; exact absurd rfl hl
        | brk => intro _ _ _; rfl
    · show scanB (.ALetter :: .ALetter :: A) (.ALetter :: A) 1 1 .Letter .Start = upB 0 (scanB (.ALetter :: A) A 1 1 .Letter .Start)
      rw [← sh1 .Letter (by decide) rfl 1]
      rfl
  | cons x B2 =>
    have hi := fun st sst => scanB_ins h (x :: B2) A B2 1 1 st sst (by rw [List.length_cons]; omega) (by rw [List.length_cons]; omega)
    rw [List.cons_append, List.cons_append] at hi ⊢
    have h1 : upB (x :: B2).length 1 = 1 := by rw [upB, if_pos (by simp)]
    rw [cutB, cutB]
    split
    · cases B2 with
      | nil => simp [hcr, hec, upB]
      | cons y B3 =>
        have hh : ∀ l : List WB, (y :: B3 ++ l).head? = some y := fun _ => rfl
        rw [hh, hh]
        by_cases hy : some y = some WordBreak.CR
        · rw [if_pos hy, upB, if_pos (by simp)]
        · rw [if_neg hy]; exact h1.symm
    · split
      · exact h1.symm
      · have hb := bact_facts false (.FormatExtend .AcceptAny) x hne
        revert hb
        cases bact false (.FormatExtend .AcceptAny) x with
        | goto st' =>
          intro hb
          simp only [BAct.facts, Bool.and_eq_true, bne_iff_ne] at hb
          exact hi _ _ hb.1.1.2 (fun h => absurd h hb.1.2)
        | saveQ => intro _; exact hi _ _ hne (fun h => by cases h)
        | save t => intro _; exact h1.symm
        | leave => intro _; exact h1.symm
        | brk => intro _; exact h1.symm

/-- where the last piece begins, from the classes of the text -/
def cutL (k : List WB) : Nat := k.length - cutB k.reverse

theorem cutL_ins {w e : WB} (h : Ins w e) (a b : List WB) : cutL (a ++ w :: e :: b) = upF (a.length + 1) (cutL (a ++ w :: b)) := by
  unfold cutL
  have e1 : (a ++ w :: e :: b).reverse = b.reverse ++ e :: w :: a.reverse := by simp
  have e2 : (a ++ w :: b).reverse = b.reverse ++ w :: a.reverse := by simp
  rw [e1, e2, cutB_ins h, upB, upF]
  simp only [List.length_append, List.length_cons, List.length_reverse]
  split <;> split <;> omega

end Proofs.Word
