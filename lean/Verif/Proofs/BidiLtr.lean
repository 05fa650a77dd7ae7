import Verif.Proofs.BidiVisual
import Mathlib.Tactic.Tauto

/-! # Texts without right-to-left characters -/
namespace Proofs.Bidi
open Model Model.Bidi Data Proofs.Punycode Model.Grapheme Proofs.Grapheme Spec.Bidi

/-- no right-to-left letter, number or formatting character -/
def noRtl : BC → Bool
  | .RightToLeft | .ArabicLetter | .ArabicNumber | .RightToLeftEmbedding | .RightToLeftOverride | .RightToLeftIsolate => false
  | _ => true

def mild : BC → Bool
  | .RightToLeft | .ArabicLetter | .ArabicNumber => false
  | _ => true

def calm : BC → Bool
  | .RightToLeft | .ArabicLetter | .ArabicNumber | .EuropeanNumber => false
  | _ => true

theorem noRtl_mild {c : BC} (h : noRtl c = true) : mild c = true := by cases c <;> simp_all [noRtl, mild]
theorem calm_mild {c : BC} (h : calm c = true) : mild c = true := by cases c <;> simp_all [calm, mild]
theorem mild_calm {c : BC} (h : mild c = true) (h2 : c ≠ .EuropeanNumber) : calm c = true := by cases c <;> simp_all [calm, mild]

/-! ## explicit levels -/

/-- even levels and no right-to-left override on the stack -/
def EvenStack (st : Explicit) : Prop := ∀ s ∈ st.stack, s.level % 2 = 0 ∧ s.status ≠ .RTL

theorem apply_mild {s : Override} {c : BC} (h : s ≠ .RTL) (hc : mild c = true) : mild (s.apply c) = true := by
  cases s <;> simp_all [Override.apply, mild]

theorem next_even {c : BC} {l n : Nat} (hc : noRtl c = true) (ho : isIsolate c = true ∨ c = .LeftToRightEmbedding ∨ c = .LeftToRightOverride) (h : nextLevel c l = some n) : n % 2 = 0 := by
  have hr : BidiClass.isRtl c = false := by
    rcases ho with h | rfl | rfl
    · cases c <;> simp_all [isIsolate, noRtl, BidiClass.isRtl]
    · rfl
    · rfl
  unfold nextLevel at h
  rw [hr] at h
  simp only [Bool.false_eq_true, if_false] at h
  unfold Level.newExplicitNextLtr Level.newExplicit at h
  split_ifs at h
  simp only [Option.some.injEq] at h
  rw [← h]
  have := Nat.and_mod_two_pow (a := l + 2) (b := 254) (n := 1)
  simpa using this

theorem popIsolate_mem : ∀ (l : List Status), ∀ s ∈ popIsolate l, s ∈ l
  | [], s, h => by simp [popIsolate] at h
  | a :: l, s, h => by
    rw [popIsolate] at h
    split_ifs at h
    · simp [h]
    · simp [popIsolate_mem l s h]

theorem opener_even {st st' : Explicit} {c : BC} {lv : Nat} {w : Nat × BC} (hst : EvenStack st) (hc : noRtl c = true)
    (ho : isIsolate c = true ∨ c = .LeftToRightEmbedding ∨ c = .LeftToRightOverride) (hl : lv % 2 = 0)
    (h : st.opener c lv c = .ok (st', w)) : EvenStack st' ∧ w.1 % 2 = 0 ∧ mild w.2 = true := by
  unfold Explicit.opener at h
  cases hs : st.stack with
  | nil => rw [hs] at h; simp at h
  | cons last rest =>
    rw [hs] at h
    simp only at h
    obtain ⟨h1, h2⟩ := hst last (by simp [hs])
    have e1 : (if isIsolate c = true then last.level else lv) % 2 = 0 := by split_ifs <;> assumption
    have e2 : mild (if isIsolate c = true then last.status.apply c else c) = true := by
      split_ifs
      · exact apply_mild h2 (noRtl_mild hc)
      · exact noRtl_mild hc
    generalize (if isIsolate c = true then last.level else lv) = lv' at *
    generalize (if isIsolate c = true then last.status.apply c else c) = pc' at *
    have hst' : ∀ s ∈ last :: rest, s.level % 2 = 0 ∧ s.status ≠ .RTL := by rw [← hs]; exact hst
    cases hn : nextLevel c last.level with
    | none =>
      rw [hn] at h
      simp only at h
      split_ifs at h <;> (simp only [Outcome.ok.injEq, Prod.mk.injEq] at h; obtain ⟨rfl, rfl⟩ := h; exact ⟨by unfold EvenStack at *; simp only [hs] at *; exact hst', e1, e2⟩)
    | some n =>
      rw [hn] at h
      have hne := next_even hc ho hn
      have hpush : ∀ s ∈ (⟨n, statusOf c⟩ : Status) :: last :: rest, s.level % 2 = 0 ∧ s.status ≠ .RTL := by
        intro s hs'
        rcases List.mem_cons.1 hs' with rfl | hs'
        · refine ⟨hne, ?_⟩
          cases c <;> simp_all [statusOf, noRtl]
        · exact hst' s hs'
      simp only at h
      split_ifs at h <;> (simp only [Outcome.ok.injEq, Prod.mk.injEq] at h; obtain ⟨rfl, rfl⟩ := h)
      · exact ⟨by unfold EvenStack; simp only; exact hpush, e1, e2⟩
      · exact ⟨by unfold EvenStack; simp only; exact hpush, hne, e2⟩
      all_goals exact ⟨by unfold EvenStack at *; simp only [hs] at *; exact hst', e1, e2⟩

theorem plain_even {st st' : Explicit} {c : BC} {w : Nat × BC} (hst : EvenStack st) (hc : mild c = true) (h : st.plain c = .ok (st', w)) :
    EvenStack st' ∧ w.1 % 2 = 0 ∧ mild w.2 = true := by
  unfold Explicit.plain at h
  cases hs : st.stack with
  | nil => rw [hs] at h; simp at h
  | cons last rest =>
    rw [hs] at h
    simp only [Outcome.ok.injEq, Prod.mk.injEq] at h
    obtain ⟨rfl, rfl⟩ := h
    obtain ⟨h1, h2⟩ := hst last (by simp [hs])
    exact ⟨hst, h1, apply_mild h2 hc⟩

theorem pdf_even {st st' : Explicit} {c : BC} {w : Nat × BC} (hst : EvenStack st) (hc : mild c = true) (h : st.pdf c = .ok (st', w)) :
    EvenStack st' ∧ w.1 % 2 = 0 ∧ mild w.2 = true := by
  unfold Explicit.pdf at h
  cases hs : st.stack with
  | nil => rw [hs] at h; simp at h
  | cons last rest =>
    rw [hs] at h
    simp only at h
    have hst' : ∀ s ∈ last :: rest, s.level % 2 = 0 ∧ s.status ≠ .RTL := by rw [← hs]; exact hst
    split_ifs at h with hcond
    · simp only at h
      cases hr : rest with
      | nil => rw [hr] at h; simp at h
      | cons l2 r2 =>
        rw [hr] at h
        simp only [Outcome.ok.injEq, Prod.mk.injEq] at h
        obtain ⟨rfl, rfl⟩ := h
        refine ⟨?_, (hst' l2 (by simp [hr])).1, hc⟩
        intro s hs'
        simp only at hs'
        exact hst' s (by rw [hr]; simp [List.mem_cons.1 hs'])
    · rw [hs] at h
      simp only [Outcome.ok.injEq, Prod.mk.injEq] at h
      obtain ⟨rfl, rfl⟩ := h
      exact ⟨hst, (hst' last (by simp)).1, hc⟩

theorem popped_even {st : Explicit} (hst : EvenStack st) : EvenStack st.popped := by
  unfold Explicit.popped
  split_ifs
  · exact hst
  · intro s hs
    exact hst s (popIsolate_mem _ s hs)
  · exact hst

theorem step_even {st st' : Explicit} {c : BC} {pl : Nat} {v : Option (Nat × BC)} (hst : EvenStack st) (hc : noRtl c = true) (hl : pl % 2 = 0)
    (h : st.step c pl c = .ok (st', v)) : EvenStack st' ∧ (v.getD (pl, c)).1 % 2 = 0 ∧ mild (v.getD (pl, c)).2 = true := by
  have hm := noRtl_mild hc
  have fin : ∀ {o : Outcome (Explicit × Nat × BC)}, (∀ s w, o = .ok (s, w) → EvenStack s ∧ w.1 % 2 = 0 ∧ mild w.2 = true) →
      (o >>= fun p => (pure (p.1, some p.2) : Outcome (Explicit × Option (Nat × BC)))) = .ok (st', v) → EvenStack st' ∧ (v.getD (pl, c)).1 % 2 = 0 ∧ mild (v.getD (pl, c)).2 = true := by
    intro o ho h
    cases o with
    | panic => simp at h
    | ok p =>
      simp only [bind_ok, pure_eq, Outcome.ok.injEq, Prod.mk.injEq] at h
      obtain ⟨rfl, rfl⟩ := h
      exact ho _ _ rfl
  cases c <;> simp only [noRtl, Bool.false_eq_true] at hc
  case FirstStrongIsolate => exact fin (fun s w e => opener_even hst rfl (Or.inl rfl) hl e) h
  case LeftToRightIsolate => exact fin (fun s w e => opener_even hst rfl (Or.inl rfl) hl e) h
  case LeftToRightEmbedding => exact fin (fun s w e => opener_even hst rfl (Or.inr (Or.inl rfl)) hl e) h
  case LeftToRightOverride => exact fin (fun s w e => opener_even hst rfl (Or.inr (Or.inr rfl)) hl e) h
  case PopDirectionalIsolate => exact fin (fun s w e => plain_even (popped_even hst) rfl e) h
  case PopDirectionalFormat =>
    unfold Explicit.step at h
    simp only at h
    split_ifs at h
    · simp only [Outcome.ok.injEq, Prod.mk.injEq] at h
      obtain ⟨rfl, rfl⟩ := h
      exact ⟨hst, hl, rfl⟩
    · simp only [Outcome.ok.injEq, Prod.mk.injEq] at h
      obtain ⟨rfl, rfl⟩ := h
      exact ⟨hst, hl, rfl⟩
    · exact fin (fun s w e => pdf_even hst rfl e) h
  case ParagraphSeparator =>
    simp only [Explicit.step, Outcome.ok.injEq, Prod.mk.injEq] at h
    obtain ⟨rfl, rfl⟩ := h
    exact ⟨hst, hl, rfl⟩
  case BoundaryNeutral =>
    simp only [Explicit.step, Outcome.ok.injEq, Prod.mk.injEq] at h
    obtain ⟨rfl, rfl⟩ := h
    exact ⟨hst, hl, rfl⟩
  all_goals exact fin (fun s w e => plain_even hst rfl e) h

theorem explicitC_even {pl : Nat} (hl : pl % 2 = 0) : ∀ (cs : List BC) (st : Explicit) (l : List (Nat × BC)), (∀ c ∈ cs, noRtl c = true) → EvenStack st →
    explicitC pl cs st = .ok l → ∀ v ∈ l, v.1 % 2 = 0 ∧ mild v.2 = true
  | [], _, l, _, _, h => by
    simp only [explicitC, Outcome.ok.injEq] at h
    subst h; simp
  | c :: cs, st, l, hc, hst, h => by
    rw [explicitC] at h
    cases hs : st.step c pl c with
    | panic => rw [hs] at h; simp at h
    | ok p =>
      obtain ⟨st', v⟩ := p
      obtain ⟨a, b⟩ := step_even hst (hc c (by simp)) hl hs
      rw [hs, bind_ok] at h
      simp only at h
      cases hr : explicitC pl cs st' with
      | panic => rw [hr] at h; simp at h
      | ok l' =>
        rw [hr] at h
        simp only [bind_ok, pure_eq, Outcome.ok.injEq] at h
        subst h
        intro x hx
        rcases List.mem_cons.1 hx with rfl | hx
        · exact b
        · exact explicitC_even hl cs st' l' (fun d hd => hc d (by simp [hd])) a hr x hx

theorem explicitL_even {pl : Nat} (hl : pl % 2 = 0) {cs : List BC} (hc : ∀ c ∈ cs, noRtl c = true) : ∀ v ∈ explicitL pl cs, v.1 % 2 = 0 ∧ mild v.2 = true := by
  unfold explicitL
  split
  · rename_i l h
    refine explicitC_even hl cs _ l hc ?_ h
    intro s hs
    simp at hs; subst hs
    exact ⟨hl, by simp⟩
  · simp

/-! ## weak types -/

/-- all classes of the paragraph are mild -/
def MildAll (xs : List BC) : Prop := ∀ (k : Nat) c, xs[k]? = some c → mild c = true

theorem MildAll.getD {xs : List BC} (h : MildAll xs) (k : Nat) : mild (xs.getD k .OtherNeutral) = true := by
  rw [List.getD_eq_getElem?_getD]
  cases hk : xs[k]? with
  | none => rfl
  | some c => exact h k c hk

theorem MildAll.set {xs : List BC} (h : MildAll xs) (j : Nat) {c : BC} (hc : mild c = true) : MildAll (xs.set j c) := by
  intro k d hd
  rw [List.getElem?_set] at hd
  split_ifs at hd with h1 h2
  · simp at hd; subst hd; exact hc
  · exact h k d hd

theorem MildAll.setAll {xs : List BC} (h : MildAll xs) (js : List Nat) {c : BC} (hc : mild c = true) : MildAll (setAll xs js c) := by
  intro k d hd
  rw [setAll_getElem?] at hd
  split_ifs at hd with h1
  · simp at hd; subst hd; exact hc
  · exact h k d hd

theorem separator_mild {prev this next : BC} (h : mild prev = true) : mild (separatorClass prev this next) = true := by
  unfold separatorClass
  split <;> simp_all [mild]

theorem newClass_mild {m : Nat} {c prev next : BC} (hc : mild c = true) (hp : mild prev = true) : mild (newClass m c prev next) = true := by
  cases c <;> simp only [mild, Bool.false_eq_true] at hc <;> simp only [newClass]
  case EuropeanSeparator => split_ifs; exacts [separator_mild hp, rfl]
  case CommonSeparator => split_ifs; exacts [separator_mild hp, rfl]
  case EuropeanTerminator => split_ifs <;> rfl
  case NonspacingMark => unfold nsmClass; split_ifs; exacts [rfl, hp]
  all_goals rfl

theorem weakC_mild {t : List Nat} {eos : BC} : ∀ (ks : List Nat) (xs : List BC) (prev : BC) (es : List Nat), MildAll xs → mild prev = true → MildAll (weakC t eos ks xs prev es)
  | [], xs, _, _, h, _ => h
  | k :: ks, xs, prev, es, h, hp => by
    have hx := newClass_mild (m := Utf.lenUtf8 (t.getD k 0)) (next := nextC xs eos ks) (h.getD k) hp
    simp only [weakC]
    split_ifs with h1 h2 h3 h4
    · exact weakC_mild ks xs prev es h hp
    · exact weakC_mild ks _ _ _ (h.set k hx) hx
    · exact weakC_mild ks _ _ _ (h.set k hx) hx
    · exact weakC_mild ks _ _ _ ((h.set k hx).setAll es rfl) hx
    · exact weakC_mild ks _ _ _ ((h.set k hx).setAll es rfl) hx

theorem weakC_off {t : List Nat} {eos : BC} {k : Nat} : ∀ (ks : List Nat) (xs : List BC) (prev : BC) (es : List Nat), k ∉ ks → k ∉ es → (weakC t eos ks xs prev es)[k]? = xs[k]?
  | [], xs, _, _, _, _ => rfl
  | j :: ks, xs, prev, es, h, he => by
    simp only [List.mem_cons, not_or] at h
    obtain ⟨hj, hk⟩ := h
    simp only [weakC]
    split_ifs with h1 h2 h3 h4
    · exact weakC_off ks xs prev es hk he
    · rw [weakC_off ks _ _ _ hk (by simp [he, hj]), List.getElem?_set_ne (Ne.symm hj)]
    · rw [weakC_off ks _ _ _ hk he, List.getElem?_set_ne (Ne.symm hj)]
    · rw [weakC_off ks _ _ _ hk (by simp), setAll_getElem?, if_neg (fun e => he e.1), List.getElem?_set_ne (Ne.symm hj)]
    · rw [weakC_off ks _ _ _ hk (by simp), setAll_getElem?, if_neg (fun e => he e.1), List.getElem?_set_ne (Ne.symm hj)]

theorem w7C_mild : ∀ (ks : List Nat) (xs : List BC), MildAll xs → MildAll (w7C ks true xs)
  | [], xs, h => h
  | k :: ks, xs, h => by
    have hg := h.getD k
    simp only [w7C]
    split
    · rw [if_pos trivial]; exact w7C_mild ks _ (h.set k rfl)
    · exact w7C_mild ks xs h
    · rename_i e; rw [e] at hg; simp [mild] at hg
    · rename_i e; rw [e] at hg; simp [mild] at hg
    · exact w7C_mild ks xs h

theorem w7C_off {k : Nat} : ∀ (ks : List Nat) (l : Bool) (xs : List BC), k ∉ ks → (w7C ks l xs)[k]? = xs[k]?
  | [], _, xs, _ => rfl
  | j :: ks, l, xs, h => by
    simp only [List.mem_cons, not_or] at h
    obtain ⟨hj, hk⟩ := h
    simp only [w7C]
    split
    · split_ifs
      · rw [w7C_off ks _ _ hk, List.getElem?_set_ne (Ne.symm hj)]
      · exact w7C_off ks _ _ hk
    all_goals exact w7C_off ks _ _ hk

/-- W7 makes no numbers -/
theorem w7C_en {k : Nat} : ∀ (ks : List Nat) (l : Bool) (xs : List BC), (w7C ks l xs)[k]? = some .EuropeanNumber → xs[k]? = some .EuropeanNumber
  | [], _, xs, h => h
  | j :: ks, l, xs, h => by
    simp only [w7C] at h
    split at h
    · split_ifs at h
      · have := w7C_en ks _ _ h
        rw [List.getElem?_set] at this
        split_ifs at this
        · simp at this
        · exact this
      · exact w7C_en ks _ _ h
    all_goals exact w7C_en ks _ _ h

theorem w7C_calm {k : Nat} : ∀ (ks : List Nat) (xs : List BC), MildAll xs → k ∈ ks → (w7C ks true xs)[k]? ≠ some .EuropeanNumber
  | [], _, _, hk => by simp at hk
  | j :: ks, xs, h, hk => by
    have hg := h.getD j
    by_cases hks : k ∈ ks
    · simp only [w7C]
      split
      · rw [if_pos trivial]; exact w7C_calm ks _ (h.set j rfl) hks
      · exact w7C_calm ks xs h hks
      · rename_i e; rw [e] at hg; simp [mild] at hg
      · rename_i e; rw [e] at hg; simp [mild] at hg
      · exact w7C_calm ks xs h hks
    · have hkj : k = j := by rcases List.mem_cons.1 hk with e | e; exacts [e, absurd e hks]
      subst hkj
      intro he
      simp only [w7C] at he
      split at he
      · rw [if_pos trivial, w7C_off ks _ _ hks, List.getElem?_set] at he
        split_ifs at he
        · simp at he
        · exact absurd rfl (by assumption)
      all_goals
        rw [w7C_off ks _ _ hks] at he
        simp_all [List.getD_eq_getElem?_getD]

/-! ## neutral types -/

theorem neutral_calm {prev next : BC} (hp : calm prev = true) : neutralClass prev next .LeftToRight = .LeftToRight := by
  unfold neutralClass
  split <;> simp_all [calm]

theorem neutralC_mild {eos : BC} {K : List Nat} : ∀ (ks : List Nat) (prev : BC) (run : Option (List Nat)) (xs : List BC), MildAll xs → calm prev = true →
    (∀ k ∈ ks, k ∈ K) → (∀ k ∈ K, xs[k]? ≠ some .EuropeanNumber) →
    MildAll (neutralC .LeftToRight eos ks prev run xs) ∧ ∀ k ∈ K, (neutralC .LeftToRight eos ks prev run xs)[k]? ≠ some .EuropeanNumber
  | [], prev, none, xs, h, _, _, hK => ⟨h, hK⟩
  | [], prev, some run, xs, h, hp, _, hK => by
    rw [neutralC, neutral_calm hp]
    refine ⟨h.setAll run rfl, fun k hk => ?_⟩
    rw [setAll_getElem?]
    split_ifs
    · simp
    · exact hK k hk
  | k :: ks, prev, none, xs, h, hp, hks, hK => by
    have hks' : ∀ k ∈ ks, k ∈ K := fun j hj => hks j (by simp [hj])
    rw [neutralC]
    split_ifs
    · exact neutralC_mild ks prev _ xs h hp hks' hK
    · refine neutralC_mild ks _ _ xs h (mild_calm (h.getD k) ?_) hks' hK
      intro e
      have := hK k (hks k (by simp))
      rw [List.getD_eq_getElem?_getD] at e
      cases hx : xs[k]? with
      | none => rw [hx] at e; simp at e
      | some c => rw [hx] at e this; simp at e; subst e; exact this rfl
  | k :: ks, prev, some run, xs, h, hp, hks, hK => by
    have hks' : ∀ k ∈ ks, k ∈ K := fun j hj => hks j (by simp [hj])
    rw [neutralC]
    split_ifs
    · exact neutralC_mild ks prev _ xs h hp hks' hK
    · exact neutralC_mild ks prev _ xs h hp hks' hK
    · rw [neutral_calm hp]
      refine neutralC_mild ks _ _ _ (h.setAll run rfl) (mild_calm (h.getD k) ?_) hks' ?_
      · intro e
        have := hK k (hks k (by simp))
        rw [List.getD_eq_getElem?_getD] at e
        cases hx : xs[k]? with
        | none => rw [hx] at e; simp at e
        | some c => rw [hx] at e this; simp at e; subst e; exact this rfl
      · intro j hj
        rw [setAll_getElem?]
        split_ifs
        · simp
        · exact hK j hj

theorem neutralC_off {e eos : BC} {k : Nat} : ∀ (ks : List Nat) (prev : BC) (run : Option (List Nat)) (xs : List BC), k ∉ ks → (∀ r, run = some r → k ∉ r) →
    (neutralC e eos ks prev run xs)[k]? = xs[k]?
  | [], prev, none, xs, _, _ => rfl
  | [], prev, some run, xs, _, hr => by rw [neutralC, setAll_getElem?, if_neg (fun e => hr run rfl e.1)]
  | j :: ks, prev, none, xs, h, hr => by
    simp only [List.mem_cons, not_or] at h
    rw [neutralC]
    split_ifs
    · exact neutralC_off ks _ _ _ h.2 (by rintro r ⟨⟩; simp [h.1])
    · exact neutralC_off ks _ _ _ h.2 (by simp)
  | j :: ks, prev, some run, xs, h, hr => by
    simp only [List.mem_cons, not_or] at h
    have hr' := hr run rfl
    rw [neutralC]
    split_ifs
    · exact neutralC_off ks _ _ _ h.2 hr
    · exact neutralC_off ks _ _ _ h.2 (by rintro r ⟨⟩; simp [h.1, hr'])
    · rw [neutralC_off ks _ _ _ h.2 (by simp), setAll_getElem?, if_neg (fun e => hr' e.1)]

/-! ## the paragraph -/

theorem resolveSeqsC_calm {t : List Nat} {ls : List Nat} (hls : ∀ l ∈ ls, l % 2 = 0) : ∀ (seqs : List IsoSeq) (xs : List BC), (∀ s ∈ seqs, s.sos = .LeftToRight) → MildAll xs →
    MildAll (resolveSeqsC t ls seqs xs) ∧ ∀ k, (xs[k]? ≠ some .EuropeanNumber ∨ ∃ s ∈ seqs, k ∈ indices s.runs) → (resolveSeqsC t ls seqs xs)[k]? ≠ some .EuropeanNumber
  | [], xs, _, h => ⟨h, by intro k hk; simpa [resolveSeqsC] using hk⟩
  | s :: seqs, xs, hs, h => by
    have hsos := hs s (by simp)
    have hlv : Level.bidiClass (ls.getD (s.runs.headD ⟨0, 0⟩).start 0) = .LeftToRight := by
      have : ls.getD (s.runs.headD ⟨0, 0⟩).start 0 % 2 = 0 := by
        rw [List.getD_eq_getElem?_getD]
        cases hx : ls[(s.runs.headD ⟨0, 0⟩).start]? with
        | none => rfl
        | some l => exact hls l (List.mem_of_getElem? hx)
      unfold Level.bidiClass Level.isRtl
      rw [this]; rfl
    have hw : MildAll (resolveWeakC t s xs) := by
      unfold resolveWeakC
      rw [hsos]
      exact w7C_mild _ _ (weakC_mild _ _ _ _ h rfl)
    have hK : ∀ k ∈ indices s.runs, (resolveWeakC t s xs)[k]? ≠ some .EuropeanNumber := by
      intro k hk
      unfold resolveWeakC
      rw [hsos]
      exact w7C_calm _ _ (weakC_mild _ _ _ _ h rfl) hk
    have hn := neutralC_mild (eos := s.eos) (K := indices s.runs) (indices s.runs) .LeftToRight none _ hw rfl (fun _ h => h) hK
    have he : resolveNeutralC s ls (resolveWeakC t s xs) = neutralC .LeftToRight s.eos (indices s.runs) .LeftToRight none (resolveWeakC t s xs) := by
      unfold resolveNeutralC; rw [hlv, hsos]
    obtain ⟨i1, i2⟩ := resolveSeqsC_calm (t := t) hls seqs (resolveNeutralC s ls (resolveWeakC t s xs)) (fun s' hs' => hs s' (by simp [hs'])) (by rw [he]; exact hn.1)
    refine ⟨i1, fun k hk => i2 k ?_⟩
    by_cases hks : k ∈ indices s.runs
    · left; rw [he]; exact hn.2 k hks
    · rcases hk with hk | ⟨s', hs', hk⟩
      · left
        rw [he, neutralC_off _ _ _ _ hks (by simp), resolveWeakC, w7C_off _ _ _ hks, weakC_off _ _ _ _ hks (by simp)]
        exact hk
      · rcases List.mem_cons.1 hs' with rfl | hs'
        · exact absurd hk hks
        · exact Or.inr ⟨s', hs', hk⟩

theorem predC_mem (pl : Nat) (cs : List BC) (ls : List Nat) (start : Nat) : predC pl cs ls start = pl ∨ predC pl cs ls start ∈ ls := by
  unfold predC
  cases h : (((cs.zip ls).take start).reverse.find? (fun p => !removed p.1)) with
  | none => left; rfl
  | some p =>
    right
    have := List.mem_of_find?_eq_some h
    have := List.mem_of_mem_take (List.mem_reverse.1 this)
    exact (List.of_mem_zip this).2

theorem seqsC_sos {pl : Nat} {cs : List BC} {ls : List Nat} (h : cs.length = ls.length) (hpl : pl % 2 = 0) (hls : ∀ l ∈ ls, l % 2 = 0) : ∀ s ∈ seqsC pl cs ls, s.sos = .LeftToRight := by
  obtain ⟨runs, seqs, h1, h2, h3, h4, h5, h6, h7⟩ := isolating_ok (pl := pl) h
  have hs : seqsC pl cs ls = seqs.map (boundsC pl cs ls) := by unfold seqsC; rw [h7]
  rw [hs]
  intro s hs
  obtain ⟨q, _, rfl⟩ := List.mem_map.1 hs
  have a : ls.getD (q.headD ⟨0, 0⟩).start 0 % 2 = 0 := by
    rw [List.getD_eq_getElem?_getD]
    cases hx : ls[(q.headD ⟨0, 0⟩).start]? with
    | none => rfl
    | some l => exact hls l (List.mem_of_getElem? hx)
  have b : predC pl cs ls (q.headD ⟨0, 0⟩).start % 2 = 0 := by
    rcases predC_mem pl cs ls (q.headD ⟨0, 0⟩).start with e | e
    · rw [e]; exact hpl
    · exact hls _ e
  have c : max (ls.getD (q.headD ⟨0, 0⟩).start 0) (predC pl cs ls (q.headD ⟨0, 0⟩).start) % 2 = 0 := by
    rcases Nat.le_total (ls.getD (q.headD ⟨0, 0⟩).start 0) (predC pl cs ls (q.headD ⟨0, 0⟩).start) with e | e
    · rw [Nat.max_eq_right e]; exact b
    · rw [Nat.max_eq_left e]; exact a
  unfold boundsC Level.bidiClass Level.isRtl
  simp only
  rw [c]; rfl

theorem implicitC_calm {c : BC} {l : Nat} (hc : calm c = true) (hl : l % 2 = 0) : implicitC c l = l := by
  have : Level.isRtl l = false := by unfold Level.isRtl; rw [hl]; rfl
  unfold implicitC
  rw [this]
  cases c <;> simp_all [calm]

theorem assignC_all {Q : Nat → Prop} : ∀ {cs : List BC} {ls : List Nat} {prev : Nat}, Q prev → (∀ l ∈ ls, Q l) → ∀ x ∈ assignC cs ls prev, Q x
  | [], ls, _, _, _, x, h => by cases ls <;> simp [assignC] at h
  | _ :: _, [], _, _, _, x, h => by simp [assignC] at h
  | c :: cs, l :: ls, prev, hp, hl, x, h => by
    rw [assignC] at h
    have hq : Q (if removed c = true then prev else l) := by split_ifs; exacts [hp, hl l (by simp)]
    rcases List.mem_cons.1 h with rfl | h
    · exact hq
    · exact assignC_all hq (fun m hm => hl m (by simp [hm])) x h

/-- the levels of a paragraph without right-to-left characters are explicit levels -/
theorem levelsC_ltr {t : List Nat} {pl : Nat} (hpl : pl ≤ 126) (hev : pl % 2 = 0) {cs : List BC} (hB : ∀ c ∈ cs.dropLast, c ≠ .ParagraphSeparator) (hc : ∀ c ∈ cs, noRtl c = true) {Q : Nat → Prop}
    (hp : Q pl) (hQ : ∀ l ∈ (explicitL pl cs).map Prod.fst, Q l) : ∀ x ∈ levelsC t pl cs, Q x := by
  obtain ⟨_, hlen, _, _⟩ := explicitL_ok hpl hB
  have hE := explicitL_even hev hc
  have hls : ∀ l ∈ (explicitL pl cs).map Prod.fst, l % 2 = 0 := by
    intro l hl
    obtain ⟨v, hv, rfl⟩ := List.mem_map.1 hl
    exact (hE v hv).1
  have hm : MildAll ((explicitL pl cs).map Prod.snd) := by
    intro k c hk
    obtain ⟨v, hv, rfl⟩ := List.mem_map.1 (List.mem_of_getElem? hk)
    exact (hE v hv).2
  obtain ⟨r1, r2⟩ := resolveSeqsC_calm (t := t) hls (seqsC pl cs ((explicitL pl cs).map Prod.fst)) _ (seqsC_sos (by simp [hlen]) hev hls) hm
  unfold levelsC
  refine assignC_all hp ?_
  intro x hx
  obtain ⟨k, hk⟩ := List.mem_iff_getElem?.1 hx
  rw [List.getElem?_zipWith] at hk
  cases ha : (resolvedC t pl cs)[k]? with
  | none => rw [ha] at hk; simp at hk
  | some r =>
    cases hb : ((explicitL pl cs).map Prod.fst)[k]? with
    | none => rw [ha, hb] at hk; simp at hk
    | some l =>
      rw [ha, hb] at hk
      simp only [Option.some.injEq] at hk
      have hkl : k < cs.length := by
        by_contra hn
        rw [List.getElem?_eq_none (by simp [hlen]; omega)] at hb; simp at hb
      have hr : calm r = true := by
        refine mild_calm (r1 k r ha) ?_
        rintro rfl
        exact r2 k (Or.inr (seqsC_cover (by simp [hlen]) hkl)) ha
      have hml := List.mem_of_getElem? hb
      rw [← hk, implicitC_calm hr (hls l hml)]
      exact hQ l hml

/-! ## the paragraph level and X5c -/

theorem firstStrong_mem : ∀ (cs : List BC) (d : Nat) (c : BC), firstStrong d cs = some c → c ∈ cs ∧ isStrong c = true
  | [], _, _, h => by simp [firstStrong] at h
  | a :: cs, d, c, h => by
    rw [firstStrong] at h
    split_ifs at h with h1 h2 h3
    · have := firstStrong_mem cs _ c h; exact ⟨by simp [this.1], this.2⟩
    · have := firstStrong_mem cs _ c h; exact ⟨by simp [this.1], this.2⟩
    · simp at h; subst h; exact ⟨by simp, h3.1⟩
    · have := firstStrong_mem cs _ c h; exact ⟨by simp [this.1], this.2⟩

theorem isolateStrong_mem : ∀ (cs : List BC) (d : Nat) (c : BC), isolateStrong d cs = some c → c ∈ cs ∧ isStrong c = true
  | [], _, _, h => by simp [isolateStrong] at h
  | a :: cs, d, c, h => by
    rw [isolateStrong] at h
    split_ifs at h with h1 h2 h3 h4 h5
    · have := isolateStrong_mem cs _ c h; exact ⟨by simp [this.1], this.2⟩
    · have := isolateStrong_mem cs _ c h; exact ⟨by simp [this.1], this.2⟩
    · simp at h; subst h; exact ⟨by simp, h5.1⟩
    · have := isolateStrong_mem cs _ c h; exact ⟨by simp [this.1], this.2⟩

theorem strong_ltr {c : BC} (h : isStrong c = true) (hc : noRtl c = true) : c = .LeftToRight := by cases c <;> simp_all [isStrong, noRtl]

theorem paragraphLevel_ltr {cs : List BC} (hc : ∀ c ∈ cs, noRtl c = true) : paragraphLevel cs = 0 := by
  unfold paragraphLevel
  cases h : firstStrong 0 cs with
  | none => rfl
  | some c =>
    obtain ⟨a, b⟩ := firstStrong_mem cs 0 c h
    rw [strong_ltr b (hc c a)]; rfl

theorem initial_ltr : ∀ {cs : List BC}, (∀ c ∈ cs, noRtl c = true) → ∀ c ∈ initialClasses cs, noRtl c = true
  | [], _, c, h => by simp [initialClasses] at h
  | a :: cs, hc, c, h => by
    have hc' : ∀ c ∈ cs, noRtl c = true := fun d hd => hc d (by simp [hd])
    rw [initialClasses] at h
    rcases List.mem_cons.1 h with rfl | h
    · unfold resolveFsi
      split_ifs
      · cases hs : isolateStrong 0 cs with
        | none => rfl
        | some x =>
          obtain ⟨p, q⟩ := isolateStrong_mem cs 0 x hs
          rw [strong_ltr q (hc' x p)]; rfl
      · exact hc a (by simp)
    · exact initial_ltr hc' c h

theorem initial_noFsi : ∀ {cs : List BC}, (∀ c ∈ cs, c ≠ .FirstStrongIsolate) → initialClasses cs = cs
  | [], _ => rfl
  | a :: cs, hc => by
    rw [initialClasses, initial_noFsi (fun d hd => hc d (by simp [hd]))]
    unfold resolveFsi
    rw [if_neg (hc a (by simp))]

/-- no formatting character opens anything -/
def noOpener : BC → Bool
  | .LeftToRightEmbedding | .LeftToRightOverride | .LeftToRightIsolate | .FirstStrongIsolate => false
  | _ => true

theorem explicitC_flat {pl : Nat} : ∀ (cs : List BC), (∀ c ∈ cs, noRtl c = true ∧ noOpener c = true) → ∃ l, explicitC pl cs ⟨[⟨pl, .Neutral⟩], 0, 0, 0⟩ = .ok l ∧ ∀ v ∈ l, v.1 = pl
  | [], _ => ⟨[], rfl, by simp⟩
  | c :: cs, h => by
    obtain ⟨l, h1, h2⟩ := explicitC_flat (pl := pl) cs (fun d hd => h d (by simp [hd]))
    obtain ⟨a, b⟩ := h c (by simp)
    have hs : ∃ v, Explicit.step ⟨[⟨pl, .Neutral⟩], 0, 0, 0⟩ c pl c = .ok (⟨[⟨pl, .Neutral⟩], 0, 0, 0⟩, v) ∧ (v.getD (pl, c)).1 = pl := by
      cases c <;> simp only [noRtl, noOpener, Bool.false_eq_true] at a b <;> exact ⟨_, rfl, rfl⟩
    obtain ⟨v, hv, hv2⟩ := hs
    refine ⟨v.getD (pl, c) :: l, ?_, ?_⟩
    · rw [explicitC, hv, bind_ok]
      simp only
      rw [h1]; rfl
    · intro x hx
      rcases List.mem_cons.1 hx with rfl | hx
      · exact hv2
      · exact h2 x hx

theorem explicitL_flat {pl : Nat} {cs : List BC} (h : ∀ c ∈ cs, noRtl c = true ∧ noOpener c = true) : ∀ l ∈ (explicitL pl cs).map Prod.fst, l = pl := by
  obtain ⟨l, h1, h2⟩ := explicitC_flat (pl := pl) cs h
  unfold explicitL
  rw [h1]
  intro x hx
  obtain ⟨v, hv, rfl⟩ := List.mem_map.1 hx
  exact h2 v hv

/-- the levels of a text, from those of its paragraphs -/
theorem textLevels_all {cls : Nat → BC} {dflt : Option Nat} {text : List Nat} {Q : Nat → Prop}
    (h : ∀ p : List Nat, (∀ c ∈ p, c ∈ text) → (∀ c ∈ p.dropLast, cls c ≠ .ParagraphSeparator) → ∀ l ∈ paraLevels cls dflt p, Q l) : ∀ l ∈ textLevels cls dflt text, Q l := by
  obtain ⟨h1, h2, _⟩ := splitParas_ok cls text
  intro l hl
  obtain ⟨p, hp, hlp⟩ := List.mem_flatMap.1 hl
  refine h p (fun c hc => ?_) (h2 p hp).2 l hlp
  rw [← h1]
  exact List.mem_flatten.2 ⟨p, hp, hc⟩

theorem dropLast_initial {cs : List BC} (h : ∀ c ∈ cs.dropLast, c ≠ BidiClass.ParagraphSeparator) : ∀ c ∈ (initialClasses cs).dropLast, c ≠ BidiClass.ParagraphSeparator := by
  exact initialClasses_dropLast h

theorem textLevels_even {cls : Nat → BC} {dflt : Option Nat} (hd : ∀ d, dflt = some d → d ≤ 125 ∧ d % 2 = 0) {text : List Nat} (hc : ∀ c ∈ text, noRtl (cls c) = true) :
    ∀ l ∈ textLevels cls dflt text, l % 2 = 0 ∧ l ≤ 125 := by
  refine textLevels_all ?_
  intro p hp hB
  have hcs : ∀ c ∈ p.map cls, noRtl c = true := by
    intro c hc'
    obtain ⟨x, hx, rfl⟩ := List.mem_map.1 hc'
    exact hc x (hp x hx)
  have hpl : dflt.getD (paragraphLevel (p.map cls)) ≤ 125 ∧ dflt.getD (paragraphLevel (p.map cls)) % 2 = 0 := by
    cases dflt with
    | none => rw [Option.getD_none, paragraphLevel_ltr hcs]; exact ⟨by omega, rfl⟩
    | some d => exact hd d rfl
  have hB' := dropLast_initial (cs := p.map cls) (by
    rw [← List.map_dropLast]
    intro c hc'
    obtain ⟨x, hx, rfl⟩ := List.mem_map.1 hc'
    exact hB x hx)
  have hi := initial_ltr hcs
  unfold paraLevels
  refine levelsC_ltr (by omega) hpl.2 hB' hi ⟨hpl.2, hpl.1⟩ ?_
  intro l hl
  refine ⟨?_, explicitL_le hpl.1 hB' l hl⟩
  obtain ⟨v, hv, rfl⟩ := List.mem_map.1 hl
  exact (explicitL_even hpl.2 hi v hv).1

theorem textLevels_zero {cls : Nat → BC} {dflt : Option Nat} (hd : ∀ d, dflt = some d → d = 0) {text : List Nat} (hc : ∀ c ∈ text, noRtl (cls c) = true ∧ noOpener (cls c) = true) :
    ∀ l ∈ textLevels cls dflt text, l = 0 := by
  refine textLevels_all ?_
  intro p hp hB
  have hcs : ∀ c ∈ p.map cls, noRtl c = true ∧ noOpener c = true := by
    intro c hc'
    obtain ⟨x, hx, rfl⟩ := List.mem_map.1 hc'
    exact hc x (hp x hx)
  have hpl : dflt.getD (paragraphLevel (p.map cls)) = 0 := by
    cases dflt with
    | none => rw [Option.getD_none, paragraphLevel_ltr (fun c h => (hcs c h).1)]
    | some d => exact hd d rfl
  have hB' : ∀ c ∈ (p.map cls).dropLast, c ≠ BidiClass.ParagraphSeparator := by
    rw [← List.map_dropLast]
    intro c hc'
    obtain ⟨x, hx, rfl⟩ := List.mem_map.1 hc'
    exact hB x hx
  unfold paraLevels
  rw [hpl, initial_noFsi (fun c h e => by have := (hcs c h).2; rw [e] at this; simp [noOpener] at this)]
  exact levelsC_ltr (by omega) rfl hB' (fun c h => (hcs c h).1) rfl (explicitL_flat hcs)

end Proofs.Bidi
