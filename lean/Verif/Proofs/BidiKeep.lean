import Verif.Proofs.BidiPara

/-! # Which classes the passes of `implicit.rs` keep -/
namespace Proofs.Bidi
open Model Model.Bidi Data Proofs.Punycode Model.Grapheme Proofs.Grapheme Spec.Bidi

/-- strong classes and AN -/
def kept : BC → Bool
  | .LeftToRight | .RightToLeft | .ArabicLetter | .ArabicNumber => true
  | _ => false

/-- W3 -/
def w3 (c : BC) : BC := if c = .ArabicLetter then .RightToLeft else c

theorem kept_new {c prev next : BC} {m : Nat} (h : kept c = true) : newClass m c prev next = w3 c := by cases c <;> simp_all [kept, newClass, w3]
theorem kept_not_removed {c : BC} (h : kept c = true) : removed c = false := by cases c <;> simp_all [kept, removed]
theorem w3_kept {c : BC} (h : kept c = true) : kept (w3 c) = true := by cases c <;> simp_all [kept, w3]
theorem w3_w3 (c : BC) : w3 (w3 c) = w3 c := by cases c <;> simp [w3]

theorem weakC_keep {t : List Nat} {eos : BC} {k : Nat} {c : BC} (hc : kept c = true) : ∀ (ks : List Nat) (xs : List BC) (prev : BC) (es : List Nat),
    xs[k]? = some c → (∀ j ∈ es, xs[j]? = some .EuropeanTerminator) → (weakC t eos ks xs prev es)[k]? = some (if k ∈ ks then w3 c else c)
  | [], xs, _, _, h, _ => by simp [weakC, h]
  | j :: ks, xs, prev, es, h, he => by
    have hkes : k ∉ es := by intro e; rw [he k e] at h; cases h; simp [kept] at hc
    simp only [weakC]
    by_cases hjk : k = j
    · subst hjk
      have hg : xs.getD k .OtherNeutral = c := by rw [List.getD_eq_getElem?_getD, h]; rfl
      have hlt : k < xs.length := by by_contra hn; rw [List.getElem?_eq_none (by omega)] at h; simp at h
      rw [hg, kept_not_removed hc]
      have hx : newClass (Utf.lenUtf8 (t.getD k 0)) c prev (nextC xs eos ks) = w3 c := kept_new hc
      have hw := w3_kept hc
      have hne : w3 c ≠ .EuropeanTerminator := by intro e; rw [e] at hw; simp [kept] at hw
      have hne2 : c ≠ .EuropeanNumber := by intro e; rw [e] at hc; simp [kept] at hc
      simp only [hx, Bool.false_eq_true, if_false, if_neg hne, if_neg hne2]
      rw [weakC_keep hw ks _ _ [] _ (by simp)]
      · have h1 : k ∈ k :: ks := by simp
        rw [if_pos h1, w3_w3, ite_self]
      · rw [setAll_getElem?, if_neg (fun e => hkes e.1), List.getElem?_set_self hlt]
    · have hmem : (k ∈ j :: ks) ↔ k ∈ ks := by simp [hjk]
      simp only [hmem]
      have hET : ∀ (es' : List Nat), (∀ i ∈ es', i ∈ es ∨ (i = j ∧ xs.getD j .OtherNeutral = .EuropeanTerminator)) →
          ∀ i ∈ es', (xs.set j .EuropeanTerminator)[i]? = some .EuropeanTerminator := by
        intro es' hes i hi
        have hxi : xs[i]? = some .EuropeanTerminator := by
          rcases hes i hi with h' | ⟨rfl, h'⟩
          · exact he i h'
          · rw [List.getD_eq_getElem?_getD] at h'
            cases hx : xs[i]? with
            | none => rw [hx] at h'; simp at h'
            | some y => rw [hx] at h'; simp at h'; rw [h']
        by_cases hij : j = i
        · subst hij
          rw [List.getElem?_set_self (by by_contra hn; rw [List.getElem?_eq_none (by omega)] at hxi; simp at hxi)]
        · rw [List.getElem?_set_ne hij]; exact hxi
      by_cases h1 : removed (xs.getD j .OtherNeutral) = true
      · rw [if_pos h1]; exact weakC_keep hc ks xs prev es h he
      · rw [if_neg h1]
        by_cases h2 : newClass (Utf.lenUtf8 (t.getD j 0)) (xs.getD j .OtherNeutral) prev (nextC xs eos ks) = .EuropeanTerminator
        · rw [if_pos h2, h2]
          refine weakC_keep hc ks _ _ _ (by rw [List.getElem?_set_ne (Ne.symm hjk)]; exact h) (hET _ ?_)
          intro i hi
          split_ifs at hi with h3
          · rcases List.mem_append.1 hi with hi | hi
            · exact Or.inl hi
            · simp at hi; exact Or.inr ⟨hi, h3⟩
          · exact Or.inl hi
        · rw [if_neg h2]
          exact weakC_keep hc ks _ _ [] (by rw [setAll_getElem?, if_neg (fun e => hkes e.1), List.getElem?_set_ne (Ne.symm hjk)]; exact h) (by simp)

theorem w7C_keep {k : Nat} {c : BC} (hc : kept c = true) : ∀ (ks : List Nat) (l : Bool) (xs : List BC), xs[k]? = some c → (w7C ks l xs)[k]? = some c
  | [], _, xs, h => h
  | j :: ks, l, xs, h => by
    simp only [w7C]
    split
    · rename_i hj
      split_ifs
      · refine w7C_keep hc ks _ _ ?_
        rw [List.getElem?_set_ne]
        · exact h
        · rintro rfl
          rw [List.getD_eq_getElem?_getD, h] at hj
          simp at hj; subst hj; simp [kept] at hc
      · exact w7C_keep hc ks _ _ h
    all_goals exact w7C_keep hc ks _ _ h

theorem resolveWeakC_keep {t : List Nat} {seq : IsoSeq} {xs : List BC} {k : Nat} {c : BC} (hc : kept c = true) (h : xs[k]? = some c) :
    (resolveWeakC t seq xs)[k]? = some (if k ∈ indices seq.runs then w3 c else c) := by
  unfold resolveWeakC
  refine w7C_keep ?_ _ _ _ (weakC_keep hc _ _ _ [] h (by simp))
  split_ifs
  · exact w3_kept hc
  · exact hc

/-- neutrals are the only classes N1 and N2 change -/
theorem neutralC_keep {e eos : BC} {k : Nat} {c : BC} (hc : isNI c = false) : ∀ (ks : List Nat) (prev : BC) (run : Option (List Nat)) (xs : List BC),
    xs[k]? = some c → (∀ r, run = some r → k ∉ r) → (neutralC e eos ks prev run xs)[k]? = some c
  | [], _, none, xs, h, _ => h
  | [], prev, some run, xs, h, hr => by
    rw [neutralC, setAll_getElem?, if_neg (fun e => hr run rfl e.1)]; exact h
  | j :: ks, prev, none, xs, h, _ => by
    rw [neutralC]
    split_ifs with hn
    · refine neutralC_keep hc ks _ _ _ h ?_
      rintro r ⟨⟩ hk
      simp at hk; subst hk
      rw [List.getD_eq_getElem?_getD, h] at hn
      simp [hc] at hn
    · exact neutralC_keep hc ks _ _ _ h (by simp)
  | j :: ks, prev, some run, xs, h, hr => by
    rw [neutralC]
    split_ifs with h1 h2
    · exact neutralC_keep hc ks _ _ _ h hr
    · refine neutralC_keep hc ks _ _ _ h ?_
      rintro r ⟨⟩ hk
      rcases List.mem_append.1 hk with hk | hk
      · exact hr run rfl hk
      · simp at hk; subst hk
        rw [List.getD_eq_getElem?_getD, h] at h2
        simp [hc] at h2
    · refine neutralC_keep hc ks _ _ _ ?_ (by simp)
      rw [setAll_getElem?, if_neg (fun e => hr run rfl e.1)]; exact h

theorem kept_not_ni {c : BC} (h : kept c = true) : isNI c = false := by cases c <;> simp_all [kept, isNI]

theorem resolveSeqsC_keep {t : List Nat} {ls : List Nat} {k : Nat} : ∀ (seqs : List IsoSeq) (xs : List BC) (c : BC), kept c = true → xs[k]? = some c →
    (resolveSeqsC t ls seqs xs)[k]? = some (if ∃ s ∈ seqs, k ∈ indices s.runs then w3 c else c)
  | [], xs, c, _, h => by simp [resolveSeqsC, h]
  | s :: seqs, xs, c, hc, h => by
    show (resolveSeqsC t ls seqs (resolveNeutralC s ls (resolveWeakC t s xs)))[k]? = _
    have h1 := resolveWeakC_keep (t := t) (seq := s) hc h
    have hk : kept (if k ∈ indices s.runs then w3 c else c) = true := by split_ifs; exacts [w3_kept hc, hc]
    have h2 : (resolveNeutralC s ls (resolveWeakC t s xs))[k]? = some (if k ∈ indices s.runs then w3 c else c) :=
      neutralC_keep (kept_not_ni hk) _ _ _ _ h1 (by simp)
    rw [resolveSeqsC_keep seqs _ _ hk h2]
    by_cases a : k ∈ indices s.runs <;> by_cases b : ∃ s ∈ seqs, k ∈ indices s.runs <;> simp [a, b, w3_w3]

/-- every character of the paragraph is in a sequence -/
theorem seqsC_cover {pl : Nat} {cs : List BC} {ls : List Nat} (h : cs.length = ls.length) {k : Nat} (hk : k < cs.length) : ∃ s ∈ seqsC pl cs ls, k ∈ indices s.runs := by
  obtain ⟨runs, seqs, h1, h2, h3, h4, h5, h6, h7⟩ := isolating_ok (pl := pl) h
  have hs : seqsC pl cs ls = seqs.map (boundsC pl cs ls) := by unfold seqsC; rw [h7]
  have hk' : k ∈ indices runs := by rw [tiles_indices h3, List.mem_range'_1]; omega
  obtain ⟨r, hr, hkr⟩ := List.mem_flatMap.1 hk'
  obtain ⟨s, hs', hrs⟩ := List.mem_flatten.1 ((h4.mem_iff).2 hr)
  refine ⟨boundsC pl cs ls s, by rw [hs]; exact List.mem_map.2 ⟨s, hs', rfl⟩, ?_⟩
  exact List.mem_flatMap.2 ⟨r, hrs, hkr⟩

/-- what happens to the characters whose class after the explicit rules is strong or AN -/
theorem resolvedC_keep {t : List Nat} {pl : Nat} (hpl : pl ≤ 126) {cs : List BC} (hB : ∀ c ∈ cs.dropLast, c ≠ .ParagraphSeparator) {k : Nat} {v : Nat × BC}
    (hv : (explicitL pl cs)[k]? = some v) (hc : kept v.2 = true) : (resolvedC t pl cs)[k]? = some (w3 v.2) := by
  obtain ⟨_, hl, _, _⟩ := explicitL_ok hpl hB
  have hk : k < cs.length := by
    by_contra hn
    rw [List.getElem?_eq_none (by omega)] at hv; simp at hv
  unfold resolvedC
  simp only
  rw [resolveSeqsC_keep _ _ v.2 hc (by rw [List.getElem?_map, hv]; rfl), if_pos (seqsC_cover (by simp [hl]) hk)]

/-- the level of a character that is not removed -/
theorem assignC_get : ∀ {cs : List BC} {ls : List Nat} {prev k : Nat} {c : BC} {l : Nat}, cs[k]? = some c → removed c = false → ls[k]? = some l → (assignC cs ls prev)[k]? = some l
  | a :: cs, m :: ls, prev, 0, c, l, h1, h2, h3 => by
    simp at h1 h3; subst h1; subst h3
    simp [assignC, h2]
  | a :: cs, m :: ls, prev, k + 1, c, l, h1, h2, h3 => by
    rw [List.getElem?_cons_succ] at h1 h3
    rw [assignC, List.getElem?_cons_succ]
    exact assignC_get h1 h2 h3
  | [], _, _, _, _, _, h1, _, _ => by simp at h1
  | _ :: _, [], _, _, _, _, _, _, h3 => by simp at h3

/-- the level of a removed character is that of the one before -/
theorem assignC_removed : ∀ {cs : List BC} {ls : List Nat} {prev k : Nat} {c : BC}, cs.length = ls.length → cs[k]? = some c → removed c = true →
    (assignC cs ls prev)[k]? = if k = 0 then some prev else (assignC cs ls prev)[k - 1]?
  | a :: cs, m :: ls, prev, 0, c, _, h1, h2 => by
    simp at h1; subst h1
    simp [assignC, h2]
  | a :: cs, m :: ls, prev, k + 1, c, hl, h1, h2 => by
    rw [List.getElem?_cons_succ] at h1
    have ih := assignC_removed (prev := if removed a then prev else m) (show cs.length = ls.length by simpa using hl) h1 h2
    rw [if_neg (Nat.succ_ne_zero k), assignC, List.getElem?_cons_succ, ih, Nat.add_sub_cancel]
    cases k with
    | zero => simp
    | succ k => simp
  | [], _, _, _, _, _, h1, _ => by simp at h1
  | _ :: _, [], _, _, _, h, _, _ => by simp at h

theorem implicitC_ge (c : BC) (l : Nat) : l ≤ implicitC c l ∧ implicitC c l ≤ l + 2 := by
  unfold implicitC; split <;> omega

/-- the level of a character of the paragraph that is not removed -/
theorem levelsC_get {t : List Nat} {pl : Nat} (hpl : pl ≤ 126) {cs : List BC} (hB : ∀ c ∈ cs.dropLast, c ≠ .ParagraphSeparator) {k : Nat} {l : Nat} {c : BC}
    (hx : (explicit pl cs)[k]? = some (some (l, c))) :
    (explicitL pl cs)[k]? = some (l, c) ∧ ∃ r, (resolvedC t pl cs)[k]? = some r ∧ (levelsC t pl cs)[k]? = some (implicitC r l) := by
  obtain ⟨_, h2, h3, h4⟩ := explicitL_ok hpl hB
  have hk : k < cs.length := by
    by_contra hn
    rw [List.getElem?_eq_none (by omega)] at hx; simp at hx
  have hag := h4 k _ _ _ (List.getElem?_eq_getElem hk) (List.getElem?_eq_getElem (show k < (explicitL pl cs).length by omega)) hx
  have hv : (explicitL pl cs)[k]? = some (l, c) := by
    rw [List.getElem?_eq_getElem (show k < (explicitL pl cs).length by omega), hag.1 _ rfl]
  have hrem : removed cs[k] = false := by
    cases hr : removed cs[k] with
    | false => rfl
    | true => have := hag.2.1.1 hr; simp at this
  have hrl : (resolvedC t pl cs).length = cs.length := by unfold resolvedC; simp [resolveSeqsC_length, h2]
  refine ⟨hv, (resolvedC t pl cs)[k]'(by omega), List.getElem?_eq_getElem (by omega), ?_⟩
  unfold levelsC
  refine assignC_get (List.getElem?_eq_getElem hk) hrem ?_
  have hlv : ((explicitL pl cs).map Prod.fst)[k]? = some l := by rw [List.getElem?_map, hv]; rfl
  rw [List.getElem?_zipWith, List.getElem?_eq_getElem (show k < (resolvedC t pl cs).length by omega), hlv]

end Proofs.Bidi
