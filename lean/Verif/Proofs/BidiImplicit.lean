import Verif.Proofs.BidiWeak

/-! # `implicit.rs` and `BidiInfo::new`, one entry per character -/
namespace Proofs.Bidi
open Model Model.Bidi Data Proofs.Punycode Model.Grapheme Proofs.Grapheme Spec.Bidi

/-! ## neutrals -/

/-- the loops of `resolve_neutral` on characters -/
def neutralC (e eos : BC) : (ks : List Nat) → (prev : BC) → (run : Option (List Nat)) → (xs : List BC) → List BC
  | [], _, none, xs => xs
  | [], prev, some run, xs => setAll xs run (neutralClass prev eos e)
  | k :: ks, prev, none, xs =>
    if isNI (xs.getD k .OtherNeutral) then neutralC e eos ks prev (some [k]) xs else neutralC e eos ks (xs.getD k .OtherNeutral) none xs
  | k :: ks, prev, some run, xs =>
    if removed (xs.getD k .OtherNeutral) then neutralC e eos ks prev (some run) xs
    else if isNI (xs.getD k .OtherNeutral) then neutralC e eos ks prev (some (run ++ [k])) xs
    else neutralC e eos ks (xs.getD k .OtherNeutral) none (setAll xs run (neutralClass prev (xs.getD k .OtherNeutral) e))

theorem neutralC_length (e eos : BC) : ∀ (ks : List Nat) (prev : BC) (run : Option (List Nat)) (xs : List BC), (neutralC e eos ks prev run xs).length = xs.length
  | [], _, none, _ => rfl
  | [], _, some _, _ => by simp [neutralC]
  | k :: ks, prev, none, xs => by simp only [neutralC]; split_ifs <;> simp [neutralC_length]
  | k :: ks, prev, some run, xs => by simp only [neutralC]; split_ifs <;> simp [neutralC_length]

theorem ni_not_removed {c : BC} (h : isNI c = true) : removed c = false := by cases c <;> simp_all [isNI, removed]

/-- bytes of a neutral character inside a run of neutrals -/
theorem neutral_run {e eos c prev : BC} (h : isNI c = true) (rest : List Nat) (P : List BC) : ∀ (bs run : List Nat), (∀ b ∈ bs, P[b]? = some c) →
    neutralLoop e eos (bs ++ rest) prev (some run) P = neutralLoop e eos rest prev (some (run ++ bs)) P
  | [], run, _ => by simp
  | b :: bs, run, hc => by
    rw [List.cons_append, neutralLoop]
    simp only [at_ok (hc b (by simp)), bind_ok, ni_not_removed h, h, Bool.false_eq_true, if_false, if_true]
    rw [neutral_run h rest P bs (run ++ [b]) (fun b' hb' => hc b' (by simp [hb']))]
    simp

/-- bytes of a removed character inside a run of neutrals -/
theorem neutral_removed {e eos c prev : BC} (h : removed c = true) (rest run : List Nat) (P : List BC) : ∀ (bs : List Nat), (∀ b ∈ bs, P[b]? = some c) →
    neutralLoop e eos (bs ++ rest) prev (some run) P = neutralLoop e eos rest prev (some run) P
  | [], _ => rfl
  | b :: bs, hc => by
    rw [List.cons_append, neutralLoop]
    simp only [at_ok (hc b (by simp)), bind_ok, h, if_true]
    exact neutral_removed h rest run P bs (fun b' hb' => hc b' (by simp [hb']))

/-- bytes of another character outside of runs -/
theorem neutral_other {e eos c : BC} (h : isNI c = false) (rest : List Nat) (P : List BC) : ∀ (bs : List Nat) (prev : BC), (∀ b ∈ bs, P[b]? = some c) →
    neutralLoop e eos (bs ++ rest) prev none P = neutralLoop e eos rest (if bs = [] then prev else c) none P
  | [], prev, _ => by simp
  | b :: bs, prev, hc => by
    rw [List.cons_append, neutralLoop]
    simp only [at_ok (hc b (by simp)), bind_ok, h, Bool.false_eq_true, if_false]
    rw [neutral_other h rest P bs c (fun b' hb' => hc b' (by simp [hb']))]
    simp

/-- the loops of `resolve_neutral` on the bytes are those on the characters -/
theorem neutral_expand {t : List Nat} {e eos : BC} : ∀ (ks : List Nat) (prev : BC) (run : Option (List Nat)) (xs : List BC), xs.length = t.length →
    (∀ k ∈ ks, k < t.length) → (∀ r, run = some r → ∀ k ∈ r, k < t.length ∧ k ∉ ks) → ks.Nodup →
    neutralLoop e eos (ks.flatMap (block t)) prev (run.map (fun r => r.flatMap (block t))) (expand t xs) = .ok (expand t (neutralC e eos ks prev run xs))
  | [], prev, none, xs, _, _, _, _ => rfl
  | [], prev, some run, xs, h, _, hr, _ => by
    simp only [List.flatMap_nil, Option.map_some, neutralLoop, neutralC]
    have hr' : ∀ k ∈ run, k < t.length := fun k hk => (hr run rfl k hk).1
    rw [putAll_ok, expand_setAll _ _ _ h hr']
    intro j hj
    obtain ⟨k, hk, hjk⟩ := List.mem_flatMap.1 hj
    rw [expand_length _ _ h]
    exact block_in (hr' k hk) hjk
  | k :: ks, prev, run, xs, h, hks, hr, hn => by
    obtain ⟨n1, n2⟩ := List.nodup_cons.1 hn
    have hk := hks k (by simp)
    have hks' : ∀ j ∈ ks, j < t.length := fun j hj => hks j (by simp [hj])
    have hb := block_get h hk BidiClass.OtherNeutral
    obtain ⟨b0, bs, hbk⟩ : ∃ b0 bs, block t k = b0 :: bs := by
      apply List.exists_cons_of_ne_nil
      intro e'
      have := (mem_block hk).2 ⟨Nat.le_refl (off t k), by rw [Nat.sub_self]; exact len_pos _⟩
      rw [e'] at this; simp at this
    have hb0 := hb b0 (by rw [hbk]; simp)
    have hbs : ∀ b ∈ bs, (expand t xs)[b]? = some (xs.getD k .OtherNeutral) := fun b hb' => hb b (by rw [hbk]; simp [hb'])
    rw [List.flatMap_cons]
    cases run with
    | none =>
      simp only [Option.map_none, neutralC]
      split_ifs with hni
      · have ih := neutral_expand (t := t) (e := e) (eos := eos) ks prev (some [k]) xs h hks' (by
          intro r hr' j hj; cases hr'; simp at hj; subst hj; exact ⟨hk, n1⟩) n2
        rw [← ih, hbk, List.cons_append, neutralLoop]
        simp only [at_ok hb0, bind_ok, hni, if_true]
        rw [neutral_run hni _ _ bs [b0] hbs]
        simp [hbk]
      · have ih := neutral_expand (t := t) (e := e) (eos := eos) ks (xs.getD k .OtherNeutral) none xs h hks' (by simp) n2
        simp only [Bool.not_eq_true] at hni
        rw [← ih, neutral_other hni _ _ _ _ hb, if_neg (by rw [hbk]; simp)]
        rfl
    | some run =>
      have hrun := hr run rfl
      have hrun' : ∀ j ∈ run, j < t.length ∧ j ∉ ks := fun j hj => ⟨(hrun j hj).1, fun e' => (hrun j hj).2 (by simp [e'])⟩
      simp only [Option.map_some, neutralC]
      split_ifs with hrm hni
      · have ih := neutral_expand (t := t) (e := e) (eos := eos) ks prev (some run) xs h hks' (by intro r hr'; cases hr'; exact hrun') n2
        rw [← ih, neutral_removed hrm _ _ _ _ hb]
        rfl
      · have ih := neutral_expand (t := t) (e := e) (eos := eos) ks prev (some (run ++ [k])) xs h hks' (by
          intro r hr' j hj; cases hr'
          rcases List.mem_append.1 hj with hj | hj
          · exact hrun' j hj
          · simp at hj; subst hj; exact ⟨hk, n1⟩) n2
        rw [← ih, neutral_run hni _ _ _ _ hb]
        simp
      · have ih := neutral_expand (t := t) (e := e) (eos := eos) ks (xs.getD k .OtherNeutral) none
          (setAll xs run (neutralClass prev (xs.getD k .OtherNeutral) e)) (by simpa using h) hks' (by simp) n2
        simp only [Bool.not_eq_true] at hni hrm
        have hkr : k ∉ run := fun e' => (hrun k e').2 (by simp)
        rw [← ih, hbk, List.cons_append, neutralLoop]
        have hin : ∀ j ∈ run.flatMap (block t), j < (expand t xs).length := by
          intro j hj
          obtain ⟨k', hk', hjk⟩ := List.mem_flatMap.1 hj
          rw [expand_length _ _ h]
          exact block_in (hrun k' hk').1 hjk
        simp only [at_ok hb0, bind_ok, hni, hrm, Bool.false_eq_true, if_false]
        rw [putAll_ok hin, bind_ok, expand_setAll _ _ _ h (fun j hj => (hrun j hj).1)]
        have hget : (setAll xs run (neutralClass prev (xs.getD k .OtherNeutral) e)).getD k .OtherNeutral = xs.getD k .OtherNeutral := by
          rw [List.getD_eq_getElem?_getD, setAll_getElem?, if_neg (fun e' => hkr e'.1), List.getD_eq_getElem?_getD]
        have hb2 := block_get (xs := setAll xs run (neutralClass prev (xs.getD k .OtherNeutral) e)) (by simpa using h) hk BidiClass.OtherNeutral
        rw [hget] at hb2
        rw [at_ok (hb2 b0 (by rw [hbk]; simp)), bind_ok, neutral_other hni _ _ bs _ (fun b hb' => hb2 b (by rw [hbk]; simp [hb']))]
        simp

/-- `resolve_neutral` on characters -/
def resolveNeutralC (seq : IsoSeq) (ls : List Nat) (xs : List BC) : List BC :=
  neutralC (Level.bidiClass (ls.getD (seq.runs.headD ⟨0, 0⟩).start 0)) seq.eos (indices seq.runs) seq.sos none xs

theorem resolveNeutral_expand {t : List Nat} {seq : IsoSeq} {ls : List Nat} {xs : List BC} (h : xs.length = t.length) (hl : ls.length = t.length) (hne : seq.runs ≠ [])
    (hr : ∀ r ∈ seq.runs, r.start < r.stop ∧ r.stop ≤ t.length) (hn : (indices seq.runs).Nodup) :
    resolveNeutral (mapSeq t seq) (expand t ls) (expand t xs) = .ok (expand t (resolveNeutralC seq ls xs)) := by
  have hi := indices_map hr
  unfold resolveNeutral mapSeq resolveNeutralC
  simp only
  have h2 := neutral_expand (t := t) (e := Level.bidiClass (ls.getD (seq.runs.headD ⟨0, 0⟩).start 0)) (eos := seq.eos) (indices seq.runs) seq.sos none xs h (indices_lt hr)
    (by simp) hn
  rw [← h2, hi]
  cases hs : seq.runs with
  | nil => exact absurd hs hne
  | cons r rs =>
    have hrr := hr r (by rw [hs]; simp)
    simp only [List.map_cons, mapRun]
    rw [at_ok (by rw [expand_at hl (by omega), List.getElem?_eq_getElem (by omega)]), bind_ok]
    rw [List.headD_cons, getD_of_lt (by omega)]
    rfl

/-- all sequences, on characters -/
def resolveSeqsC (t : List Nat) (ls : List Nat) (seqs : List IsoSeq) (xs : List BC) : List BC :=
  seqs.foldl (fun xs seq => resolveNeutralC seq ls (resolveWeakC t seq xs)) xs

theorem resolveWeakC_length (t : List Nat) (seq : IsoSeq) (xs : List BC) : (resolveWeakC t seq xs).length = xs.length := by
  unfold resolveWeakC; rw [w7C_length, weakC_length]

theorem resolveNeutralC_length (seq : IsoSeq) (ls : List Nat) (xs : List BC) : (resolveNeutralC seq ls xs).length = xs.length := by
  unfold resolveNeutralC; rw [neutralC_length]

theorem resolveSeqsC_length (t : List Nat) (ls : List Nat) : ∀ (seqs : List IsoSeq) (xs : List BC), (resolveSeqsC t ls seqs xs).length = xs.length
  | [], _ => rfl
  | s :: seqs, xs => by
    show (resolveSeqsC t ls seqs _).length = _
    rw [resolveSeqsC_length t ls seqs, resolveNeutralC_length, resolveWeakC_length]

theorem resolveSeqs_expand {t : List Nat} {ls : List Nat} (hl : ls.length = t.length) : ∀ (seqs : List IsoSeq) (xs : List BC), xs.length = t.length →
    (∀ s ∈ seqs, s.runs ≠ [] ∧ (∀ r ∈ s.runs, r.start < r.stop ∧ r.stop ≤ t.length) ∧ (indices s.runs).Nodup ∧ s.sos ≠ .ArabicLetter) →
    resolveSeqs (expand t ls) (seqs.map (mapSeq t)) (expand t xs) = .ok (expand t (resolveSeqsC t ls seqs xs))
  | [], xs, _, _ => rfl
  | s :: seqs, xs, h, hs => by
    obtain ⟨h1, h2, h3, h4⟩ := hs s (by simp)
    rw [List.map_cons, resolveSeqs, resolveWeak_expand h h2 h3 h4, bind_ok,
      resolveNeutral_expand (by rw [resolveWeakC_length]; exact h) hl h1 h2 h3, bind_ok,
      resolveSeqs_expand hl seqs _ (by rw [resolveNeutralC_length, resolveWeakC_length]; exact h) (fun s' hs' => hs s' (by simp [hs']))]
    rfl

/-! ## levels -/

/-- I1, I2 -/
def implicitC (c : BC) (l : Nat) : Nat :=
  match Level.isRtl l, c with
  | true, .LeftToRight => l + 1
  | false, .RightToLeft => l + 1
  | true, .EuropeanNumber => l + 1
  | true, .ArabicNumber => l + 1
  | false, .ArabicNumber => l + 2
  | false, .EuropeanNumber => l + 2
  | _, _ => l

theorem implicitC_le {c : BC} {l : Nat} (h : l ≤ 125) : implicitC c l ≤ 126 := by
  unfold implicitC
  have hp : Level.isRtl l = false → l ≤ 124 := by
    intro e; unfold Level.isRtl at e; simp at e; omega
  split <;> first | omega | (have := hp (by assumption); omega)

theorem implicitLevel_ok {c : BC} {l : Nat} (h : implicitC c l ≤ 126) : implicitLevel c l = .ok (implicitC c l) := by
  have hr : ∀ a, l + a ≤ 126 → Level.raise l a = (l + a, true) := by
    intro a ha
    unfold Level.raise Level.checkedAdd
    rw [if_pos (by omega)]
    simp only
    rw [if_pos (by exact ha)]
  unfold implicitLevel implicitC at *
  cases hl : Level.isRtl l <;> cases c <;> simp only [hl] at h ⊢ <;> first | rfl | (simp only [hr _ h]; rfl)

theorem implicitLevel_panic {c : BC} {l : Nat} (h : 126 < implicitC c l) (hl : l ≤ 126) : implicitLevel c l = .panic := by
  have hr : ∀ a, 126 < l + a → Level.raise l a = (l, false) := by
    intro a ha
    unfold Level.raise Level.checkedAdd
    split_ifs with h1
    · simp only; rw [if_neg (show ¬ l + a ≤ 126 by omega)]
    · rfl
  unfold implicitLevel implicitC at *
  cases hl : Level.isRtl l <;> cases c <;> simp only [hl] at h ⊢ <;> first | omega | (simp only [hr _ h]; rfl)

theorem resolveLevels_block {c : BC} {l : Nat} (h : implicitC c l ≤ 126) (cs : List BC) (ls : List Nat) : ∀ n : Nat,
    resolveLevels (List.replicate n c ++ cs) (List.replicate n l ++ ls) = (do let r ← resolveLevels cs ls; return List.replicate n (implicitC c l) ++ r)
  | 0 => by simp only [List.replicate_zero, List.nil_append]; cases resolveLevels cs ls <;> rfl
  | n + 1 => by
    rw [List.replicate_succ, List.replicate_succ, List.cons_append, List.cons_append, resolveLevels, implicitLevel_ok h, bind_ok, resolveLevels_block h cs ls n]
    cases resolveLevels cs ls <;> rfl

theorem resolveLevels_expand : ∀ (t : List Nat) (cs : List BC) (ls : List Nat), cs.length = t.length → ls.length = t.length → (∀ l ∈ ls, l ≤ 125) →
    resolveLevels (expand t cs) (expand t ls) = .ok (expand t (List.zipWith implicitC cs ls))
  | [], _, _, _, _, _ => by simp [resolveLevels]
  | c :: t, x :: cs, l :: ls, h1, h2, hl => by
    rw [expand_cons, expand_cons, resolveLevels_block (implicitC_le (hl l (by simp))),
      resolveLevels_expand t cs ls (by simpa using h1) (by simpa using h2) (fun m hm => hl m (by simp [hm])), bind_ok]
    rfl
  | _ :: _, [], _, h, _, _ => by simp at h
  | _ :: _, _ :: _, [], _, h, _ => by simp at h

/-- `assign_levels_to_removed_chars` on characters -/
def assignC : (classes : List BC) → (levels : List Nat) → (prev : Nat) → List Nat
  | c :: cs, l :: ls, prev => (if removed c then prev else l) :: assignC cs ls (if removed c then prev else l)
  | _, _, _ => []

theorem assignC_length : ∀ (cs : List BC) (ls : List Nat) (prev : Nat), cs.length = ls.length → (assignC cs ls prev).length = ls.length
  | [], [], _, _ => rfl
  | c :: cs, l :: ls, prev, h => by simp [assignC, assignC_length cs ls _ (by simpa using h)]
  | [], _ :: _, _, h => by simp at h
  | _ :: _, [], _, h => by simp at h

theorem assignRemoved_block {c : BC} {l : Nat} (cs : List BC) (ls : List Nat) : ∀ (n prev : Nat),
    assignRemoved (List.replicate (n + 1) c ++ cs) (List.replicate (n + 1) l ++ ls) prev =
      (do let r ← assignRemoved cs ls (if removed c then prev else l); return List.replicate (n + 1) (if removed c then prev else l) ++ r)
  | 0, prev => by
    simp only [List.replicate_succ, List.replicate_zero, List.cons_append, List.nil_append, assignRemoved]
  | n + 1, prev => by
    rw [List.replicate_succ (n := n + 1) (a := c), List.replicate_succ (n := n + 1) (a := l), List.cons_append, List.cons_append, assignRemoved, assignRemoved_block cs ls n]
    have : (if removed c = true then (if removed c = true then prev else l) else l) = if removed c = true then prev else l := by split_ifs <;> rfl
    simp only [this]
    cases assignRemoved cs ls (if removed c = true then prev else l) with
    | panic => rfl
    | ok r => simp only [bind_ok, pure_eq]; rw [List.replicate_succ (n := n + 1)]; rfl

theorem assignRemoved_expand : ∀ (t : List Nat) (cs : List BC) (ls : List Nat) (prev : Nat), cs.length = t.length → ls.length = t.length →
    assignRemoved (expand t cs) (expand t ls) prev = .ok (expand t (assignC cs ls prev))
  | [], _, _, _, _, _ => by simp [assignRemoved]
  | c :: t, x :: cs, l :: ls, prev, h1, h2 => by
    obtain ⟨m, hm⟩ : ∃ m, Utf.lenUtf8 c = m + 1 := ⟨Utf.lenUtf8 c - 1, by have := len_pos c; omega⟩
    rw [assignC, expand_cons, expand_cons, expand_cons, hm, assignRemoved_block, assignRemoved_expand t cs ls _ (by simpa using h1) (by simpa using h2), bind_ok]
    rfl
  | _ :: _, [], _, _, h, _ => by simp at h
  | _ :: _, _ :: _, [], _, _, h => by simp at h

/-! ## one paragraph -/

/-- the level runs and sequences of a paragraph, on characters; the program does not panic here (`isolating_ok`) -/
def seqsC (pl : Nat) (cs : List BC) (ls : List Nat) : List IsoSeq :=
  match isolatingRunSequences pl cs ls with
  | .ok seqs => seqs
  | .panic => []

/-- explicit levels and classes of a paragraph, on characters (`explicitC_ok`) -/
def explicitL (pl : Nat) (cs : List BC) : List (Nat × BC) :=
  match explicitC pl cs ⟨[⟨pl, .Neutral⟩], 0, 0, 0⟩ with
  | .ok l => l
  | .panic => []

/-- the classes after `implicit.rs`, on characters -/
def resolvedC (t : List Nat) (pl : Nat) (cs : List BC) : List BC :=
  let ex := explicitL pl cs
  resolveSeqsC t (ex.map Prod.fst) (seqsC pl cs (ex.map Prod.fst)) (ex.map Prod.snd)

/-- the levels of a paragraph, on characters -/
def levelsC (t : List Nat) (pl : Nat) (cs : List BC) : List Nat :=
  assignC cs (List.zipWith implicitC (resolvedC t pl cs) ((explicitL pl cs).map Prod.fst)) pl

theorem boundsC_sos {pl : Nat} {cs : List BC} {ls : List Nat} {s : List Run} : (boundsC pl cs ls s).sos ≠ .ArabicLetter := by
  unfold boundsC Level.bidiClass
  simp only
  split_ifs <;> simp

theorem indices_nodup {n : Nat} {runs : List Run} {seqs : List (List Run)} (ht : Tiles 0 n runs) (hp : (seqs.flatten).Perm runs) {s : List Run} (hs : s ∈ seqs) :
    (indices s).Nodup := by
  have h1 : (indices runs).Nodup := by rw [tiles_indices ht]; exact List.nodup_range'
  have h2 : (indices seqs.flatten).Nodup := by
    have : (indices seqs.flatten).Perm (indices runs) := List.Perm.flatMap_right _ hp
    exact this.nodup_iff.2 h1
  have h3 : (indices s).Sublist (indices seqs.flatten) := by
    obtain ⟨a, b, hab⟩ := List.append_of_mem hs
    rw [hab]
    simp only [indices, List.flatten_append, List.flatten_cons, List.flatMap_append]
    exact List.Sublist.trans (List.sublist_append_left _ _) (List.sublist_append_right _ _)
  exact h3.nodup h2

theorem explicitL_ok {pl : Nat} (hpl : pl ≤ 126) {cs : List BC} (hB : ∀ c ∈ cs.dropLast, c ≠ .ParagraphSeparator) :
    explicitC pl cs ⟨[⟨pl, .Neutral⟩], 0, 0, 0⟩ = .ok (explicitL pl cs) ∧ (explicitL pl cs).length = cs.length ∧ (explicit pl cs).length = cs.length ∧
      ∀ (i : Nat) c v x, cs[i]? = some c → (explicitL pl cs)[i]? = some v → (explicit pl cs)[i]? = some x → Agrees pl c v x := by
  obtain ⟨l, h1, h2, h3, h4⟩ := explicitC_ok cs _ (inv_init hpl) hB
  have : explicitL pl cs = l := by unfold explicitL; rw [h1]
  rw [this]
  exact ⟨h1, h2, h3, h4⟩

theorem explicitL_le {pl : Nat} (hpl : pl ≤ 125) {cs : List BC} (hB : ∀ c ∈ cs.dropLast, c ≠ .ParagraphSeparator) : ∀ l ∈ (explicitL pl cs).map Prod.fst, l ≤ 125 := by
  obtain ⟨h1, h2, h3, h4⟩ := explicitL_ok (show pl ≤ 126 by omega) hB
  intro l hl
  obtain ⟨v, hv, rfl⟩ := List.mem_map.1 hl
  obtain ⟨i, hi, he⟩ := List.getElem_of_mem hv
  have := (h4 i _ v _ (List.getElem?_eq_getElem (by omega)) (by rw [List.getElem?_eq_getElem hi, he]) (List.getElem?_eq_getElem (by omega))).2.2.1
  omega

theorem levelsC_length {t : List Nat} {pl : Nat} (hpl : pl ≤ 126) {cs : List BC} (hB : ∀ c ∈ cs.dropLast, c ≠ .ParagraphSeparator) :
    (levelsC t pl cs).length = cs.length := by
  obtain ⟨h1, h2, h3, h4⟩ := explicitL_ok hpl hB
  unfold levelsC resolvedC
  rw [assignC_length] <;> simp [resolveSeqsC_length, h2]

/-- one paragraph of the program -/
theorem compute_expand {t : List Nat} {pl : Nat} (hpl : pl ≤ 126) {cs : List BC} (h : cs.length = t.length) (hB : ∀ c ∈ cs.dropLast, c ≠ .ParagraphSeparator) :
    compute t pl (expand t cs) (List.replicate (blen t) pl) (expand t cs) =
      .ok (expand t ((explicitL pl cs).map Prod.fst), expand t ((explicitL pl cs).map Prod.snd)) := by
  unfold compute
  rw [if_neg (by rw [expand_length _ _ h]; simp), ← expand_replicate, explicit_loop pl t cs _ h, (explicitL_ok hpl hB).1]
  rfl

theorem seqsC_ok {pl : Nat} {cs : List BC} {ls : List Nat} (h : cs.length = ls.length) : isolatingRunSequences pl cs ls = .ok (seqsC pl cs ls) := by
  obtain ⟨_, seqs, _, _, _, _, _, _, h7⟩ := isolating_ok (pl := pl) h
  unfold seqsC; rw [h7]

/-- the classes the implicit passes leave -/
theorem passes_expand {t : List Nat} {pl : Nat} (hpl : pl ≤ 126) {cs : List BC} (h : cs.length = t.length) (hB : ∀ c ∈ cs.dropLast, c ≠ .ParagraphSeparator) :
    isolatingRunSequences pl (expand t cs) (expand t ((explicitL pl cs).map Prod.fst)) = .ok ((seqsC pl cs ((explicitL pl cs).map Prod.fst)).map (mapSeq t)) ∧
    resolveSeqs (expand t ((explicitL pl cs).map Prod.fst)) ((seqsC pl cs ((explicitL pl cs).map Prod.fst)).map (mapSeq t)) (expand t ((explicitL pl cs).map Prod.snd)) =
      .ok (expand t (resolvedC t pl cs)) := by
  obtain ⟨_, hl, _, _⟩ := explicitL_ok hpl hB
  have hl1 : ((explicitL pl cs).map Prod.fst).length = t.length := by simp [hl, h]
  have hl2 : ((explicitL pl cs).map Prod.snd).length = t.length := by simp [hl, h]
  obtain ⟨runs, seqs, r1, r2, r3, r4, r5, r6, r7⟩ := isolating_expand (pl := pl) h hl1
  have hseq : seqsC pl cs ((explicitL pl cs).map Prod.fst) = seqs.map (boundsC pl cs ((explicitL pl cs).map Prod.fst)) := by unfold seqsC; rw [r6]
  rw [hseq]
  refine ⟨r7, ?_⟩
  rw [resolveSeqs_expand hl1 _ _ hl2]
  · unfold resolvedC; simp only [hseq]
  · intro s hs
    obtain ⟨s', hs', rfl⟩ := List.mem_map.1 hs
    refine ⟨r4 s' hs', ?_, ?_, boundsC_sos⟩
    · intro r hr; rw [← h]; exact r5 s' hs' r hr
    · exact indices_nodup r2 r3 hs'

theorem paragraph_expand {text : List Nat} {classes : List BC} {para : Para} {t : List Nat} {cs : List BC} (hpl : para.level ≤ 125) (h : cs.length = t.length)
    (hB : ∀ c ∈ cs.dropLast, c ≠ .ParagraphSeparator) (h1 : slice text para.range.start para.range.stop = .ok t)
    (h2 : sub classes para.range.start para.range.stop = .ok (expand t cs)) (h3 : para.range.stop - para.range.start = blen t) :
    paragraphLevels text classes para = .ok (expand t (levelsC t para.level cs)) := by
  have hpl' : para.level ≤ 126 := by omega
  obtain ⟨_, hl, _, _⟩ := explicitL_ok hpl' hB
  obtain ⟨p1, p2⟩ := passes_expand hpl' h hB
  unfold paragraphLevels
  rw [h1, bind_ok, h2, bind_ok, h3, compute_expand hpl' h hB, bind_ok]
  simp only
  rw [p1, bind_ok, p2, bind_ok, resolveLevels_expand t _ _ (by unfold resolvedC; rw [resolveSeqsC_length]; simp [hl, h]) (by simp [hl, h]) (explicitL_le hpl hB), bind_ok,
    assignRemoved_expand t _ _ _ h (by unfold resolvedC; simp [resolveSeqsC_length, hl, h])]
  rfl

end Proofs.Bidi
