import Verif.Proofs.BidiExplicit

/-! # `prepare.rs`: level runs and isolating run sequences -/
namespace Proofs.Bidi
open Model Model.Bidi Data Proofs.Punycode Model.Grapheme Proofs.Grapheme Spec.Bidi

/-! ## the runs tile the paragraph -/

/-- the runs follow each other from `a` to `b`, and none is empty -/
def Tiles : (a b : Nat) → List Run → Prop
  | a, b, [] => a = b
  | a, b, r :: rs => r.start = a ∧ r.start < r.stop ∧ Tiles r.stop b rs

theorem levelRunsLoop_tiles : ∀ (cs : List BC) (ls : List Nat) (i cur start : Nat), start < i → cs.length = ls.length →
    Tiles start (i + ls.length) (levelRunsLoop cs ls i cur start)
  | c :: cs, l :: ls, i, cur, start, h, hl => by
    rw [levelRunsLoop, List.length_cons, ← Nat.add_assoc, Nat.add_right_comm]
    split_ifs
    · exact ⟨rfl, h, levelRunsLoop_tiles cs ls (i + 1) l i (by omega) (by simpa using hl)⟩
    · exact levelRunsLoop_tiles cs ls (i + 1) cur start (by omega) (by simpa using hl)
  | [], [], i, cur, start, h, _ => ⟨rfl, h, rfl⟩
  | [], _ :: _, _, _, _, _, hl => by simp at hl
  | _ :: _, [], _, _, _, _, hl => by simp at hl

theorem levelRuns_tiles {ls : List Nat} {cs : List BC} (h : ls.length = cs.length) :
    ∃ runs, levelRuns ls cs = .ok runs ∧ Tiles 0 ls.length runs := by
  unfold levelRuns
  rw [if_neg (by simpa using h)]
  cases ls with
  | nil => exact ⟨[], rfl, rfl⟩
  | cons l ls =>
    refine ⟨_, rfl, ?_⟩
    have := levelRunsLoop_tiles cs.tail ls 1 l 0 (by omega) (by simp at h ⊢; omega)
    rwa [Nat.add_comm] at this

theorem tiles_bounds : ∀ {runs : List Run} {a b : Nat}, Tiles a b runs → a ≤ b ∧ ∀ r ∈ runs, a ≤ r.start ∧ r.start < r.stop ∧ r.stop ≤ b
  | [], a, b, h => ⟨Nat.le_of_eq h, by simp⟩
  | r :: rs, a, b, ⟨h1, h2, h3⟩ => by
    obtain ⟨i1, i2⟩ := tiles_bounds h3
    refine ⟨by omega, ?_⟩
    intro x hx
    rcases List.mem_cons.1 hx with rfl | hx
    · omega
    · have := i2 x hx; omega

theorem tiles_indices : ∀ {runs : List Run} {a b : Nat}, Tiles a b runs → indices runs = List.range' a (b - a)
  | [], a, b, h => by
    have : a = b := h
    simp [indices, this]
  | r :: rs, a, b, h => by
    have h' := h
    obtain ⟨h1, h2, h3⟩ := h
    have hb := tiles_bounds h3
    have e : indices (r :: rs) = List.range' r.start (r.stop - r.start) ++ indices rs := rfl
    rw [e, tiles_indices h3, h1, show b - a = (r.stop - a) + (b - r.stop) by omega, ← List.range'_append_1]
    rw [show a + (r.stop - a) = r.stop by omega]

/-! ## the sequences share out the runs -/

theorem resume_perm (c : BC) (stack : List (List Run)) : (resume c stack).1 ++ (resume c stack).2.flatten = stack.flatten := by
  unfold resume
  split
  · split_ifs <;> simp
  · rfl

theorem resume_ne_nil (c : BC) {stack : List (List Run)} (h : stack ≠ []) : (resume c stack).2 ≠ [] := by
  unfold resume
  split
  · rename_i seq rest
    split_ifs with hc
    · intro e; simp only at e; subst e; simp at hc
    · simp
  · exact absurd rfl h

theorem seqLoop_ok {cs : List BC} : ∀ (runs : List Run) (stack seqs : List (List Run)), stack ≠ [] → (∀ r ∈ runs, r.start < r.stop ∧ r.stop ≤ cs.length) →
    (∀ s ∈ seqs, s ≠ []) →
    ∃ out, seqLoop cs runs stack seqs = .ok out ∧ (out.flatten).Perm (seqs.flatten ++ stack.flatten ++ runs) ∧ ∀ s ∈ out, s ≠ []
  | [], stack, seqs, _, _, hs => by
    refine ⟨_, rfl, ?_, ?_⟩
    · rw [List.append_nil, List.flatten_append]
      apply List.Perm.of_eq
      congr 1
      clear hs
      induction stack with
      | nil => rfl
      | cons s stack ih =>
        rw [List.filter_cons]
        have ih' : (List.filter (fun s => !s.isEmpty) stack).flatten = stack.flatten := by
          cases stack with
          | nil => rfl
          | cons a b => exact ih (by simp)
        cases s with
        | nil => simpa using ih'
        | cons r s => simp [ih']
    · intro s h
      rcases List.mem_append.1 h with h | h
      · exact hs s h
      · have := (List.mem_filter.1 h).2
        intro e; subst e; simp at this
  | r :: runs, stack, seqs, hne, hr, hs => by
    obtain ⟨h1, h2⟩ := hr r (by simp)
    have hr' : ∀ x ∈ runs, x.start < x.stop ∧ x.stop ≤ cs.length := fun x hx => hr x (by simp [hx])
    rw [seqLoop, if_neg (by rintro (h | h); omega; exact hne h)]
    rw [at_ok (List.getElem?_eq_getElem (show r.start < cs.length by omega)), at_ok (List.getElem?_eq_getElem (show r.stop - 1 < cs.length by omega))]
    simp only [bind_ok]
    have hp := resume_perm cs[r.start] stack
    have hn := resume_ne_nil cs[r.start] hne
    generalize resume cs[r.start] stack = q at hp hn
    obtain ⟨seq, st⟩ := q
    simp only at hp hn ⊢
    split_ifs
    · obtain ⟨out, o1, o2, o3⟩ := seqLoop_ok runs ((seq ++ [r]) :: st) seqs (by simp) hr' hs
      refine ⟨out, o1, o2.trans ?_, o3⟩
      rw [← hp, List.flatten_cons]
      have : (seq ++ [r] ++ st.flatten).Perm (seq ++ st.flatten ++ [r]) := by
        rw [List.append_assoc, List.append_assoc]
        exact List.Perm.append_left _ List.perm_append_comm
      have h2 : (seqs.flatten ++ (seq ++ st.flatten) ++ r :: runs) = seqs.flatten ++ (seq ++ st.flatten ++ [r]) ++ runs := by simp
      rw [h2]
      exact List.Perm.append_right _ (List.Perm.append_left _ this)
    · obtain ⟨out, o1, o2, o3⟩ := seqLoop_ok runs st (seqs ++ [seq ++ [r]]) hn hr' (by
        intro s h
        rcases List.mem_append.1 h with h | h
        · exact hs s h
        · simp at h; subst h; simp)
      refine ⟨out, o1, o2.trans ?_, o3⟩
      rw [← hp]
      have : ((seqs ++ [seq ++ [r]]).flatten ++ st.flatten).Perm (seqs.flatten ++ (seq ++ st.flatten) ++ [r]) := by
        simp only [List.flatten_append, List.flatten_cons, List.flatten_nil, List.append_nil, List.append_assoc]
        refine List.Perm.append_left _ (List.Perm.append_left _ ?_)
        exact List.perm_append_comm
      have h2 : (seqs.flatten ++ (seq ++ st.flatten) ++ r :: runs) = seqs.flatten ++ (seq ++ st.flatten) ++ [r] ++ runs := by simp
      rw [h2]
      exact List.Perm.append_right _ this

/-! ## `sos` and `eos` -/

/-- the level of the last entry before `start` that is not removed -/
def predC (pl : Nat) (cs : List BC) (ls : List Nat) (start : Nat) : Nat :=
  ((((cs.zip ls).take start).reverse.find? (fun p => !removed p.1)).map Prod.snd).getD pl

/-- the level of the first entry from `stop` on that is not removed -/
def succC (pl : Nat) (cs : List BC) (ls : List Nat) (stop : Nat) : Nat :=
  ((((cs.zip ls).drop stop).find? (fun p => !removed p.1)).map Prod.snd).getD pl

theorem findIdx_zip {p : BC → Bool} : ∀ (cs : List BC) (ls : List Nat), cs.length ≤ ls.length →
    (match cs.findIdx? p with
      | some i => ls[i]?
      | none => none) = ((cs.zip ls).find? (fun x => p x.1)).map Prod.snd
  | [], ls, _ => by simp
  | c :: cs, [], h => by simp at h
  | c :: cs, l :: ls, h => by
    rw [List.findIdx?_cons, List.zip_cons_cons, List.find?_cons]
    by_cases hp : p c = true
    · simp [hp]
    · simp only [Bool.not_eq_true] at hp
      simp only [hp, Bool.false_eq_true, if_false]
      rw [← findIdx_zip cs ls (by simpa using h)]
      cases cs.findIdx? p with
      | none => rfl
      | some i => simp

theorem zip_reverse' {α β : Type} : ∀ (xs : List α) (ys : List β), xs.length = ys.length → (xs.zip ys).reverse = xs.reverse.zip ys.reverse
  | [], [], _ => rfl
  | x :: xs, y :: ys, h => by
    rw [List.zip_cons_cons, List.reverse_cons, List.reverse_cons, List.reverse_cons, List.zip_append (by simpa using h), zip_reverse' xs ys (by simpa using h)]
    rfl
  | [], _ :: _, h => by simp at h
  | _ :: _, [], h => by simp at h

theorem getD_of_lt {α : Type} {l : List α} {i : Nat} {d : α} (h : i < l.length) : l.getD i d = l[i] := by
  rw [List.getD_eq_getElem?_getD, List.getElem?_eq_getElem h]; rfl

theorem sub_ok {α : Type} {l : List α} {a b : Nat} (h : a ≤ b) (hb : b ≤ l.length) : sub l a b = .ok ((l.drop a).take (b - a)) := by
  unfold sub; rw [if_pos ⟨h, hb⟩]

theorem succLevel_ok {pl : Nat} {cs : List BC} {ls : List Nat} {stop : Nat} (h : cs.length = ls.length) (h0 : 0 < stop) (hs : stop ≤ cs.length) :
    succLevel pl cs ls stop = .ok (if isIsolate (cs[stop - 1]'(by omega)) then pl else succC pl cs ls stop) := by
  unfold succLevel
  rw [at_ok (List.getElem?_eq_getElem (show stop - 1 < cs.length by omega))]
  simp only [bind_ok]
  split_ifs with hi
  · rfl
  · rw [sub_ok hs (Nat.le_refl _)]
    simp only [bind_ok]
    rw [List.take_of_length_le (by simp)]
    have hz := findIdx_zip (p := fun c => !removed c) (cs.drop stop) (ls.drop stop) (by simp; omega)
    unfold succC
    rw [show List.drop stop (cs.zip ls) = (cs.drop stop).zip (ls.drop stop) from by simp [List.zip, List.drop_zipWith]]
    rw [← hz]
    cases hf : (cs.drop stop).findIdx? (fun c => !removed c) with
    | none => rfl
    | some i =>
      have hi' : i < (cs.drop stop).length := (List.findIdx?_eq_some_iff_findIdx_eq.1 hf).1
      simp only [List.getElem?_drop]
      have : stop + i < ls.length := by simp at hi'; omega
      rw [at_ok (List.getElem?_eq_getElem this), List.getElem?_eq_getElem this]
      rfl

theorem predLevel_ok {pl : Nat} {cs : List BC} {ls : List Nat} {start : Nat} (h : cs.length = ls.length) (hs : start ≤ cs.length) :
    predLevel pl cs ls start = .ok (predC pl cs ls start) := by
  unfold predLevel
  rw [sub_ok (Nat.zero_le _) hs]
  simp only [bind_ok, List.drop_zero, Nat.sub_zero]
  unfold predC rposition
  have hz := findIdx_zip (p := fun c => !removed c) (cs.take start).reverse (ls.take start).reverse (by simp; omega)
  rw [show ((cs.zip ls).take start).reverse = (cs.take start).reverse.zip (ls.take start).reverse from by
    rw [show (cs.zip ls).take start = (cs.take start).zip (ls.take start) from by simp [List.zip, List.take_zipWith], zip_reverse' _ _ (by simp [h])]]
  rw [← hz]
  cases hf : (cs.take start).reverse.findIdx? (fun c => !removed c) with
  | none => rfl
  | some i =>
    have hi' : i < ((cs.take start).reverse).length := (List.findIdx?_eq_some_iff_findIdx_eq.1 hf).1
    simp only [List.length_reverse, List.length_take] at hi'
    simp only [Option.map_some, List.length_take]
    have h1 : min start cs.length - 1 - i < ls.length := by omega
    rw [at_ok (List.getElem?_eq_getElem h1), List.getElem?_reverse (by simp; omega), List.length_take, List.getElem?_take,
      if_pos (by omega), show min start ls.length - 1 - i = min start cs.length - 1 - i by omega, List.getElem?_eq_getElem h1]
    rfl

/-- `sos` and `eos` of a sequence -/
def boundsC (pl : Nat) (cs : List BC) (ls : List Nat) (seq : List Run) : IsoSeq :=
  let first := seq.headD ⟨0, 0⟩
  let last := seq.getLastD ⟨0, 0⟩
  let lv := ls.getD first.start 0
  let succ := if isIsolate (cs.getD (last.stop - 1) .OtherNeutral) then pl else succC pl cs ls last.stop
  ⟨seq, Level.bidiClass (max lv (predC pl cs ls first.start)), Level.bidiClass (max lv succ)⟩

theorem withBounds_ok {pl : Nat} {cs : List BC} {ls : List Nat} {seq : List Run} (h : cs.length = ls.length) (hne : seq ≠ [])
    (hr : ∀ r ∈ seq, r.start < r.stop ∧ r.stop ≤ cs.length) : withBounds pl cs ls seq = .ok (boundsC pl cs ls seq) := by
  unfold withBounds boundsC
  obtain ⟨first, hf⟩ : ∃ x, seq.head? = some x := by
    cases seq with
    | nil => exact absurd rfl hne
    | cons a b => exact ⟨a, rfl⟩
  obtain ⟨last, hlast⟩ : ∃ x, seq.getLast? = some x := ⟨seq.getLast hne, List.getLast?_eq_some_getLast hne⟩
  have h1 := hr first (List.mem_of_mem_head? hf)
  have h2 := hr last (List.mem_of_getLast? hlast)
  rw [hf, hlast]
  simp only []
  have e1 : seq.headD ⟨0, 0⟩ = first := by rw [List.headD_eq_head?_getD, hf]; rfl
  have e2 : seq.getLastD ⟨0, 0⟩ = last := by rw [List.getLastD_eq_getLast?, hlast]; rfl
  rw [e1, e2, at_ok (List.getElem?_eq_getElem (show first.start < ls.length by omega)), predLevel_ok h (by omega), succLevel_ok h (by omega) h2.2]
  simp only [bind_ok, pure_eq]
  rw [getD_of_lt (show first.start < ls.length by omega), getD_of_lt (show last.stop - 1 < cs.length by omega)]

theorem mapOutcome_ok {α β : Type} {f : α → Outcome β} {g : α → β} : ∀ {l : List α}, (∀ a ∈ l, f a = .ok (g a)) → mapOutcome f l = .ok (l.map g)
  | [], _ => rfl
  | a :: l, h => by
    rw [mapOutcome, h a (by simp), bind_ok, mapOutcome_ok (fun b hb => h b (by simp [hb]))]
    rfl

/-- the sequences exist, and share out runs that tile the paragraph -/
theorem isolating_ok {pl : Nat} {cs : List BC} {ls : List Nat} (h : cs.length = ls.length) :
    ∃ (runs : List Run) (seqs : List (List Run)), levelRuns ls cs = .ok runs ∧ seqLoop cs runs [[]] [] = .ok seqs ∧ Tiles 0 ls.length runs ∧ (seqs.flatten).Perm runs ∧ (∀ s ∈ seqs, s ≠ []) ∧
      (∀ s ∈ seqs, ∀ r ∈ s, r.start < r.stop ∧ r.stop ≤ cs.length) ∧
      isolatingRunSequences pl cs ls = .ok (seqs.map (boundsC pl cs ls)) := by
  obtain ⟨runs, r1, r2⟩ := levelRuns_tiles h.symm
  have hb := (tiles_bounds r2).2
  obtain ⟨seqs, s1, s2, s3⟩ := seqLoop_ok (cs := cs) runs [[]] [] (by simp) (fun r hr => ⟨(hb r hr).2.1, by have := (hb r hr).2.2; omega⟩) (by simp)
  simp only [List.flatten_nil, List.flatten_cons, List.append_nil, List.nil_append] at s2
  have hin : ∀ s ∈ seqs, ∀ r ∈ s, r.start < r.stop ∧ r.stop ≤ cs.length := by
    intro s hs r hr
    have : r ∈ runs := s2.mem_iff.1 (List.mem_flatten.2 ⟨s, hs, hr⟩)
    exact ⟨(hb r this).2.1, by have := (hb r this).2.2; omega⟩
  refine ⟨runs, seqs, r1, s1, r2, s2, s3, hin, ?_⟩
  unfold isolatingRunSequences
  rw [r1, bind_ok, s1, bind_ok, mapOutcome_ok (fun s hs => withBounds_ok h (s3 s hs) (hin s hs))]

/-! ## from characters to bytes -/

/-- the byte range of a range of characters -/
def mapRun (t : List Nat) (r : Run) : Run := ⟨off t r.start, off t r.stop⟩

theorem levelRunsLoop_block {c : BC} {l cur start : Nat} (h : removed c = true ∨ l = cur) (cs : List BC) (ls : List Nat) : ∀ (n i : Nat),
    levelRunsLoop (List.replicate n c ++ cs) (List.replicate n l ++ ls) i cur start = levelRunsLoop cs ls (i + n) cur start
  | 0, i => rfl
  | n + 1, i => by
    rw [List.replicate_succ, List.replicate_succ, List.cons_append, List.cons_append, levelRunsLoop,
      if_neg (by rcases h with h | h <;> simp [h]), levelRunsLoop_block h cs ls n (i + 1)]
    congr 1; omega

theorem levelRunsLoop_expand (T : List Nat) : ∀ (rest : List Nat) (k : Nat) (cs : List BC) (ls : List Nat) (cur start : Nat), T.drop k = rest → k ≤ T.length →
    cs.length = rest.length → ls.length = rest.length →
    levelRunsLoop (expand rest cs) (expand rest ls) (off T k) cur (off T start) = (levelRunsLoop cs ls k cur start).map (mapRun T)
  | [], k, [], [], cur, start, _, _, _, _ => rfl
  | c :: rest, k, x :: cs, l :: ls, cur, start, hT, hk, h1, h2 => by
    have hk' : k < T.length := by
      rcases Nat.lt_or_ge k T.length with h | h
      · exact h
      · rw [List.drop_eq_nil_of_le h] at hT; simp at hT
    have hc : T[k] = c := by
      have h1 : (T.drop k)[0]? = some c := by rw [hT]; rfl
      rw [List.getElem?_drop, Nat.add_zero, List.getElem?_eq_getElem hk'] at h1
      exact Option.some.inj h1
    have hoff := off_succ hk'
    rw [hc] at hoff
    have hT' : T.drop (k + 1) = rest := by rw [← List.drop_drop, hT]; rfl
    have ih : ∀ cur start, levelRunsLoop (expand rest cs) (expand rest ls) (off T (k + 1)) cur (off T start) = (levelRunsLoop cs ls (k + 1) cur start).map (mapRun T) :=
      fun cur start => levelRunsLoop_expand T rest (k + 1) cs ls cur start hT' hk' (by simpa using h1) (by simpa using h2)
    obtain ⟨m, hm⟩ : ∃ m, Utf.lenUtf8 c = m + 1 := ⟨Utf.lenUtf8 c - 1, by have := len_pos c; omega⟩
    rw [expand_cons, expand_cons]
    by_cases hx : removed x = true ∨ l = cur
    · rw [levelRunsLoop_block hx, ← hoff, ih]
      conv => rhs; rw [levelRunsLoop]
      rw [if_neg (by rcases hx with h | h <;> simp [h])]
    · have hcond : (!removed x) = true ∧ l ≠ cur := by
        constructor
        · cases hr : removed x <;> simp_all
        · exact fun e => hx (Or.inr e)
      rw [hm, List.replicate_succ, List.replicate_succ, List.cons_append, List.cons_append, levelRunsLoop, if_pos hcond,
        levelRunsLoop_block (Or.inr rfl), show off T k + 1 + m = off T (k + 1) by omega, ih]
      conv => rhs; rw [levelRunsLoop]
      rw [if_pos hcond]
      rfl
  | [], _, _ :: _, _, _, _, _, _, h1, _ => by simp at h1
  | [], _, [], _ :: _, _, _, _, _, _, h2 => by simp at h2
  | _ :: _, _, [], _, _, _, _, _, h1, _ => by simp at h1
  | _ :: _, _, _ :: _, [], _, _, _, _, _, h2 => by simp at h2

theorem levelRuns_expand {t : List Nat} {cs : List BC} {ls : List Nat} {runs : List Run} (h1 : cs.length = t.length) (h2 : ls.length = t.length)
    (h : levelRuns ls cs = .ok runs) : levelRuns (expand t ls) (expand t cs) = .ok (runs.map (mapRun t)) := by
  unfold levelRuns at h ⊢
  rw [if_neg (by omega)] at h
  rw [if_neg (by rw [expand_length _ _ h1, expand_length _ _ h2]; simp)]
  match t, cs, ls, h1, h2 with
  | [], [], [], _, _ =>
    simp only [Outcome.ok.injEq] at h
    subst h
    rfl
  | c :: t, x :: cs, l :: ls, h1, h2 =>
    simp only [Outcome.ok.injEq] at h
    subst h
    obtain ⟨m, hm⟩ : ∃ m, Utf.lenUtf8 c = m + 1 := ⟨Utf.lenUtf8 c - 1, by have := len_pos c; omega⟩
    rw [expand_cons, expand_cons, hm, List.replicate_succ, List.replicate_succ]
    simp only [List.cons_append, List.tail_cons, Outcome.ok.injEq]
    have h0 := levelRunsLoop_expand (c :: t) t 1 cs ls l 0 rfl (by simp) (by simpa using h1) (by simpa using h2)
    rw [levelRunsLoop_block (Or.inr rfl), ← h0]
    congr 1
    simp [hm]; omega

theorem expand_last_byte {α : Type} {t : List Nat} {xs : List α} {k : Nat} (h : xs.length = t.length) (h0 : 0 < k) (hk : k ≤ t.length) :
    (expand t xs)[off t k - 1]? = xs[k - 1]? := by
  have h1 := off_succ (t := t) (k := k - 1) (by omega)
  rw [show k - 1 + 1 = k by omega] at h1
  have hp := len_pos (t[k - 1]'(by omega))
  have := expand_getElem? t xs (k - 1) (Utf.lenUtf8 (t[k - 1]'(by omega)) - 1) h (by omega) (by omega)
  rw [← this]
  congr 1
  omega

theorem resume_map (f : Run → Run) (c : BC) (stack : List (List Run)) :
    resume c (stack.map (List.map f)) = ((resume c stack).1.map f, (resume c stack).2.map (List.map f)) := by
  unfold resume
  cases stack with
  | nil => rfl
  | cons s st =>
    simp only [List.map_cons, List.length_cons, List.length_map]
    split_ifs <;> simp

theorem seqLoop_expand {t : List Nat} {cs : List BC} (h : cs.length = t.length) : ∀ (runs : List Run) (stack seqs out : List (List Run)),
    (∀ r ∈ runs, r.start < r.stop ∧ r.stop ≤ t.length) → seqLoop cs runs stack seqs = .ok out →
    seqLoop (expand t cs) (runs.map (mapRun t)) (stack.map (List.map (mapRun t))) (seqs.map (List.map (mapRun t))) = .ok (out.map (List.map (mapRun t)))
  | [], stack, seqs, out, _, ho => by
    simp only [seqLoop, Outcome.ok.injEq] at ho
    subst ho
    simp only [List.map_nil, seqLoop, List.map_append, List.filter_map]
    congr 3
    apply List.filter_congr
    intro s _
    cases s <;> rfl
  | r :: runs, stack, seqs, out, hr, ho => by
    obtain ⟨b1, b2⟩ := hr r (by simp)
    have hr' : ∀ x ∈ runs, x.start < x.stop ∧ x.stop ≤ t.length := fun x hx => hr x (by simp [hx])
    rw [seqLoop] at ho
    split_ifs at ho with hc
    have hlt := off_lt b1 b2
    have hnil : ¬ (stack.map (List.map (mapRun t)) = []) := by
      intro e; apply hc; right; simpa using e
    rw [List.map_cons, seqLoop, if_neg (by
      rintro (e | e)
      · simp only [mapRun] at e; omega
      · exact hnil e)]
    have e1 : at' (expand t cs) (mapRun t r).start = at' cs r.start := by
      unfold at' mapRun; rw [expand_at h (by omega)]
    have e2 : at' (expand t cs) ((mapRun t r).stop - 1) = at' cs (r.stop - 1) := by
      unfold at' mapRun; simp only []; rw [expand_last_byte h (by omega) b2]
    rw [e1, e2]
    rw [at_ok (List.getElem?_eq_getElem (show r.start < cs.length by omega)), at_ok (List.getElem?_eq_getElem (show r.stop - 1 < cs.length by omega))] at ho ⊢
    simp only [bind_ok] at ho ⊢
    rw [resume_map]
    generalize resume cs[r.start] stack = q at ho
    obtain ⟨seq, st⟩ := q
    simp only at ho ⊢
    split_ifs at ho ⊢
    · have := seqLoop_expand h runs ((seq ++ [r]) :: st) seqs out hr' ho
      simpa using this
    · have := seqLoop_expand h runs st (seqs ++ [seq ++ [r]]) out hr' ho
      simpa using this

theorem expand_zip {α β : Type} : ∀ (t : List Nat) (xs : List α) (ys : List β), xs.length = t.length → ys.length = t.length →
    (expand t xs).zip (expand t ys) = expand t (xs.zip ys)
  | [], _, _, _, _ => by simp
  | c :: t, x :: xs, y :: ys, h1, h2 => by
    rw [List.zip_cons_cons, expand_cons, expand_cons, expand_cons, List.zip_append (by simp), expand_zip t xs ys (by simpa using h1) (by simpa using h2)]
    congr 1
    simp [List.zip_replicate]
  | _ :: _, [], _, h, _ => by simp at h
  | _ :: _, _ :: _, [], _, h => by simp at h

theorem expand_drop {α : Type} : ∀ (t : List Nat) (xs : List α) (k : Nat), (expand t xs).drop (off t k) = expand (t.drop k) (xs.drop k)
  | t, xs, 0 => by simp
  | [], xs, k + 1 => by simp
  | c :: t, [], k + 1 => by simp
  | c :: t, x :: xs, k + 1 => by
    rw [expand_cons, off_cons, ← List.drop_drop, replicate_take_drop.2, expand_drop t xs k]; rfl

theorem expand_take {α : Type} : ∀ (t : List Nat) (xs : List α) (k : Nat), (expand t xs).take (off t k) = expand (t.take k) (xs.take k)
  | t, xs, 0 => by simp
  | [], xs, k + 1 => by simp
  | c :: t, [], k + 1 => by simp
  | c :: t, x :: xs, k + 1 => by
    rw [expand_cons, off_cons, List.take_succ_cons, List.take_succ_cons, expand_cons, ← expand_take t xs k, List.take_append, List.length_replicate,
      List.take_of_length_le (by simp)]
    congr 2; omega

theorem find_replicate {α : Type} {p : α → Bool} {n : Nat} (h : 0 < n) (x : α) : (List.replicate n x).find? p = if p x then some x else none := by
  obtain ⟨m, rfl⟩ : ∃ m, n = m + 1 := ⟨n - 1, by omega⟩
  rw [List.replicate_succ, List.find?_cons]
  by_cases hp : p x = true
  · simp [hp]
  · simp only [Bool.not_eq_true] at hp
    simp [hp]

theorem expand_find {α : Type} (p : α → Bool) : ∀ (t : List Nat) (xs : List α), xs.length = t.length → (expand t xs).find? p = xs.find? p
  | [], [], _ => rfl
  | c :: t, x :: xs, h => by
    rw [expand_cons, List.find?_append, find_replicate (len_pos c), expand_find p t xs (by simpa using h), List.find?_cons]
    by_cases hp : p x = true
    · simp [hp]
    · simp only [Bool.not_eq_true] at hp
      simp [hp]
  | [], _ :: _, h => by simp at h
  | _ :: _, [], h => by simp at h

theorem expand_find_rev {α : Type} (p : α → Bool) : ∀ (t : List Nat) (xs : List α), xs.length = t.length → (expand t xs).reverse.find? p = xs.reverse.find? p
  | [], [], _ => rfl
  | c :: t, x :: xs, h => by
    rw [expand_cons, List.reverse_append, List.find?_append, List.reverse_replicate, find_replicate (len_pos c), expand_find_rev p t xs (by simpa using h),
      List.reverse_cons, List.find?_append]
    congr 1
    simp [List.find?_cons]
    cases p x <;> simp
  | [], _ :: _, h => by simp at h
  | _ :: _, [], h => by simp at h

theorem predC_expand {pl : Nat} {t : List Nat} {cs : List BC} {ls : List Nat} (h1 : cs.length = t.length) (h2 : ls.length = t.length) {k : Nat} :
    predC pl (expand t cs) (expand t ls) (off t k) = predC pl cs ls k := by
  unfold predC
  rw [expand_zip t cs ls h1 h2, expand_take, expand_find_rev _ _ _ (by simp [h1, h2])]

theorem succC_expand {pl : Nat} {t : List Nat} {cs : List BC} {ls : List Nat} (h1 : cs.length = t.length) (h2 : ls.length = t.length) {k : Nat} :
    succC pl (expand t cs) (expand t ls) (off t k) = succC pl cs ls k := by
  unfold succC
  rw [expand_zip t cs ls h1 h2, expand_drop, expand_find _ _ _ (by simp [h1, h2])]

/-- the byte ranges of a sequence of character ranges -/
def mapSeq (t : List Nat) (s : IsoSeq) : IsoSeq := ⟨s.runs.map (mapRun t), s.sos, s.eos⟩

theorem boundsC_expand {pl : Nat} {t : List Nat} {cs : List BC} {ls : List Nat} (h1 : cs.length = t.length) (h2 : ls.length = t.length) {seq : List Run}
    (hne : seq ≠ []) (hr : ∀ r ∈ seq, r.start < r.stop ∧ r.stop ≤ cs.length) :
    boundsC pl (expand t cs) (expand t ls) (seq.map (mapRun t)) = mapSeq t (boundsC pl cs ls seq) := by
  obtain ⟨first, hf⟩ : ∃ x, seq.head? = some x := by
    cases seq with
    | nil => exact absurd rfl hne
    | cons a b => exact ⟨a, rfl⟩
  obtain ⟨last, hlast⟩ : ∃ x, seq.getLast? = some x := ⟨seq.getLast hne, List.getLast?_eq_some_getLast hne⟩
  have b1 := hr first (List.mem_of_mem_head? hf)
  have b2 := hr last (List.mem_of_getLast? hlast)
  have e1 : seq.headD ⟨0, 0⟩ = first := by rw [List.headD_eq_head?_getD, hf]; rfl
  have e2 : seq.getLastD ⟨0, 0⟩ = last := by rw [List.getLastD_eq_getLast?, hlast]; rfl
  have e3 : (seq.map (mapRun t)).headD ⟨0, 0⟩ = mapRun t first := by rw [List.headD_eq_head?_getD, List.head?_map, hf]; rfl
  have e4 : (seq.map (mapRun t)).getLastD ⟨0, 0⟩ = mapRun t last := by rw [List.getLastD_eq_getLast?, List.getLast?_map, hlast]; rfl
  unfold boundsC mapSeq
  simp only [e1, e2, e3, e4]
  have e5 : (expand t ls).getD (mapRun t first).start 0 = ls.getD first.start 0 := by
    rw [List.getD_eq_getElem?_getD, List.getD_eq_getElem?_getD, mapRun, expand_at h2 (by omega)]
  have e6 : (expand t cs).getD ((mapRun t last).stop - 1) .OtherNeutral = cs.getD (last.stop - 1) .OtherNeutral := by
    rw [List.getD_eq_getElem?_getD, List.getD_eq_getElem?_getD, mapRun, expand_last_byte h1 (by omega) (by omega)]
  rw [e5, e6]
  simp only [mapRun, predC_expand h1 h2, succC_expand h1 h2]

/-- the sequences of the bytes are those of the characters -/
theorem isolating_expand {pl : Nat} {t : List Nat} {cs : List BC} {ls : List Nat} (h1 : cs.length = t.length) (h2 : ls.length = t.length) :
    ∃ (runs : List Run) (seqs : List (List Run)), levelRuns ls cs = .ok runs ∧ Tiles 0 ls.length runs ∧ (seqs.flatten).Perm runs ∧ (∀ s ∈ seqs, s ≠ []) ∧
      (∀ s ∈ seqs, ∀ r ∈ s, r.start < r.stop ∧ r.stop ≤ cs.length) ∧ isolatingRunSequences pl cs ls = .ok (seqs.map (boundsC pl cs ls)) ∧
      isolatingRunSequences pl (expand t cs) (expand t ls) = .ok ((seqs.map (boundsC pl cs ls)).map (mapSeq t)) := by
  obtain ⟨runs, seqs, r1, r2, r3, r4, r5, r6, r7⟩ := isolating_ok (pl := pl) (h1.trans h2.symm)
  refine ⟨runs, seqs, r1, r3, r4, r5, r6, r7, ?_⟩
  have hb := (tiles_bounds r3).2
  unfold isolatingRunSequences
  rw [levelRuns_expand h1 h2 r1, bind_ok]
  have := seqLoop_expand h1 runs [[]] [] seqs (fun r hr => ⟨(hb r hr).2.1, by have := (hb r hr).2.2; omega⟩) r2
  simp only [List.map_cons, List.map_nil] at this
  rw [this, bind_ok, mapOutcome_ok (g := boundsC pl (expand t cs) (expand t ls))]
  · rw [List.map_map, List.map_map]
    congr 1
    apply List.map_congr_left
    intro s hs
    exact boundsC_expand h1 h2 (r5 s hs) (r6 s hs)
  · intro s hs
    obtain ⟨s', hs', rfl⟩ := List.mem_map.1 hs
    apply withBounds_ok
    · rw [expand_length _ _ h1, expand_length _ _ h2]
    · have := r5 s' hs'; simpa using this
    · intro r hr
      obtain ⟨r', hr', rfl⟩ := List.mem_map.1 hr
      have hb := r6 s' hs' r' hr'
      refine ⟨off_lt hb.1 (by omega), ?_⟩
      rw [expand_length _ _ h1, ← off_length]
      exact off_mono (by omega)

end Proofs.Bidi
