import Verif.Proofs.BidiChain

/-! # The isolating run sequences of a paragraph, and those of its characters that X9 keeps -/
namespace Proofs.BidiW
open Model.Bidi Data Spec.Bidi Proofs.Punycode
open Proofs.Bidi hiding w3

/-- not removed -/
abbrev nr (c : BC) : Bool := !removed c

/-- the number of characters before `k` that are not removed -/
def cnt (C : List BC) (k : Nat) : Nat := (C.take k).countP nr

theorem cnt_zero (C : List BC) : cnt C 0 = 0 := rfl

theorem cnt_succ {C : List BC} {k : Nat} {c : BC} (h : C[k]? = some c) : cnt C (k + 1) = cnt C k + if nr c then 1 else 0 := by
  unfold cnt
  rw [List.take_succ, h, List.countP_append]
  simp [List.countP_cons]

theorem cnt_succ_live {C : List BC} {k : Nat} {c : BC} (h : C[k]? = some c) (hc : removed c = false) : cnt C (k + 1) = cnt C k + 1 := by
  rw [cnt_succ h, if_pos (by simp [hc])]
theorem cnt_succ_dead {C : List BC} {k : Nat} {c : BC} (h : C[k]? = some c) (hc : removed c = true) : cnt C (k + 1) = cnt C k := by
  rw [cnt_succ h, if_neg (by simp [hc])]; rfl

theorem cnt_mono_succ (C : List BC) (k : Nat) : cnt C k ≤ cnt C (k + 1) := by
  unfold cnt
  rw [List.take_succ, List.countP_append]
  omega

theorem cnt_mono {C : List BC} {a b : Nat} (h : a ≤ b) : cnt C a ≤ cnt C b := by
  induction h with
  | refl => exact Nat.le_refl _
  | step _ ih => exact Nat.le_trans ih (cnt_mono_succ C _)

theorem cnt_length (C : List BC) : cnt C C.length = (C.filter nr).length := by
  unfold cnt; rw [List.take_length, List.countP_eq_length_filter]

/-- the classes that stay -/
theorem filter_at {C : List BC} : ∀ {k : Nat} {c : BC}, C[k]? = some c → removed c = false → (C.filter nr)[cnt C k]? = some c := by
  induction C with
  | nil => intro k c h; simp at h
  | cons a C ih =>
    intro k c h hc
    cases k with
    | zero =>
      simp at h; subst h
      rw [cnt_zero, List.filter_cons, if_pos (by simp [hc])]; rfl
    | succ k =>
      rw [List.getElem?_cons_succ] at h
      have e : cnt (a :: C) (k + 1) = cnt C k + if nr a then 1 else 0 := by
        unfold cnt; rw [List.take_succ_cons, List.countP_cons]
      rw [e, List.filter_cons]
      by_cases ha : nr a = true
      · rw [if_pos ha, if_pos ha, List.getElem?_cons_succ]; exact ih h hc
      · rw [if_neg ha, if_neg ha]; exact ih h hc

/-- the last character before `m` that is not removed -/
theorem last_live {C : List BC} : ∀ {m : Nat}, m ≤ C.length → 0 < cnt C m → ∃ j c, j < m ∧ C[j]? = some c ∧ removed c = false ∧ cnt C j + 1 = cnt C m ∧
    ∀ q, j < q → q < m → ∃ d, C[q]? = some d ∧ removed d = true
  | 0, _, h => by simp [cnt] at h
  | m + 1, hm, h => by
    have hx : C[m]? = some C[m] := List.getElem?_eq_getElem (by omega)
    cases hr : removed C[m] with
    | false => exact ⟨m, C[m], by omega, hx, hr, (cnt_succ_live hx hr).symm, by intro q h1 h2; omega⟩
    | true =>
      rw [cnt_succ_dead hx hr] at h ⊢
      obtain ⟨j, c, h1, h2, h3, h4, h5⟩ := last_live (by omega) h
      refine ⟨j, c, by omega, h2, h3, h4, ?_⟩
      intro q q1 q2
      by_cases hq : q = m
      · subst hq; exact ⟨_, hx, hr⟩
      · exact h5 q q1 (by omega)

/-- the first character from `a` on that is not removed -/
theorem first_live {C : List BC} {a : Nat} : ∀ {m : Nat}, a + m ≤ C.length → cnt C a < cnt C (a + m) → ∃ j c, a ≤ j ∧ j < a + m ∧ C[j]? = some c ∧ removed c = false ∧ cnt C j = cnt C a
  | 0, _, h => by simp at h
  | m + 1, hm, h => by
    have hx : C[a + m]? = some C[a + m] := List.getElem?_eq_getElem (by omega)
    by_cases hlt : cnt C a < cnt C (a + m)
    · obtain ⟨j, c, h1, h2, h3⟩ := first_live (by omega) hlt
      exact ⟨j, c, h1, by omega, h3⟩
    · have hle := cnt_mono (C := C) (show a ≤ a + m by omega)
      cases hr : removed C[a + m] with
      | true => rw [show a + (m + 1) = a + m + 1 by omega, cnt_succ_dead hx hr] at h; omega
      | false => exact ⟨a + m, _, by omega, by omega, hx, hr, by omega⟩

/-! ## runs -/

/-- a run among the characters that stay -/
def keepRun (C : List BC) (r : Run) : Run := ⟨cnt C r.start, cnt C r.stop⟩

/-- the entries of `ls` at the classes that stay -/
def keepAt (C : List BC) (ls : List Nat) : List Nat := ((C.zip ls).filter (fun x => nr x.1)).map Prod.snd

theorem keepAt_cons (c : BC) (C : List BC) (l : Nat) (ls : List Nat) : keepAt (c :: C) (l :: ls) = if nr c then l :: keepAt C ls else keepAt C ls := by
  unfold keepAt
  rw [List.zip_cons_cons, List.filter_cons]
  split_ifs <;> rfl

theorem keepAt_length : ∀ {C : List BC} {ls : List Nat}, C.length = ls.length → (keepAt C ls).length = (C.filter nr).length
  | [], [], _ => rfl
  | c :: C, l :: ls, h => by
    rw [keepAt_cons, List.filter_cons]
    have ih := keepAt_length (C := C) (ls := ls) (by simpa using h)
    split_ifs
    · rw [List.length_cons, List.length_cons, ih]
    · exact ih
  | [], _ :: _, h => by simp at h
  | _ :: _, [], h => by simp at h

theorem keepAt_at : ∀ {C : List BC} {ls : List Nat} {k : Nat} {c : BC}, C.length = ls.length → C[k]? = some c → removed c = false → (keepAt C ls)[cnt C k]? = ls[k]?
  | [], _, _, _, _, h, _ => by simp at h
  | _ :: _, [], _, _, h, _, _ => by simp at h
  | a :: C, l :: ls, 0, c, _, h, hc => by
    simp at h; subst h
    rw [cnt_zero, keepAt_cons, if_pos (by simp [hc])]; rfl
  | a :: C, l :: ls, k + 1, c, hl, h, hc => by
    rw [List.getElem?_cons_succ] at h
    have e : cnt (a :: C) (k + 1) = cnt C k + if nr a then 1 else 0 := by
      unfold cnt; rw [List.take_succ_cons, List.countP_cons]
    have ih := keepAt_at (ls := ls) (by simpa using hl) h hc
    rw [e, keepAt_cons, List.getElem?_cons_succ]
    by_cases ha : nr a = true
    · rw [if_pos ha, if_pos ha, List.getElem?_cons_succ]; exact ih
    · rw [if_neg ha, if_neg ha]; exact ih

theorem levelRunsLoop_keep {C : List BC} : ∀ (cs : List BC) (ls : List Nat) (i cur start : Nat), C.drop i = cs → cs.length = ls.length →
    (levelRunsLoop cs ls i cur start).map (keepRun C) = levelRunsLoop (cs.filter nr) (keepAt cs ls) (cnt C i) cur (cnt C start)
  | c :: cs, l :: ls, i, cur, start, hC, hl => by
    have hCi : C[i]? = some c := by rw [← List.head?_drop, hC]; rfl
    have hC' : C.drop (i + 1) = cs := by rw [← List.drop_drop (i := 1) (j := i), hC]; rfl
    have hl' : cs.length = ls.length := by simpa using hl
    rw [levelRunsLoop, keepAt_cons, List.filter_cons]
    cases hr : removed c with
    | true =>
      rw [if_neg (by simp), if_neg (by simp [hr]), if_neg (by simp [hr]), ← cnt_succ_dead hCi hr]
      exact levelRunsLoop_keep cs ls (i + 1) cur start hC' hl'
    | false =>
      rw [if_pos (show nr c = true by simp [hr]), if_pos (show nr c = true by simp [hr]), levelRunsLoop, hr, ← cnt_succ_live hCi hr]
      by_cases hx : l ≠ cur
      · rw [if_pos ⟨by simp, hx⟩, if_pos ⟨by simp, hx⟩, List.map_cons, levelRunsLoop_keep cs ls (i + 1) l i hC' hl']
        rfl
      · rw [if_neg (fun e => hx e.2), if_neg (fun e => hx e.2)]
        exact levelRunsLoop_keep cs ls (i + 1) cur start hC' hl'
  | [], [], i, cur, start, _, _ => rfl
  | [], _ :: _, _, _, _, _, hl => by simp at hl
  | _ :: _, [], _, _, _, _, hl => by simp at hl

theorem levelRunsLoop_ne : ∀ (cs : List BC) (ls : List Nat) (i cur start : Nat), levelRunsLoop cs ls i cur start ≠ []
  | c :: cs, l :: ls, i, cur, start => by
    rw [levelRunsLoop]; split_ifs
    · simp
    · exact levelRunsLoop_ne cs ls _ _ _
  | [], ls, i, cur, start => by cases ls <;> simp [levelRunsLoop]
  | _ :: _, [], i, cur, start => by simp [levelRunsLoop]

/-- the runs of the characters that stay; there may be one more run in front, of removed characters only -/
theorem levelRuns_keep {C : List BC} {L : List Nat} (h : L.length = C.length) {runs : List Run} (hr : levelRuns L C = .ok runs) :
    ∃ runs', levelRuns (keepAt C L) (C.filter nr) = .ok runs' ∧ (runs.map (keepRun C) = runs' ∨ ∃ r rs, runs = r :: rs ∧ keepRun C r = ⟨0, 0⟩ ∧ rs.map (keepRun C) = runs') := by
  unfold levelRuns at hr ⊢
  rw [if_neg (by simpa using h)] at hr
  rw [if_neg (by simpa using keepAt_length h.symm)]
  cases L with
  | nil =>
    have : C = [] := List.length_eq_zero_iff.1 h.symm
    subst this
    simp at hr; subst hr
    exact ⟨[], rfl, Or.inl rfl⟩
  | cons l ls =>
    cases C with
    | nil => simp at h
    | cons c cs =>
      simp only [List.tail_cons, Model.Outcome.ok.injEq] at hr
      have hm := levelRunsLoop_keep (C := c :: cs) cs ls 1 l 0 rfl (by simpa using h.symm)
      rw [hr, cnt_zero] at hm
      rw [keepAt_cons, List.filter_cons]
      cases hrc : removed c with
      | false =>
        rw [if_pos (show nr c = true by simp [hrc]), if_pos (show nr c = true by simp [hrc])]
        have e1 : cnt (c :: cs) 1 = 1 := by rw [cnt_succ_live (k := 0) rfl hrc]; rfl
        rw [e1] at hm
        exact ⟨_, rfl, Or.inl hm⟩
      | true =>
        rw [if_neg (show ¬ nr c = true by simp [hrc]), if_neg (show ¬ nr c = true by simp [hrc])]
        have e1 : cnt (c :: cs) 1 = 0 := by rw [cnt_succ_dead (k := 0) rfl hrc]; rfl
        rw [e1] at hm
        have hne : runs ≠ [] := by rw [← hr]; exact levelRunsLoop_ne _ _ _ _ _
        have hlen := keepAt_length (C := cs) (ls := ls) (by simpa using h.symm)
        cases hk : keepAt cs ls with
        | nil =>
          rw [hk] at hm hlen
          have : cs.filter nr = [] := List.length_eq_zero_iff.1 hlen.symm
          rw [this] at hm
          refine ⟨[], rfl, Or.inr ?_⟩
          cases hq : runs with
          | nil => exact absurd hq hne
          | cons r rs =>
            rw [hq] at hm
            simp only [List.map_cons, levelRunsLoop, List.cons.injEq, List.map_eq_nil_iff] at hm
            exact ⟨r, rs, rfl, hm.1, by simp [hm.2]⟩
        | cons b bs =>
          rw [hk] at hm hlen
          cases hf : cs.filter nr with
          | nil => rw [hf] at hlen; simp at hlen
          | cons a as =>
            have hra : removed a = false := by
              have : a ∈ cs.filter nr := by rw [hf]; simp
              simpa using (List.mem_filter.1 this).2
            rw [hf] at hm
            rw [levelRunsLoop] at hm
            refine ⟨_, rfl, ?_⟩
            simp only [List.tail_cons]
            by_cases hb : b ≠ l
            · rw [if_pos ⟨by simp [hra], hb⟩] at hm
              right
              cases hq : runs with
              | nil => exact absurd hq hne
              | cons r rs =>
                rw [hq] at hm
                simp only [List.map_cons, List.cons.injEq] at hm
                exact ⟨r, rs, rfl, hm.1, hm.2⟩
            · rw [if_neg (fun e => hb e.2)] at hm
              left
              simp only [ne_eq, not_not] at hb
              rw [hb]
              exact hm

/-! ## sequences -/

/-- an isolate initiator is not followed by a removed character -/
def NoGap (C : List BC) : Prop := ∀ (k : Nat) c d, C[k]? = some c → C[k + 1]? = some d → isInitiator c = true → removed d = false

theorem removed_not_isolate {c : BC} (h : removed c = true) : isIsolate c = false := by cases c <;> simp_all [removed, isIsolate]

theorem end_class {C : List BC} (hg : NoGap C) {a b : Nat} (h1 : a < b) (h2 : b ≤ C.length) (h3 : cnt C a < cnt C b) :
    ∃ x y, C[b - 1]? = some x ∧ (C.filter nr)[cnt C b - 1]? = some y ∧ isIsolate x = isIsolate y := by
  have hx : C[b - 1]? = some C[b - 1] := List.getElem?_eq_getElem (by omega)
  obtain ⟨j, c, j1, j2, j3, j4, j5⟩ := last_live h2 (by omega)
  refine ⟨C[b - 1], c, hx, ?_, ?_⟩
  · rw [← filter_at j2 j3]; congr 1; omega
  · by_cases hj : j = b - 1
    · subst hj; rw [hx] at j2; simp at j2; rw [j2]
    · obtain ⟨d, d1, d2⟩ := j5 (j + 1) (by omega) (by omega)
      obtain ⟨e, e1, e2⟩ := j5 (b - 1) (by omega) (by omega)
      rw [hx] at e1; simp at e1; rw [e1, removed_not_isolate e2, isolate_eq]
      cases hi : isInitiator c with
      | false => rfl
      | true => rw [hg j c d j2 d1 hi] at d2; simp at d2

theorem seqLoop_keep {C : List BC} (hg : NoGap C) : ∀ (runs : List Run) (stack seqs out : List (List Run)),
    (∀ r ∈ runs, r.start < r.stop ∧ r.stop ≤ C.length ∧ ∃ c, C[r.start]? = some c ∧ removed c = false) → seqLoop C runs stack seqs = .ok out →
    seqLoop (C.filter nr) (runs.map (keepRun C)) (stack.map (List.map (keepRun C))) (seqs.map (List.map (keepRun C))) = .ok (out.map (List.map (keepRun C)))
  | [], stack, seqs, out, _, ho => by
    simp only [seqLoop, Model.Outcome.ok.injEq] at ho
    subst ho
    simp only [List.map_nil, seqLoop, List.map_append, List.filter_map]
    congr 3
    apply List.filter_congr
    intro s _
    cases s <;> rfl
  | r :: runs, stack, seqs, out, hr, ho => by
    obtain ⟨b1, b2, c0, b3, b4⟩ := hr r (by simp)
    have hr' : ∀ x ∈ runs, x.start < x.stop ∧ x.stop ≤ C.length ∧ ∃ c, C[x.start]? = some c ∧ removed c = false := fun x hx => hr x (by simp [hx])
    rw [seqLoop] at ho
    split_ifs at ho with hc
    have hlt : cnt C r.start < cnt C r.stop := by
      have := cnt_succ_live b3 b4
      have := cnt_mono (C := C) (show r.start + 1 ≤ r.stop by omega)
      omega
    have hnil : ¬ (stack.map (List.map (keepRun C)) = []) := by
      intro e; apply hc; right; simpa using e
    rw [List.map_cons, seqLoop, if_neg (by
      rintro (e | e)
      · simp only [keepRun] at e; omega
      · exact hnil e)]
    obtain ⟨x, y, hx, hy, hxy⟩ := end_class hg b1 b2 hlt
    rw [at_ok b3, at_ok hx] at ho
    have e1 : Model.Bidi.at' (C.filter nr) (keepRun C r).start = .ok c0 := at_ok (filter_at b3 b4)
    have e2 : Model.Bidi.at' (C.filter nr) ((keepRun C r).stop - 1) = .ok y := at_ok hy
    rw [e1, e2]
    simp only [bind_ok] at ho ⊢
    rw [resume_map, ← hxy]
    generalize resume c0 stack = q at ho
    obtain ⟨seq, st⟩ := q
    simp only at ho ⊢
    split_ifs at ho ⊢
    · have := seqLoop_keep hg runs ((seq ++ [r]) :: st) seqs out hr' ho
      simpa using this
    · have := seqLoop_keep hg runs st (seqs ++ [seq ++ [r]]) out hr' ho
      simpa using this

theorem seqLoop_prefix {C : List BC} (a : List (List Run)) : ∀ (runs : List Run) (stack seqs out : List (List Run)), seqLoop C runs stack (a ++ seqs) = .ok out →
    ∃ out', seqLoop C runs stack seqs = .ok out' ∧ out = a ++ out'
  | [], stack, seqs, out, h => by
    simp only [seqLoop, Model.Outcome.ok.injEq] at h ⊢
    exact ⟨_, rfl, by rw [← h]; simp⟩
  | r :: runs, stack, seqs, out, h => by
    rw [seqLoop] at h ⊢
    split_ifs at h ⊢
    cases h1 : Model.Bidi.at' C r.start with
    | panic => rw [h1] at h; simp at h
    | ok x =>
      rw [h1] at h
      cases h2 : Model.Bidi.at' C (r.stop - 1) with
      | panic => rw [h2] at h; simp at h
      | ok y =>
        rw [h2] at h
        simp only [bind_ok] at h ⊢
        generalize resume x stack = q at h
        obtain ⟨seq, st⟩ := q
        simp only at h ⊢
        split_ifs at h ⊢
        · exact seqLoop_prefix a runs _ seqs out h
        · exact seqLoop_prefix a runs st _ out (by simpa using h)

/-- the sequences of the characters that stay; there may be one more sequence, of removed characters only -/
theorem seqs_keep {C : List BC} {L : List Nat} (hl : L.length = C.length) (hg : NoGap C) {runs : List Run} {seqs : List (List Run)} (h1 : levelRuns L C = .ok runs)
    (h2 : seqLoop C runs [[]] [] = .ok seqs) (hst : ∀ (j : Nat) a b, runs[j]? = some a → runs[j + 1]? = some b → ∃ c, C[b.start]? = some c ∧ removed c = false)
    (ht : Tiles 0 C.length runs) :
    ∃ runs' seqs', levelRuns (keepAt C L) (C.filter nr) = .ok runs' ∧ seqLoop (C.filter nr) runs' [[]] [] = .ok seqs' ∧
      (seqs.map (List.map (keepRun C)) = seqs' ∨ ∃ r ss, seqs = [r] :: ss ∧ keepRun C r = ⟨0, 0⟩ ∧ ss.map (List.map (keepRun C)) = seqs') := by
  obtain ⟨runs', k1, k2⟩ := levelRuns_keep hl h1
  refine ⟨runs', ?_⟩
  rw [k1]
  cases runs with
  | nil =>
    simp [seqLoop] at h2; subst h2
    rcases k2 with k2 | ⟨r, rs, e, _⟩
    · subst k2; exact ⟨[], rfl, rfl, Or.inl rfl⟩
    · simp at e
  | cons r rs =>
    have hb := (tiles_bounds ht).2
    have hrs : ∀ x ∈ rs, x.start < x.stop ∧ x.stop ≤ C.length ∧ ∃ c, C[x.start]? = some c ∧ removed c = false := by
      intro x hx
      have := hb x (by simp [hx])
      refine ⟨this.2.1, this.2.2, ?_⟩
      obtain ⟨j, hj, e⟩ := List.getElem_of_mem hx
      refine hst j ((r :: rs)[j]'(by simp; omega)) x (List.getElem?_eq_getElem _) ?_
      rw [List.getElem?_cons_succ, List.getElem?_eq_getElem hj, e]
    have hr0 := hb r (by simp)
    rw [seqLoop, if_neg (by rintro (h | h); omega; simp at h)] at h2
    rw [at_ok (List.getElem?_eq_getElem (show r.start < C.length by omega)), at_ok (List.getElem?_eq_getElem (show r.stop - 1 < C.length by omega))] at h2
    have hres : ∀ c, resume c [[]] = ([], [[]]) := by intro c; unfold resume; simp
    simp only [bind_ok, hres] at h2
    rcases k2 with k2 | ⟨r', rs', e, k2, k3⟩
    · subst k2
      have hruns' := tiles_bounds (levelRuns_tiles (ls := keepAt C L) (cs := C.filter nr) (by simpa using keepAt_length hl.symm)).choose_spec.2
      have hkr : cnt C r.start < cnt C r.stop := by
        obtain ⟨rr, q1, q2⟩ := levelRuns_tiles (ls := keepAt C L) (cs := C.filter nr) (by simpa using keepAt_length hl.symm)
        rw [k1] at q1; cases q1
        exact ((tiles_bounds q2).2 (keepRun C r) (by simp)).2.1
      obtain ⟨x, y, hx, hy, hxy⟩ := end_class hg hr0.2.1 hr0.2.2 hkr
      rw [List.getElem?_eq_getElem (show r.stop - 1 < C.length by omega)] at hx
      simp at hx
      rw [hx] at h2
      have hs : cnt C r.start < (C.filter nr).length := by
        rw [← cnt_length]
        have := cnt_mono (C := C) hr0.2.2
        omega
      have e2 : Model.Bidi.at' (C.filter nr) ((keepRun C r).stop - 1) = .ok y := at_ok hy
      have key : seqLoop (C.filter nr) ((r :: rs).map (keepRun C)) [[]] [] = .ok (seqs.map (List.map (keepRun C))) := by
        rw [List.map_cons, seqLoop, if_neg (by rintro (h | h); simp only [keepRun] at h; omega; simp at h)]
        rw [at_ok (List.getElem?_eq_getElem (show (keepRun C r).start < (C.filter nr).length from hs)), e2]
        simp only [bind_ok, hres]
        rw [← hxy]
        split_ifs at h2 ⊢
        · have := seqLoop_keep hg rs _ _ seqs hrs h2
          simpa using this
        · have := seqLoop_keep hg rs _ _ seqs hrs h2
          simpa using this
      exact ⟨_, rfl, key, Or.inl rfl⟩
    · cases e
      have h0 : cnt C r.stop = 0 := by have := congrArg Run.stop k2; exact this
      have hend : isIsolate C[r.stop - 1] = false := by
        apply removed_not_isolate
        cases hrem : removed C[r.stop - 1] with
        | true => rfl
        | false =>
          have := cnt_succ_live (List.getElem?_eq_getElem (show r.stop - 1 < C.length by omega)) hrem
          rw [show r.stop - 1 + 1 = r.stop by omega] at this
          omega
      rw [hend] at h2
      simp only [Bool.false_eq_true, if_false, List.nil_append] at h2
      obtain ⟨out', o1, o2⟩ := seqLoop_prefix [[r]] rs [[]] [] seqs (by simpa using h2)
      have := seqLoop_keep hg rs [[]] [] out' hrs o1
      simp only [List.map_cons, List.map_nil] at this
      rw [k3] at this
      exact ⟨_, rfl, this, Or.inr ⟨r, out', by rw [o2]; rfl, k2, rfl⟩⟩

/-! ## indices -/

/-- the indices of characters that are not removed -/
def liveAt (C : List BC) (ks : List Nat) : List Nat := ks.filter (fun k => (C[k]?).any nr)

theorem live_range {C : List BC} {a : Nat} : ∀ {m : Nat}, a + m ≤ C.length → (liveAt C (List.range' a m)).map (cnt C) = List.range' (cnt C a) (cnt C (a + m) - cnt C a)
  | 0, _ => by simp [liveAt]
  | m + 1, h => by
    have hx : C[a + m]? = some C[a + m] := List.getElem?_eq_getElem (by omega)
    have ih := live_range (C := C) (a := a) (m := m) (by omega)
    have hle := cnt_mono (C := C) (show a ≤ a + m by omega)
    unfold liveAt at ih ⊢
    rw [List.range'_concat, List.filter_append, List.map_append, ih, Nat.one_mul, List.filter_cons, hx, show a + (m + 1) = a + m + 1 by omega]
    cases hr : removed C[a + m] with
    | true => rw [cnt_succ_dead hx hr]; simp [hr]
    | false =>
      rw [cnt_succ_live hx hr, show cnt C (a + m) + 1 - cnt C a = cnt C (a + m) - cnt C a + 1 by omega, List.range'_concat]
      simp [hr]
      omega

theorem live_indices {C : List BC} : ∀ {s : List Run}, (∀ r ∈ s, r.start < r.stop ∧ r.stop ≤ C.length) → (liveAt C (indices s)).map (cnt C) = indices (s.map (keepRun C))
  | [], _ => rfl
  | r :: s, h => by
    have h1 := h r (by simp)
    have ih := live_indices (C := C) (s := s) (fun x hx => h x (by simp [hx]))
    rw [List.map_cons, indices_cons, indices_cons, ← ih]
    unfold liveAt
    rw [List.filter_append, List.map_append]
    congr 1
    have := live_range (C := C) (a := r.start) (m := r.stop - r.start) (by omega)
    unfold liveAt at this
    rw [this, show r.start + (r.stop - r.start) = r.stop by omega]
    rfl

end Proofs.BidiW
