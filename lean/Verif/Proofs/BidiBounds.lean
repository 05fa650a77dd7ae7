import Verif.Proofs.BidiKept
import Verif.Proofs.BidiSeq

/-! # The characters of a paragraph after X9, the sequences of the program, and X10 -/
namespace Proofs.BidiW
open Model.Bidi Data Spec.Bidi Proofs.Punycode
open Proofs.Bidi hiding w3

/-! ## the characters that stay -/

theorem keep_facts : ∀ (cs : List BC) (xs : List (Option (Nat × BC))) (L : List Nat) (k : Nat), xs.length = cs.length → L.length = cs.length →
    (∀ (i : Nat) c x, cs[i]? = some c → xs[i]? = some x → (removed c = true ↔ x = none)) →
    (∀ (i : Nat) l d, xs[i]? = some (some (l, d)) → L[i]? = some l) →
    (keepFrom k cs xs).map Kept.orig = cs.filter nr ∧ (keepFrom k cs xs).map Kept.level = keepAt cs L ∧
      ∀ (i : Nat) c l d, cs[i]? = some c → xs[i]? = some (some (l, d)) → (keepFrom k cs xs)[cnt cs i]? = some ⟨k + i, l, d, c⟩
  | [], [], [], k, _, _, _, _ => ⟨rfl, rfl, by simp⟩
  | c :: cs, x :: xs, l :: L, k, h1, h2, h3, h4 => by
    obtain ⟨i1, i2, i3⟩ := keep_facts cs xs L (k + 1) (by simpa using h1) (by simpa using h2) (fun i c x a b => h3 (i + 1) c x a b) (fun i l d a => h4 (i + 1) l d a)
    have e : ∀ i, cnt (c :: cs) (i + 1) = cnt cs i + if nr c then 1 else 0 := by
      intro i; unfold cnt; rw [List.take_succ_cons, List.countP_cons]
    have hx := h3 0 c x rfl rfl
    cases x with
    | none =>
      have hr : removed c = true := hx.2 rfl
      rw [keepFrom, keepAt_cons, List.filter_cons, if_neg (by simp [hr]), if_neg (by simp [hr])]
      refine ⟨i1, i2, ?_⟩
      intro i c' l' d' a b
      cases i with
      | zero => simp at b
      | succ i =>
        rw [e, if_neg (by simp [hr])]
        refine (i3 i c' l' d' a b).trans ?_
        congr 2; omega
    | some v =>
      obtain ⟨l0, d0⟩ := v
      have hr : removed c = false := by
        cases hr : removed c with
        | false => rfl
        | true => have := hx.1 hr; simp at this
      have hl : l = l0 := by simpa using h4 0 l0 d0 rfl
      subst hl
      rw [keepFrom, keepAt_cons, List.filter_cons, if_pos (by simp [hr]), if_pos (by simp [hr])]
      refine ⟨by simp [i1], by simp [i2], ?_⟩
      intro i c' l' d' a b
      cases i with
      | zero => simp at a b; simp [cnt_zero, a, b]
      | succ i =>
        rw [e, if_pos (by simp [hr]), List.getElem?_cons_succ, i3 i c' l' d' a b]
        congr 2; omega
  | [], _ :: _, _, _, h, _, _, _ => by simp at h
  | _ :: _, [], _, _, h, _, _, _ => by simp at h
  | [], [], _ :: _, _, _, h, _, _ => by simp at h
  | _ :: _, _ :: _, [], _, _, h, _, _ => by simp at h

theorem step_removed {st : Explicit} {c : BC} {lv : Nat} {st' : Explicit} {v : Option (Nat × BC)} (h : st.step c lv c = .ok (st', v)) (hr : removed c = true) :
    ∀ l d, v = some (l, d) → d = c := by
  have op : ∀ {c' : BC} {w : Explicit × Nat × BC}, isIsolate c' = false → st.opener c' lv c = .ok w → w.2.2 = c := by
    intro c' w hi hw
    unfold Explicit.opener at hw
    cases hs : st.stack with
    | nil => rw [hs] at hw; simp at hw
    | cons a b =>
      rw [hs] at hw
      simp only [hi, Bool.false_eq_true, if_false] at hw
      split at hw
      · split_ifs at hw <;> · cases hw; rfl
      · split_ifs at hw <;> · cases hw; rfl
  have opn : ∀ {c' : BC}, isIsolate c' = false → (do let (st, v) ← st.opener c' lv c; return (st, some v)) = Model.Outcome.ok (st', v) → ∀ l d, v = some (l, d) → d = c := by
    intro c' hi hw l d hv
    cases ho : st.opener c' lv c with
    | panic => rw [ho] at hw; simp at hw
    | ok w =>
      rw [ho] at hw
      simp only [bind_ok, pure_eq] at hw
      cases hw
      have := op hi ho
      simp only [Option.some.injEq] at hv
      rw [hv] at this
      exact this
  cases c <;> first | exact absurd hr (by decide) | skip
  · rw [Explicit.step] at h; cases h; intro l d hv; cases hv; rfl
  · rw [Explicit.step] at h; exact opn rfl h
  · rw [Explicit.step] at h; exact opn rfl h
  · rw [Explicit.step] at h
    intro l d hv
    split_ifs at h
    · cases h; simp at hv
    · cases h; simp at hv
    · cases ho : st.pdf .PopDirectionalFormat with
      | panic => rw [ho] at h; simp at h
      | ok w =>
        rw [ho] at h
        simp only [bind_ok, pure_eq] at h
        cases h
        simp only [Option.some.injEq] at hv
        unfold Explicit.pdf at ho
        cases hs : st.stack with
        | nil => rw [hs] at ho; simp at ho
        | cons a b =>
          rw [hs] at ho
          simp only at ho
          split at ho
          · simp at ho
          · cases ho; cases hv; rfl
  · rw [Explicit.step] at h; exact opn rfl h
  · rw [Explicit.step] at h; exact opn rfl h

theorem explicitC_removed {pl : Nat} : ∀ (cs : List BC) (st : Explicit) (l : List (Nat × BC)), explicitC pl cs st = .ok l →
    ∀ (i : Nat) c v, cs[i]? = some c → removed c = true → l[i]? = some v → v.2 = c
  | [], _, _, _, i, c, v, h, _, _ => by simp at h
  | a :: cs, st, l, hl, i, c, v, hc, hr, hv => by
    rw [explicitC] at hl
    cases h1 : st.step a pl a with
    | panic => rw [h1] at hl; simp at hl
    | ok w =>
      obtain ⟨st', x⟩ := w
      rw [h1] at hl
      simp only [bind_ok] at hl
      cases h2 : explicitC pl cs st' with
      | panic => rw [h2] at hl; simp at hl
      | ok l' =>
        rw [h2] at hl
        simp only [bind_ok, pure_eq] at hl
        cases hl
        cases i with
        | zero =>
          simp at hc hv; subst hc; subst hv
          cases x with
          | none => rfl
          | some y => obtain ⟨l, d⟩ := y; exact step_removed h1 hr l d rfl
        | succ i => exact explicitC_removed cs st' l' h2 i c v (by simpa using hc) hr (by simpa using hv)

/-- levels and classes after the explicit rules -/
abbrev lev (pl : Nat) (cs : List BC) : List Nat := (explicitL pl cs).map Prod.fst
abbrev exc (pl : Nat) (cs : List BC) : List BC := (explicitL pl cs).map Prod.snd

/-- the characters that stay, seen from the program -/
structure ParaFacts (pl : Nat) (cs : List BC) : Prop where
  len1 : (lev pl cs).length = cs.length
  len2 : (exc pl cs).length = cs.length
  orig : (afterX9 pl cs).map Kept.orig = cs.filter nr
  level : (afterX9 pl cs).map Kept.level = keepAt cs (lev pl cs)
  get : ∀ (i : Nat) c, cs[i]? = some c → removed c = false → ∃ u, (afterX9 pl cs)[cnt cs i]? = some u ∧ u.pos = i ∧ u.orig = c ∧
    (lev pl cs)[i]? = some u.level ∧ (exc pl cs)[i]? = some u.cls
  rem : ∀ (i : Nat) c d, cs[i]? = some c → (exc pl cs)[i]? = some d → removed d = removed c
  nested : Nested (afterX9 pl cs)
  kept : ∀ u ∈ afterX9 pl cs, removed u.orig = false

theorem para_facts {pl : Nat} (hpl : pl ≤ 126) {cs : List BC} (hB : ∀ c ∈ cs.dropLast, c ≠ .ParagraphSeparator) : ParaFacts pl cs := by
  obtain ⟨h1, h2, h3, h4⟩ := explicitL_ok hpl hB
  have hlen1 : (lev pl cs).length = cs.length := by simp [lev, h2]
  have hlen2 : (exc pl cs).length = cs.length := by simp [exc, h2]
  have hk := keep_facts cs (explicit pl cs) (lev pl cs) 0 h3 hlen1 (by
      intro i c x hc hx
      have hi : i < cs.length := by by_contra hn; rw [List.getElem?_eq_none (by omega)] at hc; simp at hc
      exact (h4 i c _ x hc (List.getElem?_eq_getElem (show i < (explicitL pl cs).length by omega)) hx).2.1) (by
      intro i l d hx
      rw [List.getElem?_map, (levelsC_get (t := []) hpl hB hx).1]; rfl)
  obtain ⟨k1, k2, k3⟩ := hk
  refine ⟨hlen1, hlen2, k1, k2, ?_, ?_, nested_afterX9 hB, ?_⟩
  · intro i c hc hr
    have hi : i < cs.length := by by_contra hn; rw [List.getElem?_eq_none (by omega)] at hc; simp at hc
    have hx : (explicit pl cs)[i]? = some (explicit pl cs)[i] := List.getElem?_eq_getElem (by omega)
    have ha := h4 i c _ _ hc (List.getElem?_eq_getElem (show i < (explicitL pl cs).length by omega)) hx
    cases hy : (explicit pl cs)[i]'(by omega) with
    | none => rw [hy] at ha; rw [ha.2.1.2 rfl] at hr; simp at hr
    | some y =>
      obtain ⟨l, d⟩ := y
      rw [hy] at hx
      have hg := (levelsC_get (t := []) hpl hB hx).1
      refine ⟨_, k3 i c l d hc hx, by simp, rfl, ?_, ?_⟩
      · rw [List.getElem?_map, hg]; rfl
      · rw [List.getElem?_map, hg]; rfl
  · intro i c d hc hd
    have hi : i < cs.length := by by_contra hn; rw [List.getElem?_eq_none (by omega)] at hc; simp at hc
    have hv : (explicitL pl cs)[i]? = some (explicitL pl cs)[i] := List.getElem?_eq_getElem (by omega)
    have hx : (explicit pl cs)[i]? = some (explicit pl cs)[i] := List.getElem?_eq_getElem (by omega)
    rw [List.getElem?_map, hv] at hd
    simp only [Option.map_some, Option.some.injEq] at hd
    cases hr : removed c with
    | true => rw [← hd, explicitC_removed cs _ _ h1 i c _ hc hr hv, hr]
    | false =>
      have ha := (h4 i c _ _ hc hv hx).2.2.2.1
      rw [hd] at ha
      rcases ha with e | e | e
      · rw [e, hr]
      · rw [e]; rfl
      · rw [e]; rfl
  · intro u hu
    have : u.orig ∈ cs.filter nr := by rw [← k1]; exact List.mem_map.2 ⟨u, hu, rfl⟩
    simpa using (List.mem_filter.1 this).2

/-- an override gives a character the class L or R; others keep theirs -/
theorem kept_class {pl : Nat} (hpl : pl ≤ 126) {cs : List BC} (hB : ∀ c ∈ cs.dropLast, c ≠ .ParagraphSeparator) :
    ∀ u ∈ afterX9 pl cs, (u.cls = u.orig ∧ u.orig ∈ cs) ∨ u.cls = .LeftToRight ∨ u.cls = .RightToLeft := by
  intro u hu
  obtain ⟨h1, h2, h3, h4⟩ := explicitL_ok hpl hB
  have hgen : ∀ (cs' : List BC) (xs : List (Option (Nat × BC))) (k : Nat), ∀ u ∈ keepFrom k cs' xs, ∃ (i : Nat), cs'[i]? = some u.orig ∧ xs[i]? = some (some (u.level, u.cls)) := by
    intro cs'
    induction cs' with
    | nil => intro xs k u hu; simp [keepFrom] at hu
    | cons c cs' ih =>
      intro xs k u hu
      cases xs with
      | nil => simp [keepFrom] at hu
      | cons x xs =>
        cases x with
        | none =>
          simp only [keepFrom] at hu
          obtain ⟨i, a, b⟩ := ih xs _ u hu
          exact ⟨i + 1, by simpa using a, by simpa using b⟩
        | some y =>
          obtain ⟨l, d⟩ := y
          simp only [keepFrom] at hu
          rcases List.mem_cons.1 hu with rfl | hu
          · exact ⟨0, rfl, rfl⟩
          · obtain ⟨i, a, b⟩ := ih xs _ u hu
            exact ⟨i + 1, by simpa using a, by simpa using b⟩
  obtain ⟨i, a, b⟩ := hgen cs (explicit pl cs) 0 u hu
  have hi : i < cs.length := by by_contra hn; rw [List.getElem?_eq_none (by omega)] at a; simp at a
  have := h4 i _ _ _ a (List.getElem?_eq_getElem (show i < (explicitL pl cs).length by omega)) b
  obtain ⟨e1, _, _, e4, _⟩ := this
  rw [e1 _ rfl] at e4
  rcases e4 with e | e
  · exact .inl ⟨e, List.mem_of_getElem? a⟩
  · exact .inr e

theorem levelOf_eq {us : List Kept} {i : Nat} {u : Kept} (h : us[i]? = some u) : levelOf us i = some u.level := by unfold levelOf; rw [h]; rfl

theorem ParaFacts.length {pl : Nat} {cs : List BC} (h : ParaFacts pl cs) : (afterX9 pl cs).length = cnt cs cs.length := by
  rw [cnt_length, ← h.orig, List.length_map]

/-! ## X10 -/

theorem zip_at {cs : List BC} {L : List Nat} {k : Nat} {c : BC} {l : Nat} (hc : cs[k]? = some c) (hl : L[k]? = some l) : (cs.zip L)[k]? = some (c, l) := by
  rw [List.getElem?_zip_eq_some]; exact ⟨hc, hl⟩

theorem pred_keep {pl : Nat} {cs : List BC} (h : ParaFacts pl cs) : ∀ k : Nat, k ≤ cs.length →
    predC pl cs (lev pl cs) k = if cnt cs k = 0 then pl else (levelOf (afterX9 pl cs) (cnt cs k - 1)).getD pl
  | 0, _ => by simp [predC, cnt]
  | k + 1, hk => by
    have ih := pred_keep h k (by omega)
    have hc : cs[k]? = some cs[k] := List.getElem?_eq_getElem (by omega)
    have hl : (lev pl cs)[k]? = some ((lev pl cs)[k]'(by rw [h.len1]; omega)) := List.getElem?_eq_getElem _
    have hz := zip_at hc hl
    unfold predC at ih ⊢
    rw [List.take_add_one, hz, List.reverse_append]
    simp only [Option.toList_some, List.reverse_cons, List.reverse_nil, List.nil_append, List.cons_append, List.find?_cons]
    cases hr : removed cs[k] with
    | true =>
      simp only [Bool.not_true]
      rw [ih, cnt_succ_dead hc hr]
    | false =>
      simp only [Bool.not_false, Option.map_some, Option.getD_some]
      rw [cnt_succ_live hc hr, if_neg (by omega), Nat.add_sub_cancel]
      obtain ⟨u, hu, _, _, hul, _⟩ := h.get k _ hc hr
      rw [levelOf_eq hu]
      rw [hl] at hul
      simpa using hul

theorem succ_keep {pl : Nat} {cs : List BC} (h : ParaFacts pl cs) : ∀ d k : Nat, k + d = cs.length →
    succC pl cs (lev pl cs) k = (levelOf (afterX9 pl cs) (cnt cs k)).getD pl
  | 0, k, hk => by
    have : k = cs.length := hk
    subst this
    have hlen := h.length
    unfold succC levelOf
    rw [List.getElem?_eq_none (by omega), List.drop_eq_nil_of_le (by simp)]
    rfl
  | d + 1, k, hk => by
    have ih := succ_keep h d (k + 1) (by omega)
    have hc : cs[k]? = some cs[k] := List.getElem?_eq_getElem (by omega)
    have hl : (lev pl cs)[k]? = some ((lev pl cs)[k]'(by rw [h.len1]; omega)) := List.getElem?_eq_getElem _
    have hz := zip_at hc hl
    have hzl : k < (cs.zip (lev pl cs)).length := by rw [List.length_zip, h.len1]; omega
    unfold succC at ih ⊢
    rw [List.drop_eq_getElem_cons hzl, List.find?_cons]
    rw [List.getElem?_eq_getElem hzl] at hz
    simp only [Option.some.injEq] at hz
    rw [hz]
    simp only
    cases hr : removed cs[k] with
    | true =>
      simp only [Bool.not_true]
      rw [ih, cnt_succ_dead hc hr]
    | false =>
      simp only [Bool.not_false, Option.map_some, Option.getD_some]
      obtain ⟨u, hu, _, _, hul, _⟩ := h.get k _ hc hr
      rw [levelOf_eq hu]
      rw [hl] at hul
      simpa using hul

theorem levelDir_eq (l : Nat) : Model.Level.bidiClass l = Spec.Bidi.levelDir l := by
  unfold Model.Level.bidiClass Model.Level.isRtl Spec.Bidi.levelDir
  by_cases h : l % 2 = 0
  · simp [h]
  · have : l % 2 = 1 := by omega
    simp [this]

/-- X10 for a sequence of the program -/
theorem bounds_keep {pl : Nat} {cs : List BC} (h : ParaFacts pl cs) (hg : NoGap cs) {first last : Run} {s : List Run} (hf : s.head? = some first) (hl : s.getLast? = some last)
    (b1 : first.start < first.stop ∧ first.stop ≤ cs.length) (b2 : last.start < last.stop ∧ last.stop ≤ cs.length)
    (n1 : cnt cs first.start < cnt cs first.stop) (n2 : cnt cs last.start < cnt cs last.stop)
    (hlev : ∀ k, first.start ≤ k → k < first.stop → ∀ c, cs[k]? = some c → removed c = false → (lev pl cs)[k]? = (lev pl cs)[first.start]?)
    (hsame : levelOf (afterX9 pl cs) (cnt cs first.start) = levelOf (afterX9 pl cs) (cnt cs last.stop - 1)) :
    some ((lev pl cs).getD (s.headD ⟨0, 0⟩).start 0) = levelOf (afterX9 pl cs) (cnt cs first.start) ∧
    (boundsC pl cs (lev pl cs) s).sos = sosOf pl (afterX9 pl cs) (cnt cs first.start) ∧
    (boundsC pl cs (lev pl cs) s).eos = eosOf pl (afterX9 pl cs) (cnt cs last.stop - 1) := by
  have e1 : s.headD ⟨0, 0⟩ = first := by rw [List.headD_eq_head?_getD, hf]; rfl
  have e2 : s.getLastD ⟨0, 0⟩ = last := by rw [List.getLastD_eq_getLast?, hl]; rfl
  obtain ⟨j, c, j1, j2, j3, j4, j5⟩ := first_live (C := cs) (a := first.start) (m := first.stop - first.start) (by omega) (by rw [show first.start + (first.stop - first.start) = first.stop by omega]; exact n1)
  obtain ⟨u, hu, _, _, hul, _⟩ := h.get j c j3 j4
  rw [j5] at hu
  have hlv : levelOf (afterX9 pl cs) (cnt cs first.start) = some u.level := levelOf_eq hu
  have hfs : (lev pl cs)[first.start]? = some u.level := by rw [← hlev j j1 (by omega) c j3 j4, hul]
  have hgd : (lev pl cs).getD first.start 0 = u.level := by rw [List.getD_eq_getElem?_getD, hfs]; rfl
  refine ⟨by rw [e1, hgd, hlv], ?_, ?_⟩
  · unfold boundsC sosOf
    simp only [e1, hgd, levelDir_eq, hlv, Option.getD_some]
    rw [pred_keep h _ (by omega)]
  · unfold boundsC eosOf
    simp only [e1, e2, hgd, levelDir_eq, ← hsame, hlv, Option.getD_some]
    obtain ⟨x, y, hx, hy, hxy⟩ := end_class hg b2.1 b2.2 n2
    have hx' : cs.getD (last.stop - 1) .OtherNeutral = x := by rw [List.getD_eq_getElem?_getD, hx]; rfl
    rw [← h.orig, List.getElem?_map] at hy
    cases hw : (afterX9 pl cs)[cnt cs last.stop - 1]? with
    | none => rw [hw] at hy; simp at hy
    | some w =>
      rw [hw] at hy
      simp at hy
      rw [hx', hxy, isolate_eq, ← hy, succ_keep h (cs.length - last.stop) last.stop (by omega)]
      simp only [Option.any_some]
      rw [show cnt cs last.stop - 1 + 1 = cnt cs last.stop by omega]

theorem follows_level {us : List Kept} (hn : Nested us) {i j : Nat} (h : Follows us i j) : levelOf us i = levelOf us j := by
  rcases h with ⟨_, h⟩ | ⟨_, h, _⟩
  · exact h
  · obtain ⟨u, v, h1, h2, h3, _⟩ := hn i j h
    rw [levelOf_eq h1, levelOf_eq h2, h3]

theorem chain_level {us : List Kept} (hn : Nested us) : ∀ {s : List Nat}, List.IsChain (Follows us) s → ∀ a, s.head? = some a → ∀ i ∈ s, levelOf us i = levelOf us a
  | [], _, a, h, _, _ => by simp at h
  | [b], _, a, h, i, hi => by simp at h hi; rw [hi, h]
  | b :: c :: s, hc, a, h, i, hi => by
    rw [List.isChain_cons_cons] at hc
    simp at h; subst h
    rcases List.mem_cons.1 hi with rfl | hi
    · rfl
    · rw [chain_level hn hc.2 c rfl i hi, follows_level hn hc.1]

end Proofs.BidiW
