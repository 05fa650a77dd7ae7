import Verif.Proofs.BidiNew
import Mathlib.Data.List.Chain

/-! # Paragraphs, entries of one character, the size of the stack, and what the passes keep -/
namespace Proofs.Bidi
open Model Model.Bidi Data Proofs.Punycode Model.Grapheme Proofs.Grapheme Spec.Bidi

/-! ## P1 determines the paragraphs -/

theorem splitParas_append {cls : Nat → BC} {r : List Nat} : ∀ (p : List Nat), p ≠ [] → (∀ c ∈ p.dropLast, cls c ≠ .ParagraphSeparator) →
    (r = [] ∨ ∃ c, p.getLast? = some c ∧ cls c = .ParagraphSeparator) → splitParas cls (p ++ r) = p :: splitParas cls r
  | [], h, _, _ => absurd rfl h
  | [c], _, _, h => by
    rw [List.singleton_append, splitParas]
    by_cases hc : cls c = .ParagraphSeparator
    · rw [if_pos hc]
    · rw [if_neg hc]
      rcases h with rfl | ⟨x, hx, hb⟩
      · rfl
      · simp at hx; subst hx; exact absurd hb hc
  | c :: d :: p, _, hn, h => by
    rw [List.dropLast_cons_cons] at hn
    have ih := splitParas_append (cls := cls) (r := r) (d :: p) (by simp) (fun x hx => hn x (by simp [hx])) (by
      rcases h with h | ⟨x, hx, hb⟩
      · exact Or.inl h
      · exact Or.inr ⟨x, by rw [List.getLast?_cons_cons] at hx; exact hx, hb⟩)
    rw [List.cons_append, splitParas, if_neg (hn c (by simp)), ih]

theorem splitParas_unique {cls : Nat → BC} : ∀ {ps : List (List Nat)} {text : List Nat}, IsParagraphs cls text ps → splitParas cls text = ps
  | [], text, ⟨h1, _, _⟩ => by simp at h1; subst h1; rfl
  | p :: ps, text, ⟨h1, h2, h3⟩ => by
    have ih : splitParas cls ps.flatten = ps := splitParas_unique ⟨rfl, fun q hq => h2 q (by simp [hq]), by
      intro q hq
      cases ps with
      | nil => simp at hq
      | cons a as => exact h3 q (by rw [List.dropLast_cons_cons]; simp [hq])⟩
    subst h1
    rw [List.flatten_cons, splitParas_append p (h2 p (by simp)).1 (h2 p (by simp)).2, ih]
    cases ps with
    | nil => left; rfl
    | cons a as => right; exact h3 p (by rw [List.dropLast_cons_cons]; simp)

theorem infos_length {cls : Nat → BC} {dflt : Option Nat} : ∀ (ps : List (List Nat)) (s : Nat), (paragraphInfos cls dflt s ps).length = ps.length
  | [], _ => rfl
  | p :: ps, s => by simp [paragraphInfos, infos_length ps]

theorem infos_get {cls : Nat → BC} {dflt : Option Nat} : ∀ (ps : List (List Nat)) (s i : Nat) (p : List Nat), ps[i]? = some p →
    (paragraphInfos cls dflt s ps)[i]? = some ⟨⟨s + blen (ps.take i).flatten, s + blen (ps.take (i + 1)).flatten⟩, dflt.getD (paragraphLevel (p.map cls))⟩
  | [], _, _, _, h => by simp at h
  | q :: ps, s, 0, p, h => by simp at h; subst h; simp [paragraphInfos, blen_nil]
  | q :: ps, s, i + 1, p, h => by
    rw [List.getElem?_cons_succ] at h
    rw [paragraphInfos, List.getElem?_cons_succ, infos_get ps _ i p h]
    simp [blen_append, Nat.add_assoc]

/-- the entry of a byte of the character `k` of the paragraph `i` -/
theorem para_entry {α : Type} {f : List Nat → List α} {ps : List (List Nat)} (hf : ∀ p ∈ ps, (f p).length = p.length) {i : Nat} {p : List Nat} (hp : ps[i]? = some p)
    {k : Nat} (hk : k < p.length) : (expand ps.flatten (ps.flatMap f))[blen (ps.take i).flatten + blen (p.take k)]? = (f p)[k]? := by
  induction ps generalizing i with
  | nil => simp at hp
  | cons q ps ih =>
    rw [List.flatten_cons, List.flatMap_cons, expand_append _ _ _ _ (hf q (by simp))]
    cases i with
    | zero =>
      simp at hp; subst hp
      have hl : off q k < blen q := by rw [← off_length]; exact off_lt hk (Nat.le_refl _)
      have h0 : blen (List.take 0 (q :: ps)).flatten + blen (q.take k) = off q k := by simp [blen_nil, off]
      rw [h0, List.getElem?_append_left (by rw [expand_length _ _ (hf q (by simp))]; exact hl), expand_at (hf q (by simp)) hk]
    | succ i =>
      rw [List.getElem?_cons_succ] at hp
      rw [List.take_succ_cons, List.flatten_cons, blen_append, Nat.add_assoc,
        List.getElem?_append_right (by rw [expand_length _ _ (hf q (by simp))]; omega), expand_length _ _ (hf q (by simp)), Nat.add_sub_cancel_left]
      exact ih (fun x hx => hf x (by simp [hx])) hp

/-! ## the stack -/

theorem desc_length {M : Nat} : ∀ {stack : List Status}, stack.Pairwise (fun a b => b.level < a.level) → (∀ e ∈ stack, e.level ≤ M) → stack.length ≤ M + 1
  | [], _, _ => by simp
  | e :: stack, h, hb => by
    obtain ⟨h1, h2⟩ := List.pairwise_cons.1 h
    have he := hb e (by simp)
    cases hM : e.level with
    | zero =>
      cases stack with
      | nil => simp
      | cons a as => have := h1 a (by simp); omega
    | succ m =>
      have := desc_length (M := m) h2 (fun a ha => by have := h1 a ha; omega)
      simp only [List.length_cons]; omega

/-- the state of the program after the characters of classes `cs` -/
def explicitStates (pl : Nat) : (cs : List BC) → Explicit → Outcome Explicit
  | [], st => .ok st
  | c :: cs, st => do
    let (st, _) ← st.step c pl c
    explicitStates pl cs st

theorem explicitStates_ok {pl : Nat} : ∀ (cs : List BC) (s : Explicit), Inv pl s → (∀ c ∈ cs, c ≠ .ParagraphSeparator) →
    ∃ s', explicitStates pl cs s = .ok s' ∧ Inv pl s' ∧ absState s' = cs.foldl (fun s c => (s.step pl c).1) (absState s)
  | [], s, h, _ => ⟨s, rfl, h, rfl⟩
  | c :: cs, s, h, hc => by
    obtain ⟨s1, v, h1, h2, h3, _⟩ := step_ok h c (hc c (by simp))
    obtain ⟨s', i1, i2, i3⟩ := explicitStates_ok cs s1 h2 (fun x hx => hc x (by simp [hx]))
    refine ⟨s', by rw [explicitStates, h1]; exact i1, i2, by rw [i3, h3]; rfl⟩

theorem inv_stack {pl : Nat} {s : Explicit} (h : Inv pl s) : 1 ≤ s.stack.length ∧ s.stack.length ≤ 127 := by
  constructor
  · obtain ⟨l, r, e⟩ := h.ne_nil
    simp [e]
  · have := desc_length (M := 126) h.desc (fun e he => by have := h.bound e he; have := h.para; omega)
    omega

/-! ## level runs -/

/-- what `level_runs` guarantees: entries of a run that are not removed have the level the run starts with, and a run after the first starts at
an entry that is not removed and has another level -/
theorem levelRunsLoop_spec {C : List BC} {L : List Nat} : ∀ (cs : List BC) (ls : List Nat) (i cur start : Nat), C.drop i = cs → L.drop i = ls → i ≤ L.length → C.length = L.length →
    start < i → L[start]? = some cur → (∀ k, start ≤ k → k < i → ∀ c, C[k]? = some c → removed c = false → k ≠ start → L[k]? = some cur) →
    (∀ r ∈ levelRunsLoop cs ls i cur start, ∀ k, r.start ≤ k → k < r.stop → ∀ c, C[k]? = some c → removed c = false → L[k]? = L[r.start]?) ∧
    (∀ j r, (levelRunsLoop cs ls i cur start)[j]? = some r → j = 0 → r.start = start) ∧
    (∀ j a b, (levelRunsLoop cs ls i cur start)[j]? = some a → (levelRunsLoop cs ls i cur start)[j + 1]? = some b →
      L[a.start]? ≠ L[b.start]? ∧ ∃ c, C[b.start]? = some c ∧ removed c = false)
  | c :: cs, l :: ls, i, cur, start, hC, hL, hi, hlen, hs, hcur, hall => by
    have hCi : C[i]? = some c := by rw [← List.head?_drop, hC]; rfl
    have hLi : L[i]? = some l := by rw [← List.head?_drop, hL]; rfl
    have hC' : C.drop (i + 1) = cs := by rw [← List.drop_drop (i := 1) (j := i), hC]; rfl
    have hL' : L.drop (i + 1) = ls := by rw [← List.drop_drop (i := 1) (j := i), hL]; rfl
    have hi' : i < L.length := by
      by_contra hc
      rw [List.drop_eq_nil_of_le (by omega)] at hL; simp at hL
    rw [levelRunsLoop]
    split_ifs with hcond
    · obtain ⟨g1, g2⟩ := hcond
      simp only [Bool.not_eq_true'] at g1
      obtain ⟨i1, i2, i3⟩ := levelRunsLoop_spec cs ls (i + 1) l i hC' hL' (by omega) hlen (by omega) hLi (by intro k h1 h2 _ _ _ h3; omega)
      refine ⟨?_, ?_, ?_⟩
      · intro r hr k hk1 hk2 x hx hrx
        rcases List.mem_cons.1 hr with rfl | hr
        · simp only at hk1 hk2 ⊢
          by_cases e : k = start
          · rw [e]
          · rw [hall k hk1 hk2 x hx hrx e, hcur]
        · exact i1 r hr k hk1 hk2 x hx hrx
      · intro j r hj e; subst e; simp at hj; rw [← hj]
      · intro j a b ha hb
        cases j with
        | zero =>
          simp at ha; subst ha
          rw [List.getElem?_cons_succ] at hb
          have := i2 0 b hb rfl
          rw [this]
          simp only
          refine ⟨?_, c, hCi, g1⟩
          rw [hcur, hLi]; intro e; simp at e; exact g2 e.symm
        | succ j =>
          rw [List.getElem?_cons_succ] at ha hb
          exact i3 j a b ha hb
    · refine levelRunsLoop_spec cs ls (i + 1) cur start hC' hL' (by omega) hlen (by omega) hcur ?_
      intro k h1 h2 x hx hrx hne
      by_cases e : k = i
      · subst e
        rw [hCi] at hx; cases hx
        have : l = cur := by
          by_contra hne'
          exact hcond ⟨by simp [hrx], hne'⟩
        rw [hLi, this]
      · exact hall k h1 (by omega) x hx hrx hne
  | [], ls, i, cur, start, hC, hL, hi, hlen, hs, hcur, hall => by
    have e : levelRunsLoop [] ls i cur start = [⟨start, i⟩] := by cases ls <;> rfl
    rw [e]
    refine ⟨?_, by intro j r hj e; subst e; simp at hj; rw [← hj], by intro j a b ha hb; simp at hb⟩
    intro r hr k hk1 hk2 x hx hrx
    simp at hr; subst hr
    by_cases e : k = start
    · rw [e]
    · rw [hall k hk1 hk2 x hx hrx e, hcur]
  | c :: cs, [], i, cur, start, hC, hL, hi, hlen, hs, hcur, hall => by
    exfalso
    have : L.length ≤ i := List.drop_eq_nil_iff.1 hL
    rw [List.drop_eq_nil_of_le (by omega)] at hC
    simp at hC

/-! ## runs of a sequence -/

/-- runs that follow each other in a sequence are tied by an isolate initiator at the end of one and a PDI at the start of the next -/
def Tied (cs : List BC) (a b : Run) : Prop := (∃ c, cs[a.stop - 1]? = some c ∧ isIsolate c = true) ∧ cs[b.start]? = some .PopDirectionalIsolate

theorem seqLoop_tied {cs : List BC} : ∀ (runs : List Run) (stack seqs out : List (List Run)),
    (∀ s ∈ stack, s.IsChain (Tied cs)) → (∀ s ∈ seqs, s.IsChain (Tied cs)) → (∀ s ∈ stack, ∀ r, s.getLast? = some r → ∃ c, cs[r.stop - 1]? = some c ∧ isIsolate c = true) →
    seqLoop cs runs stack seqs = .ok out → ∀ s ∈ out, s.IsChain (Tied cs)
  | [], stack, seqs, out, h1, h2, _, ho => by
    rw [seqLoop] at ho
    cases ho
    intro s hs
    rcases List.mem_append.1 hs with hs | hs
    · exact h2 s hs
    · exact h1 s (List.mem_of_mem_filter hs)
  | run :: runs, stack, seqs, out, h1, h2, h3, ho => by
    rw [seqLoop] at ho
    split_ifs at ho with hb
    cases hc1 : at' cs run.start with
    | panic => rw [hc1] at ho; simp at ho
    | ok c1 =>
      rw [hc1, bind_ok] at ho
      cases hc2 : at' cs (run.stop - 1) with
      | panic => rw [hc2] at ho; simp at ho
      | ok c2 =>
        rw [hc2, bind_ok] at ho
        have hst : ∀ s ∈ (resume c1 stack).2, s ∈ stack := by
          unfold resume
          split
          · split_ifs
            · intro s hs; simp at hs; exact List.mem_cons_of_mem _ hs
            · intro s hs; exact hs
          · simp
        have hchain : ((resume c1 stack).1 ++ [run]).IsChain (Tied cs) := by
          unfold resume
          split
          · rename_i seq rest
            split_ifs with hp
            · simp only
              rw [List.isChain_append]
              refine ⟨h1 seq (by simp), by simp, ?_⟩
              intro a ha b hb
              simp at hb
              subst hb
              refine ⟨h3 seq (by simp) a ha, ?_⟩
              rw [at_iff] at hc1
              rw [hc1, hp.1]
            · simp
          · simp
        simp only at ho
        split_ifs at ho with hi
        · refine seqLoop_tied runs _ _ out ?_ h2 ?_ ho
          · intro s hs
            rcases List.mem_cons.1 hs with rfl | hs
            · exact hchain
            · exact h1 s (hst s hs)
          · intro s hs r hr
            rcases List.mem_cons.1 hs with rfl | hs
            · simp at hr; subst hr
              exact ⟨c2, at_iff.1 hc2, hi⟩
            · exact h3 s (hst s hs) r hr
        · refine seqLoop_tied runs _ _ out (fun s hs => h1 s (hst s hs)) ?_ (fun s hs => h3 s (hst s hs)) ho
          intro s hs
          rcases List.mem_append.1 hs with hs | hs
          · exact h2 s hs
          · simp at hs; subst hs; exact hchain

end Proofs.Bidi
