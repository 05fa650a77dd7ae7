import Verif.Proofs.BidiNest
import Verif.Proofs.BidiKeep
import Mathlib.Data.List.Chain
import Mathlib.Data.List.Nodup

/-! # The isolating run sequences of `prepare.rs` are those of BD13, where no character is removed by X9 -/
namespace Proofs.BidiW
open Model.Bidi Data Spec.Bidi
open Proofs.Bidi hiding w3

instance (us : List Kept) (i : Nat) : Decidable (EndsRun us i) := by unfold EndsRun; infer_instance
instance (us : List Kept) (i : Nat) : Decidable (StartsRun us i) := by unfold StartsRun; infer_instance

/-- the class of the character `p` -/
def cls (us : List Kept) (p : Nat) : Option BC := (us[p]?).map Kept.orig

/-! ## open isolate initiators -/

/-- the isolate initiators before `p` that are still open there, the last first -/
def opens (us : List Kept) : Nat → List Nat
  | 0 => []
  | p + 1 =>
    match cls us p with
    | some c => if isInitiator c then p :: opens us p else if c = .PopDirectionalIsolate then (opens us p).tail else opens us p
    | none => opens us p

theorem cls_drop {us : List Kept} {p : Nat} {c : BC} (h : cls us p = some c) : (us.drop p).map Kept.orig = c :: (us.drop (p + 1)).map Kept.orig := by
  unfold cls at h
  cases hu : us[p]? with
  | none => rw [hu] at h; simp at h
  | some u =>
    rw [hu] at h
    simp at h
    have hp : p < us.length := by by_contra hn; rw [List.getElem?_eq_none (by omega)] at hu; simp at hu
    rw [List.drop_eq_getElem_cons hp, List.map_cons]
    rw [List.getElem?_eq_getElem hp] at hu
    simp at hu
    rw [hu, h]

theorem opens_inv {us : List Kept} : ∀ (p t i : Nat), p ≤ us.length → (opens us p)[t]? = some i → i < p ∧ (∃ c, cls us i = some c ∧ isInitiator c = true) ∧
    matchingPdi 1 ((us.drop (i + 1)).map Kept.orig) = (matchingPdi (t + 1) ((us.drop p).map Kept.orig)).map (· + (p - (i + 1)))
  | 0, t, i, _, h => by simp [opens] at h
  | p + 1, t, i, hp, h => by
    rw [opens] at h
    have hc : ∃ c, cls us p = some c := ⟨_, by unfold cls; rw [List.getElem?_eq_getElem (show p < us.length by omega)]; rfl⟩
    obtain ⟨c, hc⟩ := hc
    rw [hc] at h
    simp only at h
    have hd := cls_drop hc
    have shift : ∀ (d : Nat), i < p → ((matchingPdi d ((us.drop (p + 1)).map Kept.orig)).map (· + 1)).map (· + (p - (i + 1))) =
        (matchingPdi d ((us.drop (p + 1)).map Kept.orig)).map (· + (p + 1 - (i + 1))) := by
      intro d hi
      rw [Option.map_map]
      congr 1
      funext x
      simp only [Function.comp]
      omega
    by_cases hi : isInitiator c = true
    · rw [if_pos hi] at h
      cases t with
      | zero =>
        simp only [List.getElem?_cons_zero, Option.some.injEq] at h
        subst h
        refine ⟨by omega, ⟨c, hc, hi⟩, ?_⟩
        simp
      | succ t =>
        rw [List.getElem?_cons_succ] at h
        obtain ⟨h1, h2, h3⟩ := opens_inv p t i (by omega) h
        refine ⟨by omega, h2, ?_⟩
        rw [h3, hd, matchingPdi, if_pos hi, shift _ h1]
    · rw [if_neg hi] at h
      by_cases hpd : c = .PopDirectionalIsolate
      · rw [if_pos hpd] at h
        have h' : (opens us p)[t + 1]? = some i := by
          rw [← h]; cases opens us p <;> simp
        obtain ⟨h1, h2, h3⟩ := opens_inv p (t + 1) i (by omega) h'
        refine ⟨by omega, h2, ?_⟩
        rw [h3, hd, matchingPdi, if_neg hi, if_pos hpd, if_neg (by omega), shift _ h1]
        rfl
      · rw [if_neg hpd] at h
        obtain ⟨h1, h2, h3⟩ := opens_inv p t i (by omega) h
        refine ⟨by omega, h2, ?_⟩
        rw [h3, hd, matchingPdi, if_neg hi, if_neg hpd, shift _ h1]

theorem matches_of {us : List Kept} {i m : Nat} {c : BC} (hc : cls us i = some c) (hi : isInitiator c = true)
    (hm : matchingPdi 1 ((us.drop (i + 1)).map Kept.orig) = some m) : Matches us i (i + 1 + m) := by
  unfold cls at hc
  cases hu : us[i]? with
  | none => rw [hu] at hc; simp at hc
  | some u =>
    rw [hu] at hc; simp at hc
    exact ⟨u, hu, by rw [hc]; exact hi, m, hm, rfl⟩

/-- a PDI matches the last open isolate initiator -/
theorem opens_match {us : List Kept} {p i : Nat} (hp : cls us p = some .PopDirectionalIsolate) (h : (opens us p).head? = some i) : Matches us i p := by
  have hlt : p < us.length := by by_contra hn; unfold cls at hp; rw [List.getElem?_eq_none (Nat.le_of_not_lt hn)] at hp; simp at hp
  obtain ⟨h1, ⟨c, h2, h3⟩, h4⟩ := opens_inv (us := us) p 0 i (by omega) (by rw [← List.head?_eq_getElem?]; exact h)
  rw [cls_drop hp, matchingPdi, if_neg (by decide), if_pos rfl, if_pos rfl] at h4
  have := matches_of h2 h3 h4
  rwa [show i + 1 + (0 + (p - (i + 1))) = p by omega] at this

/-- an isolate initiator that is open at `p` is not matched before -/
theorem opens_late {us : List Kept} {p i j : Nat} (hp : p ≤ us.length) (h : i ∈ opens us p) (hm : Matches us i j) : p ≤ j := by
  obtain ⟨t, ht, rfl⟩ := List.getElem_of_mem h
  obtain ⟨h1, h2, h4⟩ := opens_inv p t _ hp (List.getElem?_eq_getElem ht)
  obtain ⟨u, hu, hi, m, hm, rfl⟩ := hm
  rw [hm] at h4
  cases hx : matchingPdi (t + 1) ((us.drop p).map Kept.orig) with
  | none => rw [hx] at h4; simp at h4
  | some y => rw [hx] at h4; simp at h4; omega

/-! ## runs -/

theorem matches_bounds {us : List Kept} {i j : Nat} (hn : Nested us) (h : Matches us i j) : i < j ∧ j < us.length := by
  obtain ⟨u, v, h1, h2, _⟩ := hn i j h
  obtain ⟨_, _, _, m, _, rfl⟩ := h
  refine ⟨by omega, ?_⟩
  by_contra hc
  rw [List.getElem?_eq_none (by omega)] at h2; simp at h2

/-- an isolate initiator ends a run just if its matching PDI starts one -/
theorem ends_starts {us : List Kept} {i j : Nat} (hn : Nested us) (h : Matches us i j) : EndsRun us i ↔ StartsRun us j := by
  obtain ⟨hij, _⟩ := matches_bounds hn h
  obtain ⟨u, v, h1, h2, h3, h4⟩ := hn i j h
  unfold EndsRun StartsRun levelOf
  by_cases hj : j = i + 1
  · subst hj
    rw [h1, h2, Nat.add_sub_cancel, h1]
    simp [h3]
  · rw [h1, h2]
    rcases h4 with h4 | h4
    · obtain ⟨a, a1, a2⟩ := h4 (i + 1) (by omega) (by omega)
      obtain ⟨b, b1, b2⟩ := h4 (j - 1) (by omega) (by omega)
      rw [a1, b1]
      simp only [Option.map_some, ne_eq, Option.some.injEq]
      constructor
      · intro _; right; omega
      · intro _; omega
    · obtain ⟨a, a1, a2⟩ := h4 (i + 1) (by omega) (by omega)
      obtain ⟨b, b1, b2⟩ := h4 (j - 1) (by omega) (by omega)
      rw [a1, b1]
      simp only [Option.map_some, ne_eq, Option.some.injEq]
      constructor
      · intro h; omega
      · rintro (h | h) <;> omega

/-- a level run (BD7) -/
def IsRun (us : List Kept) (r : Run) : Prop :=
  r.start < r.stop ∧ r.stop ≤ us.length ∧ (∀ k, r.start ≤ k → k < r.stop → levelOf us k = levelOf us r.start) ∧ StartsRun us r.start ∧ EndsRun us (r.stop - 1)

theorem IsRun.starts {us : List Kept} {r : Run} (h : IsRun us r) {k : Nat} (h1 : r.start ≤ k) (h2 : k < r.stop) : StartsRun us k ↔ k = r.start := by
  constructor
  · intro hs
    by_contra hne
    rcases hs with hs | hs
    · omega
    · exact hs ((h.2.2.1 (k - 1) (by omega) (by omega)).trans (h.2.2.1 k h1 h2).symm)
  · rintro rfl; exact h.2.2.2.1

theorem IsRun.ends {us : List Kept} {r : Run} (h : IsRun us r) {k : Nat} (h1 : r.start ≤ k) (h2 : k < r.stop) : EndsRun us k ↔ k + 1 = r.stop := by
  constructor
  · intro hs
    by_contra hne
    exact hs ((h.2.2.1 k (by omega) (by omega)).trans (h.2.2.1 (k + 1) (by omega) (by omega)).symm)
  · intro e
    have := h.2.2.2.2
    rwa [show r.stop - 1 = k by omega] at this

theorem runs_loop {us : List Kept} (hr : ∀ u ∈ us, removed u.orig = false) : ∀ (cs : List BC) (ls : List Nat) (i cur start : Nat), (us.drop i).map Kept.orig = cs → (us.drop i).map Kept.level = ls →
    start < i → i ≤ us.length → (∀ k, start ≤ k → k < i → levelOf us k = some cur) → StartsRun us start →
    ∀ r ∈ levelRunsLoop cs ls i cur start, IsRun us r
  | c :: cs, l :: ls, i, cur, start, hC, hL, hs, hi, hcur, hst => by
    have hi' : i < us.length := by
      by_contra hc
      rw [List.drop_eq_nil_of_le (by omega)] at hC; simp at hC
    rw [List.drop_eq_getElem_cons hi', List.map_cons] at hC hL
    simp only [List.cons.injEq] at hC hL
    have hrem : removed c = false := by rw [← hC.1]; exact hr _ (List.getElem_mem hi')
    have hli : levelOf us i = some l := by unfold levelOf; rw [List.getElem?_eq_getElem hi', ← hL.1]; rfl
    rw [levelRunsLoop]
    split_ifs with hcond
    · have hne : levelOf us (i - 1) ≠ levelOf us i := by
        rw [hcur (i - 1) (by omega) (by omega), hli]; intro e; simp at e; exact hcond.2 e.symm
      intro r hr'
      rcases List.mem_cons.1 hr' with rfl | hr'
      · refine ⟨hs, hi, ?_, hst, ?_⟩
        · intro k h1 h2
          rw [hcur k h1 h2]; exact (hcur start (Nat.le_refl _) hs).symm
        · show levelOf us (i - 1) ≠ levelOf us (i - 1 + 1)
          rw [show i - 1 + 1 = i by omega]; exact hne
      · refine runs_loop hr cs ls (i + 1) l i hC.2 hL.2 (by omega) (by omega) ?_ (Or.inr hne) r hr'
        intro k h1 h2
        rw [show k = i by omega]; exact hli
    · have : l = cur := by
        by_contra hne'
        exact hcond ⟨by simp [hrem], hne'⟩
      refine runs_loop hr cs ls (i + 1) cur start hC.2 hL.2 (by omega) (by omega) ?_ hst
      intro k h1 h2
      by_cases hk : k = i
      · rw [hk, hli, this]
      · exact hcur k h1 (by omega)
  | [], ls, i, cur, start, hC, hL, hs, hi, hcur, hst => by
    have hi' : i = us.length := by
      have := congrArg List.length hC
      simp at this
      omega
    intro r hr'
    have e : levelRunsLoop [] ls i cur start = [⟨start, i⟩] := by cases ls <;> rfl
    rw [e] at hr'
    simp at hr'; subst hr'
    refine ⟨hs, hi, ?_, hst, ?_⟩
    · intro k h1 h2
      rw [hcur k h1 h2]; exact (hcur start (Nat.le_refl _) hs).symm
    · show levelOf us (i - 1) ≠ levelOf us (i - 1 + 1)
      rw [show i - 1 + 1 = i by omega, hcur (i - 1) (by omega) (by omega)]
      unfold levelOf
      rw [List.getElem?_eq_none (by omega)]
      simp
  | c :: cs, [], i, cur, start, hC, hL, _, _, _, _ => by
    have h1 := congrArg List.length hC
    have h2 := congrArg List.length hL
    simp at h1 h2
    omega

theorem levelRuns_kept {us : List Kept} (hr : ∀ u ∈ us, removed u.orig = false) : ∃ runs, levelRuns (us.map Kept.level) (us.map Kept.orig) = .ok runs ∧
    Tiles 0 us.length runs ∧ ∀ r ∈ runs, IsRun us r := by
  obtain ⟨runs, h1, h2⟩ := levelRuns_tiles (ls := us.map Kept.level) (cs := us.map Kept.orig) (by simp)
  refine ⟨runs, h1, by simpa using h2, ?_⟩
  unfold levelRuns at h1
  rw [if_neg (by simp)] at h1
  cases us with
  | nil => simp at h1; subst h1; simp
  | cons u us =>
    simp only [List.map_cons, List.tail_cons, Model.Outcome.ok.injEq] at h1
    subst h1
    refine runs_loop hr _ _ 1 u.level 0 (by simp) (by simp) (by omega) (by simp) ?_ (Or.inl rfl)
    intro k _ hk
    rw [show k = 0 by omega]; rfl

/-! ## the stack of `isolating_run_sequences` -/

/-- the open initiators that end a run -/
def waiting (us : List Kept) (p : Nat) : List Nat := (opens us p).filter (fun i => decide (EndsRun us i))

theorem waiting_succ {us : List Kept} (hn : Nested us) {p : Nat} {c : BC} (hc : cls us p = some c) :
    waiting us (p + 1) = (if isInitiator c = true ∧ EndsRun us p then [p] else []) ++
      (if c = .PopDirectionalIsolate ∧ StartsRun us p then (waiting us p).tail else waiting us p) := by
  unfold waiting
  rw [opens, hc]
  simp only
  by_cases hi : isInitiator c = true
  · have hp : c ≠ .PopDirectionalIsolate := by rintro rfl; exact absurd hi (by decide)
    rw [if_pos hi, List.filter_cons, if_neg (show ¬ (c = .PopDirectionalIsolate ∧ StartsRun us p) from fun e => hp e.1)]
    by_cases he : EndsRun us p
    · rw [if_pos (by simpa using he), if_pos ⟨hi, he⟩]; rfl
    · rw [if_neg (by simpa using he), if_neg (fun e => he e.2)]; rfl
  · rw [if_neg hi, if_neg (show ¬ (isInitiator c = true ∧ EndsRun us p) from fun e => hi e.1), List.nil_append]
    by_cases hp : c = .PopDirectionalIsolate
    · rw [if_pos hp]
      cases ho : opens us p with
      | nil => simp
      | cons i B =>
        have hm : Matches us i p := opens_match (by rw [hc, hp]) (by rw [ho]; rfl)
        have hk := ends_starts hn hm
        rw [List.tail_cons, List.filter_cons]
        by_cases hs : StartsRun us p
        · rw [if_pos ⟨hp, hs⟩, if_pos (by simpa using hk.2 hs)]; rfl
        · rw [if_neg (fun e => hs e.2), if_neg (by simpa using fun e => hs (hk.1 e))]
    · rw [if_neg hp, if_neg (fun e => hp e.1)]

theorem waiting_run {us : List Kept} (hn : Nested us) {r : Run} (hr : IsRun us r) {c0 c1 : BC} (h0 : cls us r.start = some c0) (h1 : cls us (r.stop - 1) = some c1) :
    waiting us r.stop = (if isInitiator c1 = true then [r.stop - 1] else []) ++ (if c0 = .PopDirectionalIsolate then (waiting us r.start).tail else waiting us r.start) := by
  have key : ∀ d, r.start + d < r.stop → ∃ c, cls us (r.start + d) = some c ∧ waiting us (r.start + d + 1) =
      (if isInitiator c = true ∧ EndsRun us (r.start + d) then [r.start + d] else []) ++ (if c0 = .PopDirectionalIsolate then (waiting us r.start).tail else waiting us r.start) := by
    intro d
    induction d with
    | zero =>
      intro _
      refine ⟨c0, h0, ?_⟩
      rw [Nat.add_zero, waiting_succ hn h0]
      simp only [hr.2.2.2.1, and_true]
      rfl
    | succ d ih =>
      intro hd
      obtain ⟨c, hc, e⟩ := ih (by omega)
      rw [if_neg (fun x => by have := (hr.ends (by omega) (by omega)).1 x.2; omega), List.nil_append] at e
      have hlt : r.start + (d + 1) < us.length := by have := hr.2.1; omega
      refine ⟨_, by unfold cls; rw [List.getElem?_eq_getElem hlt]; rfl, ?_⟩
      rw [waiting_succ hn (c := us[r.start + (d + 1)].orig) (by unfold cls; rw [List.getElem?_eq_getElem hlt]; rfl)]
      have hns : ¬ StartsRun us (r.start + (d + 1)) := fun x => by
        have := (hr.starts (by omega) hd).1 x; omega
      rw [if_neg (show ¬ (us[r.start + (d + 1)].orig = .PopDirectionalIsolate ∧ StartsRun us (r.start + (d + 1))) from fun x => hns x.2)]
      rw [← e]
      rfl
  have hs := hr.1
  obtain ⟨c, hc, e⟩ := key (r.stop - 1 - r.start) (by omega)
  rw [show r.start + (r.stop - 1 - r.start) = r.stop - 1 by omega] at hc e
  rw [h1] at hc; cases hc
  rw [show r.stop - 1 + 1 = r.stop by omega] at e
  rw [e]
  simp only [hr.2.2.2.2, and_true]

/-- the last index of a sequence of runs -/
def lastPos (s : List Run) : Nat := (s.getLastD ⟨0, 0⟩).stop - 1

theorem lastPos_snoc (s : List Run) (r : Run) : lastPos (s ++ [r]) = r.stop - 1 := by
  unfold lastPos; rw [List.getLastD_eq_getLast?]; simp

/-- from an isolate initiator at the end of a run to its matching PDI at the start of another -/
def Link (us : List Kept) (a b : Run) : Prop := Matches us (a.stop - 1) b.start

theorem isolate_eq (c : BC) : isIsolate c = isInitiator c := by cases c <;> rfl

theorem seqLoop_kept {us : List Kept} (hn : Nested us) : ∀ (runs : List Run) (p : Nat) (st seqs out : List (List Run)), Tiles p us.length runs → (∀ r ∈ runs, IsRun us r) →
    st.map lastPos = waiting us p → (∀ s ∈ st, s ≠ [] ∧ List.IsChain (Link us) s) →
    (∀ s ∈ seqs, s ≠ [] ∧ List.IsChain (Link us) s ∧ ∀ j, ¬ Matches us (lastPos s) j) →
    seqLoop (us.map Kept.orig) runs (st ++ [[]]) seqs = .ok out →
    ∀ s ∈ out, s ≠ [] ∧ List.IsChain (Link us) s ∧ ∀ j, ¬ Matches us (lastPos s) j
  | [], p, st, seqs, out, ht, _, hw, h1, h2, ho => by
    have hp : p = us.length := ht
    simp only [seqLoop, Model.Outcome.ok.injEq] at ho
    subst ho
    intro s hs
    rcases List.mem_append.1 hs with hs | hs
    · exact h2 s hs
    · obtain ⟨hs, hne⟩ := List.mem_filter.1 hs
      rcases List.mem_append.1 hs with hs | hs
      · refine ⟨(h1 s hs).1, (h1 s hs).2, ?_⟩
        intro j hm
        have hmem : lastPos s ∈ waiting us p := by rw [← hw]; exact List.mem_map.2 ⟨s, hs, rfl⟩
        have := opens_late (by omega) (List.mem_filter.1 hmem).1 hm
        have := (matches_bounds hn hm).2
        omega
      · simp at hs; subst hs; simp at hne
  | r :: runs, p, st, seqs, out, ht, hr, hw, h1, h2, ho => by
    obtain ⟨t1, t2, t3⟩ := ht
    have hrr := hr r (by simp)
    have hlen : (us.map Kept.orig).length = us.length := by simp
    have hb := hrr.2.1
    rw [seqLoop, if_neg (by rintro (h | h); omega; simp at h)] at ho
    rw [at_ok (List.getElem?_eq_getElem (show r.start < (us.map Kept.orig).length by omega)), at_ok (List.getElem?_eq_getElem (show r.stop - 1 < (us.map Kept.orig).length by omega))] at ho
    simp only [Proofs.Punycode.bind_ok] at ho
    have c0 : cls us r.start = some (us.map Kept.orig)[r.start] := by unfold cls; rw [← List.getElem?_map, List.getElem?_eq_getElem]
    have c1 : cls us (r.stop - 1) = some (us.map Kept.orig)[r.stop - 1] := by unfold cls; rw [← List.getElem?_map, List.getElem?_eq_getElem]
    generalize (us.map Kept.orig)[r.start] = a at ho c0
    generalize (us.map Kept.orig)[r.stop - 1] = b at ho c1
    have hwr := waiting_run hn hrr c0 c1
    rw [t1, ← hw] at hwr
    -- the sequence that is continued
    have hres : ∃ seq st', resume a (st ++ [[]]) = (seq, st' ++ [[]]) ∧ List.IsChain (Link us) (seq ++ [r]) ∧ (∀ s ∈ st', s ≠ [] ∧ List.IsChain (Link us) s) ∧
        (if a = .PopDirectionalIsolate then (st.map lastPos).tail else st.map lastPos) = st'.map lastPos := by
      unfold resume
      cases st with
      | nil => exact ⟨[], [], by simp, by simp, by simp, by simp⟩
      | cons s st =>
        simp only [List.cons_append]
        by_cases ha : a = .PopDirectionalIsolate
        · rw [if_pos ⟨ha, by simp⟩, if_pos ha]
          refine ⟨s, st, rfl, ?_, fun x hx => h1 x (by simp [hx]), by simp⟩
          have hs := h1 s (by simp)
          rw [List.isChain_append]
          refine ⟨hs.2, by simp, ?_⟩
          intro x hx y hy
          simp at hy; subst hy
          have hmem : lastPos s ∈ waiting us p := by rw [← hw]; simp
          have hlast : lastPos s = x.stop - 1 := by unfold lastPos; rw [List.getLastD_eq_getLast?, hx]; rfl
          -- the top of the stack is the last open initiator
          have hop : ∃ i, (opens us p).head? = some i := by
            cases hq : opens us p with
            | nil => unfold waiting at hmem; rw [hq] at hmem; simp at hmem
            | cons i B => exact ⟨i, rfl⟩
          obtain ⟨i, hi⟩ := hop
          have hm : Matches us i p := opens_match (by rw [← t1, c0, ha]) hi
          have hE : EndsRun us i := (ends_starts hn hm).2 (by rw [← t1]; exact hrr.2.2.2.1)
          have : lastPos s = i := by
            unfold waiting at hw
            cases hq : opens us p with
            | nil => rw [hq] at hi; simp at hi
            | cons i' B =>
              rw [hq] at hi hw
              simp at hi; subst hi
              rw [List.filter_cons, if_pos (by simpa using hE), List.map_cons] at hw
              exact (List.cons.inj hw).1
          show Matches us (x.stop - 1) r.start
          rw [← hlast, this, t1]
          exact hm
        · rw [if_neg (fun e => ha e.1), if_neg ha]
          exact ⟨[], s :: st, rfl, by simp, h1, rfl⟩
    obtain ⟨seq, st', e1, e2, e3, e4⟩ := hres
    rw [e1] at ho
    simp only [isolate_eq] at ho
    rw [e4] at hwr
    by_cases hi : isInitiator b = true
    · rw [if_pos hi] at ho hwr
      refine seqLoop_kept hn runs r.stop ((seq ++ [r]) :: st') seqs out t3 (fun x hx => hr x (by simp [hx])) ?_ ?_ h2 ho
      · rw [List.map_cons, lastPos_snoc, hwr]; rfl
      · intro s hs
        rcases List.mem_cons.1 hs with rfl | hs
        · exact ⟨by simp, e2⟩
        · exact e3 s hs
    · rw [if_neg hi] at ho hwr
      refine seqLoop_kept hn runs r.stop st' (seqs ++ [seq ++ [r]]) out t3 (fun x hx => hr x (by simp [hx])) ?_ e3 ?_ ho
      · rw [hwr]; rfl
      · intro s hs
        rcases List.mem_append.1 hs with hs | hs
        · exact h2 s hs
        · simp at hs; subst hs
          refine ⟨by simp, e2, ?_⟩
          rintro j ⟨u, hu, hu2, _⟩
          rw [lastPos_snoc] at hu
          unfold cls at c1
          rw [hu] at c1
          simp at c1
          rw [c1] at hu2
          exact hi hu2

/-! ## sequences of indices -/

theorem follows_unique {us : List Kept} {i j k : Nat} (h1 : Follows us i j) (h2 : Follows us i k) : j = k := by
  have mm : ∀ {j k}, Matches us i j → Matches us i k → j = k := by
    rintro j k ⟨_, _, _, m, hm, rfl⟩ ⟨_, _, _, m', hm', rfl⟩
    rw [hm] at hm'; cases hm'; rfl
  rcases h1 with ⟨rfl, h1⟩ | ⟨h1, h1', _⟩ <;> rcases h2 with ⟨rfl, h2⟩ | ⟨h2, h2', _⟩
  · rfl
  · exact absurd h1 h2
  · exact absurd h2 h1
  · exact mm h1' h2'

theorem follows_lt {us : List Kept} (hn : Nested us) {i j : Nat} (hi : i < us.length) (h : Follows us i j) : j < us.length := by
  rcases h with ⟨rfl, h⟩ | ⟨_, h, _⟩
  · unfold levelOf at h
    rw [List.getElem?_eq_getElem hi] at h
    by_contra hc
    rw [List.getElem?_eq_none (by omega)] at h; simp at h
  · exact (matches_bounds hn h).2

/-- the indices of a run -/
abbrev runIdx (r : Run) : List Nat := List.range' r.start (r.stop - r.start)

theorem runIdx_head {r : Run} (h : r.start < r.stop) : (runIdx r).head? = some r.start := by
  unfold runIdx; rw [List.head?_range', if_neg (by omega)]
theorem runIdx_last {r : Run} (h : r.start < r.stop) : (runIdx r).getLast? = some (r.stop - 1) := by
  unfold runIdx; rw [List.getLast?_range', if_neg (by omega)]; congr 1; omega

theorem run_chain {us : List Kept} {r : Run} (h : IsRun us r) : List.IsChain (Follows us) (runIdx r) := by
  rw [List.isChain_iff_getElem]
  intro i hi
  simp only [List.length_range'] at hi
  simp only [List.getElem_range', Nat.one_mul]
  left
  refine ⟨by omega, ?_⟩
  rw [h.2.2.1 (r.start + i) (by omega) (by omega), h.2.2.1 (r.start + (i + 1)) (by omega) (by omega)]

theorem indices_cons (r : Run) (s : List Run) : indices (r :: s) = runIdx r ++ indices s := rfl

theorem indices_head {r : Run} {s : List Run} (h : r.start < r.stop) : (indices (r :: s)).head? = some r.start := by
  rw [indices_cons, List.head?_append, runIdx_head h]; rfl

theorem indices_chain {us : List Kept} (hn : Nested us) : ∀ {s : List Run}, (∀ r ∈ s, IsRun us r) → List.IsChain (Link us) s → List.IsChain (Follows us) (indices s)
  | [], _, _ => by simp [indices]
  | [r], h, _ => by
    have : indices [r] = runIdx r := by simp [indices]
    rw [this]; exact run_chain (h r (by simp))
  | r :: r2 :: s, h, hc => by
    rw [List.isChain_cons_cons] at hc
    rw [indices_cons, List.isChain_append]
    refine ⟨run_chain (h r (by simp)), indices_chain hn (fun x hx => h x (by simp [hx])) hc.2, ?_⟩
    intro x hx y hy
    have h1 := h r (by simp)
    have h2 := h r2 (by simp)
    rw [runIdx_last h1.1] at hx
    rw [indices_head h2.1] at hy
    simp at hx hy
    subst hx; subst hy
    exact Or.inr ⟨h1.2.2.2.2, hc.1, h2.2.2.2.1⟩

theorem indices_last : ∀ {s : List Run}, s ≠ [] → (∀ r ∈ s, r.start < r.stop) → (indices s).getLast? = some (lastPos s)
  | [], h, _ => absurd rfl h
  | [r], _, h => by
    have : indices [r] = runIdx r := by simp [indices]
    rw [this, runIdx_last (h r (by simp))]; rfl
  | r :: r2 :: s, _, h => by
    rw [indices_cons, List.getLast?_append, indices_last (by simp) (fun x hx => h x (by simp [hx]))]
    rfl

/-- what `isolating_run_sequences` finds among characters that are not removed -/
theorem seqs_kept {us : List Kept} (hn : Nested us) (hr : ∀ u ∈ us, removed u.orig = false) {runs : List Run} {seqs : List (List Run)}
    (h1 : levelRuns (us.map Kept.level) (us.map Kept.orig) = .ok runs) (h2 : seqLoop (us.map Kept.orig) runs [[]] [] = .ok seqs) :
    (indices seqs.flatten).Perm (List.range us.length) ∧ ∀ s ∈ seqs, (∀ r ∈ s, IsRun us r) ∧ indices s ≠ [] ∧ List.IsChain (Follows us) (indices s) ∧
      ∀ i j, (indices s).getLast? = some i → ¬ Follows us i j := by
  obtain ⟨runs', r1, r2, r3⟩ := levelRuns_kept hr
  rw [h1] at r1; cases r1
  obtain ⟨seqs', s1, s2, s3⟩ := seqLoop_ok (cs := us.map Kept.orig) runs [[]] [] (by simp) (fun r hr => ⟨(r3 r hr).1, by simpa using (r3 r hr).2.1⟩) (by simp)
  rw [h2] at s1; cases s1
  simp only [List.flatten_nil, List.flatten_cons, List.append_nil, List.nil_append] at s2
  have hk := seqLoop_kept hn runs 0 [] [] seqs r2 r3 rfl (by simp) (by simp) h2
  refine ⟨?_, ?_⟩
  · have : (indices seqs.flatten).Perm (indices runs) := List.Perm.flatMap_right _ s2
    rw [tiles_indices r2] at this
    rwa [List.range_eq_range']
  · intro s hs
    obtain ⟨k1, k2, k3⟩ := hk s hs
    have hrun : ∀ r ∈ s, IsRun us r := fun r hr => r3 r (s2.mem_iff.1 (List.mem_flatten.2 ⟨s, hs, hr⟩))
    have hl := indices_last k1 (fun r hr => (hrun r hr).1)
    refine ⟨hrun, ?_, indices_chain hn hrun k2, ?_⟩
    · intro e; rw [e] at hl; simp at hl
    · intro i j hi hf
      rw [hl] at hi
      simp at hi; subst hi
      have hlast : EndsRun us (lastPos s) := by
        have : s.getLastD ⟨0, 0⟩ ∈ s := by
          rw [List.getLastD_eq_getLast?, List.getLast?_eq_some_getLast k1]; exact List.getLast_mem k1
        exact (hrun _ this).2.2.2.2
      rcases hf with ⟨rfl, hf⟩ | ⟨_, hf, _⟩
      · exact hlast hf
      · exact k3 j hf

/-- two maximal chains from the same character are the same -/
theorem chain_unique {us : List Kept} (hn : Nested us) : ∀ {q s : List Nat}, q.head? = s.head? → List.IsChain (Follows us) q → List.IsChain (Follows us) s →
    (∀ i ∈ q, i < us.length) → (∀ i j, q.getLast? = some i → j < us.length → ¬ Follows us i j) → (∀ i j, s.getLast? = some i → ¬ Follows us i j) → q = s
  | [], [], _, _, _, _, _, _ => rfl
  | [], _ :: _, h, _, _, _, _, _ => by simp at h
  | _ :: _, [], h, _, _, _, _, _ => by simp at h
  | [a], [b], h, _, _, _, _, _ => by simp at h; rw [h]
  | [a], b :: c :: s, h, _, hs, hb, hq, _ => by
    simp at h; subst h
    rw [List.isChain_cons_cons] at hs
    exact absurd hs.1 (hq a c rfl (follows_lt hn (hb a (by simp)) hs.1))
  | a :: c :: q, [b], h, hq, _, _, _, hs => by
    simp at h; subst h
    rw [List.isChain_cons_cons] at hq
    exact absurd hq.1 (hs a c rfl)
  | a :: c :: q, b :: d :: s, h, hq, hs, hb, hlq, hls => by
    simp at h; subst h
    rw [List.isChain_cons_cons] at hq hs
    have hcd := follows_unique hq.1 hs.1
    subst hcd
    rw [chain_unique hn (q := c :: q) (s := c :: s) rfl hq.2 hs.2 (fun i hi => hb i (by simp [hi])) (by intro i j hi; exact hlq i j (by rw [List.getLast?_cons_cons]; exact hi))
      (by intro i j hi; exact hls i j (by rw [List.getLast?_cons_cons]; exact hi))]

theorem isSequence_chain {us : List Kept} {q : List Nat} (h : IsSequence us q) : List.IsChain (Follows us) q := by
  rw [List.isChain_iff_getElem]
  intro i hi
  exact h.2.2.1 i _ _ (List.getElem?_eq_getElem (by omega)) (List.getElem?_eq_getElem hi)

/-- **BD13**: every isolating run sequence is found -/
theorem seqs_complete {us : List Kept} (hn : Nested us) {Q : List (List Nat)} (hp : Q.flatten.Perm (List.range us.length))
    (hQ : ∀ s ∈ Q, List.IsChain (Follows us) s ∧ ∀ i j, s.getLast? = some i → ¬ Follows us i j) {q : List Nat} (hq : IsSequence us q) : q ∈ Q := by
  have hc := isSequence_chain hq
  obtain ⟨q1, q2, q3, q4, q5⟩ := hq
  obtain ⟨h, hh⟩ : ∃ h, q.head? = some h := by
    cases q with
    | nil => exact absurd rfl q1
    | cons a b => exact ⟨a, rfl⟩
  have hlt := q2 h (List.mem_of_mem_head? hh)
  obtain ⟨s, hs, hm⟩ := List.mem_flatten.1 (hp.mem_iff.2 (List.mem_range.2 hlt))
  obtain ⟨k, hk, hkh⟩ := List.getElem_of_mem hm
  have hin : ∀ i ∈ s, i < us.length := fun i hi => List.mem_range.1 (hp.mem_iff.1 (List.mem_flatten.2 ⟨s, hs, hi⟩))
  cases k with
  | zero =>
    have : q.head? = s.head? := by rw [hh, List.head?_eq_getElem?, List.getElem?_eq_getElem hk, hkh]
    rw [chain_unique hn this hc (hQ s hs).1 q2 q5 (hQ s hs).2]
    exact hs
  | succ k =>
    have := List.isChain_iff_getElem.1 (hQ s hs).1 k hk
    rw [hkh] at this
    exact absurd this (q4 _ _ hh (hin _ (List.getElem_mem _)))

/-- **BD13**: nothing else is found -/
theorem seqs_sound {us : List Kept} {Q : List (List Nat)} (hp : Q.flatten.Perm (List.range us.length))
    (hQ : ∀ s ∈ Q, s ≠ [] ∧ List.IsChain (Follows us) s ∧ ∀ i j, s.getLast? = some i → ¬ Follows us i j) {s : List Nat} (hs : s ∈ Q) : IsSequence us s := by
  have hin : ∀ s ∈ Q, ∀ i ∈ s, i < us.length := fun s hs i hi => List.mem_range.1 (hp.mem_iff.1 (List.mem_flatten.2 ⟨s, hs, hi⟩))
  have hnd : Q.flatten.Nodup := hp.nodup_iff.2 List.nodup_range
  rw [List.nodup_flatten] at hnd
  obtain ⟨h1, h2, h3⟩ := hQ s hs
  refine ⟨h1, hin s hs, ?_, ?_, fun i j hi _ => h3 i j hi⟩
  · intro k i j hi hj
    have hj' : k + 1 < s.length := by by_contra hc; rw [List.getElem?_eq_none (by omega)] at hj; simp at hj
    have := List.isChain_iff_getElem.1 h2 k hj'
    rw [List.getElem?_eq_getElem (by omega)] at hi hj
    simp at hi hj
    rwa [hi, hj] at this
  · intro i j hj hi hf
    obtain ⟨s', hs', hm⟩ := List.mem_flatten.1 (hp.mem_iff.2 (List.mem_range.2 hi))
    obtain ⟨k, hk, hki⟩ := List.getElem_of_mem hm
    obtain ⟨g1, g2, g3⟩ := hQ s' hs'
    by_cases hl : k + 1 < s'.length
    · have hx := List.isChain_iff_getElem.1 g2 k hl
      rw [hki] at hx
      have he := follows_unique hx hf
      have hjs' : j ∈ s' := by rw [← he]; exact List.getElem_mem _
      have hjs : j ∈ s := List.mem_of_mem_head? hj
      by_cases hss : s' = s
      · subst hss
        have hn' := hnd.1 _ hs
        have h0 : s'[0]'(by omega) = j := by
          rw [List.head?_eq_getElem?, List.getElem?_eq_getElem (by omega)] at hj
          simpa using hj
        have := (List.Nodup.getElem_inj_iff hn' (hi := by omega) (hj := by omega)).1 (h0.trans he.symm)
        omega
      · obtain ⟨a, ha, rfl⟩ := List.getElem_of_mem hs
        obtain ⟨b, hb, rfl⟩ := List.getElem_of_mem hs'
        have hab : a ≠ b := by rintro rfl; exact hss rfl
        have hpw := List.pairwise_iff_getElem.1 hnd.2
        rcases Nat.lt_or_gt_of_ne hab with h | h
        · exact hpw a b ha hb h hjs hjs'
        · exact hpw b a hb ha h hjs' hjs
    · refine g3 i j ?_ hf
      rw [List.getLast?_eq_getElem?, List.getElem?_eq_getElem (by omega)]
      have : s'.length - 1 = k := by omega
      simp only [this, hki]

end Proofs.BidiW
