import Verif.Proofs.Tables

/-!
# Step functions

A finite table denotes a piecewise constant function on characters.  `evalSF cur l c` evaluates the
function that is `cur` before the first breakpoint and takes value `v` from breakpoint `s` on for
each `(s, v)` of `l`.  Two of them can be merged pointwise, so that a statement about every
character reduces to a check of every piece.
-/
namespace Proofs.StepFn
open Spec Model Proofs.Tables

def evalSF {α : Type} (cur : α) : List (Nat × α) → Nat → α
  | [], _ => cur
  | (s, v) :: r, c => if c < s then cur else evalSF v r c

def merge {α β γ : Type} (f : α → β → γ) : Nat → α → β → List (Nat × α) → List (Nat × β) → List (Nat × γ)
  | 0, _, _, _, _ => []
  | _ + 1, ca, _, [], lb => lb.map fun e => (e.1, f ca e.2)
  | _ + 1, _, cb, la, [] => la.map fun e => (e.1, f e.2 cb)
  | n + 1, ca, cb, (s, a) :: la, (t, b) :: lb =>
    if s < t then (s, f a cb) :: merge f n a cb la ((t, b) :: lb)
    else if t < s then (t, f ca b) :: merge f n ca b ((s, a) :: la) lb
    else (s, f a b) :: merge f n a b la lb

theorem evalSF_map {α β : Type} (g : α → β) : ∀ (cur : α) (l : List (Nat × α)) (c : Nat),
    evalSF (g cur) (l.map fun e => (e.1, g e.2)) c = g (evalSF cur l c)
  | _, [], _ => rfl
  | cur, (s, v) :: r, c => by
    simp only [List.map_cons, evalSF]
    split
    · rfl
    · exact evalSF_map g v r c

theorem evalSF_merge {α β γ : Type} (f : α → β → γ) : ∀ (n : Nat) (ca : α) (cb : β)
    (la : List (Nat × α)) (lb : List (Nat × β)) (c : Nat), la.length + lb.length < n →
    evalSF (f ca cb) (merge f n ca cb la lb) c = f (evalSF ca la c) (evalSF cb lb c)
  | 0, _, _, _, _, _, h => absurd h (by omega)
  | n + 1, ca, cb, [], lb, c, _ => by
    simp only [merge]
    exact evalSF_map (f ca) cb lb c
  | n + 1, ca, cb, (s, a) :: la, [], c, _ => by
    simp only [merge]
    exact evalSF_map (fun x => f x cb) ca ((s, a) :: la) c
  | n + 1, ca, cb, (s, a) :: la, (t, b) :: lb, c, h => by
    simp only [List.length_cons] at h
    simp only [merge]
    split
    · simp only [evalSF]
      split
      · rw [if_pos (by omega)]
      · rw [evalSF_merge f n a cb la ((t, b) :: lb) c (by simp only [List.length_cons]; omega)]
        simp only [evalSF]
    · split
      · simp only [evalSF]
        by_cases hc : c < t
        · rw [if_pos hc, if_pos (by omega), if_pos hc]
        · rw [if_neg hc, evalSF_merge f n ca b ((s, a) :: la) lb c (by simp only [List.length_cons]; omega)]
          simp only [evalSF, if_neg hc]
      · have : s = t := by omega
        subst this
        simp only [evalSF]
        split
        · rfl
        · exact evalSF_merge f n a b la lb c (by omega)

def pieces {α : Type} (cur : α) (l : List (Nat × α)) : List α := cur :: l.map (·.2)

theorem evalSF_all {α : Type} (p : α → Bool) : ∀ (cur : α) (l : List (Nat × α)),
    p cur = true → l.all (fun e => p e.2) = true → ∀ c, p (evalSF cur l c) = true
  | _, [], h, _, _ => h
  | cur, (s, v) :: r, h, hl, c => by
    simp only [List.all_cons, Bool.and_eq_true] at hl
    simp only [evalSF]
    split
    · exact h
    · exact evalSF_all p v r hl.1 hl.2 c

/-- A step function together with its initial value. -/
structure SF (α : Type) where
  cur : α
  steps : List (Nat × α)

namespace SF
def eval {α : Type} (s : SF α) (c : Nat) : α := evalSF s.cur s.steps c

def zipWith {α β γ : Type} (f : α → β → γ) (a : SF α) (b : SF β) : SF γ :=
  ⟨f a.cur b.cur, merge f (a.steps.length + b.steps.length + 1) a.cur b.cur a.steps b.steps⟩

def map {α β : Type} (g : α → β) (a : SF α) : SF β := ⟨g a.cur, a.steps.map fun e => (e.1, g e.2)⟩

def all {α : Type} (p : α → Bool) (a : SF α) : Bool := p a.cur && a.steps.all (fun e => p e.2)

theorem eval_zipWith {α β γ : Type} (f : α → β → γ) (a : SF α) (b : SF β) (c : Nat) :
    (zipWith f a b).eval c = f (a.eval c) (b.eval c) :=
  evalSF_merge f _ _ _ _ _ c (by omega)

theorem eval_map {α β : Type} (g : α → β) (a : SF α) (c : Nat) : (map g a).eval c = g (a.eval c) :=
  evalSF_map g _ _ c

theorem all_eval {α : Type} {p : α → Bool} {a : SF α} (h : a.all p = true) (c : Nat) : p (a.eval c) = true := by
  simp only [all, Bool.and_eq_true] at h
  exact evalSF_all p _ _ h.1 h.2 c

/-- The main tool: a relation between two step functions at every character, by checking pieces. -/
theorem all₂ {α β : Type} (p : α → β → Bool) (a : SF α) (b : SF β)
    (h : (zipWith p a b).all id = true) (c : Nat) : p (a.eval c) (b.eval c) = true := by
  have := all_eval h c
  rwa [eval_zipWith] at this

theorem all₃ {α β γ : Type} (p : α → β → γ → Bool) (a : SF α) (b : SF β) (d : SF γ)
    (h : (zipWith (fun x y => p x.1 x.2 y) (zipWith Prod.mk a b) d).all id = true) (c : Nat) :
    p (a.eval c) (b.eval c) (d.eval c) = true := by
  have := all_eval h c
  rwa [eval_zipWith, eval_zipWith] at this
end SF

/-- Ascending, disjoint, non-empty intervals starting at or after `b`. -/
def ascFrom {V : Type} : Nat → List (Nat × Nat × V) → Bool
  | _, [] => true
  | b, (lo, hi, _) :: r => decide (b ≤ lo) && decide (lo ≤ hi) && ascFrom (hi + 1) r

theorem ascFrom_spec {V : Type} : ∀ (l : List (Nat × Nat × V)) (b : Nat), ascFrom b l = true →
    (∀ e ∈ l, b ≤ e.1) ∧ (∀ e ∈ l, e.1 ≤ e.2.1) ∧ l.Pairwise (fun e e' => e.2.1 < e'.1)
  | [], _, _ => ⟨by simp, by simp, by simp⟩
  | (lo, hi, v) :: r, b, h => by
    simp only [ascFrom, Bool.and_eq_true, decide_eq_true_eq] at h
    obtain ⟨h1, h2, h3⟩ := ascFrom_spec r (hi + 1) h.2
    refine ⟨?_, ?_, ?_⟩
    · intro e he
      rcases List.mem_cons.1 he with rfl | he
      · exact h.1.1
      · have := h1 e he; omega
    · intro e he
      rcases List.mem_cons.1 he with rfl | he
      · exact h.1.2
      · exact h2 e he
    · refine List.pairwise_cons.2 ⟨fun e he => ?_, h3⟩
      have := h1 e he
      simp only; omega

/-- Linear lookup. -/
def lookup {V : Type} : List (Nat × Nat × V) → Nat → Option V
  | [], _ => none
  | (lo, hi, v) :: r, c => if lo ≤ c ∧ c ≤ hi then some v else lookup r c

theorem lookup_none {V : Type} : ∀ (l : List (Nat × Nat × V)) (c : Nat),
    (∀ e ∈ l, ¬ Covers e c) → lookup l c = none
  | [], _, _ => rfl
  | (lo, hi, v) :: r, c, h => by
    have h1 := h _ (List.mem_cons_self ..)
    simp only [Covers] at h1
    simp only [lookup, if_neg h1]
    exact lookup_none r c fun e he => h e (List.mem_cons_of_mem _ he)

theorem lookup_mem {V : Type} : ∀ (l : List (Nat × Nat × V)) (c : Nat) (v : V),
    lookup l c = some v → ∃ e ∈ l, Covers e c ∧ e.2.2 = v
  | [], _, _, h => by simp [lookup] at h
  | (lo, hi, v) :: r, c, w, h => by
    simp only [lookup] at h
    split at h
    · next hc =>
      simp only [Option.some.injEq] at h
      exact ⟨(lo, hi, v), List.mem_cons_self .., hc, h⟩
    · obtain ⟨e, he, hc⟩ := lookup_mem r c w h
      exact ⟨e, List.mem_cons_of_mem _ he, hc⟩

theorem findVal_eq_lookup {V : Type} (t : CharDataTable V) (hw : WellFormed t) (c : Nat) :
    t.findVal c = lookup (entries t) c := by
  rcases search_table t hw c with ⟨e, he, hc, hf, _⟩ | ⟨hn, hf, _⟩
  · simp only [CharDataTable.findVal, hf]
    cases hl : lookup (entries t) c with
    | none =>
      exfalso
      suffices ∀ l : List (Nat × Nat × V), e ∈ l → lookup l c ≠ none by exact this _ he hl
      intro l
      induction l with
      | nil => simp
      | cons x r ih =>
        intro hm
        obtain ⟨lo, hi, v⟩ := x
        simp only [lookup]
        split
        · simp
        · next hnc =>
          rcases List.mem_cons.1 hm with rfl | hm
          · exact absurd hc hnc
          · exact ih hm
    | some w =>
      obtain ⟨e', he', hc', rfl⟩ := lookup_mem _ _ _ hl
      rw [covers_unique hw.2 he he' hc hc']
  · simp only [CharDataTable.findVal, hf, lookup_none _ _ hn]

/-- The step function of an ascending entry list; no empty piece between adjacent ranges. -/
def tableSteps {V : Type} : List (Nat × Nat × V) → List (Nat × Option V)
  | [] => []
  | (lo, hi, v) :: r => (lo, some v) ::
    (match r with
    | [] => [(hi + 1, none)]
    | (lo', _, _) :: _ => if lo' = hi + 1 then tableSteps r else (hi + 1, none) :: tableSteps r)

theorem evalSF_lt {V : Type} (l : List (Nat × Nat × V)) (b c : Nat) (h : ascFrom b l = true) (hc : c < b)
    (x : Option V) : evalSF x (tableSteps l) c = x := by
  cases l with
  | nil => rfl
  | cons e r =>
    obtain ⟨lo, hi, v⟩ := e
    simp only [ascFrom, Bool.and_eq_true, decide_eq_true_eq] at h
    simp only [tableSteps, evalSF]
    rw [if_pos (by omega)]

theorem evalSF_steps {V : Type} : ∀ (l : List (Nat × Nat × V)) (b c : Nat), ascFrom b l = true →
    evalSF none (tableSteps l) c = lookup l c
  | [], _, _, _ => rfl
  | (lo, hi, v) :: r, b, c, h => by
    simp only [ascFrom, Bool.and_eq_true, decide_eq_true_eq] at h
    have ih := evalSF_steps r (hi + 1) c h.2
    simp only [tableSteps, evalSF, lookup]
    by_cases h1 : c < lo
    · rw [if_pos h1, if_neg (by omega), ← ih, evalSF_lt r (hi + 1) c h.2 (by omega)]
    · rw [if_neg h1]
      by_cases h2 : c < hi + 1
      · rw [if_pos (⟨by omega, by omega⟩ : lo ≤ c ∧ c ≤ hi)]
        match r, h with
        | [], _ => simp [evalSF, h2]
        | (lo', hi', v') :: r', h =>
          simp only
          split
          · exact evalSF_lt _ (hi + 1) c h.2 h2 _
          · simp only [evalSF, if_pos h2]
      · rw [if_neg (show ¬ (lo ≤ c ∧ c ≤ hi) by omega)]
        match r, h, ih with
        | [], _, _ => simp [evalSF, h2, lookup]
        | (lo', hi', v') :: r', h, ih =>
          simp only
          split
          · next heq =>
            rw [← ih]
            simp only [tableSteps, evalSF]
            rw [if_neg (by omega), if_neg (by omega)]
          · simp only [evalSF, if_neg h2]
            exact ih

/-- The entries of a shipped direct table. -/
def directEntries {V : Type} (l : List (Nat × V)) : List (Nat × Nat × V) := l.map fun e => (e.1, e.1, e.2)

theorem entries_ofRange {V : Type} (ch : List (List (Nat × Nat × V))) :
    entries (CharDataTable.ofRange ch) = ch.flatten := by
  simp [entries, CharDataTable.ofRange, Function.comp_def]

theorem entries_ofDirect {V : Type} (ch : List (List (Nat × V))) :
    entries (CharDataTable.ofDirect ch) = directEntries ch.flatten := rfl

theorem wellFormed_of_asc {V : Type} (t : CharDataTable V) (h : ascFrom 0 (entries t) = true) :
    WellFormed t := (ascFrom_spec _ 0 h).2

/-- The step function of a table. -/
def SF.ofEntries {V : Type} (l : List (Nat × Nat × V)) : SF (Option V) := ⟨none, tableSteps l⟩

theorem findVal_eq_sf {V : Type} (t : CharDataTable V) (h : ascFrom 0 (entries t) = true) (c : Nat) :
    t.findVal c = (SF.ofEntries (entries t)).eval c := by
  rw [findVal_eq_lookup t (wellFormed_of_asc t h), SF.ofEntries, SF.eval, evalSF_steps _ 0 c h]

theorem containsVal_eq_sf {V : Type} (t : CharDataTable V) (h : ascFrom 0 (entries t) = true) (c : Nat) :
    t.containsVal c = ((SF.ofEntries (entries t)).eval c).isSome := by
  rw [← findVal_eq_sf t h]
  rcases search_table t (wellFormed_of_asc t h) c with ⟨e, _, _, hf, hc⟩ | ⟨_, hf, hc⟩
  · simp [CharDataTable.containsVal, CharDataTable.findVal, hf, hc]
  · simp [CharDataTable.containsVal, CharDataTable.findVal, hf, hc]

end Proofs.StepFn
