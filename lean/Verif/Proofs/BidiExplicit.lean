import Verif.Proofs.BidiInit
import Verif.Props.Level

/-! # `explicit::compute` against X1-X8 -/
namespace Proofs.Bidi
open Model Model.Bidi Data Proofs.Punycode Model.Grapheme Proofs.Grapheme Spec.Bidi

/-- the loop of `compute`, one entry per character: levels and classes; `pl` is the level every entry has before -/
def explicitC (pl : Nat) : List BC → Explicit → Outcome (List (Nat × BC))
  | [], _ => .ok []
  | c :: cs, st => do
    let (st, v) ← st.step c pl c
    let l ← explicitC pl cs st
    return v.getD (pl, c) :: l

theorem replicate_take_drop {α : Type} {n : Nat} {x : α} {l : List α} : (List.replicate n x ++ l).take n = List.replicate n x ∧
    (List.replicate n x ++ l).drop n = l := by
  constructor
  · rw [List.take_append_of_le_length (by simp)]; simp
  · rw [List.drop_append_of_le_length (by simp)]; simp

theorem replicate_head {α : Type} {n : Nat} (h : 0 < n) {x : α} {l : List α} : at' (List.replicate n x ++ l) 0 = .ok x := by
  apply at_ok
  rw [List.getElem?_append_left (by simpa using h), List.getElem?_replicate, if_pos h]

theorem expand_replicate {α : Type} (x : α) : ∀ t : List Nat, expand t (List.replicate t.length x) = List.replicate (blen t) x
  | [] => rfl
  | c :: t => by
    rw [List.length_cons, List.replicate_succ, expand_cons, expand_replicate x t, blen_cons, List.replicate_add]

/-- the loop on the bytes is the loop on the characters -/
theorem explicit_loop (pl : Nat) : ∀ (text : List Nat) (cs : List BC) (st : Explicit), cs.length = text.length →
    Explicit.loop text (expand text cs) (expand text (List.replicate text.length pl)) (expand text cs) st =
      (do let l ← explicitC pl cs st
          return (expand text (l.map Prod.fst), expand text (l.map Prod.snd)))
  | [], [], st, _ => rfl
  | c :: text, x :: cs, st, h => by
    have hp := len_pos c
    rw [List.length_cons, List.replicate_succ, expand_cons, expand_cons]
    simp only [Explicit.loop, explicitC, replicate_head hp, bind_ok, replicate_take_drop.2]
    cases hs : st.step x pl x with
    | panic => rfl
    | ok r =>
      obtain ⟨st', v⟩ := r
      simp only [bind_ok]
      rw [if_pos (by simp)]
      rw [explicit_loop pl text cs st' (by simpa using h)]
      cases explicitC pl cs st' with
      | panic => rfl
      | ok l =>
        simp only [bind_ok, pure_eq]
        cases v with
        | none => simp [entries, replicate_take_drop.1]
        | some v => simp [entries]
  | [], _ :: _, _, h => by simp at h
  | _ :: _, [], _, h => by simp at h

/-! ## the two machines -/

/-- the entry of the annex for an entry of the program -/
def absEntry (s : Status) : Entry :=
  ⟨s.level, match s.status with
    | .RTL => some .RightToLeft
    | .LTR => some .LeftToRight
    | _ => none, s.status = .Isolate⟩

/-- the state of the annex for a state of the program -/
def absState (s : Explicit) : X := ⟨s.stack.map absEntry, s.overflowIsolates, s.overflowEmbeddings, s.validIsolates⟩

/-- what holds of every state of the loop in a paragraph of level `pl` -/
structure Inv (pl : Nat) (s : Explicit) : Prop where
  base : ∃ pre, s.stack = pre ++ [⟨pl, .Neutral⟩]
  isolates : (s.stack.filter (fun e => e.status = .Isolate)).length = s.validIsolates
  desc : s.stack.Pairwise (fun a b => b.level < a.level)
  bound : ∀ e ∈ s.stack, e.level ≤ max pl 125
  para : pl ≤ 126

theorem inv_init {pl : Nat} (h : pl ≤ 126) : Inv pl ⟨[⟨pl, .Neutral⟩], 0, 0, 0⟩ :=
  ⟨⟨[], rfl⟩, rfl, by simp, by simp, h⟩

theorem abs_init (pl : Nat) : absState ⟨[⟨pl, .Neutral⟩], 0, 0, 0⟩ = X.init pl := rfl

theorem Inv.ne_nil {pl : Nat} {s : Explicit} (h : Inv pl s) : ∃ last rest, s.stack = last :: rest := by
  obtain ⟨pre, e⟩ := h.base
  cases pre with
  | nil => exact ⟨_, _, e⟩
  | cons a pre => exact ⟨a, pre ++ _, e⟩

theorem next_rtl {l : Nat} (h : l ≤ 126) : Level.newExplicitNextRtl l = if nextOdd l ≤ 125 then some (nextOdd l) else none := by
  unfold Level.newExplicitNextRtl
  rw [(Props.Level.next_values l (by omega)).2.1, Props.Level.newExplicit_def]
  have : (l + 1) / 2 * 2 + 1 = nextOdd l := by unfold nextOdd; split_ifs <;> omega
  rw [this]

theorem next_ltr {l : Nat} (h : l ≤ 126) : Level.newExplicitNextLtr l = if nextEven l ≤ 125 then some (nextEven l) else none := by
  unfold Level.newExplicitNextLtr
  rw [(Props.Level.next_values l (by omega)).1, Props.Level.newExplicit_def]
  have : (l + 2) / 2 * 2 = nextEven l := by unfold nextEven; split_ifs <;> omega
  rw [this]

theorem Inv.push {pl : Nat} {s : Explicit} (h : Inv pl s) {new : Nat} {st : Override} {v oi oe : Nat} (hn : new ≤ 125)
    (hlt : ∀ e, s.stack.head? = some e → e.level < new) (hv : v = if st = .Isolate then s.validIsolates + 1 else s.validIsolates) :
    Inv pl ⟨⟨new, st⟩ :: s.stack, oi, oe, v⟩ := by
  obtain ⟨pre, hb⟩ := h.base
  refine ⟨⟨⟨new, st⟩ :: pre, by simp [hb]⟩, ?_, ?_, ?_, h.para⟩
  · simp only [List.filter_cons, hv]
    by_cases hs : st = .Isolate
    · simp [hs, h.isolates]
    · simp [hs, h.isolates]
  · refine List.pairwise_cons.2 ⟨?_, h.desc⟩
    intro e he
    obtain ⟨l, r, hr⟩ := h.ne_nil
    have h1 := hlt l (by rw [hr]; rfl)
    rw [hr] at he
    rcases List.mem_cons.1 he with rfl | he
    · exact h1
    · have := h.desc
      rw [hr] at this
      have := (List.pairwise_cons.1 this).1 e he
      show e.level < new
      omega
  · intro e he
    rcases List.mem_cons.1 he with rfl | he
    · show new ≤ _; omega
    · exact h.bound e he

theorem Inv.counts {pl : Nat} {s : Explicit} (h : Inv pl s) (oi oe : Nat) : Inv pl { s with overflowIsolates := oi, overflowEmbeddings := oe } :=
  ⟨h.base, h.isolates, h.desc, h.bound, h.para⟩

theorem popIsolate_abs : ∀ stack : List Status, (popIsolate stack).map absEntry = ((stack.map absEntry).dropWhile (fun e => !e.isolate)).tail
  | [] => rfl
  | s :: rest => by
    unfold popIsolate
    rw [List.map_cons, List.dropWhile_cons]
    by_cases hs : s.status = .Isolate
    · simp [hs, absEntry]
    · simp only [if_neg hs]
      rw [popIsolate_abs rest]
      simp [absEntry, hs]

theorem popIsolate_suffix : ∀ stack : List Status, popIsolate stack <:+ stack
  | [] => List.suffix_refl _
  | s :: rest => by
    unfold popIsolate
    split_ifs
    · exact List.suffix_cons s rest
    · exact List.IsSuffix.trans (popIsolate_suffix rest) (List.suffix_cons s rest)

theorem popIsolate_isolates : ∀ stack : List Status, ((popIsolate stack).filter (fun e => e.status = .Isolate)).length =
    (stack.filter (fun e => e.status = .Isolate)).length - 1
  | [] => rfl
  | s :: rest => by
    unfold popIsolate
    by_cases hs : s.status = .Isolate
    · simp [hs, List.filter_cons]
    · rw [if_neg hs, popIsolate_isolates rest]
      simp [hs, List.filter_cons]

theorem Inv.popped {pl : Nat} {s : Explicit} (h : Inv pl s) : Inv pl s.popped := by
  unfold Explicit.popped
  split_ifs with h1 h2
  · exact h.counts _ _
  · obtain ⟨pre, hb⟩ := h.base
    have hsuf := popIsolate_suffix s.stack
    refine ⟨?_, ?_, h.desc.sublist hsuf.sublist, fun e he => h.bound e (hsuf.subset he), h.para⟩
    · have hin : ∀ pre : List Status, 0 < (pre.filter (fun e => e.status = .Isolate)).length →
          ∃ pre', popIsolate (pre ++ [⟨pl, .Neutral⟩]) = pre' ++ [⟨pl, .Neutral⟩] := by
        intro pre
        induction pre with
        | nil => intro h; simp at h
        | cons a pre ih =>
          intro hp
          rw [List.cons_append, popIsolate]
          by_cases ha : a.status = .Isolate
          · exact ⟨pre, by rw [if_pos ha]⟩
          · rw [if_neg ha]
            apply ih
            simpa [List.filter_cons, ha] using hp
      have hc := h.isolates
      rw [hb] at hc ⊢
      rw [List.filter_append] at hc
      exact hin pre (by simp only [List.filter_cons, List.filter_nil, List.length_append] at hc; simp at hc; omega)
    · rw [popIsolate_isolates, h.isolates]
  · exact h

theorem popped_abs (s : Explicit) : absState s.popped = (absState s).popIsolate := by
  unfold Explicit.popped X.popIsolate
  by_cases h1 : s.overflowIsolates > 0
  · simp [absState, h1]
  · by_cases h2 : s.validIsolates > 0
    · have h3 : ¬ (absState s).validIsolates = 0 := by simp [absState]; omega
      rw [if_neg h1, if_pos h2, if_neg (by simpa [absState] using h1), if_neg h3]
      simp only [absState, popIsolate_abs]
    · have h3 : (absState s).validIsolates = 0 := by simp [absState]; omega
      rw [if_neg h1, if_neg h2, if_neg (by simpa [absState] using h1), if_pos h3]

theorem plain_ok {pl : Nat} {s : Explicit} (h : Inv pl s) (c : BC) : s.plain c = .ok (s, (absState s).assign c) := by
  obtain ⟨l, r, hr⟩ := h.ne_nil
  unfold Explicit.plain X.assign X.last absState
  rw [hr]
  simp only [List.map_cons, List.headD_cons, absEntry]
  cases l.status <;> rfl

theorem last_level {pl : Nat} {s : Explicit} {l : Status} {r : List Status} (hr : s.stack = l :: r) : (absState s).last = absEntry l := by
  simp [X.last, absState, hr]

/-- one character of the program is one character of the annex -/
theorem step_ok {pl : Nat} {s : Explicit} (h : Inv pl s) (c : BC) (hB : c ≠ .ParagraphSeparator) :
    ∃ s' v, s.step c pl c = .ok (s', v) ∧ Inv pl s' ∧ absState s' = ((absState s).step pl c).1 ∧
      (∀ x, ((absState s).step pl c).2 = some x → v = some x) ∧ (removed c = true ↔ ((absState s).step pl c).2 = none) ∧
      (∀ x, v = some x → x.1 ≤ max pl 125) ∧ (∀ x, v = some x → x.2 = c ∨ x.2 = .LeftToRight ∨ x.2 = .RightToLeft) := by
  obtain ⟨l, r, hr⟩ := h.ne_nil
  have hlm : l.level ≤ max pl 125 := h.bound l (by simp [hr])
  have hp0 := h.para
  have hlb : l.level ≤ 126 := by omega
  have hplb : pl ≤ max pl 125 := by omega
  have hlast : (absState s).last = absEntry l := last_level (pl := pl) hr
  have hodd : l.level < nextOdd l.level := by unfold nextOdd; split_ifs <;> omega
  have heven : l.level < nextEven l.level := by unfold nextEven; split_ifs <;> omega
  have hassign : ∀ x : BC, (absState s).assign x = (l.level, l.status.apply x) := by
    intro x; rw [X.assign, hlast]; cases hst : l.status <;> simp [absEntry, hst, Override.apply]
  have happly : ∀ x : BC, l.status.apply x = x ∨ l.status.apply x = .LeftToRight ∨ l.status.apply x = .RightToLeft := by
    intro x; cases l.status <;> simp [Override.apply]
  have hll : (absEntry l).level = l.level := rfl
  -- openers
  have emb : ∀ (ovc : Option BC) (new : Nat), isIsolate c = false → l.level < new →
      nextLevel c l.level = (if new ≤ 125 then some new else none) → ovc = (absEntry ⟨new, statusOf c⟩).override →
      statusOf c ≠ .Isolate →
      ∃ s' v, s.opener c pl c = .ok (s', v) ∧ Inv pl s' ∧ absState s' = (absState s).embed new ovc ∧ v.1 ≤ max pl 125 ∧ v.2 = c := by
    intro ovc new hi hlt hn hov hst
    have hE1 : new ≤ 125 → (s.overflowIsolates = 0 ∧ s.overflowEmbeddings = 0) →
        (absState s).embed new ovc = { absState s with stack := ⟨new, ovc, false⟩ :: (absState s).stack } := by
      intro a b; unfold X.embed; rw [if_pos ⟨a, b⟩]
    have hE2 : ¬ (new ≤ 125 ∧ s.overflowIsolates = 0 ∧ s.overflowEmbeddings = 0) → s.overflowIsolates = 0 →
        (absState s).embed new ovc = { absState s with overflowEmbeddings := s.overflowEmbeddings + 1 } := by
      intro a b; unfold X.embed; rw [if_neg (show ¬ (new ≤ maxDepth ∧ (absState s).overflowIsolates = 0 ∧ (absState s).overflowEmbeddings = 0) from a), if_pos (by exact b)]; rfl
    have hE3 : ¬ (new ≤ 125 ∧ s.overflowIsolates = 0 ∧ s.overflowEmbeddings = 0) → s.overflowIsolates ≠ 0 →
        (absState s).embed new ovc = absState s := by
      intro a b; unfold X.embed; rw [if_neg (show ¬ (new ≤ maxDepth ∧ (absState s).overflowIsolates = 0 ∧ (absState s).overflowEmbeddings = 0) from a), if_neg (by exact b)]
    unfold Explicit.opener
    rw [hr]
    simp only [hi, Bool.false_eq_true, if_false, hn]
    by_cases hv : new ≤ 125
    · simp only [if_pos hv]
      by_cases hz : s.overflowIsolates = 0 ∧ s.overflowEmbeddings = 0
      · rw [if_pos hz, hE1 hv hz]
        refine ⟨_, _, rfl, ?_, ?_, by simp; omega, rfl⟩
        · rw [← hr]
          exact h.push (by omega) (by intro e he; rw [hr] at he; simp at he; subst he; exact hlt) (by rw [if_neg hst])
        · simp [absState, hr, hov, absEntry, hst]
      · rw [if_neg hz]
        by_cases hoi : s.overflowIsolates = 0
        · rw [if_pos hoi, hE2 (fun a => hz a.2) hoi, ← hr]
          exact ⟨_, _, rfl, h.counts s.overflowIsolates (s.overflowEmbeddings + 1), rfl, hplb, rfl⟩
        · rw [if_neg hoi, hE3 (fun a => hz a.2) hoi]
          exact ⟨_, _, rfl, h, rfl, hplb, rfl⟩
    · simp only [if_neg hv]
      by_cases hoi : s.overflowIsolates = 0
      · rw [if_pos hoi, hE2 (fun a => hv a.1) hoi, ← hr]
        exact ⟨_, _, rfl, h.counts s.overflowIsolates (s.overflowEmbeddings + 1), rfl, hplb, rfl⟩
      · rw [if_neg hoi, hE3 (fun a => hv a.1) hoi]
        exact ⟨_, _, rfl, h, rfl, hplb, rfl⟩
  have iso : ∀ (new : Nat), isIsolate c = true → l.level < new → nextLevel c l.level = (if new ≤ 125 then some new else none) → statusOf c = .Isolate →
      ∃ s', s.opener c pl c = .ok (s', (l.level, l.status.apply c)) ∧ Inv pl s' ∧ absState s' = (absState s).isolate new := by
    intro new hi hlt hn hst
    have hE1 : new ≤ 125 → (s.overflowIsolates = 0 ∧ s.overflowEmbeddings = 0) →
        (absState s).isolate new = { absState s with stack := ⟨new, none, true⟩ :: (absState s).stack, validIsolates := s.validIsolates + 1 } := by
      intro a b; unfold X.isolate; rw [if_pos ⟨a, b⟩]; rfl
    have hE2 : ¬ (new ≤ 125 ∧ s.overflowIsolates = 0 ∧ s.overflowEmbeddings = 0) →
        (absState s).isolate new = { absState s with overflowIsolates := s.overflowIsolates + 1 } := by
      intro a; unfold X.isolate; rw [if_neg (show ¬ (new ≤ maxDepth ∧ (absState s).overflowIsolates = 0 ∧ (absState s).overflowEmbeddings = 0) from a)]; rfl
    unfold Explicit.opener
    rw [hr]
    simp only [hi, if_true, hn]
    by_cases hv : new ≤ 125
    · simp only [if_pos hv]
      by_cases hz : s.overflowIsolates = 0 ∧ s.overflowEmbeddings = 0
      · rw [if_pos hz, hE1 hv hz]
        refine ⟨_, rfl, ?_, ?_⟩
        · rw [← hr]
          exact h.push (by omega) (by intro e he; rw [hr] at he; simp at he; subst he; exact hlt) (by rw [if_pos hst])
        · simp [absState, hr, absEntry, hst]
      · rw [if_neg hz, hE2 (fun a => hz a.2), ← hr]
        exact ⟨_, rfl, h.counts (s.overflowIsolates + 1) s.overflowEmbeddings, rfl⟩
    · simp only [if_neg hv]
      rw [hE2 (fun a => hv a.1), ← hr]
      exact ⟨_, rfl, h.counts (s.overflowIsolates + 1) s.overflowEmbeddings, rfl⟩
  obtain ⟨v0, hv0⟩ : ∃ v0, v0 = (absState s).assign c := ⟨_, rfl⟩
  have hpl := plain_ok h c
  rw [← hv0] at hpl
  have hpp := plain_ok h.popped c
  have hppl : ((absState s.popped).assign c).1 ≤ max pl 125 ∧ (((absState s.popped).assign c).2 = c ∨ ((absState s.popped).assign c).2 = .LeftToRight ∨
      ((absState s.popped).assign c).2 = .RightToLeft) := by
    obtain ⟨l', r', hr'⟩ := h.popped.ne_nil
    rw [X.assign, last_level (pl := pl) hr']
    refine ⟨h.popped.bound l' (by simp [hr']), ?_⟩
    simp only [absEntry]
    cases l'.status <;> simp
  cases c
  case RightToLeftEmbedding =>
    obtain ⟨s', v, h1, h2, h3, h4, h5⟩ := emb none _ rfl hodd (next_rtl hlb) rfl (by simp [statusOf])
    refine ⟨s', some v, by simp only [Explicit.step, h1, bind_ok, pure_eq], h2, by rw [h3, X.step, hlast, hll], by simp [X.step], by simp [X.step, removed], ?_, ?_⟩
    · intro x hx; cases hx; exact h4
    · intro x hx; cases hx; exact Or.inl h5
  case LeftToRightEmbedding =>
    obtain ⟨s', v, h1, h2, h3, h4, h5⟩ := emb none _ rfl heven (next_ltr hlb) rfl (by simp [statusOf])
    refine ⟨s', some v, by simp only [Explicit.step, h1, bind_ok, pure_eq], h2, by rw [h3, X.step, hlast, hll], by simp [X.step], by simp [X.step, removed], ?_, ?_⟩
    · intro x hx; cases hx; exact h4
    · intro x hx; cases hx; exact Or.inl h5
  case RightToLeftOverride =>
    obtain ⟨s', v, h1, h2, h3, h4, h5⟩ := emb (some .RightToLeft) _ rfl hodd (next_rtl hlb) rfl (by simp [statusOf])
    refine ⟨s', some v, by simp only [Explicit.step, h1, bind_ok, pure_eq], h2, by rw [h3, X.step, hlast, hll], by simp [X.step], by simp [X.step, removed], ?_, ?_⟩
    · intro x hx; cases hx; exact h4
    · intro x hx; cases hx; exact Or.inl h5
  case LeftToRightOverride =>
    obtain ⟨s', v, h1, h2, h3, h4, h5⟩ := emb (some .LeftToRight) _ rfl heven (next_ltr hlb) rfl (by simp [statusOf])
    refine ⟨s', some v, by simp only [Explicit.step, h1, bind_ok, pure_eq], h2, by rw [h3, X.step, hlast, hll], by simp [X.step], by simp [X.step, removed], ?_, ?_⟩
    · intro x hx; cases hx; exact h4
    · intro x hx; cases hx; exact Or.inl h5
  case RightToLeftIsolate =>
    obtain ⟨s', h1, h2, h3⟩ := iso _ rfl hodd (next_rtl hlb) rfl
    refine ⟨s', some (l.level, l.status.apply .RightToLeftIsolate), by simp only [Explicit.step, h1, bind_ok, pure_eq], h2, by rw [h3, X.step, hlast, hll], ?_, by simp [X.step, removed], ?_, ?_⟩
    · intro x hx; rw [X.step, hassign] at hx; exact hx
    · intro x hx; cases hx; exact hlm
    · intro x hx; cases hx; exact happly _
  case LeftToRightIsolate =>
    obtain ⟨s', h1, h2, h3⟩ := iso _ rfl heven (next_ltr hlb) rfl
    refine ⟨s', some (l.level, l.status.apply .LeftToRightIsolate), by simp only [Explicit.step, h1, bind_ok, pure_eq], h2, by rw [h3, X.step, hlast, hll], ?_, by simp [X.step, removed], ?_, ?_⟩
    · intro x hx; rw [X.step, hassign] at hx; exact hx
    · intro x hx; cases hx; exact hlm
    · intro x hx; cases hx; exact happly _
  case FirstStrongIsolate =>
    obtain ⟨s', h1, h2, h3⟩ := iso _ rfl heven (next_ltr hlb) rfl
    refine ⟨s', some (l.level, l.status.apply .FirstStrongIsolate), by simp only [Explicit.step, h1, bind_ok, pure_eq], h2, by rw [h3, X.step, hlast, hll], ?_, by simp [X.step, removed], ?_, ?_⟩
    · intro x hx; rw [X.step, hassign] at hx; exact hx
    · intro x hx; cases hx; exact hlm
    · intro x hx; cases hx; exact happly _
  case PopDirectionalIsolate =>
    refine ⟨s.popped, some ((absState s.popped).assign .PopDirectionalIsolate), by simp only [Explicit.step, hpp, bind_ok, pure_eq], h.popped,
      by rw [popped_abs, X.step], ?_, by simp [X.step, removed], ?_, ?_⟩
    · intro x hx; rw [X.step, ← popped_abs] at hx; exact hx
    · intro x hx; cases hx; exact hppl.1
    · intro x hx; cases hx; exact hppl.2
  case PopDirectionalFormat =>
    have hX : ((absState s).step pl .PopDirectionalFormat).2 = none := rfl
    have hX1 : ((absState s).step pl .PopDirectionalFormat).1 = (absState s).popEmbedding := rfl
    have hX2 : (absState s).popEmbedding = if s.overflowIsolates > 0 then absState s
      else if s.overflowEmbeddings > 0 then { absState s with overflowEmbeddings := s.overflowEmbeddings - 1 }
      else if (absState s).last.isolate = false ∧ 2 ≤ (absState s).stack.length then { absState s with stack := (absState s).stack.tail }
      else absState s := rfl
    have hC : s.step .PopDirectionalFormat pl .PopDirectionalFormat = if s.overflowIsolates > 0 then .ok (s, none)
      else if s.overflowEmbeddings > 0 then .ok ({ s with overflowEmbeddings := s.overflowEmbeddings - 1 }, none)
      else (do let (st, v) ← s.pdf .PopDirectionalFormat; return (st, some v)) := rfl
    rw [hX, hX1, hX2, hC]
    by_cases h1 : s.overflowIsolates > 0
    · simp only [if_pos h1]
      exact ⟨s, none, rfl, h, rfl, by simp, by simp [removed], by simp, by simp⟩
    · simp only [if_neg h1]
      by_cases h2 : s.overflowEmbeddings > 0
      · simp only [if_pos h2]
        exact ⟨_, none, rfl, h.counts s.overflowIsolates _, rfl, by simp, by simp [removed], by simp, by simp⟩
      · simp only [if_neg h2]
        rw [hlast]
        have hcond : ((absEntry l).isolate = false ∧ 2 ≤ (absState s).stack.length) = (l.status ≠ .Isolate ∧ (l :: r).length ≥ 2) := by
          simp [absEntry, absState, hr]
        simp only [hcond]
        by_cases h3 : l.status ≠ .Isolate ∧ (l :: r).length ≥ 2
        · cases r with
          | nil => simp at h3
          | cons l2 r =>
            have hp : s.pdf .PopDirectionalFormat = .ok ({ s with stack := l2 :: r }, l2.level, .PopDirectionalFormat) := by
              unfold Explicit.pdf
              simp only [hr, if_pos h3]
            rw [hp, if_pos h3]
            refine ⟨{ s with stack := l2 :: r }, some (l2.level, .PopDirectionalFormat), rfl, ?_, ?_, by simp, by simp [removed], ?_, ?_⟩
            · obtain ⟨pre, hb⟩ := h.base
              refine ⟨?_, ?_, ?_, ?_, h.para⟩
              · cases pre with
                | nil => rw [hr] at hb; simp at hb
                | cons a pre => rw [hr] at hb; simp only [List.cons_append, List.cons.injEq] at hb; exact ⟨pre, hb.2⟩
              · have := h.isolates; rw [hr, List.filter_cons] at this; simpa [h3.1] using this
              · have := h.desc; rw [hr] at this; exact (List.pairwise_cons.1 this).2
              · intro e he; exact h.bound e (by rw [hr]; exact List.mem_cons_of_mem _ he)
            · simp [absState, hr]
            · intro x hx; cases hx; exact h.bound l2 (by simp [hr])
            · intro x hx; cases hx; exact Or.inl rfl
        · have hp : s.pdf .PopDirectionalFormat = .ok (s, l.level, .PopDirectionalFormat) := by
            unfold Explicit.pdf
            simp only [hr, if_neg h3]
          rw [hp, if_neg h3]
          refine ⟨s, some (l.level, .PopDirectionalFormat), rfl, h, rfl, by simp, by simp [removed], ?_, ?_⟩
          · intro x hx; cases hx; exact hlm
          · intro x hx; cases hx; exact Or.inl rfl
  case ParagraphSeparator => exact absurd rfl hB
  case BoundaryNeutral =>
    refine ⟨s, some (pl, _), rfl, h, rfl, by simp [X.step], by simp [X.step, removed], ?_, ?_⟩
    · intro x hx; cases hx; exact hplb
    · intro x hx; cases hx; exact Or.inl rfl
  all_goals
    refine ⟨s, some v0, by simp only [Explicit.step, hpl, bind_ok, pure_eq], h, rfl, fun x hx => ?_, by simp [X.step, removed], ?_, ?_⟩
    · rw [X.step, ← hv0] at hx
      · exact hx
      all_goals simp
    · intro x hx; cases hx; rw [hv0, hassign]; exact hlm
    · intro x hx; cases hx; rw [hv0, hassign]; exact happly _

/-- the entries of the program, given those of the annex: the same, or something within bounds for a removed character -/
def Agrees (pl : Nat) (c : BC) (v : Nat × BC) (x : Option (Nat × BC)) : Prop :=
  (∀ y, x = some y → v = y) ∧ (removed c = true ↔ x = none) ∧ v.1 ≤ max pl 125 ∧ (v.2 = c ∨ v.2 = .LeftToRight ∨ v.2 = .RightToLeft) ∧
    (c = .ParagraphSeparator → v = (pl, c))

/-- the paragraph as a whole -/
theorem explicitC_ok {pl : Nat} : ∀ (cs : List BC) (s : Explicit), Inv pl s → (∀ c ∈ cs.dropLast, c ≠ .ParagraphSeparator) →
    ∃ l, explicitC pl cs s = .ok l ∧ l.length = cs.length ∧ (X.run pl (absState s) cs).length = cs.length ∧
      ∀ (i : Nat) c v x, cs[i]? = some c → l[i]? = some v → (X.run pl (absState s) cs)[i]? = some x → Agrees pl c v x
  | [], _, _, _ => ⟨[], rfl, rfl, rfl, by simp⟩
  | c :: cs, s, h, hB => by
    by_cases hc : c = .ParagraphSeparator
    · have : cs = [] := by
        cases cs with
        | nil => rfl
        | cons d ds => exact absurd hc (hB c (by simp))
      subst this
      subst hc
      refine ⟨[(pl, .ParagraphSeparator)], rfl, rfl, rfl, ?_⟩
      intro i c v x h1 h2 h3
      cases i with
      | zero =>
        simp only [List.getElem?_cons_zero, Option.some.injEq] at h1 h2
        subst h1; subst h2
        have : x = some (pl, .ParagraphSeparator) := by
          simp only [X.run, List.getElem?_cons_zero, Option.some.injEq] at h3
          exact h3.symm
        subst this
        refine ⟨by simp, by simp [removed], by simp, Or.inl rfl, fun _ => rfl⟩
      | succ i => simp at h1
    · obtain ⟨s', v, h1, h2, h3, h4, h5, h6, h7⟩ := step_ok h c hc
      obtain ⟨l, e1, e2, e3, e4⟩ := explicitC_ok cs s' h2 (fun x hx => hB x (by
        cases cs with
        | nil => simp at hx
        | cons d ds => rw [List.dropLast_cons_cons]; exact List.mem_cons_of_mem _ hx))
      rw [h3] at e3 e4
      refine ⟨v.getD (pl, c) :: l, by simp only [explicitC, h1, e1, bind_ok, pure_eq], by simp [e2], by simp [X.run, e3], ?_⟩
      intro i c' v' x i1 i2 i3
      cases i with
      | zero =>
        simp only [X.run, List.getElem?_cons_zero, Option.some.injEq] at i1 i2 i3
        subst i1; subst i2; subst i3
        refine ⟨fun y hy => by rw [h4 y hy]; rfl, h5, ?_, ?_, fun e => absurd e hc⟩
        · cases v with
          | none => show pl ≤ _; omega
          | some v => exact h6 v rfl
        · cases v with
          | none => exact Or.inl rfl
          | some v => exact h7 v rfl
      | succ i =>
        simp only [X.run, List.getElem?_cons_succ] at i1 i2 i3
        exact e4 i c' v' x i1 i2 i3

end Proofs.Bidi
