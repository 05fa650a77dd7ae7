import Verif.Proofs.NormalIter
import Verif.Model.NormalStream

/-! Lemmas for C84: the normalization iterators and the source they read from -/
namespace Proofs.NormalStream
open Model Model.Normal Proofs.NormalIter Proofs.CanonOrder

section
variable {σ : Type} {inv : σ → Prop} {out : σ → List Nat} {next : σ → Option Nat × σ}

theorem after_ok (h : ∀ st, inv st → StepOk inv out st (next st)) (n : Nat) (st : σ) (hi : inv st) :
    inv (after next n st) ∧ out (after next n st) = (out st).drop n := by
  induction n generalizing st with
  | zero => exact ⟨hi, rfl⟩
  | succ n ih =>
    obtain ⟨h1, h2⟩ := h st hi
    obtain ⟨g1, g2⟩ := ih _ h1
    refine ⟨g1, ?_⟩
    rw [after, g2]
    cases hr : (next st).1 with
    | none =>
      rw [hr] at h2
      obtain ⟨e1, e2⟩ := h2
      rw [e1, e2]; simp
    | some c =>
      rw [hr] at h2
      rw [show out st = c :: out (next st).2 from h2, List.drop_succ_cons]
end

variable {ccc : Nat → Nat} {dec : Nat → List Nat} {comp : Nat → Nat → Option Nat}

/-- the same iterator over another source -/
def Decompositions.on (st : Decompositions) (t : List Nat) : Decompositions := { st with rest := t }

local notation st "⟪" t "⟫" => Decompositions.on st t

theorem fill_lazy (rest : List Nat) (b : List Entry) (rest' : List Nat) (b' : List Entry) (s' : Bool)
    (h : fill ccc dec rest b = (rest', b', s')) : ∃ p, rest = p ++ rest' ∧ (rest' ≠ [] → s' = true ∧ ∀ t, fill ccc dec (p ++ t) b = (t, b', true)) := by
  induction rest generalizing b with
  | nil =>
    rw [fill] at h
    simp only [Prod.mk.injEq] at h
    exact ⟨[], by simp [← h.1], fun hne => absurd h.1.symm hne⟩
  | cons ch rest ih =>
    rw [fill] at h
    split at h
    · rename_i hs
      simp only [Prod.mk.injEq] at h
      obtain ⟨rfl, h2⟩ := h
      refine ⟨[ch], rfl, fun _ => ?_⟩
      have h3 : s' = true := by rw [← hs, h2]
      refine ⟨h3, fun t => ?_⟩
      simp only [List.cons_append, List.nil_append]
      rw [fill]
      simp only [hs, if_true, Prod.mk.injEq, true_and]
      rw [h2, h3]
    · rename_i hs
      obtain ⟨p, rfl, hp⟩ := ih _ h
      refine ⟨ch :: p, rfl, fun hne => ?_⟩
      obtain ⟨h1, h2⟩ := hp hne
      refine ⟨h1, fun t => ?_⟩
      rw [List.cons_append, fill]
      simp only [hs, Bool.false_eq_true, if_false]
      exact h2 t

theorem refill_lazy (st : Decompositions) : ∃ p, st.rest = p ++ (refill ccc dec st).2.rest ∧
    ((refill ccc dec st).2.rest ≠ [] → ∀ t, refill ccc dec (st⟪p ++ t⟫) = ((refill ccc dec st).1, (refill ccc dec st).2⟪t⟫)) := by
  obtain ⟨rest', b', s', e⟩ : ∃ rest' b' s', fill ccc dec st.rest st.buffer = (rest', b', s') := ⟨_, _, _, rfl⟩
  obtain ⟨p, h1, h2⟩ := fill_lazy _ _ _ _ _ e
  have hr : (refill ccc dec st).2.rest = rest' := by
    unfold refill
    simp only [e]
    split <;> rfl
  rw [hr]
  refine ⟨p, h1, fun hne t => ?_⟩
  obtain ⟨rfl, h3⟩ := h2 hne
  unfold refill
  simp only [e, Decompositions.on, h3 t]
  split <;> rfl

theorem next_lazy (st : Decompositions) : ∃ p, st.rest = p ++ (st.next ccc dec).2.rest ∧
    ((st.next ccc dec).2.rest ≠ [] → ∀ t, Decompositions.next ccc dec (st⟪p ++ t⟫) = ((st.next ccc dec).1, (st.next ccc dec).2⟪t⟫)) := by
  have hr := refill_lazy (ccc := ccc) (dec := dec) st
  cases hb : st.buffer with
  | nil =>
    have e : ∀ t, Decompositions.next ccc dec (st⟪t⟫) = refill ccc dec (st⟪t⟫) := by
      intro t
      unfold Decompositions.next
      simp only [Decompositions.on, hb]
    have e0 : Decompositions.next ccc dec st = refill ccc dec st := by
      unfold Decompositions.next
      simp only [hb]
    simp only [e, e0]
    exact hr
  | cons x buffer =>
    obtain ⟨c, k⟩ := x
    by_cases hk : k = 0
    · refine ⟨[], ?_, fun _ t => ?_⟩ <;> unfold Decompositions.next <;> simp [hb, hk, Decompositions.on]
    · by_cases hs : st.sorted = true
      · refine ⟨[], ?_, fun _ t => ?_⟩ <;> unfold Decompositions.next <;> simp [hb, hk, hs, Decompositions.on]
      · have e : ∀ t, Decompositions.next ccc dec (st⟪t⟫) = refill ccc dec (st⟪t⟫) := by
          intro t
          unfold Decompositions.next
          simp only [Decompositions.on, hb, if_neg hk, if_neg hs]
        have e0 : Decompositions.next ccc dec st = refill ccc dec st := by
          unfold Decompositions.next
          simp only [hb, if_neg hk, if_neg hs]
        simp only [e, e0]
        exact hr

theorem refill_size (st : Decompositions) (c : Nat) (h : (refill ccc dec st).1 = some c) : (refill ccc dec st).2.size dec + 1 = st.size dec := by
  obtain ⟨rest', b', s', h1, -, h3, -⟩ := fill_spec (ccc := ccc) (dec := dec) st.rest st.buffer
  have hl : (if s' then b' else canonicalSort b').length = b'.length := by
    cases s' <;> simp [canonicalSort_eq, (order_perm (key := key) b').length_eq]
  unfold refill at h ⊢
  simp only [h1] at h ⊢
  generalize (if s' then b' else canonicalSort b') = b at h hl ⊢
  cases b with
  | nil => simp at h
  | cons x b =>
    simp only [Decompositions.size, List.length_cons] at hl ⊢
    omega

theorem next_size (st : Decompositions) (c : Nat) (h : (st.next ccc dec).1 = some c) : (st.next ccc dec).2.size dec + 1 = st.size dec := by
  have hr := refill_size (ccc := ccc) (dec := dec) st c
  unfold Decompositions.next at h ⊢
  split at h
  · rename_i k b hb
    split at h
    · rename_i hk
      simp only [hb, hk, if_true, Decompositions.size, List.length_cons]
      omega
    · rename_i hk
      split at h
      · rename_i hs
        simp only [hb, hk, hs, if_true, if_false, Decompositions.size, List.length_cons]
        omega
      · rename_i hs
        simp only [hb, hk, hs, if_false]
        exact hr h
  · rename_i hb
    exact hr h

/-- generic: if every step is lazy, so are many -/
theorem run_lazy {σ : Type} (rest : σ → List Nat) (on : σ → List Nat → σ) (next : σ → Option Nat × σ) (ok : σ → Prop) (hok : ∀ st, ok st → ok (next st).2)
    (hstep : ∀ st, ok st → ∃ p, rest st = p ++ rest (next st).2 ∧ (rest (next st).2 ≠ [] → ∀ t, next (on st (p ++ t)) = ((next st).1, on (next st).2 t)))
    (n : Nat) (st : σ) (hst : ok st) : ∃ p, rest st = p ++ rest (after next n st) ∧
      (rest (after next n st) ≠ [] → ∀ t, calls next n (on st (p ++ t)) = calls next n st ∧ after next n (on st (p ++ t)) = on (after next n st) t) := by
  induction n generalizing st with
  | zero => exact ⟨[], rfl, fun _ t => ⟨rfl, rfl⟩⟩
  | succ n ih =>
    obtain ⟨p, h1, h2⟩ := hstep st hst
    obtain ⟨q, g1, g2⟩ := ih (next st).2 (hok st hst)
    refine ⟨p ++ q, by rw [after, List.append_assoc, ← g1, ← h1], fun hne t => ?_⟩
    rw [after] at hne
    have hne' : rest (next st).2 ≠ [] := by rw [g1]; simp [hne]
    obtain ⟨e1, e2⟩ := g2 hne t
    rw [calls, calls, after, after, List.append_assoc, h2 hne' (q ++ t)]
    exact ⟨by simp only [e1], e2⟩

theorem decompositions_lazy (n : Nat) (st : Decompositions) : ∃ p, st.rest = p ++ (after (Decompositions.next ccc dec) n st).rest ∧
    ((after (Decompositions.next ccc dec) n st).rest ≠ [] → ∀ t, calls (Decompositions.next ccc dec) n (st⟪p ++ t⟫) = calls (Decompositions.next ccc dec) n st ∧
      after (Decompositions.next ccc dec) n (st⟪p ++ t⟫) = (after (Decompositions.next ccc dec) n st)⟪t⟫) :=
  run_lazy Decompositions.rest Decompositions.on _ (fun _ => True) (fun _ _ => trivial) (fun st _ => next_lazy st) n st trivial

/-! ## How much is read -/

/-- one of the characters of the decomposition is a starter -/
def hasStarter (ccc : Nat → Nat) (dec : Nat → List Nat) (c : Nat) : Bool := (dec c).any (ccc · == 0)

theorem fold_sorted (ds : List Nat) (st : List Entry × Bool) : (ds.foldl (callback ccc) st).2 = (st.2 || ds.any (ccc · == 0)) := by
  induction ds generalizing st with
  | nil => simp
  | cons d ds ih =>
    rw [List.foldl_cons, ih, List.any_cons, ← Bool.or_assoc]
    congr 1
    unfold callback
    by_cases h0 : ccc d = 0
    · cases hs : st.2 <;> simp [h0, hs]
    · simp [h0]

theorem fill_reads (rest : List Nat) (b : List Entry) : ∃ p, rest = p ++ (fill ccc dec rest b).1 ∧ (p.filter (hasStarter ccc dec)).length ≤ 1 := by
  induction rest generalizing b with
  | nil => exact ⟨[], rfl, by simp⟩
  | cons ch rest ih =>
    rw [fill]
    split
    · refine ⟨[ch], rfl, ?_⟩
      have := List.length_filter_le (hasStarter ccc dec) [ch]
      simpa using this
    · rename_i hs
      rw [fold_sorted] at hs
      obtain ⟨p, h1, h2⟩ := ih (List.foldl (callback ccc) (b, false) (dec ch)).1
      refine ⟨ch :: p, by rw [List.cons_append, ← h1], ?_⟩
      rw [List.filter_cons_of_neg (by simpa [hasStarter] using hs)]
      exact h2

theorem next_reads (st : Decompositions) : ∃ p, st.rest = p ++ (st.next ccc dec).2.rest ∧ (p.filter (hasStarter ccc dec)).length ≤ 1 := by
  have key : ∃ p, st.rest = p ++ (refill ccc dec st).2.rest ∧ (p.filter (hasStarter ccc dec)).length ≤ 1 := by
    have hr : (refill ccc dec st).2.rest = (fill ccc dec st.rest st.buffer).1 := by
      unfold refill
      rcases fill ccc dec st.rest st.buffer with ⟨r, b, s⟩
      simp only
      split <;> rfl
    rw [hr]
    exact fill_reads _ _
  unfold Decompositions.next
  split
  · split
    · exact ⟨[], rfl, by simp⟩
    · split
      · exact ⟨[], rfl, by simp⟩
      · exact key
  · exact key

theorem after_reads (n : Nat) (st : Decompositions) : ∃ p, st.rest = p ++ (after (Decompositions.next ccc dec) n st).rest ∧
    (p.filter (hasStarter ccc dec)).length ≤ n := by
  induction n generalizing st with
  | zero => exact ⟨[], rfl, by simp⟩
  | succ n ih =>
    obtain ⟨p, h1, h2⟩ := next_reads (ccc := ccc) (dec := dec) st
    obtain ⟨q, g1, g2⟩ := ih (st.next ccc dec).2
    refine ⟨p ++ q, by rw [after, List.append_assoc, ← g1, ← h1], ?_⟩
    rw [List.filter_append, List.length_append]
    omega

/-! ## Recomposition -/

def Recompositions.on (st : Recompositions) (t : List Nat) : Recompositions := { st with iter := st.iter⟪t⟫ }

local notation st "⟦" t "⟧" => Recompositions.on st t

/-- What one character does: `.inl` goes on with the next character, `.inr` returns. -/
def compStep (ccc : Nat → Nat) (comp : Nat → Nat → Option Nat) (ch : Nat) (st : Recompositions) : Recompositions ⊕ (Option Nat × Recompositions) :=
  match st.composee with
  | none => if ccc ch ≠ 0 then .inr (some ch, st) else .inl { st with composee := some ch }
  | some k =>
    match st.lastCcc with
    | none =>
      match comp k ch with
      | some r => .inl { st with composee := some r }
      | none =>
        if ccc ch = 0 then .inr (some k, { st with composee := some ch })
        else .inl { st with buffer := st.buffer ++ [ch], lastCcc := some (ccc ch) }
    | some last =>
      if last ≥ ccc ch then
        if ccc ch = 0 then .inr (some k, { st with composee := some ch, lastCcc := none, state := .Purging })
        else .inl { st with buffer := st.buffer ++ [ch], lastCcc := some (ccc ch) }
      else
        match comp k ch with
        | some r => .inl { st with composee := some r }
        | none => .inl { st with buffer := st.buffer ++ [ch], lastCcc := some (ccc ch) }

theorem composing_succ (fuel : Nat) (st : Recompositions) : composing ccc dec comp (fuel + 1) st =
    match st.iter.next ccc dec with
    | (none, iter) => (none, { st with iter := iter })
    | (some ch, iter) => match compStep ccc comp ch { st with iter := iter } with
      | .inl st => composing ccc dec comp fuel st
      | .inr r => (some r.1, r.2) := by
  rw [composing]
  obtain ⟨it, stt, buf, cm, lc⟩ := st
  simp only
  rcases it.next ccc dec with ⟨_ | ch, iter⟩
  · rfl
  · simp only [compStep]
    cases cm with
    | none =>
      simp only
      by_cases h : ccc ch ≠ 0
      · rw [if_pos h, if_pos h]
      · rw [if_neg h, if_neg h]
    | some k =>
      simp only
      cases lc with
      | none =>
        simp only
        cases comp k ch with
        | some r => rfl
        | none =>
          simp only
          by_cases h : ccc ch = 0
          · rw [if_pos h, if_pos h]
          · rw [if_neg h, if_neg h]
      | some last =>
        simp only
        by_cases h1 : last ≥ ccc ch
        · rw [if_pos h1, if_pos h1]
          by_cases h : ccc ch = 0
          · rw [if_pos h, if_pos h]
          · rw [if_neg h, if_neg h]
        · rw [if_neg h1, if_neg h1]
          cases comp k ch <;> rfl

theorem compStep_iter (ch : Nat) (st : Recompositions) : ∀ i, compStep ccc comp ch { st with iter := i } = match compStep ccc comp ch st with
    | .inl st' => .inl { st' with iter := i }
    | .inr r => .inr (r.1, { r.2 with iter := i }) := by
  intro i
  obtain ⟨it, stt, buf, cm, lc⟩ := st
  simp only [compStep]
  cases cm with
  | none =>
    simp only
    by_cases h : ccc ch ≠ 0
    · rw [if_pos h, if_pos h]
    · rw [if_neg h, if_neg h]
  | some k =>
    simp only
    cases lc with
    | none =>
      simp only
      cases comp k ch with
      | some r => rfl
      | none =>
        simp only
        by_cases h : ccc ch = 0
        · rw [if_pos h, if_pos h]
        · rw [if_neg h, if_neg h]
    | some last =>
      simp only
      by_cases h1 : last ≥ ccc ch
      · rw [if_pos h1, if_pos h1]
        by_cases h : ccc ch = 0
        · rw [if_pos h, if_pos h]
        · rw [if_neg h, if_neg h]
      · rw [if_neg h1, if_neg h1]
        cases comp k ch <;> rfl

theorem compStep_same (ch : Nat) (st : Recompositions) : match compStep ccc comp ch st with
    | .inl st' => st'.iter = st.iter
    | .inr r => r.2.iter = st.iter := by
  have h := compStep_iter (ccc := ccc) (comp := comp) ch st st.iter
  have e : ({ st with iter := st.iter } : Recompositions) = st := rfl
  rw [e] at h
  cases hc : compStep ccc comp ch st with
  | inl st' => rw [hc] at h; simp only [Sum.inl.injEq] at h; rw [h]
  | inr r => rw [hc] at h; simp only [Sum.inr.injEq] at h; rw [h]

theorem next_none (st : Decompositions) (h : (st.next ccc dec).1 = none) : (st.next ccc dec).2.rest = [] := by
  have key : (refill ccc dec st).1 = none → (refill ccc dec st).2.rest = [] := by
    obtain ⟨rest', b', s', h1, -, -, h4, h5⟩ := fill_spec (ccc := ccc) (dec := dec) st.rest st.buffer
    unfold refill
    simp only [h1]
    cases s' with
    | true =>
      obtain ⟨b0, s, q, rfl, hs⟩ := h4 rfl
      simp only [if_true]
      intro h
      split at h
      · rename_i e; exact absurd e (by simp)
      · simp at h
    | false =>
      intro _
      have := h5 rfl
      subst this
      split <;> rfl
  unfold Decompositions.next at h ⊢
  split at h
  · rename_i c k b hb
    split at h
    · simp at h
    · rename_i hk
      split at h
      · simp at h
      · rename_i hs
        simp only [hb, hk, hs, if_false]
        exact key h
  · rename_i hb
    exact key h

/-- The loop over the source, with enough fuel: if it leaves some of the source, it has not depended on it. -/
theorem composing_lazy (fuel : Nat) (st : Recompositions) (hf : st.iter.size dec < fuel) : ∃ p, st.iter.rest = p ++ (composing ccc dec comp fuel st).2.iter.rest ∧
    ((composing ccc dec comp fuel st).2.iter.rest ≠ [] → (composing ccc dec comp fuel st).1.isSome ∧ ∀ t fuel', (st⟦p ++ t⟧).iter.size dec < fuel' →
      composing ccc dec comp fuel' (st⟦p ++ t⟧) = ((composing ccc dec comp fuel st).1, (composing ccc dec comp fuel st).2⟦t⟧)) := by
  induction fuel generalizing st with
  | zero => omega
  | succ fuel ih =>
    obtain ⟨p, h1, h2⟩ := next_lazy (ccc := ccc) (dec := dec) st.iter
    have hsz := next_size (ccc := ccc) (dec := dec) st.iter
    have hno := next_none (ccc := ccc) (dec := dec) st.iter
    have e := composing_succ (ccc := ccc) (dec := dec) (comp := comp) fuel st
    rcases hn : st.iter.next ccc dec with ⟨r, iter⟩
    rw [hn] at e h1 h2 hsz hno
    simp only at h1 h2 hsz hno
    cases r with
    | none =>
      simp only at e
      rw [e]
      refine ⟨p, h1, fun hne => absurd (hno rfl) hne⟩
    | some ch =>
      simp only at e
      have hs := compStep_same (ccc := ccc) (comp := comp) ch { st with iter := iter }
      have hsz' := hsz ch rfl
      have hstep : iter.rest ≠ [] → ∀ t fuel', (st⟦p ++ t⟧).iter.size dec < fuel' + 1 →
          composing ccc dec comp (fuel' + 1) (st⟦p ++ t⟧) = (match compStep ccc comp ch { st with iter := iter } with
            | .inl st => composing ccc dec comp fuel' (st⟦t⟧)
            | .inr r => (some r.1, r.2⟦t⟧)) ∧ (iter⟪t⟫).size dec < fuel' := by
        intro hne t fuel' hf'
        have hn' := h2 hne t
        have hsz2 := next_size (ccc := ccc) (dec := dec) (st.iter⟪p ++ t⟫) ch (by rw [hn'])
        rw [hn'] at hsz2
        constructor
        · rw [composing_succ]
          simp only [Recompositions.on]
          rw [hn']
          simp only
          have := compStep_iter (ccc := ccc) (comp := comp) ch { st with iter := iter } (iter⟪t⟫)
          simp only at this
          rw [this]
          cases hc : compStep ccc comp ch { st with iter := iter } with
          | inl st' => rw [hc] at hs; simp only at hs ⊢; rw [hs]
          | inr r => rw [hc] at hs; simp only at hs ⊢; rw [hs]
        · simp only [Recompositions.on] at hf'
          simp only at hsz2
          omega
      cases hc : compStep ccc comp ch { st with iter := iter } with
      | inl st' =>
        rw [hc] at e hs
        simp only at e hs
        obtain ⟨q, g1, g2⟩ := ih st' (by rw [hs]; omega)
        rw [e]
        refine ⟨p ++ q, by rw [List.append_assoc, ← g1, hs, ← h1], fun hne => ?_⟩
        obtain ⟨g3, g4⟩ := g2 hne
        refine ⟨g3, fun t fuel' hf' => ?_⟩
        have hne' : iter.rest ≠ [] := by rw [← hs, g1]; simp [hne]
        cases fuel' with
        | zero => omega
        | succ fuel' =>
          rw [List.append_assoc] at hf' ⊢
          obtain ⟨k1, k2⟩ := hstep hne' (q ++ t) fuel' hf'
          rw [k1, hc]
          simp only
          refine g4 t fuel' ?_
          simp only [Recompositions.on]
          rw [hs]; exact k2
      | inr r =>
        rw [hc] at e hs
        simp only at e hs
        rw [e]
        refine ⟨p, by rw [hs]; exact h1, fun hne => ⟨rfl, fun t fuel' hf' => ?_⟩⟩
        have hne' : iter.rest ≠ [] := by rw [← hs]; exact hne
        cases fuel' with
        | zero => omega
        | succ fuel' =>
          obtain ⟨k1, -⟩ := hstep hne' t fuel' hf'
          rw [k1, hc]

theorem finished_lazy (st : Recompositions) : (finished st).2.iter = st.iter ∧ ∀ t, finished (st⟦t⟧) = ((finished st).1, (finished st).2⟦t⟧) := by
  unfold finished
  cases hb : st.buffer <;> simp [Recompositions.on, hb]

theorem composingArm_lazy (st : Recompositions) : ∃ p, st.iter.rest = p ++ (composingArm ccc dec comp st).2.iter.rest ∧
    ((composingArm ccc dec comp st).2.iter.rest ≠ [] → ∀ t, composingArm ccc dec comp (st⟦p ++ t⟧) =
      ((composingArm ccc dec comp st).1, (composingArm ccc dec comp st).2⟦t⟧)) := by
  obtain ⟨p, h1, h2⟩ := composing_lazy (ccc := ccc) (dec := dec) (comp := comp) (st.iter.size dec + 1) st (by omega)
  rcases hc : composing ccc dec comp (st.iter.size dec + 1) st with ⟨r, st'⟩
  rw [hc] at h1 h2
  simp only at h1 h2
  have hi : (composingArm ccc dec comp st).2.iter = st'.iter := by
    unfold composingArm
    simp only [hc]
    cases r with
    | some r => rfl
    | none =>
      simp only
      cases hk : st'.composee with
      | some k => rfl
      | none => exact (finished_lazy _).1
  refine ⟨p, by rw [hi]; exact h1, fun hne t => ?_⟩
  rw [hi] at hne
  obtain ⟨h3, h4⟩ := h2 hne
  cases r with
  | none => simp at h3
  | some r =>
    unfold composingArm
    simp only [hc, h4 t _ (Nat.lt_succ_self _)]

theorem rnext_lazy (st : Recompositions) : ∃ p, st.iter.rest = p ++ (st.next ccc dec comp).2.iter.rest ∧
    ((st.next ccc dec comp).2.iter.rest ≠ [] → ∀ t, Recompositions.next ccc dec comp (st⟦p ++ t⟧) =
      ((st.next ccc dec comp).1, (st.next ccc dec comp).2⟦t⟧)) := by
  cases hs : st.state with
  | Composing =>
    have e : ∀ t, Recompositions.next ccc dec comp (st⟦t⟧) = composingArm ccc dec comp (st⟦t⟧) := by
      intro t; unfold Recompositions.next; simp only [Recompositions.on, hs]
    have e0 : Recompositions.next ccc dec comp st = composingArm ccc dec comp st := by unfold Recompositions.next; simp only [hs]
    simp only [e, e0]
    exact composingArm_lazy st
  | Purging =>
    cases hb : st.buffer with
    | nil =>
      have h := composingArm_lazy (ccc := ccc) (dec := dec) (comp := comp) { st with state := .Composing }
      have e : ∀ t, Recompositions.next ccc dec comp (st⟦t⟧) = composingArm ccc dec comp (Recompositions.on { st with state := .Composing } t) := by
        intro t; unfold Recompositions.next; simp only [Recompositions.on, hs, hb]
      have e0 : Recompositions.next ccc dec comp st = composingArm ccc dec comp { st with state := .Composing } := by unfold Recompositions.next; simp only [hs, hb]
      simp only [e, e0]
      exact h
    | cons c b =>
      refine ⟨[], ?_, fun _ t => ?_⟩ <;> unfold Recompositions.next <;> simp [hs, hb, Recompositions.on]
  | Finished =>
    have e : ∀ t, Recompositions.next ccc dec comp (st⟦t⟧) = finished (st⟦t⟧) := by
      intro t; unfold Recompositions.next; simp only [Recompositions.on, hs]
    have e0 : Recompositions.next ccc dec comp st = finished st := by unfold Recompositions.next; simp only [hs]
    simp only [e, e0]
    exact ⟨[], by rw [(finished_lazy st).1]; rfl, fun _ t => (finished_lazy st).2 t⟩

theorem recompositions_lazy (n : Nat) (st : Recompositions) : ∃ p, st.iter.rest = p ++ (after (Recompositions.next ccc dec comp) n st).iter.rest ∧
    ((after (Recompositions.next ccc dec comp) n st).iter.rest ≠ [] → ∀ t,
      calls (Recompositions.next ccc dec comp) n (st⟦p ++ t⟧) = calls (Recompositions.next ccc dec comp) n st ∧
      after (Recompositions.next ccc dec comp) n (st⟦p ++ t⟧) = (after (Recompositions.next ccc dec comp) n st)⟦t⟧) :=
  run_lazy (fun st => st.iter.rest) Recompositions.on _ (fun _ => True) (fun _ _ => trivial) (fun st _ => rnext_lazy st) n st trivial

/-! ## What the composing iterator keeps back -/

theorem after_succ' {σ : Type} (next : σ → Option Nat × σ) (n : Nat) (st : σ) : after next (n + 1) st = after next n (next st).2 := rfl

theorem after_add {σ : Type} (next : σ → Option Nat × σ) (a b : Nat) (st : σ) : after next (a + b) st = after next b (after next a st) := by
  induction a generalizing st with
  | zero => simp [after]
  | succ a ih => rw [Nat.succ_add, after, ih, after]

variable {dec2 : Nat → List Nat}

/-- The loop over the source depends on the characters it gets only, not on where they come from. -/
theorem composing_source (fuel : Nat) (st : Recompositions) (hi : Inv st.iter) (r : Option Nat) (st' : Recompositions)
    (h : composing ccc dec comp fuel st = (some r, st')) :
    ∃ O, out ccc dec st.iter = O ++ out ccc dec st'.iter ∧ Inv st'.iter ∧ st'.iter = after (Decompositions.next ccc dec) O.length st.iter ∧
      ∀ (i2 : Decompositions) (X : List Nat), Inv i2 → out ccc dec2 i2 = O ++ X → ∀ fuel2, i2.size dec2 < fuel2 →
        ∃ i2', composing ccc dec2 comp fuel2 { st with iter := i2 } = (some r, { st' with iter := i2' }) ∧ Inv i2' ∧ out ccc dec2 i2' = X := by
  induction fuel generalizing st with
  | zero => simp [composing] at h
  | succ fuel ih =>
    rw [composing_succ] at h
    obtain ⟨h1, h2⟩ := next_ok (ccc := ccc) (dec := dec) st.iter hi
    rcases hn : st.iter.next ccc dec with ⟨x, iter⟩
    rw [hn] at h h1 h2
    cases x with
    | none => simp at h
    | some ch =>
      simp only at h h1 h2
      have hs := compStep_same (ccc := ccc) (comp := comp) ch { st with iter := iter }
      have hstep : ∀ (i2 : Decompositions) (X : List Nat), Inv i2 → out ccc dec2 i2 = ch :: X → ∀ fuel2, i2.size dec2 < fuel2 + 1 →
          ∃ i3, Inv i3 ∧ out ccc dec2 i3 = X ∧ i3.size dec2 < fuel2 ∧ composing ccc dec2 comp (fuel2 + 1) { st with iter := i2 } =
            match compStep ccc comp ch { st with iter := iter } with
            | .inl st => composing ccc dec2 comp fuel2 { st with iter := i3 }
            | .inr r => (some r.1, { r.2 with iter := i3 }) := by
        intro i2 X hi2 ho fuel2 hf
        obtain ⟨g1, g2⟩ := next_ok (ccc := ccc) (dec := dec2) i2 hi2
        rcases hn2 : i2.next ccc dec2 with ⟨y, i3⟩
        have hsz := next_size (ccc := ccc) (dec := dec2) i2
        rw [hn2] at g1 g2 hsz
        cases y with
        | none => simp only at g2; rw [g2.1] at ho; simp at ho
        | some ch2 =>
          simp only at g2 hsz
          rw [ho] at g2
          simp only [List.cons.injEq] at g2
          obtain ⟨rfl, g3⟩ := g2
          have := hsz ch rfl
          refine ⟨i3, g1, g3.symm, by omega, ?_⟩
          rw [composing_succ]
          simp only [hn2]
          have := compStep_iter (ccc := ccc) (comp := comp) ch { st with iter := iter } i3
          simp only at this
          rw [this]
          cases compStep ccc comp ch { st with iter := iter } <;> rfl
      cases hc : compStep ccc comp ch { st with iter := iter } with
      | inl st1 =>
        rw [hc] at h hs hstep
        simp only at h hs hstep
        obtain ⟨O, k1, k2, k3, k4⟩ := ih st1 (by rw [hs]; exact h1) h
        rw [hs] at k1 k3
        refine ⟨ch :: O, by rw [h2, k1]; rfl, k2, by rw [k3, List.length_cons, after_succ', hn], ?_⟩
        intro i2 X hi2 ho fuel2 hf
        cases fuel2 with
        | zero => omega
        | succ fuel2 =>
          obtain ⟨i3, m1, m2, m3, m4⟩ := hstep i2 (O ++ X) hi2 ho fuel2 hf
          rw [m4]
          exact k4 i3 X m1 m2 fuel2 m3
      | inr q =>
        rw [hc] at h hs hstep
        simp only [Prod.mk.injEq, Option.some.injEq] at h hs hstep
        obtain ⟨rfl, rfl⟩ := h
        refine ⟨[ch], by rw [h2, hs]; rfl, by rw [hs]; exact h1, by rw [hs, List.length_singleton, after_succ', hn]; rfl, ?_⟩
        intro i2 X hi2 ho fuel2 hf
        cases fuel2 with
        | zero => omega
        | succ fuel2 =>
          obtain ⟨i3, m1, m2, m3, m4⟩ := hstep i2 X hi2 ho fuel2 hf
          exact ⟨i3, m4, m1, m2⟩

/-- One call that does not find the end of the source -/
theorem rnext_source (st : Recompositions) (hi : Inv st.iter) (hf : (st.next ccc dec comp).2.state ≠ .Finished) :
    ∃ O, out ccc dec st.iter = O ++ out ccc dec (st.next ccc dec comp).2.iter ∧ Inv (st.next ccc dec comp).2.iter ∧
      (st.next ccc dec comp).2.iter = after (Decompositions.next ccc dec) O.length st.iter ∧
      ∀ (i2 : Decompositions) (X : List Nat), Inv i2 → out ccc dec2 i2 = O ++ X →
        ∃ i2', Recompositions.next ccc dec2 comp { st with iter := i2 } = ((st.next ccc dec comp).1, { (st.next ccc dec comp).2 with iter := i2' }) ∧
          Inv i2' ∧ out ccc dec2 i2' = X := by
  have arm : ∀ st : Recompositions, Inv st.iter → (composingArm ccc dec comp st).2.state ≠ .Finished →
      ∃ O, out ccc dec st.iter = O ++ out ccc dec (composingArm ccc dec comp st).2.iter ∧ Inv (composingArm ccc dec comp st).2.iter ∧
      (composingArm ccc dec comp st).2.iter = after (Decompositions.next ccc dec) O.length st.iter ∧
      ∀ (i2 : Decompositions) (X : List Nat), Inv i2 → out ccc dec2 i2 = O ++ X →
        ∃ i2', composingArm ccc dec2 comp { st with iter := i2 } = ((composingArm ccc dec comp st).1, { (composingArm ccc dec comp st).2 with iter := i2' }) ∧
          Inv i2' ∧ out ccc dec2 i2' = X := by
    intro st hi hf
    rcases hc : composing ccc dec comp (st.iter.size dec + 1) st with ⟨r, st'⟩
    cases r with
    | none =>
      exfalso
      apply hf
      unfold composingArm
      simp only [hc]
      cases hk : st'.composee with
      | some k => rfl
      | none =>
        simp only
        unfold finished
        simp only
        cases st'.buffer <;> rfl
    | some r =>
      have e : composingArm ccc dec comp st = (r, st') := by unfold composingArm; simp only [hc]
      rw [e]
      obtain ⟨O, h1, h2, h3, h4⟩ := composing_source (dec2 := dec2) _ st hi r st' hc
      refine ⟨O, h1, h2, h3, fun i2 X hi2 ho => ?_⟩
      obtain ⟨i2', g1, g2, g3⟩ := h4 i2 X hi2 ho (i2.size dec2 + 1) (Nat.lt_succ_self _)
      refine ⟨i2', ?_, g2, g3⟩
      unfold composingArm
      simp only [g1]
  cases hs : st.state with
  | Composing =>
    have e0 : Recompositions.next ccc dec comp st = composingArm ccc dec comp st := by unfold Recompositions.next; simp only [hs]
    have e : ∀ i2, Recompositions.next ccc dec2 comp { st with iter := i2 } = composingArm ccc dec2 comp { st with iter := i2 } := by
      intro i2; unfold Recompositions.next; simp only [hs]
    rw [e0] at hf ⊢
    obtain ⟨O, h1, h2, h3, h4⟩ := arm st hi hf
    exact ⟨O, h1, h2, h3, fun i2 X hi2 ho => by rw [← hs, e i2]; exact h4 i2 X hi2 ho⟩
  | Purging =>
    cases hb : st.buffer with
    | nil =>
      have e0 : Recompositions.next ccc dec comp st = composingArm ccc dec comp { st with state := .Composing } := by
        unfold Recompositions.next; simp only [hs, hb]
      have e : ∀ i2, Recompositions.next ccc dec2 comp { st with iter := i2 } = composingArm ccc dec2 comp { st with state := .Composing, iter := i2 } := by
        intro i2; unfold Recompositions.next; simp only [hs, hb]
      rw [e0] at hf ⊢
      obtain ⟨O, h1, h2, h3, h4⟩ := arm { st with state := .Composing } hi hf
      exact ⟨O, h1, h2, h3, fun i2 X hi2 ho => by rw [← hs, ← hb, e i2]; exact h4 i2 X hi2 ho⟩
    | cons c b =>
      have e0 : Recompositions.next ccc dec comp st = (some c, { st with buffer := b }) := by unfold Recompositions.next; simp only [hs, hb]
      rw [e0]
      refine ⟨[], rfl, hi, rfl, fun i2 X hi2 ho => ⟨i2, ?_, hi2, ho⟩⟩
      unfold Recompositions.next; simp only [hs, hb]
  | Finished =>
    exfalso
    apply hf
    unfold Recompositions.next
    simp only [hs]
    unfold finished
    cases st.buffer <;> simp [hs]

theorem finished_stays (st : Recompositions) (hs : st.state = .Finished) (n : Nat) : (after (Recompositions.next ccc dec comp) n st).state = .Finished := by
  induction n generalizing st with
  | zero => exact hs
  | succ n ih =>
    apply ih
    unfold Recompositions.next
    simp only [hs]
    unfold finished
    cases st.buffer <;> simp [hs]

theorem calls_source (n : Nat) (st : Recompositions) (hi : Inv st.iter) (hf : (after (Recompositions.next ccc dec comp) n st).state ≠ .Finished) :
    ∃ O, out ccc dec st.iter = O ++ out ccc dec (after (Recompositions.next ccc dec comp) n st).iter ∧
      (after (Recompositions.next ccc dec comp) n st).iter = after (Decompositions.next ccc dec) O.length st.iter ∧
      ∀ (i2 : Decompositions) (X : List Nat), Inv i2 → out ccc dec2 i2 = O ++ X →
        ∃ i2', calls (Recompositions.next ccc dec2 comp) n { st with iter := i2 } = calls (Recompositions.next ccc dec comp) n st ∧
          after (Recompositions.next ccc dec2 comp) n { st with iter := i2 } = { (after (Recompositions.next ccc dec comp) n st) with iter := i2' } ∧
          out ccc dec2 i2' = X := by
  induction n generalizing st with
  | zero => exact ⟨[], rfl, rfl, fun i2 X _ ho => ⟨i2, rfl, rfl, ho⟩⟩
  | succ n ih =>
    rw [after] at hf
    obtain ⟨O1, h1, h2, h3, h4⟩ := rnext_source (dec2 := dec2) st hi (fun h => hf (finished_stays _ h n))
    obtain ⟨O2, g1, g2, g3⟩ := ih _ h2 hf
    refine ⟨O1 ++ O2, by rw [after, List.append_assoc, ← g1, ← h1], ?_, ?_⟩
    · rw [after, g2, List.length_append, after_add, h3]
    · intro i2 X hi2 ho
      rw [List.append_assoc] at ho
      obtain ⟨i3, k1, k2, k3⟩ := h4 i2 _ hi2 ho
      obtain ⟨i4, m1, m2, m3⟩ := g3 i3 X k2 k3
      refine ⟨i4, ?_, ?_, m3⟩
      · rw [calls, calls, k1]
        simp only [m1]
      · rw [after, after, k1]
        exact m2

/-- The buffer holds marks only. -/
def Marks (ccc : Nat → Nat) (st : Recompositions) : Prop := ∀ b ∈ st.buffer, ccc b ≠ 0

theorem compStep_marks (ch : Nat) (st : Recompositions) (h : Marks ccc st) : match compStep ccc comp ch st with
    | .inl st' => Marks ccc st'
    | .inr r => Marks ccc r.2 := by
  have hp : ccc ch ≠ 0 → ∀ b ∈ st.buffer ++ [ch], ccc b ≠ 0 := by
    intro h0 b hb
    rcases List.mem_append.1 hb with hb | hb
    · exact h b hb
    · rw [List.mem_singleton.1 hb]; exact h0
  obtain ⟨it, stt, buf, cm, lc⟩ := st
  simp only [compStep]
  cases cm with
  | none =>
    simp only
    by_cases h0 : ccc ch ≠ 0
    · rw [if_pos h0]; exact h
    · rw [if_neg h0]; exact h
  | some k =>
    simp only
    cases lc with
    | none =>
      simp only
      cases comp k ch with
      | some r => exact h
      | none =>
        simp only
        by_cases h0 : ccc ch = 0
        · rw [if_pos h0]; exact h
        · rw [if_neg h0]; exact hp h0
    | some last =>
      simp only
      by_cases h1 : last ≥ ccc ch
      · rw [if_pos h1]
        by_cases h0 : ccc ch = 0
        · rw [if_pos h0]; exact h
        · rw [if_neg h0]; exact hp h0
      · rw [if_neg h1]
        cases comp k ch with
        | some r => exact h
        | none => exact hp (by omega)

theorem composing_marks (fuel : Nat) (st : Recompositions) (h : Marks ccc st) : Marks ccc (composing ccc dec comp fuel st).2 := by
  induction fuel generalizing st with
  | zero => exact h
  | succ fuel ih =>
    rw [composing_succ]
    rcases st.iter.next ccc dec with ⟨x, iter⟩
    cases x with
    | none => exact h
    | some ch =>
      simp only
      have hm := compStep_marks (ccc := ccc) (comp := comp) ch { st with iter := iter } h
      cases hc : compStep ccc comp ch { st with iter := iter } with
      | inl st' => rw [hc] at hm; exact ih _ hm
      | inr r => rw [hc] at hm; exact hm

theorem finished_marks (st : Recompositions) (h : Marks ccc st) : Marks ccc (finished st).2 := by
  unfold finished
  cases hb : st.buffer with
  | nil => exact fun b hbm => absurd hbm (by simp)
  | cons c b => exact fun x hx => h x (by rw [hb]; exact List.mem_cons_of_mem _ hx)

theorem rnext_marks (st : Recompositions) (h : Marks ccc st) : Marks ccc (st.next ccc dec comp).2 := by
  have arm : ∀ st : Recompositions, Marks ccc st → Marks ccc (composingArm ccc dec comp st).2 := by
    intro st h
    have hm := composing_marks (ccc := ccc) (dec := dec) (comp := comp) (st.iter.size dec + 1) st h
    unfold composingArm
    rcases hc : composing ccc dec comp (st.iter.size dec + 1) st with ⟨r, st'⟩
    rw [hc] at hm
    cases r with
    | some r => exact hm
    | none =>
      simp only
      cases hk : st'.composee with
      | some k => exact hm
      | none => exact finished_marks _ hm
  unfold Recompositions.next
  cases st.state with
  | Composing => exact arm st h
  | Purging =>
    simp only
    cases hb : st.buffer with
    | nil => exact arm _ (fun x hx => absurd hx (by simp))
    | cons c b => exact fun x hx => h x (by rw [hb]; exact List.mem_cons_of_mem _ hx)
  | Finished => exact finished_marks st h

theorem after_marks (n : Nat) (st : Recompositions) (h : Marks ccc st) : Marks ccc (after (Recompositions.next ccc dec comp) n st) := by
  induction n generalizing st with
  | zero => exact h
  | succ n ih => exact ih _ (rnext_marks st h)

theorem filterMap_calls (l : List Nat) (n : Nat) : ((l.map some ++ List.replicate n none).take n).filterMap id = l.take n := by
  rw [List.take_append, List.filterMap_append]
  have h : ∀ k m : Nat, ((List.replicate m (none : Option Nat)).take k).filterMap id = [] := by
    intro k m
    rw [List.take_replicate]
    simp
  rw [h, List.append_nil, ← List.map_take, List.filterMap_map]
  simp

/-- After `n` calls the composing iterator has taken a part of the decomposed text, and it keeps back at most one starter of the composition of that part. -/
theorem held (n : Nat) (s : List Nat) : ∃ m kept,
    W ccc comp none [] ((order ccc (s.flatMap dec)).take m) = (W ccc comp none [] (order ccc (s.flatMap dec))).take n ++ kept ∧
    (kept.filter (ccc · == 0)).length ≤ 1 ∧
    (m < (order ccc (s.flatMap dec)).length →
      (after (Recompositions.next ccc dec comp) n (.new s)).iter = after (Decompositions.next ccc dec) m (.new s)) := by
  have hnone : ∀ l : List Nat, (∀ b ∈ l, ccc b ≠ 0) → (l.filter (ccc · == 0)) = [] := by
    intro l hl
    rw [List.filter_eq_nil_iff]
    intro b hb
    simpa using hl b hb
  have hcomp : ∀ (dec : Nat → List Nat) (t : List Nat), remaining ccc dec comp (.new t) = W ccc comp none [] (order ccc (t.flatMap dec)) := by
    intro dec t
    rw [← out_new]
    rfl
  have hmarks : Marks ccc (after (Recompositions.next ccc dec comp) n (.new s)) := after_marks n _ (by simp [Marks, Recompositions.new])
  by_cases hf : (after (Recompositions.next ccc dec comp) n (.new s)).state = .Finished
  · obtain ⟨-, h⟩ := after_ok (rnext_ok (ccc := ccc) (dec := dec) (comp := comp)) n (.new s) (rinv_new s)
    refine ⟨(order ccc (s.flatMap dec)).length, (W ccc comp none [] (order ccc (s.flatMap dec))).drop n, ?_, ?_, fun h => absurd h (by omega)⟩
    · rw [List.take_length, List.take_append_drop]
    · rw [← hcomp, ← h, remaining, hf]
      simp only
      rw [hnone _ hmarks]
      simp
  · obtain ⟨O, h1, h2, h3⟩ := calls_source (dec2 := fun c => [c]) n (.new s) (inv_new s) hf
    have h1' : order ccc (s.flatMap dec) = O ++ out ccc dec (after (Recompositions.next ccc dec comp) n (.new s)).iter := by
      rw [← h1]; exact (out_new s).symm
    have hO : order ccc O = O := by
      have := adjOrd_order (key := ccc) (s.flatMap dec)
      rw [h1'] at this
      exact order_of_adjOrd (adjOrd_prefix this)
    have hnew : order ccc (O.flatMap fun c => [c]) = O := by rw [List.flatMap_singleton']; exact hO
    obtain ⟨i2, g1, g2, g3⟩ := h3 (.new O) [] (inv_new O) (by rw [out_new, hnew, List.append_nil])
    have e : ({ Recompositions.new s with iter := .new O } : Recompositions) = .new O := rfl
    rw [e] at g1 g2
    have c1 := calls_ok (rnext_ok (ccc := ccc) (dec := fun c => [c]) (comp := comp)) n (.new O) (rinv_new O)
    have c2 := calls_ok (rnext_ok (ccc := ccc) (dec := dec) (comp := comp)) n (.new s) (rinv_new s)
    rw [hcomp, hnew] at c1
    rw [hcomp] at c2
    have ht : (W ccc comp none [] O).take n = (W ccc comp none [] (order ccc (s.flatMap dec))).take n := by
      rw [← filterMap_calls, ← filterMap_calls, ← c1, ← c2, g1]
    obtain ⟨-, d1⟩ := after_ok (rnext_ok (ccc := ccc) (dec := fun c => [c]) (comp := comp)) n (.new O) (rinv_new O)
    rw [hcomp, hnew, g2] at d1
    refine ⟨O.length, (W ccc comp none [] O).drop n, ?_, ?_, fun _ => h2⟩
    · rw [h1', List.take_left, ← h1', ← ht, List.take_append_drop]
    · rw [← d1, remaining]
      simp only
      cases hs : (after (Recompositions.next ccc dec comp) n (.new s)).state with
      | Finished => exact absurd hs hf
      | Composing =>
        simp only
        rw [g3, W_nil, List.filter_append, hnone _ hmarks, List.append_nil]
        refine Nat.le_trans (List.length_filter_le _ _) ?_
        cases (after (Recompositions.next ccc dec comp) n (.new s)).composee <;> simp
      | Purging =>
        simp only
        rw [g3, W_nil, List.append_nil, List.filter_append, hnone _ hmarks, List.nil_append]
        refine Nat.le_trans (List.length_filter_le _ _) ?_
        cases (after (Recompositions.next ccc dec comp) n (.new s)).composee <;> simp

end Proofs.NormalStream
