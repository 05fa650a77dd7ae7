import Verif.Proofs.CanonOrder

/-! The normalization iterators compute the specified sequences. -/
namespace Proofs.NormalIter
open Spec.Normal Model.Normal Proofs.CanonOrder

section
variable {ccc : Nat → Nat} {dec : Nat → List Nat}

def E (ccc : Nat → Nat) (c : Nat) : Entry := (c, ccc c)

theorem order_map_E (l : List Nat) : order key (l.map (E ccc)) = (order ccc l).map (E ccc) := by
  have hins : ∀ (a : Nat) (l : List Nat), ins key (E ccc a) (l.map (E ccc)) = (ins ccc a l).map (E ccc) := by
    intro a l
    induction l with
    | nil => rfl
    | cons x xs ih =>
      simp only [List.map_cons, ins]
      have : (key (E ccc x) ≠ 0 ∧ key (E ccc x) < key (E ccc a)) ↔ (ccc x ≠ 0 ∧ ccc x < ccc a) := Iff.rfl
      by_cases h : ccc x ≠ 0 ∧ ccc x < ccc a
      · rw [if_pos h, if_pos (this.2 h), ih]; rfl
      · rw [if_neg h, if_neg (fun h' => h (this.1 h'))]; rfl
  induction l with
  | nil => rfl
  | cons a l ih => rw [List.map_cons, order_cons, ih, hins, order_cons]

theorem map_fst_E (l : List Nat) : (l.map (E ccc)).map Prod.fst = l := by
  simp [Function.comp_def, E]

/-- the characters still to be produced, as entries -/
def pend (ccc : Nat → Nat) (dec : Nat → List Nat) (st : Decompositions) : List Entry :=
  order key (st.buffer ++ (st.rest.flatMap dec).map (E ccc))

/-- A sorted buffer starts with a complete, ordered run of non-starters. -/
def Front (buffer : List Entry) (rest : List Nat) : Prop :=
  ∃ p q, buffer = p ++ q ∧ (∀ x ∈ p, key x ≠ 0) ∧ AdjOrd key p ∧ ((q = [] ∧ rest = []) ∨ ∃ s q', q = s :: q' ∧ key s = 0)

def Inv (st : Decompositions) : Prop := st.sorted = true → Front st.buffer st.rest

theorem callback_fold_true (ds : List Nat) (b : List Entry) :
    ds.foldl (callback ccc) (b, true) = (b ++ ds.map (E ccc), true) := by
  induction ds generalizing b with
  | nil => simp
  | cons d ds ih =>
    rw [List.foldl_cons]
    have : callback ccc (b, true) d = (b ++ [E ccc d], true) := by simp [callback, E]
    rw [this, ih]
    simp

theorem callback_fold (ds : List Nat) (b : List Entry) :
    (ds.foldl (callback ccc) (b, false) = (b ++ ds.map (E ccc), false)) ∨
    ∃ d1 s d2, ds = d1 ++ s :: d2 ∧ ccc s = 0 ∧
      ds.foldl (callback ccc) (b, false) = (order key (b ++ d1.map (E ccc)) ++ E ccc s :: d2.map (E ccc), true) := by
  induction ds generalizing b with
  | nil => left; simp
  | cons d ds ih =>
    rw [List.foldl_cons]
    by_cases h : ccc d = 0
    · right
      have : callback ccc (b, false) d = (canonicalSort b ++ [E ccc d], true) := by simp [callback, E, h]
      refine ⟨[], d, ds, rfl, h, ?_⟩
      rw [this, callback_fold_true, canonicalSort_eq]
      simp
    · have : callback ccc (b, false) d = (b ++ [E ccc d], false) := by simp [callback, E, h]
      rw [this]
      rcases ih (b ++ [E ccc d]) with ih | ⟨d1, s, d2, rfl, hs, ih⟩
      · left; rw [ih]; simp
      · right; exact ⟨d :: d1, s, d2, rfl, hs, by rw [ih]; simp⟩

theorem fill_spec (rest : List Nat) (buffer : List Entry) : ∃ rest' buffer' sorted',
    fill ccc dec rest buffer = (rest', buffer', sorted') ∧
    order key (buffer' ++ (rest'.flatMap dec).map (E ccc)) = order key (buffer ++ (rest.flatMap dec).map (E ccc)) ∧
    buffer'.length + (rest'.flatMap dec).length = buffer.length + (rest.flatMap dec).length ∧
    (sorted' = true → ∃ b0 s q, buffer' = order key b0 ++ s :: q ∧ key s = 0) ∧
    (sorted' = false → rest' = []) := by
  induction rest generalizing buffer with
  | nil => exact ⟨[], buffer, false, rfl, rfl, rfl, by simp, fun _ => rfl⟩
  | cons ch rest ih =>
    rw [fill]
    rcases callback_fold (ccc := ccc) (dec ch) buffer with h | ⟨d1, s, d2, hd, hs, h⟩
    · obtain ⟨r', b', s', h1, h2, h3, h4, h5⟩ := ih (buffer ++ (dec ch).map (E ccc))
      refine ⟨r', b', s', ?_, ?_, ?_, h4, h5⟩
      · simp only [h]
        rw [← h1]; simp
      · rw [h2]; simp [List.flatMap_cons]
      · rw [h3]; simp [List.flatMap_cons]; omega
    · refine ⟨rest, order key (buffer ++ d1.map (E ccc)) ++ E ccc s :: d2.map (E ccc), true, ?_, ?_, ?_, ?_, by simp⟩
      · simp only [h]; simp
      · rw [List.append_assoc, order_congr_left]
        rw [List.flatMap_cons, hd]
        simp
      · rw [List.flatMap_cons, hd]
        simp only [List.length_append, List.length_cons, List.length_map, (order_perm (key := key) (buffer ++ d1.map (E ccc))).length_eq]
        omega
      · intro _
        exact ⟨buffer ++ d1.map (E ccc), E ccc s, d2.map (E ccc), rfl, hs⟩

theorem split_front (l : List Entry) : ∃ p q, l = p ++ q ∧ (∀ x ∈ p, key x ≠ 0) ∧ (q = [] ∨ ∃ s q', q = s :: q' ∧ key s = 0) := by
  induction l with
  | nil => exact ⟨[], [], rfl, by simp, .inl rfl⟩
  | cons a l ih =>
    by_cases h : key a = 0
    · exact ⟨[], a :: l, rfl, by simp, .inr ⟨a, l, rfl, h⟩⟩
    · obtain ⟨p, q, rfl, h1, h2⟩ := ih
      exact ⟨a :: p, q, rfl, by simpa [h] using h1, h2⟩

theorem adjOrd_prefix {α : Type} {k : α → Nat} {p q : List α} (h : AdjOrd k (p ++ q)) : AdjOrd k p := by
  induction p with
  | nil => trivial
  | cons a p ih =>
    have := ih (adjOrd_tail h)
    cases p with
    | nil => trivial
    | cons b p => exact ⟨h.1, this⟩

theorem front_sorted (b0 : List Entry) (s : Entry) (q : List Entry) (rest : List Nat) (hs : key s = 0) :
    Front (order key b0 ++ s :: q) rest := by
  obtain ⟨p, r, h1, h2, h3⟩ := split_front (order key b0)
  have hp : AdjOrd key p := adjOrd_prefix (q := r) (h1 ▸ adjOrd_order b0)
  rcases h3 with rfl | ⟨s', q', rfl, hs'⟩
  · exact ⟨p, s :: q, by rw [h1]; simp, h2, hp, .inr ⟨s, q, rfl, hs⟩⟩
  · exact ⟨p, s' :: q' ++ s :: q, by rw [h1]; simp, h2, hp, .inr ⟨s', q' ++ s :: q, rfl, hs'⟩⟩

theorem front_end (b0 : List Entry) : Front (order key b0) [] := by
  obtain ⟨p, r, h1, h2, h3⟩ := split_front (order key b0)
  have hp : AdjOrd key p := adjOrd_prefix (q := r) (h1 ▸ adjOrd_order b0)
  rcases h3 with rfl | h3
  · exact ⟨p, [], h1, h2, hp, .inl ⟨rfl, rfl⟩⟩
  · exact ⟨p, r, h1, h2, hp, .inr h3⟩

theorem order_split {p w : List Entry} (hp : AdjOrd key p) (hw : w = [] ∨ ∃ s q', w = s :: q' ∧ key s = 0) :
    order key (p ++ w) = p ++ order key w := by
  rcases hw with rfl | ⟨s, q', rfl, hs⟩
  · rw [List.append_nil, order_of_adjOrd hp]; simp [order]
  · rw [order_starter hs, order_of_adjOrd hp, order_starter_cons hs]

theorem pop_front (e : Entry) (b : List Entry) (rest : List Nat) (he : key e ≠ 0) (h : Front (e :: b) rest) :
    order key (e :: b ++ (rest.flatMap dec).map (E ccc)) = e :: order key (b ++ (rest.flatMap dec).map (E ccc)) ∧
    Front b rest := by
  obtain ⟨p, q, h1, h2, h3, h4⟩ := h
  cases p with
  | nil =>
    rcases h4 with ⟨rfl, _⟩ | ⟨s, q', rfl, hs⟩
    · simp at h1
    · simp only [List.nil_append, List.cons.injEq] at h1
      obtain ⟨rfl, _⟩ := h1
      exact absurd hs he
  | cons e' p =>
    simp only [List.cons_append, List.cons.injEq] at h1
    obtain ⟨rfl, rfl⟩ := h1
    have hw : q ++ (rest.flatMap dec).map (E ccc) = [] ∨ ∃ s q', q ++ (rest.flatMap dec).map (E ccc) = s :: q' ∧ key s = 0 := by
      rcases h4 with ⟨rfl, rfl⟩ | ⟨s, q', rfl, hs⟩
      · left; rfl
      · right; exact ⟨s, _, rfl, hs⟩
    refine ⟨?_, p, q, rfl, fun x hx => h2 x (by simp [hx]), adjOrd_tail h3, h4⟩
    have e1 := order_split h3 hw
    have e2 := order_split (adjOrd_tail h3) hw
    simp only [List.cons_append, List.append_assoc] at e1 e2 ⊢
    rw [e1, e2]

/-- What one call of `next` does to the sequence of characters still to come. -/
def StepOk {σ : Type} (inv : σ → Prop) (out : σ → List Nat) (st : σ) (r : Option Nat × σ) : Prop :=
  inv r.2 ∧ match r.1 with
    | none => out st = [] ∧ out r.2 = []
    | some c => out st = c :: out r.2

def out (ccc : Nat → Nat) (dec : Nat → List Nat) (st : Decompositions) : List Nat := (pend ccc dec st).map Prod.fst

theorem refill_ok (st : Decompositions) : StepOk Inv (out ccc dec) st (refill ccc dec st) := by
  obtain ⟨rest', b', s', h1, h2, _, h4, h5⟩ := fill_spec (ccc := ccc) (dec := dec) st.rest st.buffer
  have hpend : pend ccc dec st = order key ((if s' then b' else canonicalSort b') ++ (rest'.flatMap dec).map (E ccc)) := by
    rw [pend, ← h2]
    cases s'
    · simp only [Bool.false_eq_true, if_false, canonicalSort_eq, order_congr_left]
    · simp
  have hfront : Front (if s' then b' else canonicalSort b') rest' := by
    cases s'
    · rw [h5 rfl, canonicalSort_eq]; exact front_end b'
    · obtain ⟨b0, s, q, rfl, hs⟩ := h4 rfl
      exact front_sorted b0 s q rest' hs
  have hne : s' = true → b' ≠ [] := by
    intro h
    obtain ⟨b0, s, q, rfl, hs⟩ := h4 h
    simp
  unfold refill
  simp only [h1]
  generalize hb : (if s' then b' else canonicalSort b') = b at *
  cases b with
  | nil =>
    have hs : s' = false := by
      cases s' with
      | false => rfl
      | true => simp at hb; exact absurd hb (hne rfl)
    have := h5 hs
    subst this
    refine ⟨fun _ => ⟨[], [], rfl, by simp, trivial, .inl ⟨rfl, rfl⟩⟩, ?_⟩
    simp only [out, hpend]
    exact ⟨rfl, rfl⟩
  | cons e b =>
    obtain ⟨c, k⟩ := e
    by_cases hk : k = 0
    · refine ⟨by simp [Inv, hk], ?_⟩
      simp only [out, hpend, List.cons_append]
      rw [order_starter_cons (show key (c, k) = 0 from hk)]
      rfl
    · obtain ⟨g1, g2⟩ := pop_front (ccc := ccc) (dec := dec) (c, k) b rest' hk hfront
      refine ⟨fun _ => g2, ?_⟩
      simp only [out, hpend]
      rw [g1]
      rfl

theorem next_ok (st : Decompositions) (hi : Inv st) : StepOk Inv (out ccc dec) st (st.next ccc dec) := by
  unfold Decompositions.next
  split
  · rename_i c k b hb
    split
    · rename_i hk
      refine ⟨by simp [Inv], ?_⟩
      simp only [out, pend, hb, List.cons_append]
      rw [order_starter_cons (show key (c, k) = 0 from hk)]
      rfl
    · rename_i hk
      split
      · rename_i hs
        have hf := hi hs
        rw [hb] at hf
        obtain ⟨g1, g2⟩ := pop_front (ccc := ccc) (dec := dec) (c, k) b st.rest hk hf
        refine ⟨fun _ => g2, ?_⟩
        simp only [out, pend, hb]
        rw [g1]
        rfl
      · exact refill_ok st
  · exact refill_ok st

theorem out_length (st : Decompositions) : (out ccc dec st).length = st.size dec := by
  simp [out, pend, Decompositions.size, (order_perm _).length_eq]

theorem take_eq (fuel : Nat) (st : Decompositions) (hi : Inv st) (h : (out ccc dec st).length < fuel) :
    st.take ccc dec fuel = out ccc dec st := by
  induction fuel generalizing st with
  | zero => omega
  | succ fuel ih =>
    obtain ⟨h1, h2⟩ := next_ok (ccc := ccc) (dec := dec) st hi
    rw [Decompositions.take]
    split
    · rename_i h3; rw [h3] at h2; exact h2.1.symm
    · rename_i c st' h3
      rw [h3] at h1 h2
      simp only at h2
      rw [h2] at h ⊢
      rw [ih st' h1 (by simp at h; omega)]

theorem inv_new (s : List Nat) : Inv (Decompositions.new s) := by simp [Inv, Decompositions.new]

theorem out_new (s : List Nat) : out ccc dec (Decompositions.new s) = order ccc (s.flatMap dec) := by
  simp only [out, pend, Decompositions.new, List.nil_append, order_map_E, map_fst_E]

theorem collect_new (s : List Nat) : (Decompositions.new s).collect ccc dec = order ccc (s.flatMap dec) := by
  rw [Decompositions.collect, take_eq _ _ (inv_new s) (by rw [out_length]; omega), out_new]

/-! ## Recomposition -/
variable {comp : Nat → Nat → Option Nat}

/-- prefix the text of a walk -/
def pre (x : List Nat) (w : Walk) : Walk := { w with before := x ++ w.before }

theorem pre_text (x : List Nat) (w : Walk) : (pre x w).text = x ++ w.text := by
  simp [pre, Walk.text]

theorem walkStep_pre (x : List Nat) (w : Walk) (c : Nat) :
    walkStep ccc comp (pre x w) c = pre x (walkStep ccc comp w c) := by
  obtain ⟨b, s, a⟩ := w
  cases s with
  | none => by_cases hz : ccc c = 0 <;> simp [pre, walkStep, Walk.text, hz]
  | some l =>
    by_cases hz : ccc c = 0 <;> by_cases hb : blocked ccc a c = true <;>
      cases hc : comp l c <;> simp [pre, walkStep, Walk.text, hz, hb, hc]

theorem walk_pre (t : List Nat) (x : List Nat) (w : Walk) :
    t.foldl (walkStep ccc comp) (pre x w) = pre x (t.foldl (walkStep ccc comp) w) := by
  induction t generalizing w with
  | nil => rfl
  | cons c t ih => rw [List.foldl_cons, List.foldl_cons, walkStep_pre, ih]

/-- text produced from a last starter, the retained characters after it and the input to come -/
def W (ccc : Nat → Nat) (comp : Nat → Nat → Option Nat) (s : Option Nat) (after t : List Nat) : List Nat :=
  (t.foldl (walkStep ccc comp) ⟨[], s, after⟩).text

theorem W_before (x : List Nat) (s : Option Nat) (after t : List Nat) :
    (t.foldl (walkStep ccc comp) ⟨x, s, after⟩).text = x ++ W ccc comp s after t := by
  have := walk_pre (ccc := ccc) (comp := comp) t x ⟨[], s, after⟩
  simp only [pre, List.append_nil] at this
  rw [this]
  exact pre_text _ _

def remaining (ccc : Nat → Nat) (dec : Nat → List Nat) (comp : Nat → Nat → Option Nat) (st : Recompositions) : List Nat :=
  match st.state with
  | .Composing => W ccc comp st.composee st.buffer (out ccc dec st.iter)
  | .Purging => st.buffer ++ W ccc comp st.composee [] (out ccc dec st.iter)
  | .Finished => st.buffer

/-- invariant of the source -/
def SrcInv (ccc : Nat → Nat) (dec : Nat → List Nat) (iter : Decompositions) : Prop :=
  Inv iter ∧ AdjOrd ccc (out ccc dec iter)

def BufInv (ccc : Nat → Nat) (dec : Nat → List Nat) (st : Recompositions) : Prop :=
  SrcInv ccc dec st.iter ∧ (st.composee = none → st.buffer = []) ∧
  (∀ b ∈ st.buffer, ccc b ≠ 0) ∧
  (match st.lastCcc with
    | none => st.buffer = []
    | some k => (∃ b ∈ st.buffer, ccc b = k) ∧ ∀ b ∈ st.buffer, ccc b ≤ k) ∧
  (∀ ch t, out ccc dec st.iter = ch :: t → ccc ch ≠ 0 → ∀ b ∈ st.buffer, ccc b ≤ ccc ch)

def RInv (ccc : Nat → Nat) (dec : Nat → List Nat) (st : Recompositions) : Prop :=
  match st.state with
  | .Composing => BufInv ccc dec st
  | .Purging => SrcInv ccc dec st.iter ∧ st.composee.isSome = true ∧ st.lastCcc = none
  | .Finished => st.composee = none

theorem src_next {iter iter' : Decompositions} {ch : Nat} (hs : SrcInv ccc dec iter)
    (h : iter.next ccc dec = (some ch, iter')) :
    out ccc dec iter = ch :: out ccc dec iter' ∧ SrcInv ccc dec iter' ∧
    (∀ ch' t, out ccc dec iter' = ch' :: t → ccc ch' ≠ 0 → ccc ch ≤ ccc ch') := by
  obtain ⟨h1, h2⟩ := next_ok (ccc := ccc) (dec := dec) iter hs.1
  rw [h] at h1 h2
  simp only at h2
  have ha := hs.2
  rw [h2] at ha
  refine ⟨h2, ⟨h1, adjOrd_tail ha⟩, ?_⟩
  intro ch' t ht hc
  rw [ht] at ha
  have := ha.1
  omega

theorem W_nil (s : Option Nat) (b : List Nat) : W ccc comp s b [] = s.toList ++ b := by
  cases s <;> rfl

theorem W_cons (s : Option Nat) (b : List Nat) (c : Nat) (t : List Nat) :
    W ccc comp s b (c :: t) = (t.foldl (walkStep ccc comp) (walkStep ccc comp ⟨[], s, b⟩ c)).text := rfl

theorem blocked_nil (c : Nat) : blocked ccc [] c = false := rfl

theorem composing_ok (fuel : Nat) (st : Recompositions) (hst : st.state = .Composing) (hi : BufInv ccc dec st)
    (hf : (out ccc dec st.iter).length < fuel) :
    match composing ccc dec comp fuel st with
    | (some none, _) => False
    | (some (some c), st') => RInv ccc dec st' ∧ remaining ccc dec comp st = c :: remaining ccc dec comp st'
    | (none, st') => st'.composee.toList ++ st'.buffer = remaining ccc dec comp st := by
  induction fuel generalizing st with
  | zero => omega
  | succ fuel ih =>
    obtain ⟨hsrc, hnone, hnz, hlast, hnext⟩ := hi
    rw [composing]
    cases hn : st.iter.next ccc dec with
    | mk r iter' =>
    cases r with
    | none =>
      simp only
      have h2 := (next_ok (ccc := ccc) (dec := dec) st.iter hsrc.1).2
      rw [hn] at h2
      simp only at h2
      simp only [remaining, hst, h2.1, W_nil]
    | some ch =>
      obtain ⟨ho, hsrc', hch⟩ := src_next hsrc hn
      have hlen : (out ccc dec iter').length < fuel := by rw [ho] at hf; simp at hf; omega
      have hrem : remaining ccc dec comp st = W ccc comp st.composee st.buffer (ch :: out ccc dec iter') := by
        simp only [remaining, hst, ho]
      rw [hrem]
      simp only
      cases hc : st.composee with
      | none =>
        have hb := hnone hc
        simp only
        by_cases hz : ccc ch = 0
        · rw [if_neg (by simpa using hz)]
          have := ih { st with iter := iter', composee := some ch } hst
            ⟨hsrc', by simp, by simp [hb], by
              cases hl : st.lastCcc with
              | none => simp [hb]
              | some k => rw [hl] at hlast; simp [hb] at hlast, by simp [hb]⟩ hlen
          rw [show W ccc comp none st.buffer (ch :: out ccc dec iter') =
              remaining ccc dec comp { st with iter := iter', composee := some ch } by
            simp only [remaining, hst, W_cons, hb]
            simp [walkStep, hz, Walk.text, W]]
          exact this
        · rw [if_pos hz]
          refine ⟨?_, ?_⟩
          · simp only [RInv, hst]
            refine ⟨hsrc', fun _ => hb, by simp [hb], ?_, by simp [hb]⟩
            cases hl : st.lastCcc with
            | none => simp [hb]
            | some k => rw [hl] at hlast; simp [hb] at hlast
          · simp only [remaining, hst, W_cons, hb, hc]
            simp only [walkStep, if_neg hz, List.nil_append]
            rw [W_before]
            rfl
      | some k =>
        simp only
        -- pushing `ch` keeps the invariant
        have push : ccc ch ≠ 0 → ∀ (st' : Recompositions), st' = { st with iter := iter', buffer := st.buffer ++ [ch], lastCcc := some (ccc ch) } →
            BufInv ccc dec st' := by
          rintro hz st' rfl
          have hall : ∀ b ∈ st.buffer ++ [ch], ccc b ≤ ccc ch := by
            intro b hb
            rcases List.mem_append.1 hb with hb | hb
            · exact hnext ch _ ho hz b hb
            · rw [List.mem_singleton.1 hb]; exact Nat.le_refl _
          refine ⟨hsrc', by simp [hc], ?_, ⟨⟨ch, by simp, rfl⟩, hall⟩, ?_⟩
          · intro b hb
            rcases List.mem_append.1 hb with hb | hb
            · exact hnz b hb
            · rw [List.mem_singleton.1 hb]; exact hz
          · intro ch' t' ht' hz' b hb
            have := hall b hb
            have := hch ch' t' ht' hz'
            omega
        have pushRem : ccc ch ≠ 0 → (blocked ccc st.buffer ch = true ∨ comp k ch = none) →
            W ccc comp (some k) st.buffer (ch :: out ccc dec iter') =
            remaining ccc dec comp { st with iter := iter', buffer := st.buffer ++ [ch], lastCcc := some (ccc ch) } := by
          intro hz hb
          simp only [remaining, hst, W_cons, hc]
          rcases hb with hb | hb
          · simp [walkStep, hb, hz, W]
          · simp [walkStep, hb, hz, W]
        have compRem : ∀ r, blocked ccc st.buffer ch = false → comp k ch = some r →
            W ccc comp (some k) st.buffer (ch :: out ccc dec iter') =
            remaining ccc dec comp { st with iter := iter', composee := some r } := by
          intro r hb hr
          simp only [remaining, hst, W_cons]
          simp [walkStep, hb, hr, W]
        have starterRem : ccc ch = 0 → (blocked ccc st.buffer ch = true ∨ comp k ch = none) →
            W ccc comp (some k) st.buffer (ch :: out ccc dec iter') =
            k :: (st.buffer ++ W ccc comp (some ch) [] (out ccc dec iter')) := by
          intro hz hb
          have : walkStep ccc comp ⟨[], some k, st.buffer⟩ ch = ⟨k :: st.buffer, some ch, []⟩ := by
            rcases hb with hb | hb
            · simp [walkStep, hb, hz, Walk.text]
            · simp [walkStep, hb, hz, Walk.text]
          rw [W_cons, this, W_before]
          rfl
        cases hl : st.lastCcc with
        | none =>
          rw [hl] at hlast
          simp only at hlast
          have hb : blocked ccc st.buffer ch = false := by rw [hlast]; rfl
          simp only
          cases hr : comp k ch with
          | some r =>
            simp only
            rw [compRem r hb hr]
            have key := ih { st with iter := iter', composee := some r } hst
              ⟨hsrc', by simp, hnz, by simp [hl, hlast], by simp [hlast]⟩ hlen
            simpa only [hl] using key
          | none =>
            simp only
            by_cases hz : ccc ch = 0
            · rw [if_pos hz]
              refine ⟨?_, ?_⟩
              · simp only [RInv, hst]
                refine ⟨hsrc', by simp, hnz, by simp [hl, hlast], by simp [hlast]⟩
              · rw [starterRem hz (.inr hr)]
                simp only [remaining, hst, hlast, List.nil_append]
            · rw [if_neg hz, pushRem hz (.inr hr)]
              have key := ih { st with iter := iter', buffer := st.buffer ++ [ch], lastCcc := some (ccc ch) } hst (push hz _ rfl) hlen
              simpa only [hc, hl] using key
        | some last =>
          rw [hl] at hlast
          simp only at hlast
          obtain ⟨⟨b0, hb0, hb0k⟩, hmax⟩ := hlast
          simp only
          by_cases hge : last ≥ ccc ch
          · rw [if_pos hge]
            have hb : blocked ccc st.buffer ch = true := by
              simp only [blocked, List.any_eq_true]
              exact ⟨b0, hb0, by simp [hb0k, hge]⟩
            by_cases hz : ccc ch = 0
            · rw [if_pos hz]
              refine ⟨⟨hsrc', rfl, rfl⟩, ?_⟩
              rw [starterRem hz (.inl hb)]
              rfl
            · rw [if_neg hz, pushRem hz (.inl hb)]
              have key := ih { st with iter := iter', buffer := st.buffer ++ [ch], lastCcc := some (ccc ch) } hst (push hz _ rfl) hlen
              simpa only [hc, hl] using key
          · rw [if_neg hge]
            have hb : blocked ccc st.buffer ch = false := by
              rw [Bool.eq_false_iff]
              intro h
              simp only [blocked, List.any_eq_true, Bool.or_eq_true, decide_eq_true_eq] at h
              obtain ⟨b, hb, h⟩ := h
              have := hmax b hb
              have := hnz b hb
              omega
            cases hr : comp k ch with
            | some r =>
              simp only
              rw [compRem r hb hr]
              have key := ih { st with iter := iter', composee := some r } hst
                ⟨hsrc', by simp, hnz, by simp only [hl]; exact ⟨⟨b0, hb0, hb0k⟩, hmax⟩, by
                  intro ch' t' ht' hz' b hb
                  have := hmax b hb
                  have := hch ch' t' ht' hz'
                  omega⟩ hlen
              simpa only [hl] using key
            | none =>
              simp only
              rw [pushRem (by omega) (.inr hr)]
              have key := ih { st with iter := iter', buffer := st.buffer ++ [ch], lastCcc := some (ccc ch) } hst (push (by omega) _ rfl) hlen
              simpa only [hc, hl] using key

theorem finished_ok (st : Recompositions) (hs : st.state = .Finished) (h : st.composee = none) :
    StepOk (RInv ccc dec) (remaining ccc dec comp) st (finished st) := by
  unfold finished
  split
  · rename_i hb
    simp only [StepOk, RInv, hs, h, remaining, hb]
    simp
  · rename_i c b hb
    simp only [StepOk, RInv, hs, h, remaining, hb]
    simp

theorem composingArm_ok (st : Recompositions) (hst : st.state = .Composing) (hi : BufInv ccc dec st) :
    StepOk (RInv ccc dec) (remaining ccc dec comp) st (composingArm ccc dec comp st) := by
  have h := composing_ok (comp := comp) (st.iter.size dec + 1) st hst hi (by rw [out_length]; omega)
  unfold composingArm
  cases hc : composing ccc dec comp (st.iter.size dec + 1) st with
  | mk r st' =>
  rw [hc] at h
  cases r with
  | some r =>
    cases r with
    | none => exact h.elim
    | some c => exact h
  | none =>
    simp only at h ⊢
    cases hk : st'.composee with
    | some k =>
      simp only [hk]
      rw [hk] at h
      refine ⟨rfl, ?_⟩
      simp only [remaining] at h ⊢
      rw [← h]
      rfl
    | none =>
      simp only [hk]
      rw [hk] at h
      have := finished_ok (ccc := ccc) (dec := dec) (comp := comp) ⟨st'.iter, .Finished, st'.buffer, none, st'.lastCcc⟩ rfl rfl
      simp only [StepOk] at this ⊢
      have hrem : remaining ccc dec comp st = remaining ccc dec comp ⟨st'.iter, .Finished, st'.buffer, none, st'.lastCcc⟩ := by
        rw [← h]; rfl
      rw [hrem]
      exact this

theorem rnext_ok (st : Recompositions) (hi : RInv ccc dec st) :
    StepOk (RInv ccc dec) (remaining ccc dec comp) st (st.next ccc dec comp) := by
  unfold Recompositions.next
  cases hs : st.state with
  | Composing =>
    simp only
    simp only [RInv, hs] at hi
    exact composingArm_ok st hs hi
  | Purging =>
    simp only
    simp only [RInv, hs] at hi
    cases hb : st.buffer with
    | nil =>
      simp only
      have := composingArm_ok (ccc := ccc) (dec := dec) (comp := comp) { st with state := .Composing } rfl
        ⟨hi.1, fun _ => hb, by simp [hb], by simp [hi.2.2, hb], by simp [hb]⟩
      simp only [StepOk] at this ⊢
      have hrem : remaining ccc dec comp st = remaining ccc dec comp { st with state := .Composing } := by
        simp [remaining, hs, hb]
      rw [hrem]
      simpa only [hb] using this
    | cons c b =>
      simp only
      refine ⟨by simpa only [RInv, hs] using hi, ?_⟩
      simp [remaining, hs, hb]
  | Finished =>
    simp only
    simp only [RInv, hs] at hi
    exact finished_ok st hs hi

/-- the output is no longer than the characters available -/
theorem W_length (s : Option Nat) (b t : List Nat) : (W ccc comp s b t).length ≤ s.toList.length + b.length + t.length := by
  have step : ∀ (w : Walk) (c : Nat), (walkStep ccc comp w c).text.length ≤ w.text.length + 1 := by
    intro w c
    obtain ⟨x, s, a⟩ := w
    unfold walkStep
    cases s with
    | none => simp only; split <;> simp [Walk.text] <;> omega
    | some l =>
      simp only
      split
      · split <;> simp [Walk.text] <;> omega
      · split
        · simp [Walk.text]
        · split <;> simp [Walk.text] <;> omega
  have all : ∀ (t : List Nat) (w : Walk), (t.foldl (walkStep ccc comp) w).text.length ≤ w.text.length + t.length := by
    intro t
    induction t with
    | nil => intro w; simp
    | cons c t ih =>
      intro w
      rw [List.foldl_cons]
      have := ih (walkStep ccc comp w c)
      have := step w c
      simp only [List.length_cons]; omega
  have := all t ⟨[], s, b⟩
  cases s <;> simp [Walk.text, W] at this ⊢ <;> omega

theorem remaining_length (st : Recompositions) : (remaining ccc dec comp st).length ≤ st.size dec := by
  have h := out_length (ccc := ccc) (dec := dec) st.iter
  unfold remaining Recompositions.size
  cases st.state with
  | Composing =>
    simp only
    have := W_length (ccc := ccc) (comp := comp) st.composee st.buffer (out ccc dec st.iter)
    cases hc : st.composee <;> simp [hc] at this ⊢ <;> omega
  | Purging =>
    simp only
    have := W_length (ccc := ccc) (comp := comp) st.composee [] (out ccc dec st.iter)
    cases hc : st.composee <;> simp [hc] at this ⊢ <;> omega
  | Finished => simp only; omega

theorem rtake_eq (fuel : Nat) (st : Recompositions) (hi : RInv ccc dec st) (h : (remaining ccc dec comp st).length < fuel) :
    st.take ccc dec comp fuel = remaining ccc dec comp st := by
  induction fuel generalizing st with
  | zero => omega
  | succ fuel ih =>
    obtain ⟨h1, h2⟩ := rnext_ok (ccc := ccc) (dec := dec) (comp := comp) st hi
    rw [Recompositions.take]
    split
    · rename_i h3; rw [h3] at h2; exact h2.1.symm
    · rename_i c st' h3
      rw [h3] at h1 h2
      simp only at h2
      rw [h2] at h ⊢
      rw [ih st' h1 (by simp at h; omega)]

theorem rinv_new (s : List Nat) : RInv ccc dec (Recompositions.new s) := by
  refine ⟨⟨inv_new s, ?_⟩, fun _ => rfl, by simp [Recompositions.new], rfl, by simp [Recompositions.new]⟩
  simp only [Recompositions.new]
  rw [out_new]
  exact adjOrd_order _

theorem rcollect_new (s : List Nat) :
    (Recompositions.new s).collect ccc dec comp = composed ccc comp (order ccc (s.flatMap dec)) := by
  have h := remaining_length (ccc := ccc) (dec := dec) (comp := comp) (Recompositions.new s)
  rw [Recompositions.collect, rtake_eq _ _ (rinv_new s) (by omega)]
  simp only [remaining, Recompositions.new, out_new]
  rfl
end


/-! ## Call by call -/

theorem calls_ok {σ : Type} {inv : σ → Prop} {out : σ → List Nat} {next : σ → Option Nat × σ}
    (h : ∀ st, inv st → StepOk inv out st (next st)) (n : Nat) (st : σ) (hi : inv st) :
    calls next n st = ((out st).map some ++ List.replicate n none).take n := by
  induction n generalizing st with
  | zero => rfl
  | succ n ih =>
    obtain ⟨h1, h2⟩ := h st hi
    rw [calls, ih _ h1]
    cases hn : (next st).1 with
    | none =>
      rw [hn] at h2
      simp only [] at h2
      rw [h2.1, h2.2]
      simp [List.replicate_succ]
    | some c =>
      rw [hn] at h2
      simp only [] at h2
      rw [h2]
      simp [List.take_append, List.replicate_succ', List.take_replicate]

end Proofs.NormalIter
