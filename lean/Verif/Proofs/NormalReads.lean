import Verif.Proofs.NormalStream

/-! Lemmas for C84: a decomposing iterator reads only when it holds no starter, if every decomposition is starters followed by marks -/
namespace Proofs.NormalReads
open Model Model.Normal Proofs.NormalIter Proofs.NormalStream Proofs.CanonOrder

variable {ccc : Nat → Nat} {dec : Nat → List Nat}

/-- starters, then marks -/
def SM (l : List Entry) : Prop := ∃ a b, l = a ++ b ∧ (∀ e ∈ a, e.2 = 0) ∧ ∀ e ∈ b, e.2 ≠ 0

/-- marks, then starters, then marks -/
def MSM (l : List Entry) : Prop := ∃ m a, l = m ++ a ∧ (∀ e ∈ m, e.2 ≠ 0) ∧ SM a

def Marks (l : List Entry) : Prop := ∀ e ∈ l, e.2 ≠ 0

def Fits (ccc : Nat → Nat) (l : List Entry) : Prop := ∀ e ∈ l, e.2 = ccc e.1

def Shape (ccc : Nat → Nat) (st : Decompositions) : Prop :=
  Fits ccc st.buffer ∧ (st.sorted = false → SM st.buffer) ∧ (st.sorted = true → MSM st.buffer)

/-- 1 if there is a starter in the buffer -/
def holds (l : List Entry) : Nat := if l.any (·.2 == 0) then 1 else 0

theorem holds_marks {l : List Entry} (h : Marks l) : holds l = 0 := by
  unfold holds
  rw [if_neg]
  simp only [List.any_eq_true, beq_iff_eq, not_exists, not_and]
  exact h

theorem holds_mem {l : List Entry} {e : Entry} (h : e ∈ l) (h0 : e.2 = 0) : holds l = 1 := by
  unfold holds
  rw [if_pos]
  simp only [List.any_eq_true, beq_iff_eq]
  exact ⟨e, h, h0⟩

theorem SM_marks {l : List Entry} (h : Marks l) : SM l := ⟨[], l, rfl, by simp, h⟩

theorem MSM_marks {l : List Entry} (h : Marks l) : MSM l := ⟨l, [], by simp, h, SM_marks (by simp [Marks])⟩

theorem SM_tail {e : Entry} {l : List Entry} (h : SM (e :: l)) : SM l ∧ (e.2 ≠ 0 → Marks (e :: l)) := by
  obtain ⟨a, b, h1, h2, h3⟩ := h
  cases a with
  | nil =>
    rw [List.nil_append] at h1
    subst h1
    exact ⟨SM_marks fun x hx => h3 x (by simp [hx]), fun _ => h3⟩
  | cons x a =>
    rw [List.cons_append, List.cons.injEq] at h1
    obtain ⟨rfl, rfl⟩ := h1
    exact ⟨⟨a, b, rfl, fun x hx => h2 x (by simp [hx]), h3⟩, fun h => absurd (h2 e (by simp)) h⟩

theorem MSM_tail {e : Entry} {l : List Entry} (h : MSM (e :: l)) : MSM l ∧ (e.2 = 0 → SM l) := by
  obtain ⟨m, a, h1, h2, h3⟩ := h
  cases m with
  | nil =>
    rw [List.nil_append] at h1
    subst h1
    exact ⟨⟨[], l, rfl, by simp, (SM_tail h3).1⟩, fun _ => (SM_tail h3).1⟩
  | cons x m =>
    rw [List.cons_append, List.cons.injEq] at h1
    obtain ⟨rfl, rfl⟩ := h1
    exact ⟨⟨m, a, rfl, fun x hx => h2 x (by simp [hx]), h3⟩, fun h => absurd h (h2 e (by simp))⟩

theorem mem_sort {l : List Entry} {e : Entry} : e ∈ canonicalSort l ↔ e ∈ l := by rw [canonicalSort_eq]; exact mem_order

theorem fold_marks (ds : List Nat) (b : List Entry) (h : ∀ d ∈ ds, ccc d ≠ 0) :
    ds.foldl (callback ccc) (b, false) = (b ++ ds.map (E ccc), false) := by
  induction ds generalizing b with
  | nil => simp
  | cons d ds ih =>
    have : callback ccc (b, false) d = (b ++ [E ccc d], false) := by
      have := h d (by simp)
      simp [callback, this, E]
    rw [List.foldl_cons, this, ih _ fun x hx => h x (by simp [hx])]
    simp

theorem fold_starter (d : Nat) (ds : List Nat) (b : List Entry) (h : ccc d = 0) :
    (d :: ds).foldl (callback ccc) (b, false) = (canonicalSort b ++ (d :: ds).map (E ccc), true) := by
  have : callback ccc (b, false) d = (canonicalSort b ++ [E ccc d], true) := by simp [callback, h, E]
  rw [List.foldl_cons, this, callback_fold_true]
  simp

theorem fits_E (l : List Nat) : Fits ccc (l.map (E ccc)) := by
  intro e he
  obtain ⟨x, -, rfl⟩ := List.mem_map.1 he
  rfl

/-- the decomposition of a character is starters, then marks -/
def Good (ccc : Nat → Nat) (dec : Nat → List Nat) : Prop := ∀ c, ∃ a b, dec c = a ++ b ∧ (∀ d ∈ a, ccc d = 0) ∧ ∀ d ∈ b, ccc d ≠ 0

theorem fill_shape (hg : Good ccc dec) (rest : List Nat) (b : List Entry) (hf : Fits ccc b) (hm : Marks b) :
    ∃ p, rest = p ++ (fill ccc dec rest b).1 ∧ Fits ccc (fill ccc dec rest b).2.1 ∧
      (((fill ccc dec rest b).2.2 = false ∧ Marks (fill ccc dec rest b).2.1 ∧ (p.filter (hasStarter ccc dec)).length = 0) ∨
       ((fill ccc dec rest b).2.2 = true ∧ MSM (fill ccc dec rest b).2.1 ∧ holds (fill ccc dec rest b).2.1 = 1 ∧
          (p.filter (hasStarter ccc dec)).length ≤ 1)) := by
  induction rest generalizing b with
  | nil => exact ⟨[], rfl, hf, .inl ⟨rfl, hm, rfl⟩⟩
  | cons ch rest ih =>
    obtain ⟨x, y, h1, h2, h3⟩ := hg ch
    cases x with
    | nil =>
      rw [List.nil_append] at h1
      have hfold := fold_marks (ccc := ccc) (dec ch) b (h1 ▸ h3)
      have hns : ¬ hasStarter ccc dec ch = true := by
        rw [hasStarter, h1]
        simp only [List.any_eq_true, beq_iff_eq, not_exists, not_and]
        exact h3
      have hr : fill ccc dec (ch :: rest) b = fill ccc dec rest (b ++ (dec ch).map (E ccc)) := by
        rw [fill, hfold]
        simp
      rw [hr]
      obtain ⟨p, g1, g2, g3⟩ := ih (b ++ (dec ch).map (E ccc))
        (fun e he => (List.mem_append.1 he).elim (hf e) (fits_E _ e))
        (fun e he => (List.mem_append.1 he).elim (hm e) fun he => by
          obtain ⟨d, hd, rfl⟩ := List.mem_map.1 he
          exact h3 d (h1 ▸ hd))
      refine ⟨ch :: p, by rw [List.cons_append, ← g1], g2, ?_⟩
      rw [List.filter_cons_of_neg hns]
      exact g3
    | cons d x =>
      have hfold := fold_starter (ccc := ccc) d (x ++ y) b (h2 d (by simp))
      rw [← List.cons_append, ← h1] at hfold
      have hr : fill ccc dec (ch :: rest) b = (rest, canonicalSort b ++ (dec ch).map (E ccc), true) := by
        rw [fill, hfold]
        simp
      rw [hr]
      refine ⟨[ch], rfl, ?_, .inr ⟨rfl, ?_, ?_, ?_⟩⟩
      · intro e he
        exact (List.mem_append.1 he).elim (fun he => hf e (mem_sort.1 he)) (fits_E _ e)
      · refine ⟨_, _, rfl, fun e he => hm e (mem_sort.1 he), (d :: x).map (E ccc), y.map (E ccc), ?_, ?_, ?_⟩
        · rw [h1, List.map_append]
        · intro e he
          obtain ⟨z, hz, rfl⟩ := List.mem_map.1 he
          exact h2 z hz
        · intro e he
          obtain ⟨z, hz, rfl⟩ := List.mem_map.1 he
          exact h3 z hz
      · refine holds_mem (e := E ccc d) ?_ (h2 d (by simp))
        rw [h1]; simp
      · exact List.length_filter_le (hasStarter ccc dec) [ch]

/-- 1 if the result is a starter -/
def gave (ccc : Nat → Nat) : Option Nat → Nat
  | some c => if ccc c = 0 then 1 else 0
  | none => 0

def Step (ccc : Nat → Nat) (dec : Nat → List Nat) (st : Decompositions) (r : Option Nat × Decompositions) : Prop :=
  Shape ccc r.2 ∧ ∃ p, st.rest = p ++ r.2.rest ∧
    (p.filter (hasStarter ccc dec)).length + holds st.buffer ≤ gave ccc r.1 + holds r.2.buffer

theorem holds_cons (e : Entry) (l : List Entry) : holds (e :: l) ≤ (if e.2 = 0 then 1 else 0) + holds l ∧ (e.2 ≠ 0 → holds (e :: l) = holds l) := by
  unfold holds
  rw [List.any_cons]
  by_cases h : e.2 = 0
  · simp [h]
  · have h' : (e.2 == 0) = false := by simpa using h
    rw [h', Bool.false_or, if_neg h]
    simp

theorem refill_shape (hg : Good ccc dec) (st : Decompositions) (hf : Fits ccc st.buffer) (hm : Marks st.buffer) :
    Step ccc dec st (refill ccc dec st) := by
  obtain ⟨p, h1, h2, h3⟩ := fill_shape (dec := dec) hg st.rest st.buffer hf hm
  unfold refill
  rcases hfe : fill ccc dec st.rest st.buffer with ⟨r, b, s⟩
  rw [hfe] at h1 h2 h3
  simp only at h1 h2 h3 ⊢
  -- the buffer the first character is taken from
  have key : ∀ b', b' = (if s = true then b else canonicalSort b) → Fits ccc b' ∧ MSM b' ∧ (p.filter (hasStarter ccc dec)).length ≤ holds b' := by
    rintro b' rfl
    rcases h3 with ⟨rfl, k1, k2⟩ | ⟨rfl, k1, k2, k3⟩
    · rw [if_neg (by simp)]
      exact ⟨fun e he => h2 e (mem_sort.1 he), MSM_marks fun e he => k1 e (mem_sort.1 he), by omega⟩
    · rw [if_pos rfl]
      exact ⟨h2, k1, by omega⟩
  have h0 : holds st.buffer = 0 := holds_marks hm
  split
  · rename_i hb
    obtain ⟨k1, k2, k3⟩ := key [] hb.symm
    exact ⟨⟨by simp [Fits], fun h => by simp at h, fun _ => k2⟩, p, h1, by rw [h0]; simp only [gave]; omega⟩
  · rename_i c k b' hb
    obtain ⟨k1, k2, k3⟩ := key ((c, k) :: b') hb.symm
    have hk : k = ccc c := k1 (c, k) (by simp)
    refine ⟨⟨fun e he => k1 e (by simp [he]), fun h => ?_, fun _ => (MSM_tail k2).1⟩, p, h1, ?_⟩
    · exact (MSM_tail k2).2 (by simpa using h)
    · have := (holds_cons (c, k) b').1
      simp only [gave, ← hk, h0]
      simp only at this
      omega

theorem next_shape (hg : Good ccc dec) (st : Decompositions) (h : Shape ccc st) : Step ccc dec st (st.next ccc dec) := by
  obtain ⟨hf, hs, ht⟩ := h
  unfold Decompositions.next
  split
  · rename_i c k b hb
    rw [hb] at hf hs ht
    have hk : k = ccc c := hf (c, k) (by simp)
    have hfb : Fits ccc b := fun e he => hf e (by simp [he])
    have hh := holds_cons (c, k) b
    split
    · rename_i h0
      refine ⟨⟨hfb, fun _ => ?_, fun h => by simp at h⟩, [], rfl, ?_⟩
      · cases hst : st.sorted with
        | false => exact (SM_tail (hs hst)).1
        | true => exact (MSM_tail (ht hst)).2 h0
      · have := hh.1
        rw [hb]
        simp only [gave, ← hk] at this ⊢
        simp only [List.filter_nil, List.length_nil]
        omega
    · rename_i h0
      split
      · rename_i hst
        refine ⟨⟨hfb, fun h => by simp [hst] at h, fun _ => (MSM_tail (ht hst)).1⟩, [], rfl, ?_⟩
        have := hh.2 h0
        rw [hb]
        simp only [List.filter_nil, List.length_nil]
        omega
      · rename_i hst
        have hmk := (SM_tail (hs (by simpa using hst))).2 h0
        exact refill_shape hg st (by rw [hb]; exact hf) (by rw [hb]; exact hmk)
  · rename_i hb
    exact refill_shape hg st (by rw [hb]; simp [Fits]) (by rw [hb]; simp [Marks])

/-- the number of starters among the results -/
def gaveAll (ccc : Nat → Nat) (l : List (Option Nat)) : Nat := ((l.filterMap id).filter (ccc · == 0)).length

theorem gaveAll_cons (r : Option Nat) (l : List (Option Nat)) : gaveAll ccc (r :: l) = gave ccc r + gaveAll ccc l := by
  cases r with
  | none => simp [gaveAll, gave]
  | some c =>
    by_cases h : ccc c = 0 <;> simp [gaveAll, gave, h]
    omega

theorem after_shape (hg : Good ccc dec) (n : Nat) (st : Decompositions) (h : Shape ccc st) :
    ∃ p, st.rest = p ++ (after (Decompositions.next ccc dec) n st).rest ∧
      (p.filter (hasStarter ccc dec)).length + holds st.buffer ≤
        gaveAll ccc (calls (Decompositions.next ccc dec) n st) + holds (after (Decompositions.next ccc dec) n st).buffer := by
  induction n generalizing st with
  | zero => exact ⟨[], rfl, by simp [after]⟩
  | succ n ih =>
    obtain ⟨k1, p, k2, k3⟩ := next_shape hg st h
    obtain ⟨q, g1, g2⟩ := ih _ k1
    refine ⟨p ++ q, by rw [after, List.append_assoc, ← g1, ← k2], ?_⟩
    rw [List.filter_append, List.length_append, calls, gaveAll_cons, after]
    omega

theorem reads_le (hg : Good ccc dec) (n : Nat) (s : List Nat) : ∃ p, s = p ++ (after (Decompositions.next ccc dec) n (.new s)).rest ∧
    (p.filter (hasStarter ccc dec)).length ≤ gaveAll ccc (calls (Decompositions.next ccc dec) n (.new s)) + 1 := by
  obtain ⟨p, h1, h2⟩ := after_shape hg n (.new s) ⟨by simp [Fits, Decompositions.new], fun _ => SM_marks (by simp [Marks, Decompositions.new]),
    fun h => by simp [Decompositions.new] at h⟩
  refine ⟨p, h1, ?_⟩
  have : holds (after (Decompositions.next ccc dec) n (.new s)).buffer ≤ 1 := by unfold holds; split <;> omega
  omega

end Proofs.NormalReads
