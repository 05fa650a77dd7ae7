import Verif.Proofs.WordSeg

/-! # C38, C39: word boundaries -/
namespace Props.Word
open Data Spec.Segment Model Model.Word Model.Grapheme Proofs.Grapheme Proofs.Punycode Proofs.Word Props.Grapheme

/-- how many calls returned an item -/
def items {α : Type} (rs : List (Option α)) : Nat := (rs.filter Option.isSome).length

theorem deque_items {α : Type} : ∀ (ops : List End) (ps : List α),
    items (deque ps ops).1 ≤ ps.length ∧ (ps ≠ [] → ops ≠ [] → 1 ≤ items (deque ps ops).1) := by
  intro ops
  induction ops with
  | nil => intro ps; simp [deque, items]
  | cons op ops ih =>
    intro ps
    cases op with
    | front =>
      cases ps with
      | nil => simpa [deque, items] using (ih []).1
      | cons p ps => have := (ih ps).1; simp [deque, items] at this ⊢; omega
    | back =>
      rcases List.eq_nil_or_concat ps with rfl | ⟨ps, p, rfl⟩
      · simpa [deque, items] using (ih []).1
      · rw [List.concat_eq_append]
        have := (ih ps).1; simp [deque, items] at this ⊢; omega

theorem length_le_blen {ps : List (List Nat)} (h : ∀ p ∈ ps, p ≠ []) : ps.length ≤ blen ps.flatten := by
  rw [blen_flatten]
  induction ps with
  | nil => simp
  | cons p l ih =>
    have h1 := ih (fun q hq => h q (by simp [hq]))
    have h2 := mt (blen_eq_zero p).mp (h p (by simp))
    simp; omega

theorem length_le_flatten {ps : List (List Nat)} (h : ∀ p ∈ ps, p ≠ []) : ps.length ≤ ps.flatten.length := by
  induction ps with
  | nil => simp
  | cons p l ih =>
    have h1 := ih (fun q hq => h q (by simp [hq]))
    have h2 := List.length_pos_iff.mpr (h p (by simp))
    rw [List.flatten_cons, List.length_append, List.length_cons]; omega

theorem idx_next {wb : Nat → WB} {b b' : WordBounds} {u : List Nat} (off : Nat) (h : b.next wb = .ok (b', some u)) :
    WordBoundIndices.next wb ⟨off, b⟩ = .ok (⟨off + blen u, b'⟩, some (off, u)) := by
  simp only [WordBoundIndices.next, h, bind_ok, pure_eq]

theorem idx_nextBack {wb : Nat → WB} {b b' : WordBounds} {u : List Nat} (off : Nat) (h : b.nextBack wb = .ok (b', some u)) :
    WordBoundIndices.nextBack wb ⟨off, b⟩ = .ok (⟨off, b'⟩, some (off + blen b'.string, u)) := by
  simp only [WordBoundIndices.nextBack, h, bind_ok, pure_eq]

theorem idx_end {wb : Nat → WB} {b : WordBounds} (off : Nat) (h : b.string = []) :
    WordBoundIndices.next wb ⟨off, b⟩ = .ok (⟨off, b⟩, none) ∧ WordBoundIndices.nextBack wb ⟨off, b⟩ = .ok (⟨off, b⟩, none) := by
  simp only [WordBoundIndices.next, WordBoundIndices.nextBack, (next_end (wb := wb) h).1, (next_end (wb := wb) h).2, bind_ok, pure_eq, and_self]

/-- What calls from either end return, in general. -/
theorem calls_partition {wb : Nat → WB} (hcr : CrOneByte wb) (ops : List End) :
    ∀ (b : WordBounds) (off : Nat), Good2 wb b → ∃ (ps : List (List Nat)) (b' : WordBounds) (off' : Nat), ps.flatten = b.string ∧ (∀ p ∈ ps, p ≠ []) ∧ Good2 wb b' ∧
      calls (·.next wb) (·.nextBack wb) b ops = .ok ((deque ps ops).1, b') ∧
      calls (·.next wb) (·.nextBack wb) (⟨off, b⟩ : WordBoundIndices) ops = .ok ((deque (indexed blen off ps) ops).1, ⟨off', b'⟩) ∧
      b'.string = (deque ps ops).2.flatten := by
  induction ops with
  | nil =>
    intro b off hg
    by_cases hs : b.string = []
    · exact ⟨[], b, off, hs.symm, fun _ h => (by cases h), hg, rfl, rfl, hs⟩
    · refine ⟨[b.string], b, off, by simp, ?_, hg, rfl, rfl, by simp [deque]⟩
      intro p hp; rw [List.mem_singleton.mp hp]; exact hs
  | cons op ops ih =>
    intro b off hg
    by_cases hs : b.string = []
    · obtain ⟨ps, b', off', e, hne, hg', h1, h2, h3⟩ := ih b off hg
      obtain rfl : ps = [] := by
        cases ps with
        | nil => rfl
        | cons p ps => rw [hs] at e; simp at e; exact absurd e.1 (hne p (by simp))
      cases op with
      | front =>
        refine ⟨[], b', off', e, hne, hg', ?_, ?_, h3⟩
        · simp only [calls, (next_end (wb := wb) hs).1, bind_ok, pure_eq, h1]; rfl
        · simp only [calls, (idx_end (wb := wb) off hs).1, bind_ok, pure_eq, h2]; rfl
      | back =>
        refine ⟨[], b', off', e, hne, hg', ?_, ?_, h3⟩
        · simp only [calls, (next_end (wb := wb) hs).2, bind_ok, pure_eq, h1]; rfl
        · simp only [calls, (idx_end (wb := wb) off hs).2, bind_ok, pure_eq, h2]; rfl
    · cases op with
      | front =>
        obtain ⟨u, b1, e, hu, hn, hg1, -⟩ := next_step hcr hs hg
        obtain ⟨ps, b', off', e', hne, hg', h1, h2, h3⟩ := ih b1 (off + blen u) hg1
        refine ⟨u :: ps, b', off', by rw [e, ← e']; rfl, ?_, hg', ?_, ?_, h3⟩
        · intro p hp
          rcases List.mem_cons.mp hp with rfl | hp
          · exact hu
          · exact hne p hp
        · simp only [calls, hn, bind_ok, pure_eq, h1, deque]; rfl
        · simp only [calls, idx_next off hn, bind_ok, pure_eq, h2, deque, indexed]; rfl
      | back =>
        obtain ⟨w, b1, e, hw, hn, hg1, -⟩ := nextBack_step hcr hs hg
        obtain ⟨ps, b', off', e', hne, hg', h1, h2, h3⟩ := ih b1 off hg1
        refine ⟨ps ++ [w], b', off', by rw [e, ← e']; simp, ?_, hg', ?_, ?_, ?_⟩
        · intro p hp
          rcases List.mem_append.mp hp with hp | hp
          · exact hne p hp
          · rw [List.mem_singleton.mp hp]; exact hw
        · simp only [calls, hn, bind_ok, pure_eq, h1, deque]; simp
        · have : blen b1.string = (ps.map blen).sum := by rw [← e', blen_flatten]
          simp only [calls, idx_nextBack off hn, bind_ok, pure_eq, h2, deque, indexed_append, indexed, this]; simp
        · simpa [deque] using h3

/-- **C38.** Whatever sequence of `next` and `next_back` calls is made on `split_word_bounds(s)`, nothing panics and the
answers are those of a double-ended queue of some pieces `ps` — non-empty, with concatenation `s`; `split_word_bound_indices`
gives the same pieces with their byte offsets; `as_str` is the text of the pieces not yet returned; and `size_hint` bounds
the number of items that any further calls return. -/
theorem c38_partition (wb : Nat → WB) (hcr : CrOneByte wb) (s : List Nat) (ops : List End) :
    ∃ (ps : List (List Nat)) (b : WordBounds) (off : Nat), ps.flatten = s ∧ (∀ p ∈ ps, p ≠ []) ∧
      calls (·.next wb) (·.nextBack wb) (WordBounds.new s) ops = .ok ((deque ps ops).1, b) ∧
      calls (·.next wb) (·.nextBack wb) (WordBoundIndices.new s) ops = .ok ((deque (indexed blen 0 ps) ops).1, ⟨off, b⟩) ∧
      b.asStr = (deque ps ops).2.flatten ∧
      ∃ lo hi, b.sizeHint = (lo, some hi) ∧
        ∀ more, ∃ rs b', calls (·.next wb) (·.nextBack wb) b more = .ok (rs, b') ∧ items rs ≤ hi ∧ (more ≠ [] → lo ≤ items rs) := by
  obtain ⟨ps, b, off, e, hne, hg, h1, h2, h3⟩ := calls_partition hcr ops (.new s) 0 (good_new wb s)
  refine ⟨ps, b, off, e, hne, h1, h2, h3, _, _, rfl, ?_⟩
  intro more
  obtain ⟨qs, b', _, e', hne', -, h1', -, -⟩ := calls_partition hcr more b 0 hg
  refine ⟨_, b', h1', ?_, ?_⟩
  · have := length_le_blen hne'
    rw [e'] at this
    exact Nat.le_trans (deque_items more qs).1 this
  · intro hm
    by_cases hs : b.string = []
    · rw [hs]; exact Nat.zero_le _
    · have : qs ≠ [] := by rintro rfl; exact hs e'.symm
      exact Nat.le_trans (Nat.min_le_right _ _) ((deque_items more qs).2 this hm)

/-- iterating with `step` alone gives the pieces `ps` -/
inductive Run (step : WordBounds → Outcome (WordBounds × Option (List Nat))) : WordBounds → List (List Nat) → Prop
  | nil {b} : step b = .ok (b, none) → Run step b []
  | cons {b b' u ps} : step b = .ok (b', some u) → Run step b' ps → Run step b (u :: ps)

theorem run_next {wb : Nat → WB} (hcr : CrOneByte wb) : ∀ (n : Nat) (b : WordBounds), b.string.length ≤ n → Good2 wb b →
    ∃ ps, Run (·.next wb) b ps ∧ ps.flatten = b.string ∧ ∀ p ∈ ps, p ≠ [] := by
  intro n
  induction n with
  | zero =>
    intro b hl _
    have hs := List.eq_nil_of_length_eq_zero (Nat.le_zero.mp hl)
    exact ⟨[], .nil (next_end hs).1, hs.symm, fun _ h => (by cases h)⟩
  | succ n ih =>
    intro b hl hg
    by_cases hs : b.string = []
    · exact ⟨[], .nil (next_end hs).1, hs.symm, fun _ h => (by cases h)⟩
    · obtain ⟨u, b1, e, hu, hn, hg1, -⟩ := next_step hcr hs hg
      have := List.length_pos_iff.mpr hu
      rw [e, List.length_append] at hl
      obtain ⟨ps, h1, h2, h3⟩ := ih b1 (by omega) hg1
      refine ⟨u :: ps, .cons hn h1, by rw [e, ← h2]; rfl, ?_⟩
      intro p hp
      rcases List.mem_cons.mp hp with rfl | hp
      · exact hu
      · exact h3 p hp

theorem run_nextBack {wb : Nat → WB} (hcr : CrOneByte wb) : ∀ (n : Nat) (b : WordBounds), b.string.length ≤ n → Good2 wb b →
    ∃ ps, Run (·.nextBack wb) b ps ∧ ps.reverse.flatten = b.string ∧ ∀ p ∈ ps, p ≠ [] := by
  intro n
  induction n with
  | zero =>
    intro b hl _
    have hs := List.eq_nil_of_length_eq_zero (Nat.le_zero.mp hl)
    exact ⟨[], .nil (next_end hs).2, hs.symm, fun _ h => (by cases h)⟩
  | succ n ih =>
    intro b hl hg
    by_cases hs : b.string = []
    · exact ⟨[], .nil (next_end hs).2, hs.symm, fun _ h => (by cases h)⟩
    · obtain ⟨u, b1, e, hu, hn, hg1, -⟩ := nextBack_step hcr hs hg
      have := List.length_pos_iff.mpr hu
      rw [e, List.length_append] at hl
      obtain ⟨ps, h1, h2, h3⟩ := ih b1 (by omega) hg1
      refine ⟨u :: ps, .cons hn h1, by rw [e, ← h2]; simp, ?_⟩
      intro p hp
      rcases List.mem_cons.mp hp with rfl | hp
      · exact hu
      · exact h3 p hp

/-- one call of a filtered iterator -/
theorem run_filter {step : WordBounds → Outcome (WordBounds × Option (List Nat))} {keep : List Nat → Bool} {b : WordBounds} {ps : List (List Nat)}
    (h : Run step b ps) (P : WordBounds → Prop) (hP : ∀ b b' u, P b → step b = .ok (b', some u) → P b') (hb : P b) :
    ∀ fuel, ps.length < fuel → ∃ b' qs, filterLoop step keep fuel b = .ok (b', (ps.filter keep).head?) ∧
      P b' ∧ Run step b' qs ∧ qs.filter keep = (ps.filter keep).tail := by
  induction h with
  | @nil b hs =>
    intro fuel hf
    obtain ⟨f, rfl⟩ := Nat.exists_eq_succ_of_ne_zero (Nat.pos_iff_ne_zero.mp (Nat.lt_of_le_of_lt (Nat.zero_le _) hf))
    refine ⟨b, [], ?_, hb, .nil hs, rfl⟩
    simp only [filterLoop, hs, bind_ok, pure_eq]; rfl
  | @cons b b1 u ps hs hr ih =>
    intro fuel hf
    obtain ⟨f, rfl⟩ := Nat.exists_eq_succ_of_ne_zero (Nat.pos_iff_ne_zero.mp (Nat.lt_of_le_of_lt (Nat.zero_le _) hf))
    cases hk : keep u with
    | true =>
      refine ⟨b1, ps, ?_, hP _ _ _ hb hs, hr, by simp [hk]⟩
      simp [filterLoop, hs, bind_ok, pure_eq, hk]
    | false =>
      obtain ⟨b', qs, h1, h0, h2, h3⟩ := ih (hP _ _ _ hb hs) f (by simp at hf; omega)
      refine ⟨b', qs, ?_, h0, h2, by simpa [hk] using h3⟩
      simp [filterLoop, hs, bind_ok, hk, h1]

theorem good_words {wb : Nat → WB} (hcr : CrOneByte wb) (keep : List Nat → Bool) : ∀ (fuel : Nat) (b : WordBounds), Good2 wb b → b.string.length < fuel →
    (∃ (us : List (List Nat)) (b' : WordBounds) (r : Option (List Nat)), filterLoop (·.next wb) keep fuel b = .ok (b', r) ∧ Good2 wb b' ∧ (∀ p ∈ us, p ≠ [] ∧ keep p = false) ∧
      ((r = none ∧ b'.string = [] ∧ b.string = us.flatten) ∨ ∃ p, r = some p ∧ p ≠ [] ∧ keep p = true ∧ b.string = us.flatten ++ p ++ b'.string)) ∧
    (∃ (us : List (List Nat)) (b' : WordBounds) (r : Option (List Nat)), filterLoop (·.nextBack wb) keep fuel b = .ok (b', r) ∧ Good2 wb b' ∧ (∀ p ∈ us, p ≠ [] ∧ keep p = false) ∧
      ((r = none ∧ b'.string = [] ∧ b.string = us.flatten) ∨ ∃ p, r = some p ∧ p ≠ [] ∧ keep p = true ∧ b.string = b'.string ++ p ++ us.flatten)) := by
  intro fuel
  induction fuel with
  | zero => intro b _ h; exact absurd h (Nat.not_lt_zero _)
  | succ fuel ih =>
    intro b hg hl
    by_cases hs : b.string = []
    · refine ⟨⟨[], b, none, ?_, hg, fun _ h => (by cases h), .inl ⟨rfl, hs, hs⟩⟩, ⟨[], b, none, ?_, hg, fun _ h => (by cases h), .inl ⟨rfl, hs, hs⟩⟩⟩
      · simp only [filterLoop, (next_end (wb := wb) hs).1, bind_ok, pure_eq]
      · simp only [filterLoop, (next_end (wb := wb) hs).2, bind_ok, pure_eq]
    · constructor
      · obtain ⟨u, b1, e, hu, hn, hg1, -⟩ := next_step hcr hs hg
        have := List.length_pos_iff.mpr hu
        rw [e, List.length_append] at hl
        cases hk : keep u with
        | true =>
          refine ⟨[], b1, some u, ?_, hg1, fun _ h => (by cases h), .inr ⟨u, rfl, hu, hk, by simpa using e⟩⟩
          simp [filterLoop, hn, bind_ok, pure_eq, hk]
        | false =>
          obtain ⟨us, b', r, h1, h2, h3, h4⟩ := (ih b1 hg1 (by omega)).1
          refine ⟨u :: us, b', r, ?_, h2, ?_, ?_⟩
          · simp [filterLoop, hn, bind_ok, hk, h1]
          · intro p hp
            rcases List.mem_cons.mp hp with rfl | hp
            · exact ⟨hu, hk⟩
            · exact h3 p hp
          · rcases h4 with ⟨x1, x2, x3⟩ | ⟨p, x1, x2, x3, x4⟩
            · exact .inl ⟨x1, x2, by rw [e, x3]; rfl⟩
            · exact .inr ⟨p, x1, x2, x3, by rw [e, x4]; simp⟩
      · obtain ⟨u, b1, e, hu, hn, hg1, -⟩ := nextBack_step hcr hs hg
        have := List.length_pos_iff.mpr hu
        rw [e, List.length_append] at hl
        cases hk : keep u with
        | true =>
          refine ⟨[], b1, some u, ?_, hg1, fun _ h => (by cases h), .inr ⟨u, rfl, hu, hk, by simpa using e⟩⟩
          simp [filterLoop, hn, bind_ok, pure_eq, hk]
        | false =>
          obtain ⟨us, b', r, h1, h2, h3, h4⟩ := (ih b1 hg1 (by omega)).2
          refine ⟨us ++ [u], b', r, ?_, h2, ?_, ?_⟩
          · simp [filterLoop, hn, bind_ok, hk, h1]
          · intro p hp
            rcases List.mem_append.mp hp with hp | hp
            · exact h3 p hp
            · rw [List.mem_singleton.mp hp]; exact ⟨hu, hk⟩
          · rcases h4 with ⟨x1, x2, x3⟩ | ⟨p, x1, x2, x3, x4⟩
            · exact .inl ⟨x1, x2, by rw [e, x3]; simp⟩
            · exact .inr ⟨p, x1, x2, x3, by rw [e, x4]; simp⟩

theorem filter_none {keep : List Nat → Bool} {us : List (List Nat)} (h : ∀ p ∈ us, p ≠ [] ∧ keep p = false) : us.filter keep = [] := by
  rw [List.filter_eq_nil_iff]; intro p hp; simp [(h p hp).2]

theorem deque_nil {α : Type} (ops : List End) : deque ([] : List α) ops = (List.replicate ops.length none, []) := by
  induction ops with
  | nil => rfl
  | cons op ops ih => cases op <;> simp [deque, ih, List.replicate_succ]

theorem words_end {wb : Nat → WB} (keep : List Nat → Bool) {b : WordBounds} (hs : b.string = []) (ops : List End) :
    calls (·.next wb keep) (·.nextBack wb keep) (⟨b⟩ : Words) ops = .ok (List.replicate ops.length none, ⟨b⟩) := by
  induction ops with
  | nil => rfl
  | cons op ops ih =>
    have h1 : Words.next wb keep ⟨b⟩ = .ok (⟨b⟩, none) := by
      simp only [Words.next, hs, List.length_nil, filterLoop, (next_end (wb := wb) hs).1, bind_ok, pure_eq]
    have h2 : Words.nextBack wb keep ⟨b⟩ = .ok (⟨b⟩, none) := by
      simp only [Words.nextBack, hs, List.length_nil, filterLoop, (next_end (wb := wb) hs).2, bind_ok, pure_eq]
    cases op
    · simp only [calls, h1, bind_ok, ih, pure_eq]; rfl
    · simp only [calls, h2, bind_ok, ih, pure_eq]; rfl

theorem words_partition {wb : Nat → WB} (hcr : CrOneByte wb) (keep : List Nat → Bool) (ops : List End) :
    ∀ (b : WordBounds), Good2 wb b → ∃ (ps : List (List Nat)) (b' : Words), ps.flatten = b.string ∧ (∀ p ∈ ps, p ≠ []) ∧
      calls (·.next wb keep) (·.nextBack wb keep) (⟨b⟩ : Words) ops = .ok ((deque (ps.filter keep) ops).1, b') := by
  induction ops with
  | nil =>
    intro b hg
    by_cases hs : b.string = []
    · exact ⟨[], ⟨b⟩, hs.symm, fun _ h => (by cases h), rfl⟩
    · exact ⟨[b.string], ⟨b⟩, by simp, fun p hp => by rw [List.mem_singleton.mp hp]; exact hs, rfl⟩
  | cons op ops ih =>
    intro b hg
    cases op with
    | front =>
      obtain ⟨us, b1, r, h1, h2, h3, h4⟩ := (good_words hcr keep (b.string.length + 1) b hg (Nat.lt_succ_self _)).1
      have hw : Words.next wb keep ⟨b⟩ = .ok (⟨b1⟩, r) := by simp only [Words.next, h1, bind_ok, pure_eq]
      rcases h4 with ⟨rfl, x2, x3⟩ | ⟨p, rfl, x2, x3, x4⟩
      · refine ⟨us, ⟨b1⟩, x3.symm, fun p hp => (h3 p hp).1, ?_⟩
        rw [filter_none h3, deque_nil]
        simp only [calls, hw, bind_ok, words_end keep x2, pure_eq]; rfl
      · obtain ⟨ps, b', e, hne, hc⟩ := ih b1 h2
        refine ⟨us ++ p :: ps, b', by rw [x4, ← e]; simp, ?_, ?_⟩
        · intro q hq
          rcases List.mem_append.mp hq with hq | hq
          · exact (h3 q hq).1
          · rcases List.mem_cons.mp hq with rfl | hq
            · exact x2
            · exact hne q hq
        · rw [List.filter_append, filter_none h3, List.nil_append, List.filter_cons, if_pos x3]
          simp only [calls, hw, bind_ok, hc, pure_eq, deque]; rfl
    | back =>
      obtain ⟨us, b1, r, h1, h2, h3, h4⟩ := (good_words hcr keep (b.string.length + 1) b hg (Nat.lt_succ_self _)).2
      have hw : Words.nextBack wb keep ⟨b⟩ = .ok (⟨b1⟩, r) := by simp only [Words.nextBack, h1, bind_ok, pure_eq]
      rcases h4 with ⟨rfl, x2, x3⟩ | ⟨p, rfl, x2, x3, x4⟩
      · refine ⟨us, ⟨b1⟩, x3.symm, fun p hp => (h3 p hp).1, ?_⟩
        rw [filter_none h3, deque_nil]
        simp only [calls, hw, bind_ok, words_end keep x2, pure_eq]; rfl
      · obtain ⟨ps, b', e, hne, hc⟩ := ih b1 h2
        refine ⟨ps ++ p :: us, b', by rw [x4, ← e]; simp, ?_, ?_⟩
        · intro q hq
          rcases List.mem_append.mp hq with hq | hq
          · exact hne q hq
          · rcases List.mem_cons.mp hq with rfl | hq
            · exact x2
            · exact (h3 q hq).1
        · rw [List.filter_append, List.filter_cons, if_pos x3, filter_none h3]
          simp only [calls, hw, bind_ok, hc, pure_eq, deque]; simp

/-- **C38.** `Words` (`words(s, keep)`), called from either end in any order, never panics and returns the pieces that
pass the filter, of some division of the text into non-empty pieces. -/
theorem c38_words (wb : Nat → WB) (hcr : CrOneByte wb) (keep : List Nat → Bool) (s : List Nat) (ops : List End) :
    ∃ (ps : List (List Nat)) (w : Words), ps.flatten = s ∧ (∀ p ∈ ps, p ≠ []) ∧
      calls (·.next wb keep) (·.nextBack wb keep) (Words.new s) ops = .ok ((deque (ps.filter keep) ops).1, w) :=
  words_partition hcr keep ops (.new s) (good_new wb s)

theorem run_calls {wb : Nat → WB} {b : WordBounds} {ps : List (List Nat)} (h : Run (·.next wb) b ps) :
    ∀ n, ∃ b', calls (·.next wb) (·.nextBack wb) b (List.replicate n .front) = .ok ((deque ps (List.replicate n .front)).1, b') := by
  induction h with
  | @nil b hb =>
    intro n
    refine ⟨b, ?_⟩
    induction n with
    | zero => rfl
    | succ n ih => simp only [List.replicate_succ, calls, hb, bind_ok, ih, pure_eq, deque]; rfl
  | @cons b b1 u ps hb hr ih =>
    intro n
    cases n with
    | zero => exact ⟨b, rfl⟩
    | succ n =>
      obtain ⟨b', h⟩ := ih n
      exact ⟨b', by simp only [List.replicate_succ, calls, hb, bind_ok, h, pure_eq, deque]; rfl⟩

theorem run_callsBack {wb : Nat → WB} {b : WordBounds} {ps : List (List Nat)} (h : Run (·.nextBack wb) b ps) :
    ∀ n, ∃ b', calls (·.next wb) (·.nextBack wb) b (List.replicate n .back) = .ok ((deque ps.reverse (List.replicate n .back)).1, b') := by
  induction h with
  | @nil b hb =>
    intro n
    refine ⟨b, ?_⟩
    induction n with
    | zero => rfl
    | succ n ih => simp only [List.replicate_succ, calls, hb, bind_ok, ih, pure_eq, deque]; rfl
  | @cons b b1 u ps hb hr ih =>
    intro n
    cases n with
    | zero => exact ⟨b, rfl⟩
    | succ n =>
      obtain ⟨b', h⟩ := ih n
      exact ⟨b', by simp only [List.replicate_succ, calls, hb, bind_ok, h, pure_eq, deque]; simp⟩

theorem run_length {wb : Nat → WB} (hcr : CrOneByte wb) {b : WordBounds} (hg : Good2 wb b) {ps : List (List Nat)} (h : Run (·.next wb) b ps) :
    ps.length ≤ b.string.length := by
  induction h with
  | nil => exact Nat.zero_le _
  | @cons b b1 u ps hb hr ih =>
    have hs : b.string ≠ [] := by intro hs; rw [(next_end hs).1] at hb; cases hb
    obtain ⟨u', b', e, hu, hn, hg1, -⟩ := next_step hcr hs hg
    rw [hb] at hn
    obtain ⟨rfl, hu'⟩ : b1 = b' ∧ some u = some u' := by
      have := congrArg (fun r : Outcome _ => match r with | .ok x => some x | .panic => none) hn
      simpa using this
    cases hu'
    have := ih hg1
    have := List.length_pos_iff.mpr hu
    rw [e, List.length_append, List.length_cons]; omega

theorem run_lengthBack {wb : Nat → WB} (hcr : CrOneByte wb) {b : WordBounds} (hg : Good2 wb b) {ps : List (List Nat)} (h : Run (·.nextBack wb) b ps) :
    ps.length ≤ b.string.length := by
  induction h with
  | nil => exact Nat.zero_le _
  | @cons b b1 u ps hb hr ih =>
    have hs : b.string ≠ [] := by intro hs; rw [(next_end hs).2] at hb; cases hb
    obtain ⟨u', b', e, hu, hn, hg1, -⟩ := nextBack_step hcr hs hg
    rw [hb] at hn
    obtain ⟨rfl, hu'⟩ : b1 = b' ∧ some u = some u' := by
      have := congrArg (fun r : Outcome _ => match r with | .ok x => some x | .panic => none) hn
      simpa using this
    cases hu'
    have := ih hg1
    have := List.length_pos_iff.mpr hu
    rw [e, List.length_append, List.length_cons]; omega

theorem good_next {wb : Nat → WB} (hcr : CrOneByte wb) (b b' : WordBounds) (u : List Nat) (hg : Good2 wb b) (hb : b.next wb = .ok (b', some u)) :
    Good2 wb b' := by
  have hs : b.string ≠ [] := by intro hs; rw [(next_end hs).1] at hb; cases hb
  obtain ⟨u', b1, e, hu, hn, hg1, -⟩ := next_step hcr hs hg
  rw [hb] at hn
  have := congrArg (fun r : Outcome (WordBounds × Option (List Nat)) => match r with | .ok x => x.1 | .panic => b) hn
  simp only at this
  rw [this]; exact hg1

theorem good_nextBack {wb : Nat → WB} (hcr : CrOneByte wb) (b b' : WordBounds) (u : List Nat) (hg : Good2 wb b) (hb : b.nextBack wb = .ok (b', some u)) :
    Good2 wb b' := by
  have hs : b.string ≠ [] := by intro hs; rw [(next_end hs).2] at hb; cases hb
  obtain ⟨u', b1, e, hu, hn, hg1, -⟩ := nextBack_step hcr hs hg
  rw [hb] at hn
  have := congrArg (fun r : Outcome (WordBounds × Option (List Nat)) => match r with | .ok x => x.1 | .panic => b) hn
  simp only at this
  rw [this]; exact hg1

theorem run_words {wb : Nat → WB} (hcr : CrOneByte wb) (keep : List Nat → Bool) (n : Nat) :
    ∀ (b : WordBounds) (ps : List (List Nat)), Good2 wb b → Run (·.next wb) b ps →
    ∃ w, calls (·.next wb keep) (·.nextBack wb keep) (⟨b⟩ : Words) (List.replicate n .front) =
      .ok ((deque (ps.filter keep) (List.replicate n .front)).1, w) := by
  induction n with
  | zero => intro b ps _ _; exact ⟨⟨b⟩, rfl⟩
  | succ n ih =>
    intro b ps hg h
    obtain ⟨b', qs, h1, h0, h2, h3⟩ := run_filter (keep := keep) h (Good2 wb) (good_next hcr) hg (b.string.length + 1)
      (Nat.lt_succ_of_le (run_length hcr hg h))
    obtain ⟨w, hw⟩ := ih b' qs h0 h2
    have hn : Words.next wb keep ⟨b⟩ = .ok (⟨b'⟩, (ps.filter keep).head?) := by simp only [Words.next, h1, bind_ok, pure_eq]
    refine ⟨w, ?_⟩
    simp only [List.replicate_succ, calls, hn, bind_ok, hw, pure_eq, deque, h3]

theorem run_wordsBack {wb : Nat → WB} (hcr : CrOneByte wb) (keep : List Nat → Bool) (n : Nat) :
    ∀ (b : WordBounds) (ps : List (List Nat)), Good2 wb b → Run (·.nextBack wb) b ps →
    ∃ w, calls (·.next wb keep) (·.nextBack wb keep) (⟨b⟩ : Words) (List.replicate n .back) =
      .ok ((deque (ps.reverse.filter keep) (List.replicate n .back)).1, w) := by
  induction n with
  | zero => intro b ps _ _; exact ⟨⟨b⟩, rfl⟩
  | succ n ih =>
    intro b ps hg h
    obtain ⟨b', qs, h1, h0, h2, h3⟩ := run_filter (keep := keep) h (Good2 wb) (good_nextBack hcr) hg (b.string.length + 1)
      (Nat.lt_succ_of_le (run_lengthBack hcr hg h))
    obtain ⟨w, hw⟩ := ih b' qs h0 h2
    have hn : Words.nextBack wb keep ⟨b⟩ = .ok (⟨b'⟩, (ps.filter keep).head?) := by simp only [Words.nextBack, h1, bind_ok, pure_eq]
    refine ⟨w, ?_⟩
    rw [List.filter_reverse] at hw
    rw [List.filter_reverse]
    simp only [List.replicate_succ, calls, hn, bind_ok, hw, pure_eq, deque, h3, List.dropLast_reverse, List.getLast?_reverse]

/-- **C38.** Going forward through a text, `split_word_bounds` and `words` see the same pieces: `words` returns those that
pass the filter. -/
theorem c38_words_forward (wb : Nat → WB) (hcr : CrOneByte wb) (s : List Nat) :
    ∃ ps : List (List Nat), ps.flatten = s ∧ (∀ p ∈ ps, p ≠ []) ∧ ∀ (keep : List Nat → Bool) (n : Nat), ∃ b w,
      calls (·.next wb) (·.nextBack wb) (WordBounds.new s) (List.replicate n .front) = .ok ((deque ps (List.replicate n .front)).1, b) ∧
      calls (·.next wb keep) (·.nextBack wb keep) (Words.new s) (List.replicate n .front) =
        .ok ((deque (ps.filter keep) (List.replicate n .front)).1, w) := by
  obtain ⟨ps, h1, h2, h3⟩ := run_next hcr s.length (.new s) (Nat.le_refl _) (good_new wb s)
  refine ⟨ps, h2, h3, fun keep n => ?_⟩
  obtain ⟨b, hb⟩ := run_calls h1 n
  obtain ⟨w, hw⟩ := run_words hcr keep n _ ps (good_new wb s) h1
  exact ⟨b, w, hb, hw⟩

/-- **C38.** The same going backward. -/
theorem c38_words_backward (wb : Nat → WB) (hcr : CrOneByte wb) (s : List Nat) :
    ∃ ps : List (List Nat), ps.flatten = s ∧ (∀ p ∈ ps, p ≠ []) ∧ ∀ (keep : List Nat → Bool) (n : Nat), ∃ b w,
      calls (·.next wb) (·.nextBack wb) (WordBounds.new s) (List.replicate n .back) = .ok ((deque ps (List.replicate n .back)).1, b) ∧
      calls (·.next wb keep) (·.nextBack wb keep) (Words.new s) (List.replicate n .back) =
        .ok ((deque (ps.filter keep) (List.replicate n .back)).1, w) := by
  obtain ⟨ps, h1, h2, h3⟩ := run_nextBack hcr s.length (.new s) (Nat.le_refl _) (good_new wb s)
  refine ⟨ps.reverse, h2, fun p hp => h3 p (List.mem_reverse.mp hp), fun keep n => ?_⟩
  obtain ⟨b, hb⟩ := run_callsBack h1 n
  obtain ⟨w, hw⟩ := run_wordsBack hcr keep n _ ps (good_new wb s) h1
  exact ⟨b, w, hb, hw⟩

/-- The hypothesis of C38 and C39 holds of the property table of the library: its only CR is U+000D. -/
theorem c38_table : CrOneByte Ucd.wordBreak := ucd_cr

/-- "It's 3.5" from both ends, with offsets, and the pieces that have a letter or digit -/
example :
    (calls (·.next Ucd.wordBreak) (·.nextBack Ucd.wordBreak)
      (WordBoundIndices.new [0x49, 0x74, 0x27, 0x73, 0x20, 0x33, 0x2E, 0x35]) [.front, .back, .front, .back]).map Prod.fst =
      .ok [some (0, [0x49, 0x74, 0x27, 0x73]), some (5, [0x33, 0x2E, 0x35]), some (4, [0x20]), none] ∧
    (calls (·.next Ucd.wordBreak fun p => p.any (0x30 ≤ ·)) (·.nextBack Ucd.wordBreak fun p => p.any (0x30 ≤ ·))
      (Words.new [0x49, 0x74, 0x27, 0x73, 0x20, 0x33, 0x2E, 0x35]) [.front, .front, .front]).map Prod.fst =
      .ok [some [0x49, 0x74, 0x27, 0x73], some [0x33, 0x2E, 0x35], none] := by
  decide +kernel

/-! ## C39 -/

/-- Extend, Format or ZWJ: the classes rule WB4 skips -/
def Skipped (c : WordBreak) : Prop := c = .Extend ∨ c = .Format ∨ c = .ZWJ
/-- MidLetter, MidNum, MidNumLet, Single_Quote, Double_Quote -/
def Mid (c : WordBreak) : Prop := c = .MidLetter ∨ c = .MidNum ∨ c = .MidNumLet ∨ c = .SingleQuote ∨ c = .DoubleQuote
/-- the classes some rule keeps together with what precedes them -/
def Joins (c : WordBreak) : Prop :=
  c = .ALetter ∨ c = .HebrewLetter ∨ c = .Numeric ∨ c = .Katakana ∨ c = .ExtendNumLet ∨ c = .RegionalIndicator ∨ c = .EModifier ∨ Mid c

/-- The text, given by the classes of its characters, has none of the three sequences on which `next` departs from UAX #29. -/
structure NextClean (k : List WordBreak) : Prop where
  /-- a ZWJ before Glue_After_Zwj or E_Base_GAZ does not follow (through skipped characters) a Mid character -/
  mid : ∀ p m J g q, k = p ++ [m] ++ J ++ [.ZWJ, g] ++ q → Mid m → (∀ i ∈ J, Skipped i) → g ≠ .GlueAfterZwj ∧ g ≠ .EBaseGAZ
  /-- after ZWJ Glue_After_Zwj the next character that is not skipped is not of a joining class -/
  glue : ∀ p J x q, k = p ++ [.ZWJ, .GlueAfterZwj] ++ J ++ [x] ++ q → (∀ i ∈ J, Skipped i) → ¬ Joins x
  /-- an E_Modifier does not follow (through skipped characters) another -/
  modifier : ∀ p J q, k = p ++ [.EModifier] ++ J ++ [.EModifier] ++ q → (∀ i ∈ J, Skipped i) → False

/-- The text does not have the one sequence on which `next_back` departs from UAX #29: ZWJ, E_Base, skipped characters,
E_Modifier. -/
def NextBackClean (k : List WordBreak) : Prop :=
  ∀ p J q, k = p ++ [.ZWJ, .EBase] ++ J ++ [.EModifier] ++ q → (∀ i ∈ J, Skipped i) → False

theorem skipped_iff (c : WB) : isIgn c = true ↔ Skipped c := by cases c <;> simp [isIgn, Skipped]
theorem mid_iff (c : WB) : midQ c = true ↔ Mid c := by cases c <;> simp [midQ, Mid]
theorem joins_iff (c : WB) : joiner c = false ↔ ¬ Joins c := by cases c <;> simp [joiner, midQ, Joins, Mid]

theorem NextClean.fwd {k : List WB} (h : NextClean k) : FwdClean k := by
  refine ⟨?_, ?_, ?_⟩
  · intro p m J g q e hm hJ
    exact h.mid p m J g q (by rw [e]; simp) ((mid_iff m).mp hm) (fun i hi => (skipped_iff i).mp (hJ i hi))
  · intro p J x q e hJ
    exact (joins_iff x).mpr (h.glue p J x q (by rw [e]; simp) (fun i hi => (skipped_iff i).mp (hJ i hi)))
  · intro p J q e hJ
    exact h.modifier p J q (by rw [e]; simp) (fun i hi => (skipped_iff i).mp (hJ i hi))

theorem NextBackClean.bwd {k : List WB} (h : NextBackClean k) : BwdClean k := by
  intro p J q e hJ
  exact h p J q (by rw [e]; simp) (fun i hi => (skipped_iff i).mp (hJ i hi))

theorem seg_calls {wb : Nat → WB} (hcr : CrOneByte wb) (ops : List End) :
    ∀ (b : WordBounds) (off : Nat) (ps : List (List Nat)), Good2 wb b → Segmentation (Boundary wb) b.string ps →
      (.front ∈ ops → FwdClean (b.string.map wb)) → (.back ∈ ops → BwdClean (b.string.map wb)) →
      ∃ b' off', calls (·.next wb) (·.nextBack wb) b ops = .ok ((deque ps ops).1, b') ∧
        calls (·.next wb) (·.nextBack wb) (⟨off, b⟩ : WordBoundIndices) ops = .ok ((deque (indexed blen off ps) ops).1, ⟨off', b'⟩) ∧
        b'.string = (deque ps ops).2.flatten := by
  induction ops with
  | nil => intro b off ps hg hp _ _; exact ⟨b, off, rfl, rfl, hp.1.symm⟩
  | cons op ops ih =>
    intro b off ps hg hp hF hB
    by_cases hs : b.string = []
    · have : ps = [] := hp.unique (hs ▸ seg_nil wb)
      subst this
      obtain ⟨b', off', h1, h2, h3⟩ := ih b off [] hg hp (fun h => hF (List.mem_cons_of_mem _ h)) (fun h => hB (List.mem_cons_of_mem _ h))
      cases op with
      | front =>
        refine ⟨b', off', ?_, ?_, h3⟩
        · simp only [calls, (next_end (wb := wb) hs).1, bind_ok, pure_eq, h1]; rfl
        · simp only [calls, (idx_end (wb := wb) off hs).1, bind_ok, pure_eq, h2]; rfl
      | back =>
        refine ⟨b', off', ?_, ?_, h3⟩
        · simp only [calls, (next_end (wb := wb) hs).2, bind_ok, pure_eq, h1]; rfl
        · simp only [calls, (idx_end (wb := wb) off hs).2, bind_ok, pure_eq, h2]; rfl
    · cases op with
      | front =>
        obtain ⟨u, b1, e, hu, hn, hg1, hf⟩ := next_step hcr hs hg
        obtain ⟨qs, hq⟩ := seg_exists wb _ b1.string (Nat.le_refl _)
        have := hp.unique (e ▸ seg_front hu (hf (hF (by simp))) hq)
        subst this
        rw [e, List.map_append] at hF hB
        obtain ⟨b', off', h1, h2, h3⟩ := ih b1 (off + blen u) qs hg1 hq
          (fun h => fwdClean_right (hF (List.mem_cons_of_mem _ h))) (fun h => bwdClean_right (hB (List.mem_cons_of_mem _ h)))
        refine ⟨b', off', ?_, ?_, h3⟩
        · simp only [calls, hn, bind_ok, pure_eq, h1, deque]; rfl
        · simp only [calls, idx_next off hn, bind_ok, pure_eq, h2, deque, indexed]; rfl
      | back =>
        obtain ⟨w, b1, e, hw, hn, hg1, hf⟩ := nextBack_step hcr hs hg
        obtain ⟨qs, hq⟩ := seg_exists wb _ b1.string (Nat.le_refl _)
        have := hp.unique (e ▸ seg_back hw (hf (hB (by simp))) hq)
        subst this
        rw [e, List.map_append] at hF hB
        obtain ⟨b', off', h1, h2, h3⟩ := ih b1 off qs hg1 hq
          (fun h => fwdClean_left (hF (List.mem_cons_of_mem _ h))) (fun h => bwdClean_left (hB (List.mem_cons_of_mem _ h)))
        refine ⟨b', off', ?_, ?_, by simpa [deque] using h3⟩
        · simp only [calls, hn, bind_ok, pure_eq, h1, deque]; simp
        · have : blen b1.string = (qs.map blen).sum := by rw [← hq.1, blen_flatten]
          simp only [calls, idx_nextBack off hn, bind_ok, pure_eq, h2, deque, indexed_append, indexed, this]; simp

/-- **C39, partial.** Every text has one division `ps` into pieces at the boundaries of rules WB1–WB999, and whatever
sequence of `next` and `next_back` calls is made on `split_word_bounds(s)` (with or without indices), the answers are those of
a double-ended queue of these pieces — provided the text has none of the sequences that `next` (if it is called) and
`next_back` (if it is called) mishandle. In particular the boundaries then do not depend on the direction. Missing: the texts
with those sequences, for which the claim is false (`c39_forward_false`, `c39_backward_false`). -/
theorem c39_boundaries_partial (wb : Nat → WB) (hcr : CrOneByte wb) (s : List Nat) :
    ∃ ps, Segmentation (Boundary wb) s ps ∧ (∀ qs, Segmentation (Boundary wb) s qs → qs = ps) ∧
      ∀ ops : List End, (.front ∈ ops → NextClean (s.map wb)) → (.back ∈ ops → NextBackClean (s.map wb)) →
        ∃ b off, calls (·.next wb) (·.nextBack wb) (WordBounds.new s) ops = .ok ((deque ps ops).1, b) ∧
          calls (·.next wb) (·.nextBack wb) (WordBoundIndices.new s) ops = .ok ((deque (indexed blen 0 ps) ops).1, ⟨off, b⟩) ∧
          b.asStr = (deque ps ops).2.flatten := by
  obtain ⟨ps, hp⟩ := seg_exists wb _ s (Nat.le_refl _)
  exact ⟨ps, hp, fun qs hq => hq.unique hp, fun ops hF hB =>
    seg_calls hcr ops (.new s) 0 ps (good_new wb s) hp (fun h => (hF h).fwd) (fun h => (hB h).bwd)⟩

/-- **C39, partial.** The same for texts without ZWJ and emoji modifiers, which have none of those sequences. -/
theorem c39_no_zwj_partial (wb : Nat → WB) (hcr : CrOneByte wb) (s : List Nat) (h : ∀ c ∈ s, wb c ≠ .ZWJ ∧ wb c ≠ .EModifier) :
    ∃ ps, Segmentation (Boundary wb) s ps ∧ ∀ ops : List End,
      ∃ b off, calls (·.next wb) (·.nextBack wb) (WordBounds.new s) ops = .ok ((deque ps ops).1, b) ∧
        calls (·.next wb) (·.nextBack wb) (WordBoundIndices.new s) ops = .ok ((deque (indexed blen 0 ps) ops).1, ⟨off, b⟩) ∧
        b.asStr = (deque ps ops).2.flatten := by
  have hm : ∀ k ∈ s.map wb, k ≠ .ZWJ ∧ k ≠ .EModifier := by
    intro k hk; obtain ⟨c, hc, rfl⟩ := List.mem_map.mp hk; exact h c hc
  obtain ⟨ps, hp, -, hc⟩ := c39_boundaries_partial wb hcr s
  refine ⟨ps, hp, fun ops => hc ops (fun _ => ⟨?_, ?_, ?_⟩) (fun _ => ?_)⟩
  · intro p m J g q e _ _; exact absurd rfl (hm .ZWJ (by rw [e]; simp)).1
  · intro p J x q e _; exact absurd rfl (hm .ZWJ (by rw [e]; simp)).1
  · intro p J q e _; exact (hm .EModifier (by rw [e]; simp)).2 rfl
  · intro p J q e _; exact (hm .EModifier (by rw [e]; simp)).2 rfl

/-- the boundaries of `s` are the ends of the pieces `ps`, as a computation -/
def segCheck (wb : Nat → WB) (s : List Nat) (ps : List (List Nat)) : Bool :=
  decide (ps.flatten = s) && ps.all (fun p => !p.isEmpty) &&
    (List.range (s.length + 1)).all fun n =>
      Bd wb (s.take n) (s.drop n) == (List.range (ps.length + 1)).any fun k => decide (s.take n = (ps.take k).flatten)

theorem seg_of_check {wb : Nat → WB} {s : List Nat} {ps : List (List Nat)} (h : segCheck wb s ps = true) :
    Segmentation (Boundary wb) s ps := by
  simp only [segCheck, Bool.and_eq_true, decide_eq_true_eq, List.all_eq_true, List.mem_range, beq_iff_eq, Bool.not_eq_true',
    List.isEmpty_eq_false_iff] at h
  obtain ⟨⟨h1, h2⟩, h3⟩ := h
  refine ⟨h1, h2, ?_⟩
  intro a b e
  have := h3 a.length (by rw [e, List.length_append]; omega)
  rw [e, List.take_left, List.drop_left] at this
  rw [← Bd_iff, this, List.any_eq_true]
  constructor
  · rintro ⟨k, -, hk⟩; exact ⟨k, of_decide_eq_true hk⟩
  · rintro ⟨k, hk⟩
    by_cases hl : k ≤ ps.length
    · exact ⟨k, List.mem_range.mpr (by omega), decide_eq_true hk⟩
    · refine ⟨ps.length, List.mem_range.mpr (by omega), decide_eq_true ?_⟩
      rw [hk, List.take_of_length_le (by omega), List.take_length]

/-- **C39 fails going forward.** UAX #29 puts a boundary in "a ZWJ ❤ a" only before the last "a", but `next` gives the whole
text as one piece, while `next_back` does find that boundary: the boundaries depend on the direction. -/
theorem c39_forward_false :
    Segmentation (Boundary Ucd.wordBreak) [0x61, 0x200D, 0x2764, 0x61] [[0x61, 0x200D, 0x2764], [0x61]] ∧
    (calls (·.next Ucd.wordBreak) (·.nextBack Ucd.wordBreak) (WordBounds.new [0x61, 0x200D, 0x2764, 0x61]) [.front, .front]).map Prod.fst =
      .ok [some [0x61, 0x200D, 0x2764, 0x61], none] ∧
    (calls (·.next Ucd.wordBreak) (·.nextBack Ucd.wordBreak) (WordBounds.new [0x61, 0x200D, 0x2764, 0x61]) [.back, .back, .back]).map Prod.fst =
      .ok [some [0x61], some [0x61, 0x200D, 0x2764], none] := by
  exact ⟨seg_of_check (by decide +kernel), by decide +kernel, by decide +kernel⟩

/-- **C39 fails going forward** on the other two sequences as well: "a ' ZWJ 👩" has a boundary after "a" only, and two
emoji modifiers after ☝ have a boundary between them. -/
theorem c39_forward_false' :
    (Segmentation (Boundary Ucd.wordBreak) [0x61, 0x27, 0x200D, 0x1F469] [[0x61], [0x27, 0x200D, 0x1F469]] ∧
     (calls (·.next Ucd.wordBreak) (·.nextBack Ucd.wordBreak) (WordBounds.new [0x61, 0x27, 0x200D, 0x1F469]) [.front, .front, .front]).map Prod.fst ≠
      .ok [some [0x61], some [0x27, 0x200D, 0x1F469], none]) ∧
    (Segmentation (Boundary Ucd.wordBreak) [0x261D, 0x1F3FB, 0x1F3FB] [[0x261D, 0x1F3FB], [0x1F3FB]] ∧
     (calls (·.next Ucd.wordBreak) (·.nextBack Ucd.wordBreak) (WordBounds.new [0x261D, 0x1F3FB, 0x1F3FB]) [.front, .front]).map Prod.fst =
      .ok [some [0x261D, 0x1F3FB, 0x1F3FB], none]) := by
  exact ⟨⟨seg_of_check (by decide +kernel), by decide +kernel⟩, seg_of_check (by decide +kernel), by decide +kernel⟩

/-- **C39 fails going backward.** ZWJ, ☝ (E_Base), light skin tone (E_Modifier): there is a boundary after the ZWJ, which
`next` finds and `next_back` does not. -/
theorem c39_backward_false :
    Segmentation (Boundary Ucd.wordBreak) [0x200D, 0x261D, 0x1F3FB] [[0x200D], [0x261D, 0x1F3FB]] ∧
    (calls (·.next Ucd.wordBreak) (·.nextBack Ucd.wordBreak) (WordBounds.new [0x200D, 0x261D, 0x1F3FB]) [.back, .back]).map Prod.fst =
      .ok [some [0x200D, 0x261D, 0x1F3FB], none] ∧
    (calls (·.next Ucd.wordBreak) (·.nextBack Ucd.wordBreak) (WordBounds.new [0x200D, 0x261D, 0x1F3FB]) [.front, .front, .front]).map Prod.fst =
      .ok [some [0x200D], some [0x261D, 0x1F3FB], none] :=
  ⟨seg_of_check (by decide +kernel), by decide +kernel, by decide +kernel⟩

/-- Non-vacuity of C39: an emoji ZWJ sequence (👩 ZWJ ❤ ZWJ 👩) between words satisfies both hypotheses. -/
example : NextClean (([0x61, 0x20, 0x1F469, 0x200D, 0x2764, 0x200D, 0x1F469, 0x20, 0x62] : List Nat).map Ucd.wordBreak) ∧
    NextBackClean (([0x61, 0x20, 0x1F469, 0x200D, 0x2764, 0x200D, 0x1F469, 0x20, 0x62] : List Nat).map Ucd.wordBreak) := by
  have k : ([0x61, 0x20, 0x1F469, 0x200D, 0x2764, 0x200D, 0x1F469, 0x20, 0x62] : List Nat).map Ucd.wordBreak =
    [.ALetter, .Other, .EBaseGAZ, .ZWJ, .GlueAfterZwj, .ZWJ, .EBaseGAZ, .Other, .ALetter] := by decide +kernel
  rw [k]
  have hm : ∀ m, Mid m → m ∉ ([.ALetter, .Other, .EBaseGAZ, .ZWJ, .GlueAfterZwj, .ZWJ, .EBaseGAZ, .Other, .ALetter] : List WB) := by
    intro m hm; rcases hm with rfl | rfl | rfl | rfl | rfl <;> decide
  refine ⟨⟨?_, ?_, ?_⟩, ?_⟩
  · intro p m J g q e h _; exact absurd (by rw [e]; simp) (hm m h)
  · intro p J x q e hJ hx
    have key : ∀ n, ([.ALetter, .Other, .EBaseGAZ, .ZWJ, .GlueAfterZwj, .ZWJ, .EBaseGAZ, .Other, .ALetter] : List WB).drop n =
        .ZWJ :: .GlueAfterZwj :: (J ++ x :: q) → J ++ x :: q = [.ZWJ, .EBaseGAZ, .Other, .ALetter] := by
      intro n h
      match n with
      | 0 | 1 | 2 | 4 | 5 | 6 | 7 | 8 => simp at h
      | 3 => simpa using h.symm
      | n + 9 => simp at h
    have := key p.length (by rw [e]; simp)
    match J, this with
    | [], h => simp at h; rw [h.1] at hx; revert hx; simp [Joins, Mid]
    | [j], h => simp at h; rw [h.2.1] at hx; revert hx; simp [Joins, Mid]
    | j :: j' :: J, h =>
      simp at h
      have := hJ j' (by simp)
      rw [h.2.1] at this; revert this; simp [Skipped]
  · intro p J q e _; exact absurd (by rw [e]; simp) (by decide : (.EModifier : WB) ∉ ([.ALetter, .Other, .EBaseGAZ, .ZWJ, .GlueAfterZwj, .ZWJ, .EBaseGAZ, .Other, .ALetter] : List WB))
  · intro p J q e _; exact absurd (by rw [e]; simp) (by decide : (.EModifier : WB) ∉ ([.ALetter, .Other, .EBaseGAZ, .ZWJ, .GlueAfterZwj, .ZWJ, .EBaseGAZ, .Other, .ALetter] : List WB))

end Props.Word
