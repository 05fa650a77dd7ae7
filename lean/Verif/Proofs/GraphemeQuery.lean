import Verif.Proofs.GraphemeNext

/-! A single `is_boundary` query with a fresh cursor on a chunk of the text. -/
namespace Proofs.Grapheme
open Data Spec.Segment Model Model.Grapheme Proofs.Punycode

variable {gcb : Nat → GCB} {ext : Bool}

/-- A fresh cursor at the start of a chunk asks for pre-context. -/
theorem fresh_start {ra b1 R : List Nat} {y : Nat} (hra : ra ≠ []) :
    (Cursor.new ext (blen ra) (blen (ra.reverse ++ (y :: b1 ++ R)))).isBoundary gcb (y :: b1) (blen ra) =
      .ok ({ Cursor.new ext (blen ra) (blen (ra.reverse ++ (y :: b1 ++ R))) with
              catAfter := some (gcb y)
              state := match gcb y with | .RegionalIndicator => .Regional | .EModifier => .Emoji | _ => .Unknown
              preContextOffset := some (blen ra) }, .error (.PreContext (blen ra))) := by
  obtain ⟨x, ra, rfl⟩ := List.exists_cons_of_ne_nil hra
  have hp1 := blen_pos x ra
  have hp2 := blen_pos y b1
  have hp3 := blen_pos y (b1 ++ R)
  have hlen : blen ((x :: ra).reverse ++ (y :: b1 ++ R)) = blen (x :: ra) + blen (y :: (b1 ++ R)) := by
    rw [blen_append, blen_reverse]; rfl
  have hst : (Cursor.new ext (blen (x :: ra)) (blen ((x :: ra).reverse ++ (y :: b1 ++ R)))).state = .Unknown := by
    simp only [Cursor.new]; rw [if_neg (by omega)]
  unfold Cursor.isBoundary
  rw [if_neg (by rw [hst]; simp), if_neg (by rw [hst]; simp)]
  rw [if_neg (by simp only [Cursor.new]; omega)]
  simp only [Cursor.new]
  rw [if_neg (by omega)]
  simp only [Cursor.afterCat, Nat.sub_self, sliceFrom_zero, bind_ok, if_true]
  cases hy : gcb y <;> simp [Cursor.atChunkStart]
  all_goals
    have hlen' : blen (ra.reverse ++ x :: y :: (b1 ++ R)) = blen (x :: ra) + blen (y :: (b1 ++ R)) := by simpa using hlen
    omega

theorem fresh_decided {s : List Nat} {start : Nat} {c : Cursor} {v : Bool} (h : c.state = if v then .Break else .NotBreak) :
    c.isBoundary gcb s start = .ok (c, .ok v) := by
  cases v <;> simp at h <;> simp [Cursor.isBoundary, h]

theorem pre_again {s : List Nat} {c : Cursor} {m start : Nat} (h1 : c.state ≠ .Break) (h2 : c.state ≠ .NotBreak) (h3 : start ≤ c.offset)
    (h4 : c.offset < start + blen s) (h5 : c.preContextOffset = some m) : c.isBoundary gcb s start = .ok (c, .error (.PreContext m)) := by
  unfold Cursor.isBoundary
  rw [if_neg h1, if_neg h2, if_neg (by omega), h5]

/-- A fresh cursor at the start of a chunk that begins with a regional indicator or an emoji modifier gets the right answer. -/
theorem query_start {ra b1 R : List Nat} {y : Nat} (hra : ra ≠ []) (hy : gcb y = .RegionalIndicator ∨ gcb y = .EModifier)
    (ctx : List (List Nat)) (hctx : ctx.reverse.flatten = ra.reverse) (hne : ∀ p ∈ ctx, p ≠ []) :
    ∃ c', ask gcb (·.isBoundary gcb (y :: b1) (blen ra)) ctx (Cursor.new ext (blen ra) (blen (ra.reverse ++ (y :: b1 ++ R)))) =
      .ok (c', .ok (bd gcb ext ra (y :: b1 ++ R))) := by
  have hp2 := blen_pos y b1
  have hctx0 : ctx ≠ [] := by
    rintro rfl
    simp at hctx
    exact hra hctx
  have hbl : blen ctx.reverse.flatten = blen ra := by rw [hctx, blen_reverse]
  have hf := fresh_start (gcb := gcb) (ext := ext) (b1 := b1) (R := R) (y := y) hra
  generalize hc : Cursor.new ext (blen ra) (blen (ra.reverse ++ (y :: b1 ++ R))) = c at *
  have hoff : c.offset = blen ra := by rw [← hc]; rfl
  have hext : c.isExtended = ext := by rw [← hc]; rfl
  have hris : c.risCount = none := by rw [← hc]; rfl
  rcases hy with hy | hy
  · simp only [hy] at hf
    have hq : ∀ m r, ({ c with catAfter := some .RegionalIndicator, state := .Regional, preContextOffset := some m, risCount := r } : Cursor).isBoundary gcb (y :: b1) (blen ra) =
        .ok ({ c with catAfter := some .RegionalIndicator, state := .Regional, preContextOffset := some m, risCount := r }, .error (.PreContext m)) :=
      fun m r => pre_again (by simp) (by simp) (by simp only; omega) (by simp only; omega) rfl
    obtain ⟨ctx', r', e⟩ := ask_regional (gcb := gcb) (ext := ext) (query := (·.isBoundary gcb (y :: b1) (blen ra)))
      (c := { c with catAfter := some .RegionalIndicator, state := .Regional }) rfl hext hq ctx hctx0 hne [] none
      (by intro x hx; cases hx) rfl (by rw [hbl, blen_nil, Nat.zero_add]; exact hoff)
    rw [hbl, hctx, List.reverse_reverse, List.nil_append, ← bd_RI (b := b1 ++ R) hy hra] at e
    have e0 := ask_congr (gcb := gcb) (query := (·.isBoundary gcb (y :: b1) (blen ra))) (ctx := ctx) (c := c)
      (c' := { c with catAfter := some .RegionalIndicator, state := .Regional, preContextOffset := some (blen ra), risCount := none })
      (by rw [hf, hq, hris])
    rw [e0, e]
    exact ⟨_, ask_pass (fresh_decided rfl) (by simp)⟩
  · simp only [hy] at hf
    have hq : ∀ m, ({ c with catAfter := some .EModifier, state := .Emoji, preContextOffset := some m } : Cursor).isBoundary gcb (y :: b1) (blen ra) =
        .ok ({ c with catAfter := some .EModifier, state := .Emoji, preContextOffset := some m }, .error (.PreContext m)) :=
      fun m => pre_again (by simp) (by simp) (by simp only; omega) (by simp only; omega) rfl
    obtain ⟨ctx', e⟩ := ask_emoji (gcb := gcb) (ext := ext) (query := (·.isBoundary gcb (y :: b1) (blen ra)))
      (c := { c with catAfter := some .EModifier, state := .Emoji }) rfl hext hq ctx hctx0 hne []
      (by intro x hx; cases hx) (by rw [hbl, blen_nil, Nat.zero_add]; exact hoff)
    rw [hbl, hctx, List.reverse_reverse, List.nil_append, ← bd_EM (b := b1 ++ R) hy hra] at e
    have e0 := ask_congr (gcb := gcb) (query := (·.isBoundary gcb (y :: b1) (blen ra))) (ctx := ctx) (c := c)
      (c' := { c with catAfter := some .EModifier, state := .Emoji, preContextOffset := some (blen ra) })
      (by rw [hf, hq])
    rw [e0, e]
    exact ⟨_, ask_pass (fresh_decided rfl) (by simp)⟩

theorem ask_panic {α : Type} {query : Cursor → Outcome (Cursor × Except Incomplete α)} {p : List Nat} {ctx : List (List Nat)} {c c' : Cursor} {n : Nat}
    (h : query c = .ok (c', .error (.PreContext n))) (h2 : c'.provideContext gcb p (n - blen p) = .panic) :
    ask gcb query (p :: ctx) c = .panic := by
  rw [ask, h]
  simp only [bind_ok]
  rw [h2]
  simp only [bind_panic]

/-- A fresh cursor at the start of any other chunk but the first: the pre-context it asked for makes it panic, or, after a
`Prepend` character, decide that there is no boundary. -/
theorem query_start_other {ra b1 R : List Nat} {y : Nat} (hra : ra ≠ []) (hy1 : gcb y ≠ .RegionalIndicator) (hy2 : gcb y ≠ .EModifier)
    (ctx : List (List Nat)) (hctx : ctx.reverse.flatten = ra.reverse) (hne : ∀ p ∈ ctx, p ≠ []) :
    if ext = true ∧ ra.head?.map gcb = some GraphemeClusterBreak.Prepend then
      ∃ c', ask gcb (·.isBoundary gcb (y :: b1) (blen ra)) ctx (Cursor.new ext (blen ra) (blen (ra.reverse ++ (y :: b1 ++ R)))) = .ok (c', .ok false)
    else ask gcb (·.isBoundary gcb (y :: b1) (blen ra)) ctx (Cursor.new ext (blen ra) (blen (ra.reverse ++ (y :: b1 ++ R)))) = .panic := by
  have hf := fresh_start (gcb := gcb) (ext := ext) (b1 := b1) (R := R) (y := y) hra
  generalize hc : Cursor.new ext (blen ra) (blen (ra.reverse ++ (y :: b1 ++ R))) = c at *
  have hoff : c.offset = blen ra := by rw [← hc]; rfl
  have hext : c.isExtended = ext := by rw [← hc]; rfl
  have hst : (match gcb y with | .RegionalIndicator => State.Regional | .EModifier => .Emoji | _ => .Unknown) = .Unknown := by
    revert hy1 hy2; cases gcb y <;> simp
  rw [hst] at hf
  cases ctx with
  | nil => simp at hctx; exact absurd hctx hra
  | cons p ctx =>
    have hp := hne p (by simp)
    obtain ⟨q, x, rfl⟩ := (List.eq_nil_or_concat p).resolve_left hp
    rw [List.concat_eq_append] at *
    have hra' : ra = x :: (q.reverse ++ ctx.reverse.flatten.reverse) := by
      have := congrArg List.reverse hctx
      simpa using this.symm
    have hsub : blen ra - blen (q ++ [x]) + blen (q ++ [x]) = blen ra := by
      rw [hra', blen_cons, blen_append, blen_append, blen_reverse, blen_cons, blen_nil]; omega
    split
    case isTrue h =>
      have hx : gcb x = .Prepend := by rw [hra'] at h; simpa using h.2
      have hpc : ({ c with catAfter := some (gcb y), state := .Unknown, preContextOffset := some (blen ra) } : Cursor).provideContext gcb (q ++ [x]) (blen ra - blen (q ++ [x])) =
          .ok ({ c with catAfter := some (gcb y), state := .Unknown, preContextOffset := none }.decide false) := by
        unfold Cursor.provideContext
        simp only
        rw [if_neg (by simpa using hsub), if_pos ⟨by rw [hext]; exact h.1, by rw [hsub, hoff]⟩]
        simp [hx]
      rw [ask_more hf hpc]
      exact ⟨_, ask_pass (fresh_decided (v := false) rfl) (by simp)⟩
    case isFalse h =>
      refine ask_panic hf ?_
      unfold Cursor.provideContext
      simp only
      rw [if_neg (by simpa using hsub)]
      by_cases he : ext = true
      · have hx : gcb x ≠ .Prepend := by
          intro hx; apply h; rw [hra']; exact ⟨he, by simp [hx]⟩
        rw [if_pos ⟨by rw [hext]; exact he, by rw [hsub, hoff]⟩]
        simp [hx]
      · rw [if_neg (by rw [hext]; exact fun h => he h.1)]

/-- A fresh cursor inside a chunk, when the chunk is enough to decide. -/
theorem query_inside {ra1 ra2 b1 R : List Nat} {y : Nat} (h1 : ra2 = [] ∨ ra1 ≠ [])
    (hR : gcb y = .RegionalIndicator → ra2 = [] ∨ ¬ AllRI gcb ra1) (hE : gcb y = .EModifier → ra2 = [] ∨ ¬ AllExtend gcb ra1)
    (ctx : List (List Nat)) :
    ∃ c', ask gcb (·.isBoundary gcb (ra1.reverse ++ y :: b1) (blen ra2)) ctx
        (Cursor.new ext (blen (ra1 ++ ra2)) (blen ((ra1 ++ ra2).reverse ++ (y :: b1 ++ R)))) =
      .ok (c', .ok (bd gcb ext (ra1 ++ ra2) (y :: b1 ++ R))) := by
  have hat := At.new gcb ext (ra1 ++ ra2) (y :: b1 ++ R)
  by_cases h0 : ra1 = []
  · have h2 := h1.resolve_right (by simpa using h0)
    subst h0 h2
    refine ⟨Cursor.new ext (blen ([] ++ [])) (blen (([] ++ [] : List Nat).reverse ++ (y :: b1 ++ R))), ask_pass (fresh_decided ?_) (by simp)⟩
    rcases hat.state with h | h
    · exact absurd rfl h.2.1
    · exact h
  · obtain ⟨c', e, _⟩ := hat.isBoundary_in (b1 := y :: b1) h0 (by simp) (by rintro _ _ ⟨⟩ hy _; exact hR hy) (by rintro _ _ ⟨⟩ hy; exact hE hy)
    exact ⟨c', ask_pass e (by simp)⟩

theorem undecided (c : Cursor) {n o : Nat} (h1 : c.state = .Unknown) (h2 : c.preContextOffset = some n) (h3 : c.offset = o) :
    ∃ c', (do let r ← c.isBoundaryResult; pure (c, r) : Outcome (Cursor × Except Incomplete Bool)) = .ok (c', .error (.PreContext n)) ∧
      c'.state = .Unknown ∧ c'.preContextOffset = some n ∧ c'.offset = o := by
  refine ⟨c, ?_, h1, h2, h3⟩
  simp [Cursor.isBoundaryResult, h1, h2, bind_ok, pure_eq]

/-- A fresh cursor inside a chunk, when the chunk is not enough to decide: it asks for pre-context and then panics on it. -/
theorem query_inside_run {ra1 ra2 b1 R : List Nat} {y : Nat} (h1 : ra1 ≠ []) (h2 : ra2 ≠ [])
    (hrun : (gcb y = .RegionalIndicator ∧ AllRI gcb ra1) ∨ (gcb y = .EModifier ∧ AllExtend gcb ra1))
    (ctx : List (List Nat)) (hctx : ctx.reverse.flatten = ra2.reverse) :
    ask gcb (·.isBoundary gcb (ra1.reverse ++ y :: b1) (blen ra2)) ctx
        (Cursor.new ext (blen (ra1 ++ ra2)) (blen ((ra1 ++ ra2).reverse ++ (y :: b1 ++ R)))) = .panic := by
  obtain ⟨x, ra1, rfl⟩ := List.exists_cons_of_ne_nil h1
  have hp1 := blen_pos x ra1
  have hp2 := blen_pos y b1
  have hp3 := blen_pos y (b1 ++ R)
  have hp4 : blen ra2 ≠ 0 := mt (blen_eq_zero ra2).mp h2
  have hlen : blen ((x :: ra1 ++ ra2).reverse ++ (y :: b1 ++ R)) = blen (x :: ra1) + blen ra2 + blen (y :: (b1 ++ R)) := by
    rw [blen_append, blen_reverse, blen_append]; rfl
  have hlen2 : blen ((x :: ra1).reverse ++ y :: b1) = blen (x :: ra1) + blen (y :: b1) := by
    rw [blen_append, blen_reverse]
  have hto := sliceTo_append (x :: ra1).reverse (y :: b1)
  have hfrom := sliceFrom_append (x :: ra1).reverse (y :: b1)
  rw [blen_reverse] at hto hfrom
  generalize hc : Cursor.new ext (blen (x :: ra1 ++ ra2)) (blen ((x :: ra1 ++ ra2).reverse ++ (y :: b1 ++ R))) = c at *
  have hoff : c.offset = blen (x :: ra1) + blen ra2 := by rw [← hc]; exact blen_append _ _
  have hst : c.state = .Unknown := by
    rw [← hc]; simp only [Cursor.new]; rw [if_neg]; rw [blen_append]; omega
  have hpre : c.preContextOffset = none := by rw [← hc]; rfl
  have hris : c.risCount = none := by rw [← hc]; rfl
  have hca : c.catAfter = none := by rw [← hc]; rfl
  have hcb : c.catBefore = none := by rw [← hc]; rfl
  have hsub : c.offset - blen ra2 = blen (x :: ra1) := by omega
  generalize hs : (x :: ra1).reverse ++ y :: b1 = s at *
  have hq : ∃ c', c.isBoundary gcb s (blen ra2) = .ok (c', .error (.PreContext (blen ra2))) ∧ c'.state = .Unknown ∧ c'.preContextOffset = some (blen ra2) ∧
      c'.offset = c.offset := by
    unfold Cursor.isBoundary
    rw [if_neg (by rw [hst]; simp), if_neg (by rw [hst]; simp), if_neg (by omega), hpre]
    simp only
    rw [if_neg (by omega)]
    have hafter : c.afterCat gcb s (c.offset - blen ra2) = .ok (gcb y) := by
      unfold Cursor.afterCat
      rw [hca, hsub, hfrom]
    rw [hafter]
    simp only [bind_ok]
    rw [if_neg (by omega)]
    have hbefore : ({ c with catAfter := some (gcb y), preContextOffset := none } : Cursor).beforeCat gcb s (c.offset - blen ra2) = .ok (gcb x) := by
      unfold Cursor.beforeCat
      simp only [hcb, hsub, hto]
      simp
    unfold Cursor.isBoundaryInside
    rw [hbefore]
    simp only [bind_ok, hsub]
    rcases hrun with ⟨hy, hall⟩ | ⟨hy, hall⟩
    · have hx := hall x (by simp)
      simp only [Cursor.decidePair, hx, hy, checkPair, hris, hto, bind_ok, Cursor.handleRegional, List.reverse_reverse]
      rw [handleRegionalLoop_more _ _ _ _ hp4 hall]
      exact undecided _ hst rfl rfl
    · have hx := hall x (by simp)
      simp only [Cursor.decidePair, hx, hy, checkPair, hto, bind_ok, Cursor.handleEmoji, List.reverse_reverse]
      rw [handleEmojiLoop_more _ _ _ hp4 hall]
      exact undecided _ hst rfl rfl
  obtain ⟨c', q1, q2, q3, q4⟩ := hq
  cases ctx with
  | nil => simp at hctx; exact absurd hctx h2
  | cons p ctx =>
    have hsub2 : blen ra2 - blen p + blen p = blen ra2 := by
      have : blen ra2 = blen ((p :: ctx).reverse.flatten) := by rw [hctx, blen_reverse]
      rw [this]; simp [blen_append]
    refine ask_panic q1 ?_
    unfold Cursor.provideContext
    rw [q3]
    simp only
    rw [if_neg (by simpa using hsub2), if_neg (by rw [hsub2, q4]; omega), q2]

end Proofs.Grapheme
