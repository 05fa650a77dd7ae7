import Verif.Proofs.GraphemeReader
import Verif.Proofs.GraphemeQuery

/-! Backward iteration over chunks. -/
namespace Proofs.Grapheme
open Data Spec.Segment Model Model.Grapheme Proofs.Punycode

variable {gcb : Nat → GCB} {ext : Bool}

/-- The characters `ra1` of the chunk before the position (nearest first) are a run of regional indicators (of `Extend`) that
the character after the position, a regional indicator (emoji modifier), continues. -/
def Run (gcb : Nat → GCB) (ra1 b : List Nat) : Prop :=
  ∃ y s, b = y :: s ∧ ((gcb y = .RegionalIndicator ∧ AllRI gcb ra1) ∨ (gcb y = .EModifier ∧ AllExtend gcb ra1))

/-- if regional indicators have been counted, the count was determined by the chunk -/
def RisIn (gcb : Nat → GCB) (ra1 ra2 : List Nat) (c : Cursor) : Prop := c.risCount ≠ none → ra2 = [] ∨ ¬ AllRI gcb ra1

theorem decidePair_ris {c c' : Cursor} {s : List Nat} {st o : Nat} {x y : GCB} {r : Except Incomplete Bool}
    (h : c.decidePair gcb s st o x y = .ok (c', r)) (hr : c'.risCount ≠ none) : c.risCount ≠ none ∨ y = .RegionalIndicator := by
  have hloopE : ∀ (rev : List Nat) (c : Cursor), (c.handleEmojiLoop gcb st rev).risCount = c.risCount := by
    intro rev
    induction rev with
    | nil => intro c; simp only [Cursor.handleEmojiLoop]; split <;> rfl
    | cons z rev ih =>
      intro c
      simp only [Cursor.handleEmojiLoop]
      split
      · exact ih _
      · rfl
      · rfl
      · rfl
  unfold Cursor.decidePair at h
  cases hp : checkPair x y <;> simp only [hp] at h
  · cases h; exact Or.inl hr
  · cases h; exact Or.inl hr
  · cases h; exact Or.inl hr
  · right; revert hp; cases x <;> cases y <;> simp [checkPair]
  · cases hs : sliceTo s o with
    | panic => rw [hs] at h; cases h
    | ok l =>
      rw [hs] at h
      simp only [bind_ok] at h
      cases hb : (c.handleEmoji gcb l st).isBoundaryResult with
      | panic => rw [hb] at h; cases h
      | ok r => rw [hb] at h; cases h; rw [Cursor.handleEmoji, hloopE] at hr; exact Or.inl hr

/-- `is_boundary` inside a chunk or at its end: it gives the answer of the whole text, or asks for pre-context. -/
theorem At.isBoundary_back {ra1 ra2 b1 R : List Nat} {c : Cursor} (h : At gcb ext (ra1 ++ ra2) (b1 ++ R) c) (h1 : ra1 ≠ [])
    (hb : b1 ≠ [] ∨ c.catAfter ≠ none) (hst : c.state = .Unknown) (hris : RisIn gcb ra1 ra2 c) :
    ((ra2 ≠ [] → ¬ Run gcb ra1 (b1 ++ R)) ∧
      ∃ c', c.isBoundary gcb (ra1.reverse ++ b1) (blen ra2) = .ok (c', .ok (bd gcb ext (ra1 ++ ra2) (b1 ++ R))) ∧
        At gcb ext (ra1 ++ ra2) (b1 ++ R) c' ∧ c'.resuming = c.resuming ∧ c'.catBefore ≠ none ∧ RisIn gcb ra1 ra2 c') ∨
    (ra2 ≠ [] ∧ Run gcb ra1 (b1 ++ R) ∧
      ∃ c', c.isBoundary gcb (ra1.reverse ++ b1) (blen ra2) = .ok (c', .error (.PreContext (blen ra2))) ∧
        c'.state = .Unknown ∧ c'.preContextOffset = some (blen ra2) ∧ c'.offset = blen (ra1 ++ ra2)) := by
  obtain ⟨y, t, hy⟩ : ∃ y t, b1 ++ R = y :: t := by
    rcases hb with hb | hb
    · obtain ⟨y, b, rfl⟩ := List.exists_cons_of_ne_nil hb; exact ⟨y, b ++ R, rfl⟩
    · cases hc : c.catAfter with
      | none => exact absurd hc hb
      | some k => obtain ⟨x, s, h1, _⟩ := h.after k hc; exact ⟨x, s, h1⟩
  obtain ⟨x, ra1, rfl⟩ := List.exists_cons_of_ne_nil h1
  have hoff : c.offset = blen (x :: ra1) + blen ra2 := by rw [h.off, blen_append]
  have hp1 := blen_pos x ra1
  have hlen : blen ((x :: ra1).reverse ++ b1) = blen (x :: ra1) + blen b1 := by rw [blen_append, blen_reverse]
  have hsub : c.offset - blen ra2 = blen (x :: ra1).reverse := by rw [hoff, blen_reverse]; omega
  have hto := sliceTo_append (x :: ra1).reverse b1
  have hfrom := sliceFrom_append (x :: ra1).reverse b1
  rw [← hsub] at hto hfrom
  generalize hs : (x :: ra1).reverse ++ b1 = s at *
  have hin : ¬ ((c.offset < blen ra2 ∨ c.offset ≥ blen ra2 + blen s) ∧ (c.offset > blen ra2 + blen s ∨ c.catAfter = none)) := by
    rintro ⟨k1, k2⟩
    rcases hb with hb | hb
    · have := mt (blen_eq_zero b1).mp hb
      omega
    · rcases k2 with k2 | k2
      · omega
      · exact hb k2
  have hafter : c.afterCat gcb s (c.offset - blen ra2) = .ok (gcb y) := by
    unfold Cursor.afterCat
    cases hc : c.catAfter with
    | none =>
      have : b1 ≠ [] := hb.resolve_right (fun h => h hc)
      obtain ⟨z, b, rfl⟩ := List.exists_cons_of_ne_nil this
      simp only [hfrom]
      cases hy; rfl
    | some k => obtain ⟨x', s', h1, h2⟩ := h.after k hc; rw [hy] at h1; cases h1; rw [h2]
  have hbefore : ({ c with catAfter := some (gcb y), preContextOffset := none } : Cursor).beforeCat gcb s (c.offset - blen ra2) = .ok (gcb x) := by
    unfold Cursor.beforeCat
    cases hc : c.catBefore with
    | none => simp only [hto, hc]; simp
    | some k => obtain ⟨x', s', h1, h2⟩ := h.before k hc; cases h1; simp only [hc, h2]
  have hq : c.isBoundary gcb s (blen ra2) =
      ({ c with catAfter := some (gcb y), catBefore := some (gcb x), preContextOffset := none } : Cursor).decidePair gcb s (blen ra2)
        (c.offset - blen ra2) (gcb x) (gcb y) := by
    unfold Cursor.isBoundary
    rw [if_neg (by rw [hst]; simp), if_neg (by rw [hst]; simp), if_neg hin, h.pre]
    simp only
    rw [if_neg (by omega), hafter]
    simp only [bind_ok]
    rw [if_neg (by omega)]
    unfold Cursor.isBoundaryInside
    rw [hbefore]
    simp only [bind_ok]
  by_cases hbad : ra2 ≠ [] ∧ Run gcb (x :: ra1) (b1 ++ R)
  · right
    refine ⟨hbad.1, hbad.2, ?_⟩
    have hp4 : blen ra2 ≠ 0 := mt (blen_eq_zero ra2).mp hbad.1
    obtain ⟨y', t', e, hrun⟩ := hbad.2
    rw [hy] at e; cases e
    rw [hq]
    rcases hrun with ⟨hy', hall⟩ | ⟨hy', hall⟩
    · have hx := hall x (by simp)
      have hr : c.risCount = none := by
        cases hc : c.risCount with
        | none => rfl
        | some n => rcases hris (by simp [hc]) with h0 | h0
                    · exact absurd h0 hbad.1
                    · exact absurd hall h0
      simp only [Cursor.decidePair, hx, hy', checkPair, hr, hto, bind_ok, Cursor.handleRegional, List.reverse_reverse]
      rw [handleRegionalLoop_more _ _ _ _ hp4 hall]
      exact undecided _ hst rfl h.off
    · have hx := hall x (by simp)
      simp only [Cursor.decidePair, hx, hy', checkPair, hto, bind_ok, Cursor.handleEmoji, List.reverse_reverse]
      rw [handleEmojiLoop_more _ _ _ hp4 hall]
      exact undecided _ hst rfl h.off
  · left
    have hbad' : ra2 ≠ [] → ¬ Run gcb (x :: ra1) (b1 ++ R) := fun h1 h2 => hbad ⟨h1, h2⟩
    have hR : gcb y = .RegionalIndicator → ra2 = [] ∨ ¬ AllRI gcb (x :: ra1) := by
      intro hy'
      by_cases h0 : ra2 = []
      · exact Or.inl h0
      · exact Or.inr fun hall => hbad' h0 ⟨y, t, hy, Or.inl ⟨hy', hall⟩⟩
    have hE : gcb y = .EModifier → ra2 = [] ∨ ¬ AllExtend gcb (x :: ra1) := by
      intro hy'
      by_cases h0 : ra2 = []
      · exact Or.inl h0
      · exact Or.inr fun hall => hbad' h0 ⟨y, t, hy, Or.inr ⟨hy', hall⟩⟩
    obtain ⟨r, e1, e2, e3⟩ := decidePair_chunk (gcb := gcb) (ext := ext) (b := t) (chunk := s) (ra1 := x :: ra1) (ra2 := ra2) (x := x) (y := y)
      (start := blen ra2) (off := c.offset - blen ra2)
      (c := { c with catAfter := some (gcb y), catBefore := some (gcb x), preContextOffset := none })
      h.extd rfl h.ris rfl
      (fun _ hy hn => ⟨hto, (hR hy).imp (fun h => by subst h; exact ⟨rfl, rfl⟩) id⟩)
      (fun _ hy => ⟨hto, (hE hy).imp (fun h => by subst h; exact ⟨rfl, rfl⟩) id⟩)
    rw [← hy] at e1
    have hr := decidePair_ris e1
    rw [hq]
    refine ⟨hbad', _, e1, ⟨h.off, h.len, h.extd, fun k hk => ⟨x, ra1 ++ ra2, rfl, (Option.some.inj hk).symm⟩,
      fun k hk => ⟨y, t, hy, (Option.some.inj hk).symm⟩, rfl, e2, Or.inr rfl⟩, rfl, by simp [Cursor.decide], ?_⟩
    intro hn
    rcases hr hn with h' | h'
    · exact hris h'
    · exact hR h'

theorem NoBd.snoc {ra w R : List Nat} {ch : Nat} (h : NoBd gcb ext ra w (ch :: R)) (hb : bd gcb ext (w.reverse ++ ra) (ch :: R) = false) :
    NoBd gcb ext ra (w ++ [ch]) R := by
  intro u1 u2 hu h1 h2
  rcases List.eq_nil_or_concat u2 with rfl | ⟨k, x, rfl⟩
  · exact absurd rfl h2
  · rw [List.concat_eq_append] at *
    rw [← List.append_assoc] at hu
    obtain ⟨rfl, hx⟩ := List.append_inj' hu rfl
    simp at hx; subst hx
    by_cases hw : k = []
    · subst hw; simpa using hb
    · simpa using h u1 k rfl h1 hw

theorem At.retreat_pause {ra b : List Nat} {ch : Nat} {c : Cursor} (h : At gcb ext (ch :: ra) b c) (hra : ra ≠ []) :
    At gcb ext ra (ch :: b) { c.retreat ch with resuming := true } := by
  refine ⟨?_, ?_, h.extd, ?_, ?_, h.pre, h.retreatRis, Or.inl ⟨rfl, hra, by simp⟩⟩
  · have := h.off; simp only [blen_cons] at this; simp [Cursor.retreat, this]
  · have := h.len; simp only [blen_cons] at this; simp [Cursor.retreat, blen_cons, this]; omega
  · intro k hk; simp [Cursor.retreat] at hk
  · intro k hk
    obtain ⟨x, s, h1, h2⟩ := h.before k hk
    cases h1; exact ⟨ch, b, rfl, h2⟩

theorem At.retreat_risIn {ra1 ra2 b : List Nat} {ch : Nat} {c : Cursor} (h : At gcb ext (ch :: ra1 ++ ra2) b c)
    (hris : RisIn gcb (ch :: ra1) ra2 c) : (c.retreat ch).risCount ≠ none → ra2 = [] ∨ ¬ AllRI gcb ra1 := by
  intro hn
  cases hr : c.risCount with
  | none => exact absurd (by simp [Cursor.retreat, hr]) hn
  | some n =>
    rcases hris (by simp [hr]) with h0 | h0
    · exact Or.inl h0
    · refine Or.inr fun hall => h0 ?_
      have hm := h.ris n hr
      by_cases hri : gcb ch = .RegionalIndicator
      · intro z hz
        rcases List.mem_cons.mp hz with rfl | hz
        · exact hri
        · exact hall z hz
      · rw [List.cons_append, List.map_cons, riCount_nonRI _ _ hri] at hm
        subst hm
        exact absurd (by simp [Cursor.retreat, hr]) hn

/-- No position of the chunk before `ra1` was reached, from the position at `lo` characters on, is in a run. -/
def NoRun (gcb : Nat → GCB) (ra1 : List Nat) (lo : Nat) (b : List Nat) : Prop :=
  ∀ w1 w2, ra1 = w1 ++ w2 → w1 ≠ [] → w2 ≠ [] → lo ≤ w2.length → ¬ Run gcb w2 (w1.reverse ++ b)

theorem NoRun.single (ch lo : Nat) (b : List Nat) : NoRun gcb [ch] lo b := fun _ _ hu h1 h2 _ => (single_split hu h1 h2).elim

theorem NoRun.cons {ra1 b : List Nat} {ch lo : Nat} (h : NoRun gcb ra1 lo (ch :: b)) (h0 : ¬ Run gcb ra1 (ch :: b)) :
    NoRun gcb (ch :: ra1) lo b := by
  intro w1 w2 hu h1 h2 hlo
  obtain ⟨z, w1, rfl⟩ := List.exists_cons_of_ne_nil h1
  simp at hu
  obtain ⟨rfl, rfl⟩ := hu
  by_cases hw : w1 = []
  · subst hw; simpa using h0
  · simpa using h w1 w2 rfl hw h2 hlo

theorem NoRun.full {ra1 b : List Nat} {lo : Nat} (h : ra1.length ≤ lo) : NoRun gcb ra1 lo b := by
  intro w1 w2 hu h1 h2 hlo
  have a1 := List.length_pos_iff.mpr h1
  rw [hu, List.length_append] at h
  omega

/-- The loop of `prev_boundary` inside a chunk: it finds the previous boundary, or reaches the start of the chunk and asks for
the chunk before, or reaches a run and asks for context it cannot use. -/
theorem At.prevLoop_chunk (iter : List Nat) {b1 ra2 R : List Nat} {ch : Nat} {c : Cursor}
    (h : At gcb ext (ch :: iter ++ ra2) (b1 ++ R) c) (s : List Nat) (hs : s = (ch :: iter).reverse ++ b1)
    (hris : RisIn gcb (ch :: iter) ra2 c) :
    (∃ u rv c', ch :: iter = u.reverse ++ rv ∧ (rv = [] → ra2 = []) ∧ BackPiece gcb ext (rv ++ ra2) u (b1 ++ R) ∧
      c.prevLoop gcb s (blen ra2) iter ch = .ok (c', .ok (some (blen (rv ++ ra2)))) ∧
      At gcb ext (rv ++ ra2) (u ++ b1 ++ R) c' ∧ c'.resuming = false ∧ (rv ≠ [] → c'.catBefore ≠ none) ∧ RisIn gcb rv ra2 c' ∧
      (ra2 ≠ [] → NoRun gcb (ch :: iter) rv.length (b1 ++ R))) ∨
    (ra2 ≠ [] ∧ ∃ c', c.prevLoop gcb s (blen ra2) iter ch = .ok (c', .error .PrevChunk) ∧
      At gcb ext ra2 ((ch :: iter).reverse ++ b1 ++ R) c' ∧ c'.resuming = true ∧ c'.state = .Unknown ∧ c'.risCount = none ∧
      NoBd gcb ext ra2 (ch :: iter).reverse (b1 ++ R) ∧ (iter ≠ [] ∨ c.catBefore ≠ none → c'.catAfter ≠ none) ∧
      NoRun gcb (ch :: iter) 0 (b1 ++ R)) ∨
    (ra2 ≠ [] ∧ ∃ c', c.prevLoop gcb s (blen ra2) iter ch = .ok (c', .error (.PreContext (blen ra2))) ∧
      c'.state = .Unknown ∧ c'.preContextOffset = some (blen ra2) ∧ blen ra2 < c'.offset ∧
      ∃ w1 w2, ch :: iter = w1 ++ w2 ∧ w2 ≠ [] ∧ Run gcb w2 (w1.reverse ++ (b1 ++ R))) := by
  induction iter generalizing b1 ch c with
  | nil =>
    have hoff : c.offset = blen [ch] + blen ra2 := by rw [h.off, blen_append]
    have hpos := blen_pos ch []
    have h0 : ¬ c.offset = blen ra2 := by omega
    have hro : (c.retreat ch).offset = blen ra2 := by
      rw [blen_cons, blen_nil] at hoff
      simp [Cursor.retreat, hoff]
    by_cases hra : ra2 = []
    · subst hra
      left
      have e0 : ∀ s st, ({ (c.retreat ch).decide true with resuming := true } : Cursor).isBoundary gcb s st =
          .ok ({ (c.retreat ch).decide true with resuming := true }, .ok true) := by
        intro s st; simp [Cursor.isBoundary, Cursor.decide]
      refine ⟨[ch], [], { (c.retreat ch).decide true with resuming := false }, by simp, by simp, ⟨by simp, bd_nil_left _ _ _, ?_⟩, ?_, ?_, rfl, by simp,
        fun _ => Or.inl rfl, fun h => absurd rfl h⟩
      · intro u1 u2 hu hn1 hn2
        exact (single_split hu hn1 hn2).elim
      · unfold Cursor.prevLoop
        simp only
        rw [if_neg h0, if_pos (show (c.retreat ch).offset = 0 from hro), e0]
        simp only [bind_ok, pure_eq, List.nil_append]
        simp only [Cursor.decide, hro]
      · simpa using At.retreat_end (b := b1 ++ R) h false
    · right; left
      refine ⟨hra, { c.retreat ch with resuming := true }, ?_, ?_, rfl, rfl, ?_, NoBd.single _ _ _, ?_, NoRun.single _ _ _⟩
      · unfold Cursor.prevLoop
        simp only
        have : ¬ (c.retreat ch).offset = 0 := by rw [hro]; exact mt (blen_eq_zero ra2).mp hra
        rw [if_neg h0, if_neg this]
      · simpa using At.retreat_pause (b := b1 ++ R) h hra
      · by_contra hn
        rcases h.retreat_risIn hris hn with h' | h'
        · exact hra h'
        · exact h' (by intro z hz; cases hz)
      · intro hc; simpa [Cursor.retreat] using hc
  | cons p it ih =>
    have hoff : c.offset = blen (ch :: p :: it) + blen ra2 := by rw [h.off, blen_append]
    have hpos := blen_pos ch (p :: it)
    have h0 : ¬ c.offset = blen ra2 := by omega
    have h1 : At gcb ext ((p :: it) ++ ra2) ((ch :: b1) ++ R) { c.retreat ch with catBefore := some (gcb p), resuming := true } :=
      At.retreat_cons (ra := it ++ ra2) (b := b1 ++ R) h true
    have hs' : s = (p :: it).reverse ++ ch :: b1 := by simp [hs]
    rcases h1.isBoundary_back (by simp) (Or.inl (by simp)) rfl (h.retreat_risIn hris) with ⟨hnr, c', e1, e2, e3, hcb, hri⟩ | ⟨hra, hrun, c', e1, e2, e3, e4⟩
    case inr =>
      right; right
      rw [← hs'] at e1
      refine ⟨hra, c', ?_, e2, e3, ?_, [ch], p :: it, rfl, by simp, by simpa using hrun⟩
      · unfold Cursor.prevLoop
        simp only
        rw [if_neg h0, e1]
        simp only [bind_ok, pure_eq]
      · rw [e4, blen_append]; have := blen_pos p it; omega
    rw [← hs'] at e1
    cases hb : bd gcb ext ((p :: it) ++ ra2) (ch :: b1 ++ R) with
    | true =>
      rw [hb] at e1
      left
      refine ⟨[ch], p :: it, { c' with resuming := false }, by simp, by simp, ⟨by simp, by simpa using hb, ?_⟩, ?_, e2.withResuming _, rfl, fun _ => hcb, hri, ?_⟩
      · intro u1 u2 hu hn1 hn2
        exact (single_split hu hn1 hn2).elim
      · unfold Cursor.prevLoop
        simp only
        rw [if_neg h0, e1]
        simp only [bind_ok, pure_eq]
        rw [e2.off]
      · intro hra
        exact NoRun.cons (NoRun.full (Nat.le_refl _)) (hnr hra)
    | false =>
      rw [hb] at e1
      have step : c.prevLoop gcb s (blen ra2) (p :: it) ch = ({ c' with resuming := false } : Cursor).prevLoop gcb s (blen ra2) it p := by
        conv_lhs => rw [Cursor.prevLoop]
        simp only
        rw [if_neg h0, e1]
        simp only [bind_ok]
      rcases ih (e2.withResuming false) hs' hri with ⟨u, rv, c'', g1, g1', g2, g3, g4, g5, g6, g7, g8⟩ | ⟨g0, c'', g1, g2, g3, g3a, g3b, g4, g5, g6⟩ |
        ⟨g0, c'', g1, g2, g3, g4, w1, w2, g5, g6, g7⟩
      · left
        refine ⟨u ++ [ch], rv, c'', by simp [g1], g1', ?_, by rw [step, g3], by simpa using g4, g5, g6, g7, fun hra => NoRun.cons (g8 hra) (hnr hra)⟩
        refine BackPiece.snoc g2 ?_
        rw [← List.append_assoc, ← g1]
        exact hb
      · right; left
        refine ⟨g0, c'', by rw [step, g1], by simpa using g2, g3, g3a, g3b, ?_, fun _ => g5 (Or.inr hcb), NoRun.cons g6 (hnr g0)⟩
        rw [List.reverse_cons]
        exact NoBd.snoc g4 (by rw [List.reverse_reverse]; exact hb)
      · right; right
        exact ⟨g0, c'', by rw [step, g1], g2, g3, g4, ch :: w1, w2, by simp [g5], g6, by simpa using g7⟩

end Proofs.Grapheme
