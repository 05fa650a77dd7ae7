import Verif.Proofs.SegLocal
import Verif.Props.Word

/-! # C75, C76: the two sides of a boundary are cut independently -/
namespace Props.SegmentConcat
open Data Spec.Segment Model Model.Grapheme Model.Word Proofs.Grapheme Proofs.SegLocal Props.Grapheme

/-- Calls of `next` and `next_back` on `Graphemes::new(s, ext)`, in whatever order, answer like a double-ended queue of `ps`. -/
def GraphemesAre (gcb : Nat → GCB) (ext : Bool) (s : List Nat) (ps : List (List Nat)) : Prop :=
  ∀ ops : List End, ∃ g, calls (·.next gcb) (·.nextBack gcb) (Graphemes.new ext s) ops = .ok ((deque ps ops).1, g)

theorem graphemesAre_of_seg {gcb : Nat → GCB} {ext : Bool} {s : List Nat} {ps : List (List Nat)}
    (h : Segmentation (Boundary gcb ext) s ps) : GraphemesAre gcb ext s ps := by
  obtain ⟨qs, hq, ha⟩ := c35_iteration gcb ext s
  obtain rfl := hq.unique h
  intro ops
  obtain ⟨g, h1, -⟩ := ha ops
  exact ⟨g, h1⟩

theorem deque_front {α : Type} (ps : List α) (n : Nat) (h : ps.length ≤ n) :
    (deque ps (List.replicate n .front)).1 = ps.map some ++ List.replicate (n - ps.length) none := by
  induction ps generalizing n with
  | nil => rw [Props.Word.deque_nil]; simp
  | cons p ps ih =>
    obtain ⟨m, rfl⟩ : ∃ m, n = m + 1 := ⟨n - 1, by simp at h; omega⟩
    rw [List.replicate_succ]
    simp only [deque, List.map_cons, List.cons_append, List.length_cons]
    rw [show m + 1 - (ps.length + 1) = m - ps.length by omega, ← ih m (by simp at h; omega)]
    simp

theorem map_some_none {α : Type} (ps qs : List α) (i j : Nat)
    (h : ps.map some ++ List.replicate i none = qs.map some ++ List.replicate j none) : ps = qs := by
  have := congrArg (List.filterMap id) h
  simpa using this

/-- the answers determine the pieces -/
theorem GraphemesAre.unique {gcb : Nat → GCB} {ext : Bool} {s : List Nat} {ps qs : List (List Nat)}
    (h1 : GraphemesAre gcb ext s ps) (h2 : GraphemesAre gcb ext s qs) : ps = qs := by
  obtain ⟨g, e1⟩ := h1 (List.replicate (ps.length + qs.length) .front)
  obtain ⟨g', e2⟩ := h2 (List.replicate (ps.length + qs.length) .front)
  rw [e1] at e2
  have := congrArg (fun r : Outcome (List (Option (List Nat)) × Graphemes) => match r with | .ok x => x.1 | .panic => []) e2
  simp only at this
  rw [deque_front _ _ (by omega), deque_front _ _ (by omega)] at this
  exact map_some_none _ _ _ _ this

theorem GraphemesAre.seg {gcb : Nat → GCB} {ext : Bool} {s : List Nat} {ps : List (List Nat)} (h : GraphemesAre gcb ext s ps) :
    Segmentation (Boundary gcb ext) s ps := by
  obtain ⟨qs, hq, -⟩ := c35_iteration gcb ext s
  rw [h.unique (graphemesAre_of_seg hq)]; exact hq

/-- **C75.** If there is a cluster boundary where `t` is appended to `s`, the clusters of `s ++ t` are those of `s` and then
those of `t`, in extended and in legacy mode. -/
theorem c75_concat (gcb : Nat → GCB) (ext : Bool) (s t : List Nat) (hb : Boundary gcb ext s t) :
    ∃ ps qs, GraphemesAre gcb ext s ps ∧ GraphemesAre gcb ext t qs ∧ GraphemesAre gcb ext (s ++ t) (ps ++ qs) := by
  obtain ⟨ps, hp, -⟩ := c35_iteration gcb ext s
  obtain ⟨qs, hq, -⟩ := c35_iteration gcb ext t
  exact ⟨ps, qs, graphemesAre_of_seg hp, graphemesAre_of_seg hq,
    graphemesAre_of_seg (seg_concat (grapheme_local gcb ext) hb hp hq)⟩

/-- **C75.** Conversely, if the clusters of `s` and of `t` together are the clusters of `s ++ t`, there is a boundary between
`s` and `t`. -/
theorem c75_concat_conv (gcb : Nat → GCB) (ext : Bool) (s t : List Nat) (ps qs : List (List Nat))
    (h1 : GraphemesAre gcb ext s ps) (h3 : GraphemesAre gcb ext (s ++ t) (ps ++ qs)) : Boundary gcb ext s t := by
  refine (h3.seg.2.2 s t rfl).mpr ⟨ps.length, ?_⟩
  rw [List.take_left', h1.seg.1]; rfl

/-- **C75.** Whatever is appended to a text, its clusters but for the last stay as they are: the last one may get longer, and
new clusters follow. -/
theorem c75_prefix (gcb : Nat → GCB) (ext : Bool) (s t : List Nat) (ps : List (List Nat)) (p : List Nat)
    (h : GraphemesAre gcb ext s (ps ++ [p])) :
    ∃ q qs, t = q ++ qs.flatten ∧ GraphemesAre gcb ext (s ++ t) (ps ++ (p ++ q) :: qs) := by
  obtain ⟨rs, hr, -⟩ := c35_iteration gcb ext (s ++ t)
  obtain ⟨q, qs, e, et⟩ := seg_extend (fun hb => grapheme_right gcb ext hb) h.seg hr
  exact ⟨q, qs, et, graphemesAre_of_seg (e ▸ hr)⟩

/-- **C75.** Consecutive clusters of a text, as a text of their own, are cut into the same clusters; in particular a cluster
is a text with one cluster. -/
theorem c75_infix (gcb : Nat → GCB) (ext : Bool) (s : List Nat) (l m r : List (List Nat))
    (h : GraphemesAre gcb ext s (l ++ m ++ r)) : GraphemesAre gcb ext m.flatten m :=
  graphemesAre_of_seg (seg_infix (grapheme_local gcb ext) h.seg)

theorem c75_one (gcb : Nat → GCB) (ext : Bool) (s : List Nat) (ps : List (List Nat)) (h : GraphemesAre gcb ext s ps)
    (p : List Nat) (hp : p ∈ ps) : GraphemesAre gcb ext p [p] := by
  obtain ⟨l, r, rfl⟩ := List.append_of_mem hp
  have := c75_infix gcb ext s l [p] r (by simpa using h)
  simpa using this

theorem deque_rest {α : Type} (ops : List End) (ps : List α) : ∃ l r, ps = l ++ (deque ps ops).2 ++ r := by
  induction ops generalizing ps with
  | nil => exact ⟨[], [], by simp [deque]⟩
  | cons op ops ih =>
    cases op with
    | front =>
      obtain ⟨l, r, e⟩ := ih ps.tail
      cases ps with
      | nil => exact ⟨l, r, by simpa [deque] using e⟩
      | cons p ps => exact ⟨p :: l, r, by simpa [deque] using e⟩
    | back =>
      obtain ⟨l, r, e⟩ := ih ps.dropLast
      rcases List.eq_nil_or_concat ps with rfl | ⟨ps, p, rfl⟩
      · exact ⟨l, r, by simpa [deque] using e⟩
      · rw [List.concat_eq_append] at e ⊢
        refine ⟨l, r ++ [p], ?_⟩
        simp only [deque, List.dropLast_concat] at e ⊢
        rw [← List.append_assoc, ← e]

/-- **C75.** After any calls, the iterator gives from then on what a new iterator over its `as_str` gives. -/
theorem c75_restart (gcb : Nat → GCB) (ext : Bool) (s : List Nat) (ops more : List End) :
    ∃ rs g rest rs' g1 g2, calls (·.next gcb) (·.nextBack gcb) (Graphemes.new ext s) ops = .ok (rs, g) ∧ g.asStr = .ok rest ∧
      calls (·.next gcb) (·.nextBack gcb) g more = .ok (rs', g1) ∧
      calls (·.next gcb) (·.nextBack gcb) (Graphemes.new ext rest) more = .ok (rs', g2) := by
  obtain ⟨ps, e, h⟩ := Seg.exists gcb ext s.length [] s (Nat.le_refl _)
  obtain ⟨g, a', z', -, h2, h3⟩ := calls_deque s ops [] ps [] _ (ItInv.new gcb ext s ps h e)
  obtain ⟨g1, a1, z1, -, h4, -⟩ := calls_deque s more a' _ z' g h3
  obtain ⟨l, r, hd⟩ := deque_rest ops ps
  have hs : GraphemesAre gcb ext s (l ++ (deque ps ops).2 ++ r) := hd ▸ graphemesAre_of_seg (Seg.segmentation h e)
  obtain ⟨g2, h5⟩ := c75_infix gcb ext s l _ r hs more
  exact ⟨_, g, _, _, g1, g2, h2, h3.asStr, h4, h5⟩

/-- the hypotheses of C75 hold of "🇷🇸" | "🇮 e" + acute: a boundary between regional indicators -/
example : Boundary Ucd.graphemeClusterBreak true [0x1F1F7, 0x1F1F8] [0x1F1EE, 0x65, 0x301] := by
  rw [gBoundary_iff]; decide +kernel

/-- what is appended can lengthen the last cluster ("e" | acute), so the hypothesis of `c75_concat` matters, and a boundary
inside a text depends on what comes before the piece (🇷|🇸🇮 against 🇸🇮 alone) -/
example :
    ¬ Boundary Ucd.graphemeClusterBreak true [0x65] [0x301] ∧
    Boundary Ucd.graphemeClusterBreak true [0x1F1F7, 0x1F1F8] [0x1F1EE] ∧
    ¬ Boundary Ucd.graphemeClusterBreak true [0x1F1F8] [0x1F1EE] := by
  rw [gBoundary_iff, gBoundary_iff, gBoundary_iff]; decide +kernel

/-! ## C76 -/

/-- the cached class does not change what `next` returns -/
theorem next_cache (wb : Nat → WB) (b : WordBounds) (cb : Option WB) (hg : b.string ≠ [] → Proofs.Word.CacheF wb b) :
    (b.next wb).map (fun r => (r.1.string, r.2)) = (WordBounds.next wb ⟨b.string, none, cb⟩).map (fun r => (r.1.string, r.2)) := by
  rcases b with ⟨s, cat, catb⟩
  simp only at hg
  cases s with
  | nil => rfl
  | cons y w =>
    have hf : fwdLoop wb (y :: w) (y :: w) 0 (Fwd.init cat) = fwdLoop wb (y :: w) (y :: w) 0 (Fwd.init none) := by
      rcases hg (by simp) with h | ⟨y', w', h1, h2⟩
      · rw [show cat = none from h]
      · obtain ⟨rfl, rfl⟩ : y = y' ∧ w = w' := by simpa using h1
        rw [show cat = some (wb y) from h2]
        rfl
    simp only [WordBounds.next, hf]
    rw [if_neg (by simp), if_neg (by simp)]
    cases fwdLoop wb (y :: w) (y :: w) 0 (Fwd.init none) with
    | panic => rfl
    | ok v =>
      simp only [Proofs.Punycode.bind_ok]
      cases fwdFinish (y :: w) (fwdRewind v) with
      | panic => rfl
      | ok r =>
        simp only [Proofs.Punycode.bind_ok]
        cases sliceTo (y :: w) r.1 with
        | panic => rfl
        | ok a =>
          simp only [Proofs.Punycode.bind_ok]
          cases sliceFrom (y :: w) r.1 with
          | panic => rfl
          | ok a => rfl

theorem nextBack_cache (wb : Nat → WB) (b : WordBounds) (c : Option WB) (hg : b.string ≠ [] → Proofs.Word.CacheB wb b) :
    (b.nextBack wb).map (fun r => (r.1.string, r.2)) = (WordBounds.nextBack wb ⟨b.string, c, none⟩).map (fun r => (r.1.string, r.2)) := by
  rcases b with ⟨s, cat, catb⟩
  simp only at hg
  rcases List.eq_nil_or_concat s with rfl | ⟨w, y, rfl⟩
  · rfl
  rw [List.concat_eq_append] at *
  have hr : (w ++ [y]).reverse = y :: w.reverse := by simp
  have hf : ∀ n i, bwdLoop wb (w ++ [y]) (w ++ [y]).reverse n (Bwd.init i catb) = bwdLoop wb (w ++ [y]) (w ++ [y]).reverse n (Bwd.init i none) := by
    intro n i
    rcases hg (by simp) with h | ⟨w', y', h1, h2⟩
    · rw [show catb = none from h]
    · obtain ⟨rfl, h1⟩ := List.append_inj' h1 rfl
      obtain rfl : y = y' := by simpa using h1
      rw [show catb = some (wb y) from h2, hr]
      rfl
  simp only [WordBounds.nextBack, hf]
  rw [if_neg (by simp), if_neg (by simp)]
  cases lastChar (w ++ [y]) with
  | panic => rfl
  | ok ch =>
    simp only [Proofs.Punycode.bind_ok]
    cases bwdLoop wb (w ++ [y]) (w ++ [y]).reverse _ _ with
    | panic => rfl
    | ok v =>
      simp only [Proofs.Punycode.bind_ok]
      cases sliceFrom (w ++ [y]) (bwdFinish (bwdRewind v)).1 with
      | panic => rfl
      | ok a =>
        simp only [Proofs.Punycode.bind_ok]
        cases sliceTo (w ++ [y]) (bwdFinish (bwdRewind v)).1 with
        | panic => rfl
        | ok a => rfl

/-- two iterators over the same text answer alike -/
theorem same_calls {wb : Nat → WB} (hcr : Proofs.Word.CrOneByte wb) (ops : List End) :
    ∀ (b c : WordBounds), Proofs.Word.Good2 wb b → Proofs.Word.Good2 wb c → b.string = c.string →
      ∃ rs b' c', calls (·.next wb) (·.nextBack wb) b ops = .ok (rs, b') ∧ calls (·.next wb) (·.nextBack wb) c ops = .ok (rs, c') ∧
        Proofs.Word.Good2 wb b' ∧ Proofs.Word.Good2 wb c' ∧ b'.string = c'.string := by
  induction ops with
  | nil => intro b c hb hc e; exact ⟨[], b, c, rfl, rfl, hb, hc, e⟩
  | cons op ops ih =>
    intro b c hb hc e
    by_cases hs : b.string = []
    · obtain ⟨rs, b', c', h1, h2, h3⟩ := ih b c hb hc e
      have e1 := Proofs.Word.next_end (wb := wb) hs
      have e2 := Proofs.Word.next_end (wb := wb) (b := c) (e ▸ hs)
      refine ⟨none :: rs, b', c', ?_, ?_, h3⟩
      · cases op <;> simp only [calls, e1.1, e1.2, Proofs.Punycode.bind_ok, h1, Proofs.Punycode.pure_eq]
      · cases op <;> simp only [calls, e2.1, e2.2, Proofs.Punycode.bind_ok, h2, Proofs.Punycode.pure_eq]
    · have hs' : c.string ≠ [] := e ▸ hs
      cases op with
      | front =>
        obtain ⟨u, b1, e1, -, n1, g1, -⟩ := Proofs.Word.next_step hcr hs hb
        obtain ⟨v, c1, e2, -, n2, g2, -⟩ := Proofs.Word.next_step hcr hs' hc
        have k1 := next_cache wb b none (fun h => (hb h).1)
        have k2 := next_cache wb c none (fun h => (hc h).1)
        rw [e, ← k2, n1, n2] at k1
        simp only [Outcome.map, Outcome.ok.injEq, Prod.mk.injEq, Option.some.injEq] at k1
        obtain ⟨rs, b', c', h1, h2, h3⟩ := ih b1 c1 g1 g2 k1.1
        refine ⟨some u :: rs, b', c', ?_, ?_, h3⟩
        · simp only [calls, n1, Proofs.Punycode.bind_ok, h1, Proofs.Punycode.pure_eq]
        · simp only [calls, n2, Proofs.Punycode.bind_ok, h2, Proofs.Punycode.pure_eq, k1.2]
      | back =>
        obtain ⟨u, b1, e1, -, n1, g1, -⟩ := Proofs.Word.nextBack_step hcr hs hb
        obtain ⟨v, c1, e2, -, n2, g2, -⟩ := Proofs.Word.nextBack_step hcr hs' hc
        have k1 := nextBack_cache wb b none (fun h => (hb h).2)
        have k2 := nextBack_cache wb c none (fun h => (hc h).2)
        rw [e, ← k2, n1, n2] at k1
        simp only [Outcome.map, Outcome.ok.injEq, Prod.mk.injEq, Option.some.injEq] at k1
        obtain ⟨rs, b', c', h1, h2, h3⟩ := ih b1 c1 g1 g2 k1.1
        refine ⟨some u :: rs, b', c', ?_, ?_, h3⟩
        · simp only [calls, n1, Proofs.Punycode.bind_ok, h1, Proofs.Punycode.pure_eq]
        · simp only [calls, n2, Proofs.Punycode.bind_ok, h2, Proofs.Punycode.pure_eq, k1.2]

/-- **C76.** After any calls on `split_word_bounds(s)`, whatever the text, the iterator gives from then on what a new iterator
over its `as_str` gives. -/
theorem c76_restart (wb : Nat → WB) (hcr : Proofs.Word.CrOneByte wb) (s : List Nat) (ops more : List End) :
    ∃ rs b rs' b1 b2, calls (·.next wb) (·.nextBack wb) (WordBounds.new s) ops = .ok (rs, b) ∧
      calls (·.next wb) (·.nextBack wb) b more = .ok (rs', b1) ∧
      calls (·.next wb) (·.nextBack wb) (WordBounds.new b.asStr) more = .ok (rs', b2) := by
  obtain ⟨rs, b, -, h1, -, g, -⟩ := same_calls hcr ops (.new s) (.new s) (Proofs.Word.good_new wb s) (Proofs.Word.good_new wb s) rfl
  obtain ⟨rs', b1, b2, h2, h3, -⟩ := same_calls hcr more b (.new b.string) g (Proofs.Word.good_new wb _) rfl
  exact ⟨rs, b, rs', b1, b2, h1, h2, h3⟩

/-- The calls `ops` on `split_word_bounds(s)` answer like a double-ended queue of `ps`. -/
def WordsAre (wb : Nat → WB) (s : List Nat) (ops : List End) (ps : List (List Nat)) : Prop :=
  ∃ b, calls (·.next wb) (·.nextBack wb) (WordBounds.new s) ops = .ok ((deque ps ops).1, b)

open Props.Word in
theorem wordsAre_of_seg {wb : Nat → WB} (hcr : Proofs.Word.CrOneByte wb) {s : List Nat} {ps : List (List Nat)}
    (h : Segmentation (Proofs.Word.Boundary wb) s ps) (ops : List End) (hf : .front ∈ ops → NextClean (s.map wb))
    (hb : .back ∈ ops → NextBackClean (s.map wb)) : WordsAre wb s ops ps := by
  obtain ⟨qs, hq, -, ha⟩ := c39_boundaries_partial wb hcr s
  obtain rfl := hq.unique h
  obtain ⟨b, off, h1, -⟩ := ha ops hf hb
  exact ⟨b, h1⟩

open Props.Word in
theorem seg_of_wordsAre {wb : Nat → WB} (hcr : Proofs.Word.CrOneByte wb) {s : List Nat} {ps : List (List Nat)}
    (hF : NextClean (s.map wb)) (h : ∀ ops, WordsAre wb s ops ps) : Segmentation (Proofs.Word.Boundary wb) s ps := by
  obtain ⟨qs, hq, -, ha⟩ := c39_boundaries_partial wb hcr s
  have hu : ps = qs := by
    obtain ⟨b1, e1⟩ := h (List.replicate (ps.length + qs.length) .front)
    obtain ⟨b2, -, e2, -⟩ := ha (List.replicate (ps.length + qs.length) .front) (fun _ => hF) (fun h => by simp at h)
    rw [e1] at e2
    have := congrArg (fun r : Outcome (List (Option (List Nat)) × WordBounds) => match r with | .ok x => x.1 | .panic => []) e2
    simp only at this
    rw [deque_front _ _ (by omega), deque_front _ _ (by omega)] at this
    exact map_some_none _ _ _ _ this
  exact hu ▸ hq

open Props.Word in
theorem nextClean_left {k l : List WB} (h : NextClean (k ++ l)) : NextClean k :=
  ⟨fun p m J g q e => h.mid p m J g (q ++ l) (by rw [e]; simp), fun p J x q e => h.glue p J x (q ++ l) (by rw [e]; simp),
    fun p J q e => h.modifier p J (q ++ l) (by rw [e]; simp)⟩

open Props.Word in
theorem nextClean_right {k l : List WB} (h : NextClean (k ++ l)) : NextClean l :=
  ⟨fun p m J g q e => h.mid (k ++ p) m J g q (by rw [e]; simp), fun p J x q e => h.glue (k ++ p) J x q (by rw [e]; simp),
    fun p J q e => h.modifier (k ++ p) J q (by rw [e]; simp)⟩

open Props.Word in
theorem nextBackClean_left {k l : List WB} (h : NextBackClean (k ++ l)) : NextBackClean k :=
  fun p J q e => h p J (q ++ l) (by rw [e]; simp)

open Props.Word in
theorem nextBackClean_right {k l : List WB} (h : NextBackClean (k ++ l)) : NextBackClean l :=
  fun p J q e => h (k ++ p) J q (by rw [e]; simp)

open Props.Word in
/-- **C76, partial.** If there is a word boundary (WB1–WB999) where `t` is appended to `s`, the pieces of `s ++ t` are those
of `s` and then those of `t`, whatever the order of the calls — for texts without the sequences that the iterator mishandles
(C39). Missing: the texts with those sequences, for which it is false (`c76_concat_false`). -/
theorem c76_concat_partial (wb : Nat → WB) (hcr : Proofs.Word.CrOneByte wb) (s t : List Nat) (hb : Proofs.Word.Boundary wb s t) :
    ∃ ps qs, ∀ ops : List End, (.front ∈ ops → NextClean ((s ++ t).map wb)) → (.back ∈ ops → NextBackClean ((s ++ t).map wb)) →
      WordsAre wb s ops ps ∧ WordsAre wb t ops qs ∧ WordsAre wb (s ++ t) ops (ps ++ qs) := by
  obtain ⟨ps, hp⟩ := Proofs.Word.seg_exists wb _ s (Nat.le_refl _)
  obtain ⟨qs, hq⟩ := Proofs.Word.seg_exists wb _ t (Nat.le_refl _)
  refine ⟨ps, qs, fun ops hF hB => ⟨?_, ?_, ?_⟩⟩
  · rw [List.map_append] at hF hB
    exact wordsAre_of_seg hcr hp ops (fun h => nextClean_left (hF h)) (fun h => nextBackClean_left (hB h))
  · rw [List.map_append] at hF hB
    exact wordsAre_of_seg hcr hq ops (fun h => nextClean_right (hF h)) (fun h => nextBackClean_right (hB h))
  · exact wordsAre_of_seg hcr (seg_concat (word_local wb) hb hp hq) ops hF hB

open Props.Word in
/-- **C76, partial.** Whatever is appended to a text, its pieces but for the last two stay as they are (same texts). -/
theorem c76_prefix_partial (wb : Nat → WB) (hcr : Proofs.Word.CrOneByte wb) (s t : List Nat) (hF : NextClean ((s ++ t).map wb))
    (hB : NextBackClean ((s ++ t).map wb)) (ps : List (List Nat)) (p q : List Nat) (h : ∀ ops, WordsAre wb s ops (ps ++ [p, q])) :
    ∃ qs, ∀ ops, WordsAre wb (s ++ t) ops (ps ++ qs) := by
  obtain ⟨rs, hr⟩ := Proofs.Word.seg_exists wb _ (s ++ t) (Nat.le_refl _)
  have hs : s.map wb ++ t.map wb = (s ++ t).map wb := by simp
  obtain ⟨qs, e⟩ := word_extend wb (seg_of_wordsAre hcr (nextClean_left (hs ▸ hF)) h) hr
  exact ⟨qs, fun ops => wordsAre_of_seg hcr (e ▸ hr) ops (fun _ => hF) (fun _ => hB)⟩

open Props.Word in
/-- **C76, partial.** Consecutive pieces, as a text of their own, are cut the same way (same texts as above). -/
theorem c76_infix_partial (wb : Nat → WB) (hcr : Proofs.Word.CrOneByte wb) (s : List Nat) (hF : NextClean (s.map wb))
    (hB : NextBackClean (s.map wb)) (l m r : List (List Nat)) (h : ∀ ops, WordsAre wb s ops (l ++ m ++ r)) :
    ∀ ops, WordsAre wb m.flatten ops m := by
  have hseg := seg_of_wordsAre hcr hF h
  intro ops
  have e : s.map wb = l.flatten.map wb ++ (m.flatten.map wb ++ r.flatten.map wb) := by
    rw [← hseg.1]; simp
  rw [e] at hF hB
  exact wordsAre_of_seg hcr (seg_infix (word_local wb) hseg) ops (fun _ => nextClean_left (nextClean_right hF))
    (fun _ => nextBackClean_left (nextBackClean_right hB))

theorem wordsAre_of_map {wb : Nat → WB} {s : List Nat} {ops : List End} {ps : List (List Nat)}
    (h : (calls (·.next wb) (·.nextBack wb) (WordBounds.new s) ops).map Prod.fst = .ok (deque ps ops).1) : WordsAre wb s ops ps := by
  unfold WordsAre
  cases hc : calls (·.next wb) (·.nextBack wb) (WordBounds.new s) ops with
  | panic => rw [hc] at h; cases h
  | ok r =>
    rw [hc] at h
    exact ⟨r.2, by rw [← Outcome.ok.inj h]⟩

/-- **C76 fails in general.** There is a word boundary in "a ZWJ ❤ | a", but going forward the pieces of the two parts are two and that of
the whole is one. -/
theorem c76_concat_false :
    Proofs.Word.Boundary Ucd.wordBreak [0x61, 0x200D, 0x2764] [0x61] ∧
    WordsAre Ucd.wordBreak [0x61, 0x200D, 0x2764] [.front, .front, .front] [[0x61, 0x200D, 0x2764]] ∧
    WordsAre Ucd.wordBreak [0x61] [.front, .front, .front] [[0x61]] ∧
    WordsAre Ucd.wordBreak [0x61, 0x200D, 0x2764, 0x61] [.front, .front, .front] [[0x61, 0x200D, 0x2764, 0x61]] := by
  refine ⟨(Proofs.Word.Bd_iff ..).mp (by decide +kernel), ?_, ?_, ?_⟩
  all_goals exact wordsAre_of_map (by decide +kernel)

/-- "can't" | " stop": the hypotheses of `c76_concat_partial` hold -/
example : Proofs.Word.Boundary Ucd.wordBreak [0x63, 0x61, 0x6E, 0x27, 0x74] [0x20, 0x73, 0x74, 0x6F, 0x70] ∧
    ∀ c ∈ ([0x63, 0x61, 0x6E, 0x27, 0x74] ++ [0x20, 0x73, 0x74, 0x6F, 0x70]), Ucd.wordBreak c ≠ .ZWJ ∧ Ucd.wordBreak c ≠ .EModifier := by
  exact ⟨(Proofs.Word.Bd_iff ..).mp (by decide +kernel), by decide +kernel⟩

/-- "can" "'" grows to "can't" when "t" is appended: two pieces can change -/
example : (calls (·.next Ucd.wordBreak) (·.nextBack Ucd.wordBreak) (WordBounds.new [0x63, 0x61, 0x6E, 0x27]) [.front, .front, .front]).map Prod.fst =
      .ok [some [0x63, 0x61, 0x6E], some [0x27], none] ∧
    (calls (·.next Ucd.wordBreak) (·.nextBack Ucd.wordBreak) (WordBounds.new [0x63, 0x61, 0x6E, 0x27, 0x74]) [.front, .front]).map Prod.fst =
      .ok [some [0x63, 0x61, 0x6E, 0x27, 0x74], none] := by decide +kernel

/-- "can" | "'t": no boundary; the pieces "can", "'", "t" of the parts are not those of the whole -/
example : ¬ Proofs.Word.Boundary Ucd.wordBreak [0x63, 0x61, 0x6E] [0x27, 0x74] := by
  rw [← Proofs.Word.Bd_iff]; decide +kernel

end Props.SegmentConcat
