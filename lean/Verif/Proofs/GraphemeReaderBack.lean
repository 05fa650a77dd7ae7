import Verif.Proofs.GraphemePrev

/-! Backward iteration over chunks, the client loop. -/
namespace Proofs.Grapheme
open Data Spec.Segment Model Model.Grapheme Proofs.Punycode

variable {gcb : Nat → GCB} {ext : Bool}

theorem prevChunked_done {before after : List (List Nat)} {chunk : List Nat} {c c' : Cursor} {r : Except Incomplete (Option Nat)}
    (h : ask gcb (·.prevBoundary gcb chunk (blen before.reverse.flatten)) before c = .ok (c', r)) (hr : r ≠ .error .PrevChunk) :
    prevChunked gcb before chunk after c = .ok (⟨c', before, chunk, after⟩, r) := by
  cases before with
  | nil => rw [prevChunked]; simp only [List.reverse_nil, List.flatten_nil, blen_nil] at h; rw [h]; rfl
  | cons d before =>
    rw [prevChunked, h]
    simp only [bind_ok]
    cases r with
    | ok a => rfl
    | error e => cases e <;> first | rfl | exact absurd rfl hr

theorem prevChunked_more {before after : List (List Nat)} {chunk d : List Nat} {c c' : Cursor}
    (h : ask gcb (·.prevBoundary gcb chunk (blen (d :: before).reverse.flatten)) (d :: before) c = .ok (c', .error .PrevChunk)) :
    prevChunked gcb (d :: before) chunk after c = prevChunked gcb before d (chunk :: after) c' := by
  rw [prevChunked, h]
  simp only [bind_ok]

/-- No position of the chunk `d`, followed by the text `rest`, is in a run that reaches back to the start of the chunk. -/
def ChunkGood (gcb : Nat → GCB) (d rest : List Nat) : Prop :=
  ∀ w1 w2, d.reverse = w1 ++ w2 → w2 ≠ [] → ¬ Run gcb w2 (w1.reverse ++ rest)

/-- all chunks but the first are good -/
def AllGood (gcb : Nat → GCB) (ds : List (List Nat)) : Prop :=
  ∀ p d t, ds = p ++ d :: t → p ≠ [] → ChunkGood gcb d t.flatten

/-- all chunks of a reader -/
def Reader.chunks (r : Reader) : List (List Nat) := r.before.reverse ++ r.chunk :: r.after

/-- a reader between two backward calls -/
structure BInv (gcb : Nat → GCB) (ext : Bool) (ra1 ra2 b1 : List Nat) (r : Reader) : Prop where
  at_ : At gcb ext (ra1 ++ ra2) (b1 ++ r.after.flatten) r.cursor
  resuming : r.cursor.resuming = false
  chunk : r.chunk = ra1.reverse ++ b1
  before : r.before.reverse.flatten = ra2.reverse
  chunk_ne : r.chunk ≠ []
  before_ne : ∀ p ∈ r.before, p ≠ []
  first : ra1 = [] → ra2 = []
  cat : ra2 ≠ [] → 2 ≤ ra1.length ∨ r.cursor.catBefore ≠ none
  ris : RisIn gcb ra1 ra2 r.cursor
  passed : ∀ p d t, r.after = p ++ d :: t → ChunkGood gcb d t.flatten
  passed_here : ra2 ≠ [] → ∀ w1 w2, r.chunk.reverse = w1 ++ w2 → w2 ≠ [] → ra1.length ≤ w2.length → ¬ Run gcb w2 (w1.reverse ++ r.after.flatten)

theorem before_nil {ra2 : List Nat} {before : List (List Nat)} (h : before.reverse.flatten = ra2.reverse) (hne : ∀ p ∈ before, p ≠ []) :
    ra2 = [] ↔ before = [] := by
  constructor
  · rintro rfl
    cases before with
    | nil => rfl
    | cons p before => simp at h; exact absurd h.2 (hne p (by simp))
  · rintro rfl; simpa using h

/-- the request for context that the client cannot satisfy -/
theorem ask_runs_out {query : Cursor → Outcome (Cursor × Except Incomplete (Option Nat))} {before : List (List Nat)} {ra2 : List Nat} {c c' : Cursor}
    (hbef : before.reverse.flatten = ra2.reverse) (hra : ra2 ≠ [])
    (h : query c = .ok (c', .error (.PreContext (blen ra2)))) (h1 : c'.state = .Unknown) (h2 : c'.preContextOffset = some (blen ra2))
    (h3 : blen ra2 < c'.offset) : ask gcb query before c = .panic := by
  cases before with
  | nil => simp at hbef; exact absurd hbef hra
  | cons p ctx =>
    have hsub2 : blen ra2 - blen p + blen p = blen ra2 := by
      have : blen ra2 = blen ((p :: ctx).reverse.flatten) := by rw [hbef, blen_reverse]
      rw [this]; simp [blen_append]
    refine ask_panic h ?_
    unfold Cursor.provideContext
    rw [h2]
    simp only
    rw [if_neg (by simpa using hsub2), if_neg (by rw [hsub2]; omega), h1]

theorem prevChunked_panic {before after : List (List Nat)} {chunk : List Nat} {c : Cursor}
    (h : ask gcb (·.prevBoundary gcb chunk (blen before.reverse.flatten)) before c = .panic) : prevChunked gcb before chunk after c = .panic := by
  cases before with
  | nil => rw [prevChunked]; simp only [List.reverse_nil, List.flatten_nil, blen_nil] at h; rw [h]; rfl
  | cons d before => rw [prevChunked, h]; rfl

/-- `prev_boundary` resumed with the previous chunk -/
theorem At.prevBoundary_resume {d ra2 b : List Nat} {c : Cursor} (h : At gcb ext (d.reverse ++ ra2) b c) (hres : c.resuming = true)
    (hst : c.state = .Unknown) (hrn : c.risCount = none) (hca : c.catAfter ≠ none) (hd : d ≠ []) :
    (∃ u rv c', d.reverse = u.reverse ++ rv ∧ (rv = [] → ra2 = []) ∧ bd gcb ext (rv ++ ra2) (u ++ b) = true ∧
      (∀ u1 u2, u = u1 ++ u2 → u1 ≠ [] → bd gcb ext (u1.reverse ++ (rv ++ ra2)) (u2 ++ b) = false) ∧
      c.prevBoundary gcb d (blen ra2) = .ok (c', .ok (some (blen (rv ++ ra2)))) ∧
      At gcb ext (rv ++ ra2) (u ++ b) c' ∧ c'.resuming = false ∧ (rv ≠ [] → c'.catBefore ≠ none) ∧ RisIn gcb rv ra2 c' ∧
      (ra2 ≠ [] → ∀ w1 w2, d.reverse = w1 ++ w2 → w2 ≠ [] → rv.length ≤ w2.length → ¬ Run gcb w2 (w1.reverse ++ b))) ∨
    (ra2 ≠ [] ∧ ∃ c', c.prevBoundary gcb d (blen ra2) = .ok (c', .error .PrevChunk) ∧ At gcb ext ra2 (d ++ b) c' ∧
      c'.resuming = true ∧ c'.state = .Unknown ∧ c'.risCount = none ∧ c'.catAfter ≠ none ∧
      (∀ u1 u2, d = u1 ++ u2 → u1 ≠ [] → bd gcb ext (u1.reverse ++ ra2) (u2 ++ b) = false) ∧ ChunkGood gcb d b) ∨
    (ra2 ≠ [] ∧ ∃ c', c.prevBoundary gcb d (blen ra2) = .ok (c', .error (.PreContext (blen ra2))) ∧
      c'.state = .Unknown ∧ c'.preContextOffset = some (blen ra2) ∧ blen ra2 < c'.offset ∧ ¬ ChunkGood gcb d b) := by
  obtain ⟨ra1, rfl⟩ : ∃ ra1, d = ra1.reverse := ⟨d.reverse, by simp⟩
  simp only [ChunkGood, List.reverse_reverse] at *
  obtain ⟨ch, iter, rfl⟩ := List.exists_cons_of_ne_nil (show ra1 ≠ [] by simpa using hd)
  have hoff : c.offset = blen (ch :: iter) + blen ra2 := by rw [h.off, blen_append]
  have hpos := blen_pos ch iter
  have hat : At gcb ext ((ch :: iter) ++ ra2) ([] ++ b) { c with catBefore := some (gcb ch) } :=
    ⟨h.off, h.len, h.extd, fun k hk => ⟨ch, iter ++ ra2, rfl, (Option.some.inj hk).symm⟩, h.after, h.pre, h.ris, h.state⟩
  have hto : sliceTo (ch :: iter).reverse (c.offset - blen ra2) = .ok (ch :: iter).reverse := by
    have := sliceTo_append (ch :: iter).reverse []
    rw [List.append_nil, blen_reverse] at this
    rwa [show c.offset - blen ra2 = blen (ch :: iter) by omega]
  rcases hat.isBoundary_back (by simp) (Or.inr hca) hst (fun hn => absurd hrn hn) with ⟨hnr, c', e1, e2, e3, hcb, hri⟩ | ⟨hra, hrun, c', e1, e2, e3, e4⟩
  case inr =>
    right; right
    rw [List.append_nil] at e1
    refine ⟨hra, c', ?_, e2, e3, by rw [e4, blen_append]; omega, fun hg => hg [] (ch :: iter) rfl (by simp) (by simpa using hrun)⟩
    unfold Cursor.prevBoundary
    rw [if_neg (by omega), if_neg (by omega), hto]
    simp only [bind_ok, List.reverse_reverse]
    rw [if_pos hres, if_neg (by omega), e1]
    simp [bind_ok, pure_eq]
  rw [List.append_nil] at e1
  have hq : c.prevBoundary gcb (ch :: iter).reverse (blen ra2) =
      (if bd gcb ext (ch :: iter ++ ra2) ([] ++ b) = true then .ok ({ c' with resuming := false }, .ok (some c'.offset))
        else ({ c' with resuming := false } : Cursor).prevLoop gcb (ch :: iter).reverse (blen ra2) iter ch) := by
    unfold Cursor.prevBoundary
    rw [if_neg (by omega), if_neg (by omega), hto]
    simp only [bind_ok, List.reverse_reverse]
    rw [if_pos hres, if_neg (by omega), e1]
    cases bd gcb ext (ch :: iter ++ ra2) ([] ++ b) <;> simp [bind_ok, pure_eq]
  have hnr' : ra2 ≠ [] → ∀ w1 w2, NoRun gcb (ch :: iter) w2.length b → ch :: iter = w1 ++ w2 → w2 ≠ [] → ¬ Run gcb w2 (w1.reverse ++ b) := by
    intro hra w1 w2 hn hu h2
    by_cases h1 : w1 = []
    · subst h1
      rw [List.nil_append] at hu
      subst hu
      simpa using hnr hra
    · exact hn w1 w2 hu h1 h2 (Nat.le_refl _)
  have hmono : ∀ {lo lo' : Nat}, NoRun gcb (ch :: iter) lo b → lo ≤ lo' → NoRun gcb (ch :: iter) lo' b :=
    fun h hl w1 w2 hu h1 h2 h3 => h w1 w2 hu h1 h2 (by omega)
  cases hb : bd gcb ext (ch :: iter ++ ra2) ([] ++ b) with
  | true =>
    left
    refine ⟨[], ch :: iter, { c' with resuming := false }, by simp, by simp, by simpa using hb, ?_, ?_, e2.withResuming _, rfl, fun _ => hcb, hri, ?_⟩
    · intro u1 u2 hu h1; simp at hu; exact absurd hu.1 h1
    · rw [hq, if_pos hb, e2.off]
    · intro hra w1 w2 hu h2 hl
      exact hnr' hra w1 w2 (NoRun.full hl) hu h2
  | false =>
    rw [if_neg (by rw [hb]; simp)] at hq
    rw [hq]
    rcases At.prevLoop_chunk iter (b1 := []) (R := b) (e2.withResuming false) (ch :: iter).reverse (by simp) hri with
      ⟨u, rv, c3, g1, g2, g3, g4, g5, g6, g7, g8, g9⟩ | ⟨g0, c3, g1, g2, g3, g3a, g3b, g4, g5, g6⟩ | ⟨g0, c3, g1, g2, g3, g4, w1, w2, g5, g6, g7⟩
    · left
      refine ⟨u, rv, c3, g1, g2, g3.2.1, ?_, g4, by simpa using g5, g6, g7, g8, ?_⟩
      · intro u1 u2 hu h1
        by_cases h2 : u2 = []
        · subst h2
          rw [List.append_nil] at hu
          subst hu
          rw [← List.append_assoc, ← g1]; simpa using hb
        · simpa using g3.2.2 u1 u2 hu h1 h2
      · intro hra w1 w2 hu h2 hl
        exact hnr' hra w1 w2 (hmono (by simpa using g9 hra) hl) hu h2
    · right; left
      refine ⟨g0, c3, g1, by simpa using g2, g3, g3a, g3b, g5 (Or.inr hcb), ?_, ?_⟩
      · intro u1 u2 hu h1
        by_cases h2 : u2 = []
        · subst h2
          rw [List.append_nil] at hu
          subst hu
          simpa using hb
        · simpa using g4 u1 u2 hu h1 h2
      · intro w1 w2 hu h2
        exact hnr' g0 w1 w2 (hmono (by simpa using g6) (Nat.zero_le _)) hu h2
    · right; right
      exact ⟨g0, c3, g1, g2, g3, g4, fun hg => hg w1 w2 g5 g6 (by simpa using g7)⟩

theorem chunkGood_cons {d : List Nat} {after : List (List Nat)} (h : ChunkGood gcb d after.flatten)
    (h' : ∀ p q t, after = p ++ q :: t → ChunkGood gcb q t.flatten) : ∀ p q t, d :: after = p ++ q :: t → ChunkGood gcb q t.flatten := by
  intro p q t e
  cases p with
  | nil => simp at e; obtain ⟨rfl, rfl⟩ := e; exact h
  | cons z p => simp at e; exact h' p q t e.2

/-- after a request for the previous chunk -/
theorem At.resumeBack (before : List (List Nat)) : ∀ {ra2 d b : List Nat} {after : List (List Nat)} {c : Cursor},
    At gcb ext (d.reverse ++ ra2) b c → c.resuming = true → c.state = .Unknown → c.risCount = none → c.catAfter ≠ none → b = after.flatten →
    before.reverse.flatten = ra2.reverse → d ≠ [] → (∀ p ∈ before, p ≠ []) → (∀ p d t, after = p ++ d :: t → ChunkGood gcb d t.flatten) →
    (∃ u rv r' ra1' ra2' b1', d.reverse ++ ra2 = u.reverse ++ rv ∧ bd gcb ext rv (u ++ b) = true ∧
      (∀ u1 u2, u = u1 ++ u2 → u1 ≠ [] → bd gcb ext (u1.reverse ++ rv) (u2 ++ b) = false) ∧
      prevChunked gcb before d after c = .ok (r', .ok (some (blen rv))) ∧
      BInv gcb ext ra1' ra2' b1' r' ∧ ra1' ++ ra2' = rv ∧ b1' ++ r'.after.flatten = u ++ b ∧
      Reader.chunks r' = before.reverse ++ d :: after) ∨
    (prevChunked gcb before d after c = .panic ∧ ¬ AllGood gcb (before.reverse ++ d :: after)) := by
  induction before with
  | nil =>
    intro ra2 d b after c hat hres hst hrn hca hb hbef hd hbne hpass
    have hra : ra2 = [] := by simpa using hbef.symm
    rcases hat.prevBoundary_resume hres hst hrn hca hd with ⟨u, rv, c', g1, g2, g3, g4, g5, g6, g7, g8, g9, g10⟩ | ⟨h0, _⟩ | ⟨h0, _⟩
    · left
      rw [← blen_before hbef] at g5
      refine ⟨u, rv ++ ra2, ⟨c', [], d, after⟩, rv, ra2, u, by rw [g1, List.append_assoc], g3, g4, prevChunked_done (ask_pass g5 (by simp)) (by simp), ?_, rfl, by rw [hb], rfl⟩
      refine ⟨by rw [← hb]; exact g6, g7, ?_, hbef, hd, hbne, g2, fun h => absurd hra h, g9, hpass, fun h => absurd hra h⟩
      have := congrArg List.reverse g1
      simpa using this
    · exact absurd hra h0
    · exact absurd hra h0
  | cons e before ih =>
    intro ra2 d b after c hat hres hst hrn hca hb hbef hd hbne hpass
    rcases hat.prevBoundary_resume hres hst hrn hca hd with ⟨u, rv, c', g1, g2, g3, g4, g5, g6, g7, g8, g9, g10⟩ | ⟨h0, c', g1, g2, g3, g3a, g3b, g4, g5, g6⟩ |
      ⟨h0, c', g1, g2, g3, g4, g5⟩
    · left
      rw [← blen_before hbef] at g5
      refine ⟨u, rv ++ ra2, ⟨c', e :: before, d, after⟩, rv, ra2, u, by rw [g1, List.append_assoc], g3, g4, prevChunked_done (ask_pass g5 (by simp)) (by simp), ?_, rfl, by rw [hb], rfl⟩
      refine ⟨by rw [← hb]; exact g6, g7, ?_, hbef, hd, hbne, g2, fun h => Or.inr (g8 fun h1 => h (g2 h1)), g9, hpass, fun h => by rw [← hb]; exact g10 h⟩
      have := congrArg List.reverse g1
      simpa using this
    · rw [← blen_before hbef] at g1
      rw [prevChunked_more (ask_pass g1 (by simp))]
      have e1 : ra2 = e.reverse ++ before.reverse.flatten.reverse := by
        have := congrArg List.reverse hbef
        rw [List.reverse_reverse, List.reverse_cons, List.flatten_append, List.reverse_append] at this
        rw [← this]; simp
      have hch : (e :: before).reverse ++ d :: after = before.reverse ++ e :: d :: after := by simp
      rw [hch]
      rcases ih (ra2 := before.reverse.flatten.reverse) (d := e) (b := d ++ b) (after := d :: after) (c := c') (by rw [← e1]; exact g2) g3 g3a g3b g4
        (by simp [hb]) (by simp) (hbne e (by simp)) (fun p hp => hbne p (by simp [hp])) (chunkGood_cons (hb ▸ g6) hpass) with
        ⟨u, rv, r', ra1', ra2', b1', i1, i2, i3, i4, i5, i6, i7, i8⟩ | hbad
      · left
        rw [← e1] at i1
        refine ⟨u ++ d, rv, r', ra1', ra2', b1', by rw [i1]; simp, by simpa using i2, ?_, i4, i5, i6, by rw [i7]; simp, i8⟩
        intro u1 u2 hu h1
        rcases append_cmp hu with ⟨k, rfl, rfl⟩ | ⟨k, hk, rfl, rfl⟩
        · by_cases hk : k = []
          · subst hk
            have := i3 u [] (by simp) (by simpa using h1)
            simpa using this
          · have := g5 k u2 rfl hk
            rw [i1] at this
            simpa using this
        · have := i3 u1 k rfl h1
          simpa using this
      · exact Or.inr hbad
    · right
      rw [← blen_before hbef] at g1
      refine ⟨prevChunked_panic (ask_runs_out hbef h0 (by rw [← blen_before hbef]; exact g1) g2 g3 g4), fun hg => g5 ?_⟩
      rw [hb]
      exact hg _ _ _ rfl (by simp)

/-- one backward call of a reader -/
theorem BInv.prev {ra1 ra2 b1 : List Nat} {r : Reader} (h : BInv gcb ext ra1 ra2 b1 r) (hra : ra1 ++ ra2 ≠ []) :
    (∃ u rv r' ra1' ra2' b1', ra1 ++ ra2 = u.reverse ++ rv ∧ BackPiece gcb ext rv u (b1 ++ r.after.flatten) ∧
      r.prev gcb = .ok (r', .ok (some (blen rv))) ∧
      BInv gcb ext ra1' ra2' b1' r' ∧ ra1' ++ ra2' = rv ∧ b1' ++ r'.after.flatten = u ++ (b1 ++ r.after.flatten) ∧
      Reader.chunks r' = Reader.chunks r) ∨
    (r.prev gcb = .panic ∧ ¬ AllGood gcb (Reader.chunks r)) := by
  obtain ⟨c, before, chunk, after⟩ := r
  have hat := h.at_; have hres := h.resuming; have hchunk := h.chunk; have hbef := h.before; have hcne := h.chunk_ne; have hbne := h.before_ne
  have hfirst := h.first; have hcat := h.cat; have hris := h.ris; have hpass := h.passed; have hhere := h.passed_here
  simp only at *
  have hra1 : ra1 ≠ [] := by rintro rfl; exact hra (by simp [hfirst rfl])
  obtain ⟨ch, iter, rfl⟩ := List.exists_cons_of_ne_nil hra1
  have hoff : c.offset = blen (ch :: iter) + blen ra2 := by rw [hat.off, blen_append]
  have hpos := blen_pos ch iter
  have hq : c.prevBoundary gcb chunk (blen before.reverse.flatten) = c.prevLoop gcb chunk (blen ra2) iter ch := by
    unfold Cursor.prevBoundary
    rw [blen_before hbef, if_neg (by omega), if_neg (by omega),
      show c.offset - blen ra2 = blen (ch :: iter).reverse by rw [blen_reverse]; omega, hchunk, sliceTo_append]
    simp only [bind_ok, List.reverse_reverse]
    rw [if_neg (by rw [hres]; simp)]
  -- positions of the chunk from `lo` on
  have hpos' : ra2 ≠ [] → ∀ lo, NoRun gcb (ch :: iter) lo (b1 ++ after.flatten) → ∀ w1 w2, chunk.reverse = w1 ++ w2 → w2 ≠ [] → lo ≤ w2.length →
      ¬ Run gcb w2 (w1.reverse ++ after.flatten) := by
    intro h0 lo hn w1 w2 hu h2 hl
    by_cases hle : (ch :: iter).length ≤ w2.length
    · exact hhere h0 w1 w2 hu h2 hle
    · have hu' := hu
      rw [hchunk, List.reverse_append, List.reverse_reverse] at hu'
      rcases append_cmp hu' with ⟨k, e1, e2⟩ | ⟨k, hk, e1, e2⟩
      · have hk : k ≠ [] := by rintro rfl; rw [List.nil_append] at e2; rw [e2] at hle; omega
        have := hn k w2 e2 hk h2 hl
        rw [e1]; simpa using this
      · rw [e2, List.length_append] at hle; omega
  rcases At.prevLoop_chunk iter hat chunk hchunk hris with ⟨u, rv, c3, g1, g2, g3, g4, g5, g6, g7, g8, g9⟩ | ⟨g0, c3, g1, g2, g3, g3a, g3b, g4, g5, g6⟩ |
    ⟨g0, c3, g1, g2, g3, g4, w1, w2, g5, g6, g7⟩
  · left
    rw [← hq] at g4
    refine ⟨u, rv ++ ra2, ⟨c3, before, chunk, after⟩, rv, ra2, u ++ b1, by rw [g1, List.append_assoc], g3,
      prevChunked_done (ask_pass g4 (by simp)) (by simp), ?_, rfl, by simp, rfl⟩
    refine ⟨by simpa using g5, g6, ?_, hbef, hcne, hbne, g2, fun h0 => Or.inr (g7 fun h1 => h0 (g2 h1)), g8, hpass, ?_⟩
    · rw [hchunk, g1]; simp
    · intro h0; exact hpos' h0 _ (g9 h0)
  · rw [← hq] at g1
    cases before with
    | nil => exact absurd (by simpa using hbef.symm) g0
    | cons e before =>
      have e1 : ra2 = e.reverse ++ before.reverse.flatten.reverse := by
        have := congrArg List.reverse hbef
        rw [List.reverse_reverse, List.reverse_cons, List.flatten_append, List.reverse_append] at this
        rw [← this]; simp
      have hb : chunk ++ after.flatten = (ch :: iter).reverse ++ b1 ++ after.flatten := by rw [hchunk]
      have hca : c3.catAfter ≠ none := g5 ((hcat g0).imp (fun h => by rintro rfl; simp at h) id)
      have hgoodc : ChunkGood gcb chunk after.flatten := fun w1 w2 hu h2 => hpos' g0 0 g6 w1 w2 hu h2 (Nat.zero_le _)
      have hch : Reader.chunks ⟨c, e :: before, chunk, after⟩ = before.reverse ++ e :: chunk :: after := by simp [Reader.chunks]
      rw [hch]
      unfold Reader.prev
      rw [prevChunked_more (ask_pass g1 (by simp))]
      rcases At.resumeBack before (ra2 := before.reverse.flatten.reverse) (d := e)
        (b := chunk ++ after.flatten) (after := chunk :: after) (c := c3) (by rw [← e1, hb]; exact g2) g3 g3a g3b hca (by simp) (by simp)
        (hbne e (by simp)) (fun p hp => hbne p (by simp [hp])) (chunkGood_cons hgoodc hpass) with
        ⟨u, rv, r', ra1', ra2', b1', i1, i2, i3, i4, i5, i6, i7, i8⟩ | hbad
      · left
        rw [← e1] at i1
        refine ⟨u ++ (ch :: iter).reverse, rv, r', ra1', ra2', b1', by rw [i1]; simp, ⟨by simp, ?_, ?_⟩, i4, i5, i6, by rw [i7, hb]; simp, i8⟩
        · rw [hb] at i2; simpa using i2
        · intro u1 u2 hu h1 h2
          rcases append_cmp hu with ⟨k, rfl, hk2⟩ | ⟨k, hk, rfl, rfl⟩
          · by_cases hk : k = []
            · subst hk
              have := i3 u [] (by simp) (by simpa using h1)
              rw [hb, hk2] at this
              simpa using this
            · have := g4 k u2 hk2 hk h2
              rw [i1] at this
              simpa using this
          · have := i3 u1 k rfl h1
            rw [hb] at this
            simpa using this
      · exact Or.inr hbad
  · right
    rw [← hq] at g1
    refine ⟨prevChunked_panic (ask_runs_out hbef g0 g1 g2 g3 g4), fun hg => ?_⟩
    have : ChunkGood gcb chunk after.flatten := hg _ _ _ rfl (by simpa using fun h0 => g0 ((before_nil hbef hbne).mpr h0))
    refine this (b1.reverse ++ w1) w2 (by rw [hchunk, List.reverse_append, List.reverse_reverse, g5]; simp) g6 ?_
    simpa using g7

theorem BInv.prev_start {ra1 ra2 b1 : List Nat} {r : Reader} (h : BInv gcb ext ra1 ra2 b1 r) (hra : ra1 ++ ra2 = []) :
    r.prev gcb = .ok (r, .ok none) := by
  obtain ⟨c, before, chunk, after⟩ := r
  have hat := h.at_
  simp only at *
  have hq : c.prevBoundary gcb chunk (blen before.reverse.flatten) = .ok (c, .ok none) := by
    unfold Cursor.prevBoundary
    rw [if_pos]
    rw [hat.off, hra, blen_nil]
  exact prevChunked_done (ask_pass hq (by simp)) (by simp)

/-- Readers at the same position of the same text give the same results, if their chunks are good. -/
theorem BInv.run_eq (n : Nat) : ∀ {ra1 ra2 b1 ra1' ra2' b1' : List Nat} {r r' : Reader}, BInv gcb ext ra1 ra2 b1 r →
    BInv gcb ext ra1' ra2' b1' r' → ra1 ++ ra2 = ra1' ++ ra2' → b1 ++ r.after.flatten = b1' ++ r'.after.flatten →
    AllGood gcb (Reader.chunks r) → AllGood gcb (Reader.chunks r') →
    r.runBack gcb n = r'.runBack gcb n ∧ ∃ l, r.runBack gcb n = .ok l := by
  induction n with
  | zero => intros; exact ⟨rfl, _, rfl⟩
  | succ n ih =>
    intro ra1 ra2 b1 ra1' ra2' b1' r r' h h' e1 e2 hg hg'
    by_cases hra : ra1 ++ ra2 = []
    · have n1 := h.prev_start hra
      have n2 := h'.prev_start (e1 ▸ hra)
      obtain ⟨i, l, il⟩ := ih h h' e1 e2 hg hg'
      simp only [Reader.runBack, n1, n2, bind_ok, pure_eq]
      rw [← i, il]
      exact ⟨rfl, _, rfl⟩
    · rcases h.prev hra with ⟨u, rv, q, a1, a2, a3, g1, g2, g3, g4, g5, g6, g7⟩ | ⟨_, hbad⟩
      · rcases h'.prev (e1 ▸ hra) with ⟨u', rv', q', a1', a2', a3', g1', g2', g3', g4', g5', g6', g7'⟩ | ⟨_, hbad⟩
        · rw [← e2] at g2' g6'
          obtain ⟨rfl, rfl⟩ := g2.unique g2' (by rw [← g1, ← g1', e1])
          obtain ⟨i, l, il⟩ := ih g4 g4' (by rw [g5, g5']) (by rw [g6, g6']) (g7 ▸ hg) (g7' ▸ hg')
          simp only [Reader.runBack, g3, g3', bind_ok, pure_eq]
          rw [← i, il]
          exact ⟨rfl, _, rfl⟩
        · exact absurd hg' hbad
      · exact absurd hg hbad

/-- If the chunks are not all good, some call panics. -/
theorem BInv.good_or_panic (n : Nat) : ∀ {ra1 ra2 b1 : List Nat} {r : Reader}, BInv gcb ext ra1 ra2 b1 r → (ra1 ++ ra2).length ≤ n →
    AllGood gcb (Reader.chunks r) ∨ ∃ m ≤ n, r.runBack gcb m = .panic := by
  induction n with
  | zero =>
    intro ra1 ra2 b1 r h hl
    left
    have hra : ra1 ++ ra2 = [] := List.length_eq_zero_iff.mp (by omega)
    have h2 : ra2 = [] := by simp at hra; exact hra.2
    have hb := (before_nil h.before h.before_ne).mp h2
    intro p d t e hp
    rw [Reader.chunks, hb] at e
    obtain ⟨z, p, rfl⟩ := List.exists_cons_of_ne_nil hp
    simp at e
    exact h.passed p d t e.2
  | succ n ih =>
    intro ra1 ra2 b1 r h hl
    by_cases hra : ra1 ++ ra2 = []
    · rcases ih h (by rw [hra]; simp) with h' | ⟨m, hm, h'⟩
      · exact Or.inl h'
      · exact Or.inr ⟨m, by omega, h'⟩
    · rcases h.prev hra with ⟨u, rv, q, a1, a2, a3, g1, g2, g3, g4, g5, g6, g7⟩ | ⟨hp, _⟩
      · have hu := List.length_pos_iff.mpr g2.1
        rcases ih g4 (by rw [g5]; rw [g1, List.length_append, List.length_reverse] at hl; omega) with h' | ⟨m, hm, h'⟩
        · exact Or.inl (g7 ▸ h')
        · refine Or.inr ⟨m + 1, by omega, ?_⟩
          simp only [Reader.runBack, g3, bind_ok, h', bind_panic]
      · refine Or.inr ⟨1, by omega, ?_⟩
        simp only [Reader.runBack, hp, bind_panic]

theorem BInv.start (d : List Nat) (before : List (List Nat)) (hd : d ≠ []) (hne : ∀ p ∈ before, p ≠ []) (h2 : before ≠ [] → 2 ≤ d.length) (L : Nat)
    (hL : L = blen (before.reverse.flatten ++ d)) :
    BInv gcb ext d.reverse before.reverse.flatten.reverse [] ⟨.new ext L L, before, d, []⟩ := by
  refine ⟨?_, rfl, by simp, by simp, hd, hne, fun h => absurd (by simpa using h) hd, ?_, fun h => absurd rfl h, by simp, ?_⟩
  · have := At.new gcb ext (d.reverse ++ before.reverse.flatten.reverse) []
    have e : blen (d.reverse ++ before.reverse.flatten.reverse) = L := by rw [hL]; simp only [blen_append, blen_reverse]; omega
    rw [List.append_nil, blen_reverse, e] at this
    simpa using this
  · intro h
    refine Or.inl ?_
    rw [List.length_reverse]
    exact h2 (by rintro rfl; exact h rfl)
  · rintro _ w1 w2 hu h2 hl ⟨y, s, e, _⟩
    have : w1 = [] := by
      have := congrArg List.length hu
      rw [List.length_append] at this
      exact List.length_eq_zero_iff.mp (by simp only at this; omega)
    subst this
    simp at e

/-- If the last chunk is a single character and there are others, the first call ends in an error. -/
theorem runBack_single (gcb : Nat → GCB) (ext : Bool) (x : Nat) (e : List Nat) (before : List (List Nat)) (he : e ≠ []) (L : Nat)
    (hL : L = blen ((e :: before).reverse.flatten ++ [x])) :
    Reader.runBack gcb 1 ⟨.new ext L L, e :: before, [x], []⟩ = .ok [.error .InvalidOffset] := by
  have hx := blen_pos x []
  have hA : blen (e :: before).reverse.flatten = blen before.reverse.flatten + blen e := by simp [blen_append]
  have hE : blen e ≠ 0 := mt (blen_eq_zero e).mp he
  rw [blen_append] at hL
  have h1 : (Cursor.new ext L L).prevBoundary gcb [x] (blen (e :: before).reverse.flatten) =
      .ok ({ (Cursor.new ext L L).retreat x with resuming := true }, .error .PrevChunk) := by
    have hto := sliceTo_append [x] []
    rw [List.append_nil, show blen [x] = L - blen (e :: before).reverse.flatten by omega] at hto
    unfold Cursor.prevBoundary
    rw [if_neg (by simp only [Cursor.new]; omega), if_neg (by simp only [Cursor.new]; omega), show (Cursor.new ext L L).offset = L from rfl, hto]
    simp only [bind_ok, List.reverse_singleton]
    rw [if_neg (by simp [Cursor.new])]
    unfold Cursor.prevLoop
    have hr : ((Cursor.new ext L L).retreat x).offset = blen (e :: before).reverse.flatten := by
      rw [blen_cons, blen_nil] at hL
      simp only [Cursor.retreat, Cursor.new]; omega
    simp only
    rw [if_neg (by simp only [Cursor.new]; omega), if_neg (by rw [hr]; omega)]
  simp only [Reader.runBack, Reader.prev]
  rw [prevChunked_more (ask_pass h1 (by simp))]
  generalize hc : ({ (Cursor.new ext L L).retreat x with resuming := true } : Cursor) = c
  have hoff : c.offset = blen before.reverse.flatten + blen e := by
    rw [← hc]
    rw [blen_cons, blen_nil] at hL
    simp only [Cursor.retreat, Cursor.new]; omega
  have h2 : ∃ c', c.prevBoundary gcb e (blen before.reverse.flatten) = .ok (c', .error .InvalidOffset) := by
    have hto := sliceTo_append e []
    rw [List.append_nil, show blen e = c.offset - blen before.reverse.flatten by omega] at hto
    unfold Cursor.prevBoundary
    rw [if_neg (by omega), if_neg (by omega), hto]
    obtain ⟨ch, iter, hrev⟩ := List.exists_cons_of_ne_nil (show e.reverse ≠ [] by simpa using he)
    simp only [bind_ok, hrev]
    rw [if_pos (by rw [← hc]), if_neg (by omega)]
    unfold Cursor.isBoundary
    rw [if_neg (by rw [← hc]; simp [Cursor.retreat]), if_neg (by rw [← hc]; simp [Cursor.retreat]),
      if_pos ⟨Or.inr (by simp only; omega), Or.inr (by rw [← hc]; simp [Cursor.retreat, Cursor.new])⟩]
    exact ⟨_, rfl⟩
  obtain ⟨c', h2⟩ := h2
  rw [prevChunked_done (ask_pass h2 (by simp)) (by simp)]
  rfl

end Proofs.Grapheme
