import Verif.Props.Grapheme
import Verif.Proofs.GraphemeReaderBack
import Verif.Proofs.GraphemeQuery

/-! # C37: grapheme clusters of a text given in chunks

The full claim — a client that hands the text to a `GraphemeCursor` in arbitrary chunks and answers its requests gets the
boundaries of the whole text — is false of the code. The theorems below say for which chunkings and positions it holds, and
what happens at the others. -/
namespace Props.GraphemeChunk
open Data Spec.Segment Model Model.Grapheme Proofs.Grapheme Proofs.Punycode Props.Grapheme

/-- A fresh cursor is placed before the character `y` of the chunk `d1 ++ y :: d2`; `ctx` are the chunks before it, nearest
first, and `rest` is the text after it. The client asks `is_boundary` and answers the requests for context. -/
def query (gcb : Nat → GCB) (ext : Bool) (ctx : List (List Nat)) (d1 : List Nat) (y : Nat) (d2 rest : List Nat) :
    Outcome (Cursor × Except Incomplete Bool) :=
  ask gcb (fun c => c.isBoundary gcb (d1 ++ y :: d2) (blen ctx.reverse.flatten)) ctx
    (Cursor.new ext (blen (ctx.reverse.flatten ++ d1)) (blen (ctx.reverse.flatten ++ d1 ++ y :: d2 ++ rest)))

/-- The chunk decides the position before `y`: it is the first chunk, or the position is not its start and the characters of
the chunk before `y` are not a run of regional indicators (of `Extend`) that `y`, a regional indicator (emoji modifier),
continues. -/
def Inside (gcb : Nat → GCB) (ctx : List (List Nat)) (d1 : List Nat) (y : Nat) : Prop :=
  ctx = [] ∨ (d1 ≠ [] ∧ ¬ (gcb y = .RegionalIndicator ∧ ∀ x ∈ d1, gcb x = .RegionalIndicator) ∧
    ¬ (gcb y = .EModifier ∧ ∀ x ∈ d1, gcb x = .Extend))

/-- The position is the start of the chunk, and `y` is a regional indicator or an emoji modifier. -/
def LooksBack (gcb : Nat → GCB) (ctx : List (List Nat)) (d1 : List Nat) (y : Nat) : Prop :=
  ctx ≠ [] ∧ d1 = [] ∧ (gcb y = .RegionalIndicator ∨ gcb y = .EModifier)

theorem ctx_nil {ctx : List (List Nat)} (hne : ∀ p ∈ ctx, p ≠ []) : ctx.reverse.flatten.reverse = [] ↔ ctx = [] := by
  constructor
  · intro h
    cases ctx with
    | nil => rfl
    | cons p ctx => simp at h; exact absurd h.1 (hne p (by simp))
  · rintro rfl; rfl

/-- **C37, queries, positive part.** For every chunking of the text before the position and every position that the chunk
itself decides, or that is the start of a chunk beginning with a regional indicator or an emoji modifier, the answer is that
of the whole text. -/
theorem c37_query_partial (gcb : Nat → GCB) (ext : Bool) (ctx : List (List Nat)) (hne : ∀ p ∈ ctx, p ≠ []) (d1 : List Nat) (y : Nat)
    (d2 rest : List Nat) (h : Inside gcb ctx d1 y ∨ LooksBack gcb ctx d1 y) :
    ∃ c b, query gcb ext ctx d1 y d2 rest = .ok (c, .ok b) ∧
      (b = true ↔ Boundary gcb ext (ctx.reverse.flatten ++ d1) (y :: d2 ++ rest)) := by
  have e1 : blen (ctx.reverse.flatten ++ d1) = blen (d1.reverse ++ ctx.reverse.flatten.reverse) := by
    simp only [blen_append, blen_reverse]; omega
  have e2 : blen (ctx.reverse.flatten ++ d1 ++ y :: d2 ++ rest) = blen ((d1.reverse ++ ctx.reverse.flatten.reverse).reverse ++ (y :: d2 ++ rest)) := by
    congr 1; simp
  have e3 : ctx.reverse.flatten ++ d1 = (d1.reverse ++ ctx.reverse.flatten.reverse).reverse := by simp
  unfold query
  rw [e1, e2, e3]
  have e4 := bd_iff gcb ext (d1.reverse ++ ctx.reverse.flatten.reverse) (y :: d2 ++ rest)
  have e5 : blen ctx.reverse.flatten = blen ctx.reverse.flatten.reverse := (blen_reverse _).symm
  rw [e5]
  rcases h with h | ⟨h1, h2, h3⟩
  · have hq := query_inside (gcb := gcb) (ext := ext) (ra1 := d1.reverse) (ra2 := ctx.reverse.flatten.reverse) (b1 := d2) (R := rest) (y := y)
      (by rcases h with h | h
          · exact Or.inl ((ctx_nil hne).mpr h)
          · exact Or.inr (by simpa using h.1))
      (by intro hy; rcases h with h | h
          · exact Or.inl ((ctx_nil hne).mpr h)
          · exact Or.inr fun hall => h.2.1 ⟨hy, fun x hx => hall x (by simpa using hx)⟩)
      (by intro hy; rcases h with h | h
          · exact Or.inl ((ctx_nil hne).mpr h)
          · exact Or.inr fun hall => h.2.2 ⟨hy, fun x hx => hall x (by simpa using hx)⟩) ctx
    rw [List.reverse_reverse d1] at hq
    obtain ⟨c, hq⟩ := hq
    exact ⟨c, _, hq, e4⟩
  · subst h2
    obtain ⟨c, hq⟩ := query_start (gcb := gcb) (ext := ext) (ra := ctx.reverse.flatten.reverse) (b1 := d2) (R := rest) (y := y)
      (mt (ctx_nil hne).mp h1) h3 ctx (by simp) hne
    exact ⟨c, _, hq, e4⟩

/-- **C37, queries, negative part.** At every other position the answer to the cursor's own request for context makes it
panic, except at the start of a chunk after a `Prepend` character in extended mode, where it says "no boundary". -/
theorem c37_query_panics (gcb : Nat → GCB) (ext : Bool) (ctx : List (List Nat)) (hne : ∀ p ∈ ctx, p ≠ []) (d1 : List Nat) (y : Nat)
    (d2 rest : List Nat) (h : ¬ (Inside gcb ctx d1 y ∨ LooksBack gcb ctx d1 y)) :
    query gcb ext ctx d1 y d2 rest = .panic ∨
    (ext = true ∧ d1 = [] ∧ ctx.reverse.flatten.getLast?.map gcb = some .Prepend ∧
      ∃ c, query gcb ext ctx d1 y d2 rest = .ok (c, .ok false)) := by
  have e1 : blen (ctx.reverse.flatten ++ d1) = blen (d1.reverse ++ ctx.reverse.flatten.reverse) := by
    simp only [blen_append, blen_reverse]; omega
  have e2 : blen (ctx.reverse.flatten ++ d1 ++ y :: d2 ++ rest) = blen ((d1.reverse ++ ctx.reverse.flatten.reverse).reverse ++ (y :: d2 ++ rest)) := by
    congr 1; simp
  have e5 : blen ctx.reverse.flatten = blen ctx.reverse.flatten.reverse := (blen_reverse _).symm
  have hctx : ctx ≠ [] := fun h0 => h (Or.inl (Or.inl h0))
  have hctx' : ctx.reverse.flatten.reverse ≠ [] := mt (ctx_nil hne).mp hctx
  unfold query
  rw [e1, e2, e5]
  by_cases hd : d1 = []
  · subst hd
    have hy : gcb y ≠ .RegionalIndicator ∧ gcb y ≠ .EModifier :=
      ⟨fun hy => h (Or.inr ⟨hctx, rfl, Or.inl hy⟩), fun hy => h (Or.inr ⟨hctx, rfl, Or.inr hy⟩)⟩
    have hq := query_start_other (gcb := gcb) (ext := ext) (ra := ctx.reverse.flatten.reverse) (b1 := d2) (R := rest) (y := y)
      hctx' hy.1 hy.2 ctx (by simp) hne
    split at hq
    case isTrue hp => exact Or.inr ⟨hp.1, rfl, by simpa using hp.2, hq⟩
    case isFalse => exact Or.inl hq
  · left
    have hq := query_inside_run (gcb := gcb) (ext := ext) (ra1 := d1.reverse) (ra2 := ctx.reverse.flatten.reverse) (b1 := d2) (R := rest) (y := y)
      (by simpa using hd) hctx'
      (by by_contra hc
          apply h; left; right
          refine ⟨hd, fun h' => hc (Or.inl ⟨h'.1, fun x hx => h'.2 x (by simpa using hx)⟩), fun h' => hc (Or.inr ⟨h'.1, fun x hx => h'.2 x (by simpa using hx)⟩)⟩)
      ctx (by simp)
    rwa [List.reverse_reverse d1] at hq

/-- Both parts apply to texts with the real property table: a flag cut in two (`LooksBack`), a letter inside a chunk
(`Inside`), a letter at the start of a chunk (neither). -/
example : LooksBack Ucd.graphemeClusterBreak [[0x61, 0x1F1F7]] [] 0x1F1F8 ∧
    Inside Ucd.graphemeClusterBreak [[0x61]] [0x62] 0x63 ∧
    ¬ (Inside Ucd.graphemeClusterBreak [[0x61, 0x62]] [] 0x63 ∨ LooksBack Ucd.graphemeClusterBreak [[0x61, 0x62]] [] 0x63) := by
  refine ⟨⟨by simp, rfl, Or.inl (by decide +kernel)⟩, Or.inr ⟨by simp, ?_, ?_⟩, ?_⟩
  · rintro ⟨h, _⟩; revert h; decide +kernel
  · rintro ⟨h, _⟩; revert h; decide +kernel
  · rintro ((h | h) | ⟨_, _, h | h⟩)
    · simp at h
    · exact h.1 rfl
    · revert h; decide +kernel
    · revert h; decide +kernel

/-- **C37 fails** for queries: "ab|cd" at the chunk boundary panics; after U+0600 ARABIC NUMBER SIGN a line feed at the start
of a chunk is reported as no boundary although GB5 puts one there. -/
theorem c37_query_false :
    query Ucd.graphemeClusterBreak true [[0x61, 0x62]] [] 0x63 [0x64] [] = .panic ∧
    (query Ucd.graphemeClusterBreak true [[0x600]] [] 0xA [] []).map Prod.snd = .ok (.ok false) ∧
    Boundary Ucd.graphemeClusterBreak true [0x600] [0xA] := by
  refine ⟨by decide +kernel, by decide +kernel, ?_⟩
  exact (bd_iff Ucd.graphemeClusterBreak true [0x600] [0xA]).mp (by decide +kernel)

/-- The chunk starts neither with a regional indicator nor with one or more `Extend` followed by an emoji modifier. -/
def CleanStart (gcb : Nat → GCB) (d : List Nat) : Prop :=
  (∀ x t, d = x :: t → gcb x ≠ .RegionalIndicator) ∧
  ∀ e m t, d = e ++ m :: t → e ≠ [] → (∀ x ∈ e, gcb x = .Extend) → gcb m ≠ .EModifier

/-- **C37, forward iteration.** For every text in non-empty chunks of which all but the first start cleanly, a client that
repeatedly asks for the next boundary, supplying the next chunk and pre-context when told to, gets exactly the answers of a
client that has the whole text in one chunk (which by C36 are the boundaries of the text); it never panics. -/
theorem c37_next_partial (gcb : Nat → GCB) (ext : Bool) (d : List Nat) (ds : List (List Nat)) (hd : d ≠ [])
    (hds : ∀ p ∈ ds, p ≠ [] ∧ CleanStart gcb p) (n : Nat) :
    Reader.run gcb n ⟨.new ext 0 (blen (d ++ ds.flatten)), [], d, ds⟩ =
      Reader.run gcb n ⟨.new ext 0 (blen (d ++ ds.flatten)), [], d ++ ds.flatten, []⟩ ∧
    ∃ l, Reader.run gcb n ⟨.new ext 0 (blen (d ++ ds.flatten)), [], d, ds⟩ = .ok l := by
  have h1 := RInv.start (gcb := gcb) (ext := ext) d ds hd hds
  have h2 := RInv.start (gcb := gcb) (ext := ext) (d ++ ds.flatten) [] (by simp [hd]) (by simp)
  simp only [List.flatten_nil, List.append_nil] at h2
  exact h1.run_eq n h2 rfl (by simp)

/-- the repeated calls on the whole text are `next_boundary` calls as in C36 -/
theorem whole_run (gcb : Nat → GCB) (n : Nat) (c : Cursor) (s : List Nat) :
    Reader.run gcb (n + 1) ⟨c, [], s, []⟩ = (do
      let (c, r) ← c.nextBoundary gcb s 0
      return r :: (← Reader.run gcb n ⟨c, [], s, []⟩)) := by
  simp only [Reader.run, Reader.next, nextChunked, ask, List.reverse_nil, List.flatten_nil, blen_nil]
  cases c.nextBoundary gcb s 0 <;> rfl

/-- "e" | acute, "x" CR | LF thumb-up | skin tone: chunks that cut three clusters -/
example : (∀ p ∈ [[0x301, 0x78, 0xD], [0xA, 0x1F44D], [0x1F3FD]], p ≠ [] ∧ CleanStart Ucd.graphemeClusterBreak p) ∧
    Reader.run Ucd.graphemeClusterBreak 5 ⟨.new true 0 14, [], [0x65], [[0x301, 0x78, 0xD], [0xA, 0x1F44D], [0x1F3FD]]⟩ =
      .ok [.ok (some 3), .ok (some 4), .ok (some 6), .ok (some 14), .ok none] := by
  refine ⟨?_, by decide +kernel⟩
  have hc : ∀ (x : Nat) (t : List Nat), Ucd.graphemeClusterBreak x ≠ .RegionalIndicator → Ucd.graphemeClusterBreak x ≠ .Extend →
      CleanStart Ucd.graphemeClusterBreak (x :: t) := by
    intro x t h1 h2
    refine ⟨by rintro _ _ ⟨⟩; exact h1, ?_⟩
    intro e m u he hne hall
    obtain ⟨z, e, rfl⟩ := List.exists_cons_of_ne_nil hne
    simp at he
    exact absurd (hall x (by simp [he.1])) h2
  intro p hp
  simp only [List.mem_cons, List.not_mem_nil, or_false] at hp
  rcases hp with rfl | rfl | rfl
  · refine ⟨by simp, by rintro _ _ ⟨⟩; decide +kernel, ?_⟩
    intro e m u he hne hall
    match e, hne with
    | [z], _ => simp at he; rw [← he.2.1]; decide +kernel
    | z :: w :: e, _ =>
      simp at he
      have := hall w (by simp)
      rw [← he.2.1] at this
      exact absurd this (by decide +kernel)
  · exact ⟨by simp, hc _ _ (by decide +kernel) (by decide +kernel)⟩
  · exact ⟨by simp, hc _ _ (by decide +kernel) (by decide +kernel)⟩

/-- **C37 fails** for forward iteration: "a🇷|🇸" — the chunk starts with a regional indicator — is reported to have a
boundary at 5, inside the flag, because the indicator before it is counted twice. -/
theorem c37_next_false :
    Reader.run Ucd.graphemeClusterBreak 2 ⟨.new true 0 9, [], [0x61, 0x1F1F7], [[0x1F1F8]]⟩ = .ok [.ok (some 1), .ok (some 5)] ∧
    Reader.run Ucd.graphemeClusterBreak 2 ⟨.new true 0 9, [], [0x61, 0x1F1F7, 0x1F1F8], []⟩ = .ok [.ok (some 1), .ok (some 9)] ∧
    ¬ BoundaryAt Ucd.graphemeClusterBreak true [0x61, 0x1F1F7, 0x1F1F8] 5 := by
  refine ⟨by decide +kernel, by decide +kernel, ?_⟩
  intro h
  have := (boundaryAt_iff [0x61, 0x1F1F7] [0x1F1F8]).mp h
  revert this; decide +kernel

/-- No position of the chunk `d`, followed by the text `rest`, has before it in the chunk only regional indicators and after it
one more, or only `Extend` characters and after it an emoji modifier. -/
def NoRunFromStart (gcb : Nat → GCB) (d rest : List Nat) : Prop :=
  ∀ e y s, d ++ rest = e ++ y :: s → e ≠ [] → e.length ≤ d.length →
    ¬ (gcb y = .RegionalIndicator ∧ ∀ x ∈ e, gcb x = .RegionalIndicator) ∧ ¬ (gcb y = .EModifier ∧ ∀ x ∈ e, gcb x = .Extend)

/-- The text in the chunks `ds ++ [d]` can be read backward: the last chunk has two characters or is the only one, and no chunk
but the first starts with a run. -/
def Backward (gcb : Nat → GCB) (ds : List (List Nat)) (d : List Nat) : Prop :=
  (ds = [] ∨ 2 ≤ d.length) ∧ ∀ p q t, ds ++ [d] = p ++ q :: t → p ≠ [] → NoRunFromStart gcb q t.flatten

theorem noRun_iff (gcb : Nat → GCB) (d rest : List Nat) : NoRunFromStart gcb d rest ↔ ChunkGood gcb d rest := by
  constructor
  · rintro h w1 w2 hu h2 ⟨y, s, e, hr⟩
    have hd : d = w2.reverse ++ w1.reverse := by have := congrArg List.reverse hu; simpa using this
    have := h w2.reverse y s (by rw [hd, List.append_assoc, e]) (by simpa using h2) (by rw [hd]; simp)
    rcases hr with ⟨hy, ha⟩ | ⟨hy, ha⟩
    · exact this.1 ⟨hy, fun x hx => ha x (by simpa using hx)⟩
    · exact this.2 ⟨hy, fun x hx => ha x (by simpa using hx)⟩
  · intro h e y s he h1 hl
    obtain ⟨k, rfl, hk⟩ : ∃ k, d = e ++ k ∧ y :: s = k ++ rest := by
      rcases append_cmp he with ⟨k, rfl, e2⟩ | ⟨k, hk, rfl, e2⟩
      · have : k = [] := by
          rw [List.length_append] at hl
          exact List.length_eq_zero_iff.mp (by omega)
        subst this
        exact ⟨[], by simp, by simpa using e2.symm⟩
      · exact ⟨k, rfl, e2⟩
    have := h k.reverse e.reverse (by simp) (by simpa using h1)
    constructor
    · rintro ⟨hy, ha⟩
      exact this ⟨y, s, by rw [List.reverse_reverse, hk], Or.inl ⟨hy, fun x hx => ha x (by simpa using hx)⟩⟩
    · rintro ⟨hy, ha⟩
      exact this ⟨y, s, by rw [List.reverse_reverse, hk], Or.inr ⟨hy, fun x hx => ha x (by simpa using hx)⟩⟩

/-- the same text and position, in one chunk and in several, from the end -/
theorem back_whole (gcb : Nat → GCB) (ext : Bool) (s : List Nat) (hs : s ≠ []) :
    BInv gcb ext s.reverse [] [] ⟨.new ext (blen s) (blen s), [], s, []⟩ ∧
    AllGood gcb (Proofs.Grapheme.Reader.chunks ⟨.new ext (blen s) (blen s), [], s, []⟩) := by
  refine ⟨BInv.start s [] hs (by simp) (by simp) _ (by simp), ?_⟩
  intro p d t e hp
  obtain ⟨z, p, rfl⟩ := List.exists_cons_of_ne_nil hp
  simp [Proofs.Grapheme.Reader.chunks] at e

/-- **C37, backward iteration.** For every text in non-empty chunks that can be read backward, a client that starts at the end
and repeatedly asks for the previous boundary, supplying the previous chunk and pre-context when told to, gets exactly the
answers of a client that has the whole text in one chunk (which by C36 are the boundaries of the text); it never panics. -/
theorem c37_prev_partial (gcb : Nat → GCB) (ext : Bool) (ds : List (List Nat)) (d : List Nat) (hd : d ≠ []) (hds : ∀ p ∈ ds, p ≠ [])
    (h : Backward gcb ds d) (n : Nat) :
    Reader.runBack gcb n ⟨.new ext (blen (ds.flatten ++ d)) (blen (ds.flatten ++ d)), ds.reverse, d, []⟩ =
      Reader.runBack gcb n ⟨.new ext (blen (ds.flatten ++ d)) (blen (ds.flatten ++ d)), [], ds.flatten ++ d, []⟩ ∧
    ∃ l, Reader.runBack gcb n ⟨.new ext (blen (ds.flatten ++ d)) (blen (ds.flatten ++ d)), ds.reverse, d, []⟩ = .ok l := by
  have h1 := BInv.start (gcb := gcb) (ext := ext) d ds.reverse hd (by simpa using hds)
    (fun h0 => h.1.resolve_left (by simpa using h0)) (blen (ds.flatten ++ d)) (by simp)
  obtain ⟨h2, h3⟩ := back_whole gcb ext (ds.flatten ++ d) (by simp [hd])
  refine h1.run_eq n h2 (by simp) (by simp) ?_ h3
  intro p q t e hp
  exact (noRun_iff gcb q t.flatten).mp (h.2 p q t (by rw [← e]; simp [Proofs.Grapheme.Reader.chunks]) hp)

/-- **C37, backward iteration, the condition is necessary.** If the text in these chunks cannot be read backward, the client
gets an error on the first call (a single character in the last chunk) or a panic within as many calls as there are
characters; in one chunk it gets neither. -/
theorem c37_prev_necessary (gcb : Nat → GCB) (ext : Bool) (ds : List (List Nat)) (d : List Nat) (hd : d ≠ []) (hds : ∀ p ∈ ds, p ≠ [])
    (h : ¬ Backward gcb ds d) :
    Reader.runBack gcb 1 ⟨.new ext (blen (ds.flatten ++ d)) (blen (ds.flatten ++ d)), ds.reverse, d, []⟩ = .ok [.error .InvalidOffset] ∨
    ∃ n ≤ (ds.flatten ++ d).length,
      Reader.runBack gcb n ⟨.new ext (blen (ds.flatten ++ d)) (blen (ds.flatten ++ d)), ds.reverse, d, []⟩ = .panic := by
  by_cases h1 : ds = [] ∨ 2 ≤ d.length
  · right
    have hi := BInv.start (gcb := gcb) (ext := ext) d ds.reverse hd (by simpa using hds)
      (fun h0 => h1.resolve_left (by simpa using h0)) (blen (ds.flatten ++ d)) (by simp)
    rcases hi.good_or_panic ((ds.flatten ++ d).length) (by simp [Nat.add_comm]) with hg | hp
    · refine absurd ⟨h1, ?_⟩ h
      intro p q t e hp
      exact (noRun_iff gcb q t.flatten).mpr (hg p q t (by rw [← e]; simp [Proofs.Grapheme.Reader.chunks]) hp)
    · exact hp
  · left
    obtain ⟨h2, h3⟩ := not_or.mp h1
    obtain ⟨x, rfl⟩ : ∃ x, d = [x] := by
      match d, hd, h3 with
      | [x], _, _ => exact ⟨x, rfl⟩
      | _ :: _ :: _, _, h3 => simp at h3
    obtain ⟨e, before, he⟩ := List.exists_cons_of_ne_nil (show ds.reverse ≠ [] by simpa using h2)
    rw [he]
    refine runBack_single gcb ext x e before (hds e (by rw [← List.mem_reverse, he]; simp)) _ ?_
    rw [← he, List.reverse_reverse]

/-- Backward calls on the whole text are `prev_boundary` calls as in C36. -/
theorem whole_runBack (gcb : Nat → GCB) (n : Nat) (c : Cursor) (s : List Nat) :
    Reader.runBack gcb (n + 1) ⟨c, [], s, []⟩ = (do
      let (c, r) ← c.prevBoundary gcb s 0
      return r :: (← Reader.runBack gcb n ⟨c, [], s, []⟩)) := by
  simp only [Reader.runBack, Reader.prev, prevChunked, ask]
  cases c.prevBoundary gcb s 0 <;> rfl

/-- "e" | acute, "x" CR | LF "y": chunks that cut two clusters, read backward; a flag in the middle of a chunk -/
example : Backward Ucd.graphemeClusterBreak [[0x65], [0x301, 0x78, 0xD]] [0xA, 0x79] ∧
    Reader.runBack Ucd.graphemeClusterBreak 5 ⟨.new true 7 7, [[0x301, 0x78, 0xD], [0x65]], [0xA, 0x79], []⟩ =
      .ok [.ok (some 6), .ok (some 4), .ok (some 3), .ok (some 0), .ok none] := by
  refine ⟨⟨Or.inr (by simp), ?_⟩, by decide +kernel⟩
  have key : ∀ (x : Nat) (d rest : List Nat), Ucd.graphemeClusterBreak x ≠ .RegionalIndicator →
      (Ucd.graphemeClusterBreak x = .Extend → ∀ y s, d ++ rest = y :: s → Ucd.graphemeClusterBreak y ≠ .Extend ∧ Ucd.graphemeClusterBreak y ≠ .EModifier) →
      NoRunFromStart Ucd.graphemeClusterBreak (x :: d) rest := by
    intro x d rest h1 h2 e y s he hne hl
    obtain ⟨z, e, rfl⟩ := List.exists_cons_of_ne_nil hne
    simp at he
    obtain ⟨rfl, he⟩ := he
    refine ⟨fun h => h1 (h.2 x (by simp)), fun h => ?_⟩
    have hx := h.2 x (by simp)
    cases e with
    | nil => exact (h2 hx y s he).2 h.1
    | cons w e => exact (h2 hx w (e ++ y :: s) he).1 (h.2 w (by simp))
  intro p q t e hp
  match p, hp with
  | [a], _ =>
    simp at e
    obtain ⟨rfl, rfl, rfl⟩ := e
    exact key _ _ _ (by decide +kernel) (by rintro _ y s ⟨⟩; decide +kernel)
  | [a, b], _ =>
    simp at e
    obtain ⟨rfl, rfl, rfl, rfl⟩ := e
    exact key _ _ _ (by decide +kernel) (fun h => absurd h (by decide +kernel))
  | a :: b :: c :: p, _ =>
    have := congrArg List.length e
    simp at this

/-- The hypothesis of `c37_prev_necessary` is met by "a|🇷🇸": reading backward panics on the second chunk. -/
example : ¬ Backward Ucd.graphemeClusterBreak [[0x61]] [0x1F1F7, 0x1F1F8] ∧
    Reader.runBack Ucd.graphemeClusterBreak 1 ⟨.new true 9 9, [[0x61]], [0x1F1F7, 0x1F1F8], []⟩ = .panic := by
  refine ⟨fun h => ?_, by decide +kernel⟩
  exact (h.2 [[0x61]] [0x1F1F7, 0x1F1F8] [] rfl (by simp) [0x1F1F7] 0x1F1F8 [] rfl (by simp) (by simp)).1
    ⟨by decide +kernel, by simp; decide +kernel⟩

/-- **C37 fails** for backward iteration: with the cursor at the start of the chunk, `prev_boundary` panics instead of asking
for the previous chunk; and "abc|d" taken from the end asks for the previous chunk and then rejects it. -/
theorem c37_prev_false :
    (Cursor.new true 2 4).prevBoundary Ucd.graphemeClusterBreak [0x63, 0x64] 2 = .panic ∧
    (do let (c, r) ← (Cursor.new true 4 4).prevBoundary Ucd.graphemeClusterBreak [0x64] 3
        let (_, r') ← c.prevBoundary Ucd.graphemeClusterBreak [0x61, 0x62, 0x63] 0
        return (r, r') : Outcome (Except Incomplete (Option Nat) × Except Incomplete (Option Nat))) =
      .ok (.error .PrevChunk, .error .InvalidOffset) := by
  constructor <;> decide +kernel

end Props.GraphemeChunk
