import Verif.Proofs.GraphemeIter

/-! # C35, C36: grapheme clusters of a whole text -/
namespace Props.Grapheme
open Data Spec.Segment Model Model.Grapheme Proofs.Grapheme Proofs.Punycode

/-- Rules GB1–GB999 put a boundary between `a` and `b`, for the classes `gcb` of their characters. -/
def Boundary (gcb : Nat → GCB) (ext : Bool) (a b : List Nat) : Prop := GraphemeBoundary ext (a.map gcb) (b.map gcb)

/-- The calls `ops` on an iterator with the steps `front` and `back`: what they return, and the iterator after them. -/
def calls {S α : Type} (front back : S → Outcome (S × Option α)) : S → List End → Outcome (List (Option α) × S)
  | g, [] => .ok ([], g)
  | g, .front :: ops => do
    let (g, r) ← front g
    let (rs, g) ← calls front back g ops
    return (r :: rs, g)
  | g, .back :: ops => do
    let (g, r) ← back g
    let (rs, g) ← calls front back g ops
    return (r :: rs, g)

theorem bd_iff (gcb : Nat → GCB) (ext : Bool) (ra b : List Nat) : bd gcb ext ra b = true ↔ Boundary gcb ext ra.reverse b := by
  unfold bd Boundary
  rw [← bnd_spec, List.map_reverse]

theorem Seg.segmentation {gcb : Nat → GCB} {ext : Bool} {s : List Nat} {ps : List (List Nat)} (h : Seg gcb ext [] ps [])
    (e : s = ps.flatten) : Segmentation (Boundary gcb ext) s ps := by
  refine ⟨e.symm, h.nonempty, ?_⟩
  intro a b hab
  have := h.boundary (bd_nil_left _ _ _) a b (e ▸ hab)
  rw [← this, List.append_nil, List.append_nil, bd_iff, List.reverse_reverse]

theorem indexed_append (len : List Nat → Nat) (ps qs : List (List Nat)) (n : Nat) :
    indexed len n (ps ++ qs) = indexed len n ps ++ indexed len (n + (ps.map len).sum) qs := by
  induction ps generalizing n with
  | nil => simp [indexed]
  | cons p ps ih => simp [indexed, ih, Nat.add_assoc]

theorem blen_flatten (ps : List (List Nat)) : blen ps.flatten = (ps.map blen).sum := by
  induction ps with
  | nil => rfl
  | cons p ps ih => simp [blen_append, ih]

theorem calls_deque {gcb : Nat → GCB} {ext : Bool} (s : List Nat) (ops : List End) :
    ∀ (a : List Nat) (ps : List (List Nat)) (z : List Nat) (g : Graphemes), ItInv gcb ext s a ps z g →
      ∃ g' a' z', calls (·.nextIndexed gcb) (·.nextBackIndexed gcb) g ops = .ok ((deque (indexed blen (blen a) ps) ops).1, g') ∧
        calls (·.next gcb) (·.nextBack gcb) g ops = .ok ((deque ps ops).1, g') ∧
        ItInv gcb ext s a' (deque ps ops).2 z' g' := by
  induction ops with
  | nil => intro a ps z g h; exact ⟨g, a, z, rfl, rfl, h⟩
  | cons op ops ih =>
    intro a ps z g h
    cases op with
    | front =>
      cases ps with
      | nil =>
        obtain ⟨g', a', z', h1, h2, h3⟩ := ih a [] z g h
        refine ⟨g', a', z', ?_, ?_, h3⟩
        · have hx : g.nextIndexed gcb = .ok (g, none) := by simp [Graphemes.nextIndexed, h.next_nil]
          simp only [calls, hx, bind_ok, pure_eq, h1]; rfl
        · simp only [calls, h.next_nil, bind_ok, pure_eq, h2]; rfl
      | cons p ps =>
        obtain ⟨g1, e1, i1⟩ := h.next_cons
        obtain ⟨g', a', z', h1, h2, h3⟩ := ih _ ps z g1 i1
        refine ⟨g', a', z', ?_, ?_, h3⟩
        · have hx : g.nextIndexed gcb = .ok (g1, some (blen a, p)) := by simp [Graphemes.nextIndexed, e1, h.offsets.1]
          rw [blen_append] at h1
          simp only [calls, hx, bind_ok, pure_eq, h1, deque, indexed]; rfl
        · simp only [calls, e1, bind_ok, pure_eq, h2, deque]; rfl
    | back =>
      rcases List.eq_nil_or_concat ps with rfl | ⟨ps, p, rfl⟩
      · obtain ⟨g', a', z', h1, h2, h3⟩ := ih a [] z g h
        refine ⟨g', a', z', ?_, ?_, h3⟩
        · have hx : g.nextBackIndexed gcb = .ok (g, none) := by simp [Graphemes.nextBackIndexed, h.nextBack_nil]
          simp only [calls, hx, bind_ok, pure_eq, h1]; rfl
        · simp only [calls, h.nextBack_nil, bind_ok, pure_eq, h2]; rfl
      · rw [List.concat_eq_append] at *
        obtain ⟨g1, e1, i1⟩ := h.nextBack_snoc
        obtain ⟨g', a', z', h1, h2, h3⟩ := ih _ ps _ g1 i1
        refine ⟨g', a', z', ?_, ?_, by simpa [deque] using h3⟩
        · have : g1.cursorBack.curCursor = blen a + (ps.map blen).sum := by rw [i1.offsets.2, blen_append, blen_flatten]
          have hx : g.nextBackIndexed gcb = .ok (g1, some (blen a + (ps.map blen).sum, p)) := by simp [Graphemes.nextBackIndexed, e1, this]
          simp only [calls, hx, bind_ok, pure_eq, h1, deque, indexed_append, indexed]
          simp
        · simp only [calls, e1, bind_ok, pure_eq, h2, deque]; simp

/-- **C35.** Every text has clusters `ps` — non-empty pieces whose concatenation is the text, cut at the boundaries of
UAX #29 — and whatever sequence of `next` and `next_back` calls is made on a `Graphemes` (`GraphemeIndices`), in extended or
legacy mode, the answers are those of a double-ended queue of these clusters (with their byte offsets): nothing panics, and
`as_str` and `size_hint` describe the clusters that are left. -/
theorem c35_iteration (gcb : Nat → GCB) (ext : Bool) (s : List Nat) :
    ∃ ps, Segmentation (Boundary gcb ext) s ps ∧ ∀ ops : List End, ∃ g,
      calls (·.next gcb) (·.nextBack gcb) (Graphemes.new ext s) ops = .ok ((deque ps ops).1, g) ∧
      calls (·.nextIndexed gcb) (·.nextBackIndexed gcb) (Graphemes.new ext s) ops = .ok ((deque (indexed blen 0 ps) ops).1, g) ∧
      g.asStr = .ok (deque ps ops).2.flatten ∧
      ∃ lo hi, g.sizeHint = .ok (lo, hi) ∧ lo ≤ (deque ps ops).2.length ∧ (deque ps ops).2.length ≤ hi := by
  obtain ⟨ps, e, h⟩ := Seg.exists gcb ext s.length [] s (Nat.le_refl _)
  refine ⟨ps, Seg.segmentation h e, ?_⟩
  intro ops
  obtain ⟨g', a', z', h1, h2, h3⟩ := calls_deque s ops [] ps [] _ (ItInv.new gcb ext s ps h e)
  refine ⟨g', h2, h1, h3.asStr, _, _, h3.sizeHint, ?_, ?_⟩
  · cases hd : (deque ps ops).2 with
    | nil => simp [blen]
    | cons p l => simp
  · have hne := h3.seg.nonempty
    generalize (deque ps ops).2 = l at hne
    rw [blen_flatten]
    induction l with
    | nil => simp
    | cons p l ih =>
      have h1 := ih (fun q hq => hne q (by simp [hq]))
      have h2 := mt (blen_eq_zero p).mp (hne p (by simp))
      simp; omega

/-- The clusters of C35 are the only way to cut the text at its boundaries. -/
theorem c35_unique (gcb : Nat → GCB) (ext : Bool) (s : List Nat) (ps qs : List (List Nat))
    (h1 : Segmentation (Boundary gcb ext) s ps) (h2 : Segmentation (Boundary gcb ext) s qs) : ps = qs := h1.unique h2

/-- "e" + acute, flag + lone indicator, CR LF: extended clusters from both ends (real property table) -/
example : (calls (·.nextIndexed Ucd.graphemeClusterBreak) (·.nextBackIndexed Ucd.graphemeClusterBreak)
      (Graphemes.new true [0x65, 0x301, 0x1F1F7, 0x1F1F8, 0x1F1EE, 0xD, 0xA]) [.front, .back, .front, .back, .front]).map Prod.fst =
    .ok [some (0, [0x65, 0x301]), some (15, [0xD, 0xA]), some (3, [0x1F1F7, 0x1F1F8]), some (11, [0x1F1EE]), none] := by
  decide +kernel

/-- The byte offset `o` is a character boundary of `s` (`str::is_char_boundary`). -/
def IsOffset (s : List Nat) (o : Nat) : Prop := ∃ a b, s = a ++ b ∧ o = blen a

/-- There is a grapheme cluster boundary of `s` at byte offset `o`. -/
def BoundaryAt (gcb : Nat → GCB) (ext : Bool) (s : List Nat) (o : Nat) : Prop :=
  ∃ a b, s = a ++ b ∧ o = blen a ∧ Boundary gcb ext a b

/-- a call on a cursor over a whole text -/
inductive Op where
  | isBoundary | next | prev | set (offset : Nat)

/-- what it returns -/
inductive Out where
  | bool (r : Except Incomplete Bool) | offset (r : Except Incomplete (Option Nat)) | unit

/-- one call with the whole text as the chunk -/
def Op.run (gcb : Nat → GCB) (s : List Nat) (c : Cursor) : Op → Outcome (Cursor × Out)
  | .isBoundary => do let (c, r) ← c.isBoundary gcb s 0; return (c, .bool r)
  | .next => do let (c, r) ← c.nextBoundary gcb s 0; return (c, .offset r)
  | .prev => do let (c, r) ← c.prevBoundary gcb s 0; return (c, .offset r)
  | .set o => .ok (c.setCursor o, .unit)

/-- a sequence of calls: what each returned and the cursor position after it -/
def run (gcb : Nat → GCB) (s : List Nat) : Cursor → List Op → Outcome (List (Out × Nat))
  | _, [] => .ok []
  | c, op :: ops => do
    let (c, r) ← op.run gcb s c
    return (r, c.curCursor) :: (← run gcb s c ops)

/-- What the call `op` must return with the cursor at `o`, and where it must leave the cursor. -/
def Meets (gcb : Nat → GCB) (ext : Bool) (s : List Nat) (o : Nat) : Op → Out → Nat → Prop
  | .isBoundary, out, o' => o' = o ∧ ∃ r, out = .bool (.ok r) ∧ (r = true ↔ BoundaryAt gcb ext s o)
  | .next, out, o' =>
    (o = blen s ∧ out = .offset (.ok none) ∧ o' = o) ∨
    (o < o' ∧ out = .offset (.ok (some o')) ∧ BoundaryAt gcb ext s o' ∧ ∀ q, o < q → q < o' → ¬ BoundaryAt gcb ext s q)
  | .prev, out, o' =>
    (o = 0 ∧ out = .offset (.ok none) ∧ o' = o) ∨
    (o' < o ∧ out = .offset (.ok (some o')) ∧ BoundaryAt gcb ext s o' ∧ ∀ q, o' < q → q < o → ¬ BoundaryAt gcb ext s q)
  | .set n, out, o' => out = .unit ∧ o' = n

/-- Every call of a sequence meets its specification, starting at `o`. -/
def AllMeet (gcb : Nat → GCB) (ext : Bool) (s : List Nat) : Nat → List Op → List (Out × Nat) → Prop
  | _, [], outs => outs = []
  | o, op :: ops, outs => ∃ out o' rest, outs = (out, o') :: rest ∧ Meets gcb ext s o op out o' ∧ AllMeet gcb ext s o' ops rest

/-- the offsets given to `set_cursor` are on character boundaries of the text, as documented for `new` -/
def ValidOps (s : List Nat) (ops : List Op) : Prop := ∀ op ∈ ops, ∀ o, op = .set o → IsOffset s o

theorem boundaryAt_iff {gcb : Nat → GCB} {ext : Bool} (a b : List Nat) :
    BoundaryAt gcb ext (a ++ b) (blen a) ↔ bd gcb ext a.reverse b = true := by
  rw [bd_iff, List.reverse_reverse]
  constructor
  · rintro ⟨a', b', h1, h2, h3⟩
    have := sliceTo_append a b
    rw [h1, h2, sliceTo_append] at this
    have : a' = a := Outcome.ok.inj this
    subst this
    rw [List.append_cancel_left h1]; exact h3
  · intro h; exact ⟨a, b, rfl, rfl, h⟩

theorem offset_between {s ra u v : List Nat} {q : Nat} (hs : s = ra.reverse ++ (u ++ v)) {a b : List Nat} (h : s = a ++ b) (hq : q = blen a)
    (h1 : blen ra < q) (h2 : q < blen ra + blen u) :
    ∃ u1 u2, u = u1 ++ u2 ∧ u1 ≠ [] ∧ u2 ≠ [] ∧ a = ra.reverse ++ u1 ∧ b = u2 ++ v := by
  subst hq
  rw [hs] at h
  rcases append_cmp h with ⟨w, e1, e2⟩ | ⟨w, hw, e1, e2⟩
  · subst e1
    rw [blen_append, blen_reverse] at h1 h2
    rcases append_cmp e2 with ⟨x, f1, f2⟩ | ⟨x, hx, f1, f2⟩
    · subst f1; rw [blen_append] at h2; omega
    · refine ⟨w, x, f1, ?_, hx, rfl, f2⟩
      rintro rfl; simp [blen_nil] at h1
  · have := congrArg blen e1
    rw [blen_append, blen_reverse] at this
    omega

theorem step_meets {gcb : Nat → GCB} {ext : Bool} {s ra b : List Nat} {c : Cursor} (h : At gcb ext ra b c) (hr : c.resuming = false)
    (hs : s = ra.reverse ++ b) (op : Op) (hv : ∀ o, op = .set o → IsOffset s o) :
    ∃ c' out ra' b', op.run gcb s c = .ok (c', out) ∧ Meets gcb ext s (blen ra) op out c'.curCursor ∧
      At gcb ext ra' b' c' ∧ c'.resuming = false ∧ s = ra'.reverse ++ b' := by
  have bA : ∀ x y : List Nat, s = x.reverse ++ y → (BoundaryAt gcb ext s (blen x) ↔ bd gcb ext x y = true) := by
    intro x y hxy
    rw [hxy, ← blen_reverse, boundaryAt_iff, List.reverse_reverse]
  cases op with
  | isBoundary =>
    obtain ⟨c', h1, h2, h3⟩ := h.isBoundary
    rw [← hs] at h1
    refine ⟨c', .bool (.ok (bd gcb ext ra b)), ra, b, by simp [Op.run, h1], ⟨?_, _, rfl, ?_⟩, h2, h3.trans hr, hs⟩
    · exact h2.off
    · exact (bA ra b hs).symm
  | next =>
    by_cases hb : b = []
    · subst hb
      have hl : c.offset = c.len := by rw [h.off, h.len]; rfl
      refine ⟨c, .offset (.ok none), ra, [], ?_, Or.inl ⟨?_, rfl, h.off⟩, h, hr, hs⟩
      · simp [Op.run, Cursor.nextBoundary, hl]
      · rw [hs, blen_append, blen_reverse]; rfl
    · obtain ⟨u, v, c', h1, h2, h3, h4, h5⟩ := h.nextBoundary hr hb
      rw [← hs] at h3
      have ho : c'.curCursor = blen ra + blen u := by
        have := h4.off; rw [blen_append, blen_reverse] at this; rw [Cursor.curCursor, this]; omega
      have hs' : s = (u.reverse ++ ra).reverse ++ v := by simp [hs, h1]
      refine ⟨c', _, u.reverse ++ ra, v, by simp [Op.run, h3]; rfl, Or.inr ⟨?_, ?_, ?_, ?_⟩, h4, h5, hs'⟩
      · have := mt (blen_eq_zero u).mp h2.1; omega
      · rw [ho]
      · have := (bA _ _ hs').mpr h2.2.1
        rw [ho]; rwa [blen_append, blen_reverse, Nat.add_comm] at this
      · rintro q hq1 hq2 ⟨x, y, e1, e2, e3⟩
        rw [ho] at hq2
        obtain ⟨u1, u2, f1, f2, f3, f4, f5⟩ := offset_between (by rw [hs, h1]) e1 e2 hq1 hq2
        have := h2.2.2 u1 u2 f1 f2 f3
        rw [f4, f5] at e3
        have e4 := (bd_iff gcb ext (u1.reverse ++ ra) (u2 ++ v)).mpr (by simpa using e3)
        rw [this] at e4; exact absurd e4 (by simp)
  | prev =>
    by_cases hb : ra = []
    · subst hb
      have hl : c.offset = 0 := by rw [h.off]; rfl
      refine ⟨c, .offset (.ok none), [], b, ?_, Or.inl ⟨rfl, rfl, h.off⟩, h, hr, hs⟩
      simp [Op.run, Cursor.prevBoundary, hl]
    · obtain ⟨u, rv, c', h1, h2, h3, h4, h5⟩ := h.prevBoundary hr hb
      rw [← hs] at h3
      have ho : c'.curCursor = blen rv := h4.off
      have hs' : s = rv.reverse ++ (u ++ b) := by simp [hs, h1]
      have hl : blen ra = blen rv + blen u := by rw [h1, blen_append, blen_reverse]; omega
      refine ⟨c', _, rv, u ++ b, by simp [Op.run, h3]; rfl, Or.inr ⟨?_, ?_, ?_, ?_⟩, h4, h5, hs'⟩
      · have := mt (blen_eq_zero u).mp h2.1; omega
      · rw [ho]
      · rw [ho]; exact (bA _ _ hs').mpr h2.2.1
      · rintro q hq1 hq2 ⟨x, y, e1, e2, e3⟩
        obtain ⟨u1, u2, f1, f2, f3, f4, f5⟩ := offset_between hs' e1 e2 (by omega) (by omega)
        have := h2.2.2 u1 u2 f1 f2 f3
        rw [f4, f5] at e3
        have e4 := (bd_iff gcb ext (u1.reverse ++ rv) (u2 ++ b)).mpr (by simpa using e3)
        rw [this] at e4; exact absurd e4 (by simp)
  | set o =>
    obtain ⟨x, y, e1, e2⟩ := hv o rfl
    have := h.setCursor (ra' := x.reverse) (b' := y) (by rw [← hs, e1]; simp)
    rw [blen_reverse, ← e2] at this
    refine ⟨_, _, x.reverse, y, rfl, ⟨rfl, ?_⟩, this.1, this.2.trans hr, by simp [e1]⟩
    rw [Cursor.curCursor, this.1.off, blen_reverse, e2]

theorem run_meets {gcb : Nat → GCB} {ext : Bool} {s : List Nat} (ops : List Op) : ∀ {ra b : List Nat} {c : Cursor},
    At gcb ext ra b c → c.resuming = false → s = ra.reverse ++ b → ValidOps s ops →
      ∃ outs, run gcb s c ops = .ok outs ∧ AllMeet gcb ext s (blen ra) ops outs := by
  induction ops with
  | nil => intro ra b c _ _ _ _; exact ⟨[], rfl, rfl⟩
  | cons op ops ih =>
    intro ra b c h hr hs hv
    obtain ⟨c', out, ra', b', h1, h2, h3, h4, h5⟩ := step_meets h hr hs op (hv op (by simp))
    obtain ⟨outs, g1, g2⟩ := ih h3 h4 h5 (fun op hop => hv op (by simp [hop]))
    refine ⟨(out, c'.curCursor) :: outs, ?_, out, c'.curCursor, outs, rfl, h2, ?_⟩
    · simp [run, h1, g1]
    · rw [Cursor.curCursor, h3.off]; exact g2

/-- **C36.** A cursor created at any character offset of a text and then used in any way on the whole text
(`is_boundary`, `next_boundary`, `prev_boundary`, `set_cursor` to character offsets, in any order) never panics nor asks for
more text; `is_boundary` answers whether rules GB1–GB999 put a boundary at the cursor, and `next_boundary` /
`prev_boundary` move to the nearest boundary in their direction. -/
theorem c36_cursor (gcb : Nat → GCB) (ext : Bool) (s : List Nat) (o : Nat) (ho : IsOffset s o) (ops : List Op) (hv : ValidOps s ops) :
    ∃ outs, run gcb s (Cursor.new ext o (blen s)) ops = .ok outs ∧ AllMeet gcb ext s o ops outs := by
  obtain ⟨a, b, rfl, rfl⟩ := ho
  have h := At.new gcb ext a.reverse b
  rw [List.reverse_reverse, blen_reverse] at h
  have := run_meets (s := a ++ b) ops h rfl (by simp) hv
  rwa [blen_reverse] at this

/-- non-vacuity: an offset in the middle of a text -/
example : IsOffset [0x65, 0x301, 0x1F1F7, 0x1F1F8] 3 ∧ ValidOps [0x65, 0x301, 0x1F1F7, 0x1F1F8] [.set 7, .prev, .isBoundary] := by
  refine ⟨⟨[0x65, 0x301], [0x1F1F7, 0x1F1F8], rfl, rfl⟩, ?_⟩
  intro op hop o ho
  subst ho
  simp at hop
  subst hop
  exact ⟨[0x65, 0x301, 0x1F1F7], [0x1F1F8], rfl, by decide⟩

/-- and both kinds of answer occur -/
example : BoundaryAt Ucd.graphemeClusterBreak true [0x65, 0x301, 0x1F1F7, 0x1F1F8] 3 ∧
    ¬ BoundaryAt Ucd.graphemeClusterBreak true [0x65, 0x301, 0x1F1F7, 0x1F1F8] 7 := by
  constructor
  · exact (boundaryAt_iff [0x65, 0x301] [0x1F1F7, 0x1F1F8]).mpr (by decide +kernel)
  · intro h
    have := (boundaryAt_iff [0x65, 0x301, 0x1F1F7] [0x1F1F8]).mp h
    revert this; decide +kernel

end Props.Grapheme
