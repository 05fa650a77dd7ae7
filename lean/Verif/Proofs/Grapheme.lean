import Verif.Proofs.GraphemeSpec
import Verif.Proofs.PunycodeShape
import Verif.Proofs.Utf

/-! A grapheme cursor over a whole text. -/
namespace Proofs.Grapheme
open Data Spec.Segment Model Model.Grapheme Proofs.Punycode

theorem blen_append (a b : List Nat) : blen (a ++ b) = blen a + blen b := by simp [blen]
theorem blen_cons (x : Nat) (b : List Nat) : blen (x :: b) = Utf.lenUtf8 x + blen b := by simp [blen]
theorem blen_nil : blen [] = 0 := rfl
theorem blen_reverse (a : List Nat) : blen a.reverse = blen a := by simp [blen, List.map_reverse, List.sum_reverse]
theorem blen_pos (x : Nat) (a : List Nat) : 0 < blen (x :: a) := by
  have := Proofs.Utf.lenUtf8_pos x; rw [blen_cons]; omega
theorem blen_eq_zero (a : List Nat) : blen a = 0 ↔ a = [] := by
  cases a with
  | nil => simp [blen]
  | cons x a => have := blen_pos x a; simp; omega

theorem sliceFrom_append (a b : List Nat) : sliceFrom (a ++ b) (blen a) = .ok b := by
  induction a with
  | nil => cases b <;> simp [blen_nil, sliceFrom]
  | cons x a ih =>
    have h := Proofs.Utf.lenUtf8_pos x
    rw [blen_cons]
    obtain ⟨k, hk⟩ : ∃ k, Utf.lenUtf8 x + blen a = k + 1 := ⟨Utf.lenUtf8 x + blen a - 1, by omega⟩
    rw [hk, List.cons_append, sliceFrom, if_pos (by omega), show k + 1 - Utf.lenUtf8 x = blen a by omega, ih]

theorem sliceTo_append (a b : List Nat) : sliceTo (a ++ b) (blen a) = .ok a := by
  induction a with
  | nil => cases b <;> simp [blen_nil, sliceTo]
  | cons x a ih =>
    have h := Proofs.Utf.lenUtf8_pos x
    rw [blen_cons]
    obtain ⟨k, hk⟩ : ∃ k, Utf.lenUtf8 x + blen a = k + 1 := ⟨Utf.lenUtf8 x + blen a - 1, by omega⟩
    rw [hk, List.cons_append, sliceTo, if_pos (by omega), show k + 1 - Utf.lenUtf8 x = blen a by omega, ih]
    rfl

theorem slice_append (a b c : List Nat) : slice (a ++ b ++ c) (blen a) (blen (a ++ b)) = .ok b := by
  unfold slice
  rw [if_neg (by rw [blen_append]; omega), List.append_assoc, sliceFrom_append]
  simp only [bind_ok]
  rw [blen_append, Nat.add_sub_cancel_left, sliceTo_append]

/-- boundary of the text whose part before the position is `ra` reversed and whose part after is `b` -/
def bd (gcb : Nat → GCB) (ext : Bool) (ra b : List Nat) : Bool := bnd ext (ra.map gcb) (b.map gcb)

/-- What the cursor knows about the text `ra.reverse ++ b` it stands in, after `ra.reverse`, is right. -/
structure At (gcb : Nat → GCB) (ext : Bool) (ra b : List Nat) (c : Cursor) : Prop where
  off : c.offset = blen ra
  len : c.len = blen ra + blen b
  extd : c.isExtended = ext
  before : ∀ k, c.catBefore = some k → ∃ x s, ra = x :: s ∧ k = gcb x
  after : ∀ k, c.catAfter = some k → ∃ x s, b = x :: s ∧ k = gcb x
  pre : c.preContextOffset = none
  ris : ∀ n, c.risCount = some n → n = riCount (ra.map gcb)
  state : (c.state = .Unknown ∧ ra ≠ [] ∧ b ≠ []) ∨ c.state = if bd gcb ext ra b then .Break else .NotBreak

theorem bd_nil_left (gcb : Nat → GCB) (ext : Bool) (b : List Nat) : bd gcb ext [] b = true := by simp [bd, bnd]
theorem bd_nil_right (gcb : Nat → GCB) (ext : Bool) (ra : List Nat) : bd gcb ext ra [] = true := by
  cases ra <;> simp [bd, bnd]

theorem handleRegionalLoop_zero (gcb : Nat → GCB) (c : Cursor) (rev : List Nat) (n : Nat) :
    c.handleRegionalLoop gcb 0 rev n =
      { c with risCount := some (n + riCount (rev.map gcb)) }.decide ((n + riCount (rev.map gcb)) % 2 == 0) := by
  induction rev generalizing n with
  | nil => simp [Cursor.handleRegionalLoop, riCount]
  | cons x rev ih =>
    rw [Cursor.handleRegionalLoop]
    by_cases h : gcb x = .RegionalIndicator
    · rw [if_neg (by simpa using h), ih]
      simp only [List.map_cons, h, riCount]
      rw [show n + 1 + riCount (rev.map gcb) = n + (riCount (rev.map gcb) + 1) by omega]
    · rw [if_pos h, List.map_cons, riCount_nonRI _ _ h, Nat.add_zero]

theorem handleEmojiLoop_zero (gcb : Nat → GCB) (c : Cursor) (rev : List Nat) :
    c.handleEmojiLoop gcb 0 rev = c.decide (!emojiBase (rev.map gcb)) := by
  induction rev with
  | nil => simp [Cursor.handleEmojiLoop, emojiBase]
  | cons x rev ih =>
    rw [Cursor.handleEmojiLoop, List.map_cons]
    cases h : gcb x <;> simp [emojiBase, ih]

theorem At.isBoundary {gcb : Nat → GCB} {ext : Bool} {ra b : List Nat} {c : Cursor} (h : At gcb ext ra b c) :
    ∃ c', c.isBoundary gcb (ra.reverse ++ b) 0 = .ok (c', .ok (bd gcb ext ra b)) ∧ At gcb ext ra b c' ∧
      c'.resuming = c.resuming := by
  have hbreak : ∀ st, c.state = st → st = (if bd gcb ext ra b then .Break else .NotBreak) →
      c.isBoundary gcb (ra.reverse ++ b) 0 = .ok (c, .ok (bd gcb ext ra b)) := by
    intro st h1 h2
    rw [h2] at h1
    cases hb : bd gcb ext ra b <;> simp [hb] at h1 <;> simp [Cursor.isBoundary, h1]
  rcases h.state with ⟨hst, hra, hb⟩ | hst
  case inr => exact ⟨c, hbreak _ rfl hst, h, rfl⟩
  obtain ⟨x, ra, rfl⟩ := List.exists_cons_of_ne_nil hra
  obtain ⟨y, b, rfl⟩ := List.exists_cons_of_ne_nil hb
  have hoff : 0 < c.offset := by rw [h.off]; exact blen_pos _ _
  have hlen : blen ((x :: ra).reverse ++ y :: b) = c.offset + blen (y :: b) := by
    rw [blen_append, blen_reverse, ← h.off]
  have hlt : c.offset < blen ((x :: ra).reverse ++ y :: b) := by rw [hlen]; have := blen_pos y b; omega
  have hto : sliceTo ((x :: ra).reverse ++ y :: b) c.offset = .ok (x :: ra).reverse := by
    rw [h.off, ← blen_reverse (x :: ra)]; exact sliceTo_append _ _
  have hfrom : sliceFrom ((x :: ra).reverse ++ y :: b) c.offset = .ok (y :: b) := by
    rw [h.off, ← blen_reverse (x :: ra)]; exact sliceFrom_append _ _
  generalize hs : (x :: ra).reverse ++ y :: b = s at *
  unfold Cursor.isBoundary
  rw [if_neg (by simp [hst]), if_neg (by simp [hst]), if_neg (by omega), h.pre]
  simp only [Nat.not_lt_zero, if_false, Nat.sub_zero]
  have hafter : c.afterCat gcb s c.offset = .ok (gcb y) := by
    unfold Cursor.afterCat
    cases hc : c.catAfter with
    | none => simp only [hfrom]
    | some k => obtain ⟨x', s', h1, h2⟩ := h.after k hc; cases h1; rw [h2]
  rw [hafter]
  simp only [bind_ok]
  rw [if_neg (by omega)]
  have hbefore : c.beforeCat gcb s c.offset = .ok (gcb x) := by
    unfold Cursor.beforeCat
    cases hc : c.catBefore with
    | none => simp [hto]
    | some k => obtain ⟨x', s', h1, h2⟩ := h.before k hc; cases h1; rw [h2]
  have hbefore' : ({ c with catAfter := some (gcb y), preContextOffset := none } : Cursor).beforeCat gcb s c.offset = .ok (gcb x) := hbefore
  unfold Cursor.isBoundaryInside
  simp only [Nat.sub_zero]
  rw [hbefore']
  simp only [bind_ok]
  unfold Cursor.decidePair
  have fin : ∀ r : Option Nat, (∀ n, r = some n → n = riCount ((x :: ra).map gcb)) → 
      At gcb ext (x :: ra) (y :: b) ({ c with catAfter := some (gcb y), catBefore := some (gcb x), preContextOffset := none, risCount := r }.decide (bd gcb ext (x :: ra) (y :: b))) := by
    intro r hr
    exact ⟨h.off, h.len, h.extd, fun k hk => ⟨x, ra, rfl, (Option.some.inj hk).symm⟩, fun k hk => ⟨y, b, rfl, (Option.some.inj hk).symm⟩, rfl, hr, Or.inr rfl⟩
  have hbd : bd gcb ext (x :: ra) (y :: b) = (match checkPair (gcb x) (gcb y) with
    | .NotBreak => false
    | .Break => true
    | .Extended => !ext
    | .Regional => riCount ((x :: ra).map gcb) % 2 == 0
    | .Emoji => !emojiBase ((x :: ra).map gcb)) := rfl
  cases hp : checkPair (gcb x) (gcb y) <;> simp only [hp] at hbd <;> simp only [pure_eq]
  · refine ⟨_, ?_, fin c.risCount h.ris, rfl⟩; rw [hbd]
  · refine ⟨_, ?_, fin c.risCount h.ris, rfl⟩; rw [hbd]
  · refine ⟨_, ?_, fin c.risCount h.ris, rfl⟩; rw [hbd, h.extd]
  · cases hr : c.risCount with
    | some n =>
      have hn := h.ris n hr
      have := fin (some n) (by rintro _ ⟨⟩; exact hn)
      refine ⟨_, ?_, this, rfl⟩
      rw [hbd, ← hn]
    | none =>
      simp only [hto, bind_ok, Cursor.handleRegional, List.reverse_reverse, hr, Option.getD_none, handleRegionalLoop_zero, Nat.zero_add]
      rw [← hbd]
      have := fin (some (riCount ((x :: ra).map gcb))) (by rintro _ ⟨⟩; rfl)
      refine ⟨_, ?_, this, rfl⟩
      cases bd gcb ext (x :: ra) (y :: b) <;> simp [Cursor.isBoundaryResult, Cursor.decide, bind_ok]
  · simp only [hto, bind_ok, Cursor.handleEmoji, List.reverse_reverse, handleEmojiLoop_zero]
    rw [← hbd]
    have := fin c.risCount h.ris
    refine ⟨_, ?_, this, rfl⟩
    cases bd gcb ext (x :: ra) (y :: b) <;> simp [Cursor.isBoundaryResult, Cursor.decide, bind_ok]

theorem At.withResuming {gcb : Nat → GCB} {ext : Bool} {ra b : List Nat} {c : Cursor} (h : At gcb ext ra b c) (r : Bool) :
    At gcb ext ra b { c with resuming := r } :=
  ⟨h.off, h.len, h.extd, h.before, h.after, h.pre, h.ris, h.state⟩

theorem At.advanceCat {gcb : Nat → GCB} {ext : Bool} {ra b : List Nat} {ch : Nat} {c : Cursor} (h : At gcb ext ra (ch :: b) c) :
    c.catAfter.getD (gcb ch) = gcb ch := by
  cases hc : c.catAfter with
  | none => rfl
  | some k => obtain ⟨x', s', h1, h2⟩ := h.after k hc; cases h1; exact h2

theorem At.advanceRis {gcb : Nat → GCB} {ext : Bool} {ra b : List Nat} {ch : Nat} {c : Cursor} (h : At gcb ext ra (ch :: b) c) :
    ∀ n, (c.advance gcb ch).risCount = some n → n = riCount ((ch :: ra).map gcb) := by
  intro n hn
  simp only [Cursor.advance, h.advanceCat] at hn
  by_cases hri : gcb ch = .RegionalIndicator
  · rw [if_pos hri] at hn
    cases hr : c.risCount with
    | none => rw [hr] at hn; simp at hn
    | some m =>
      rw [hr] at hn
      have := h.ris m hr
      simp only [List.map_cons, hri, riCount, ← this]
      simpa using hn.symm
  · rw [if_neg hri] at hn
    rw [List.map_cons, riCount_nonRI _ _ hri]
    simpa using hn.symm

theorem At.advance_cons {gcb : Nat → GCB} {ext : Bool} {ra it : List Nat} {ch nx : Nat} {c : Cursor}
    (h : At gcb ext ra (ch :: nx :: it) c) (r : Bool) :
    At gcb ext (ch :: ra) (nx :: it) { c.advance gcb ch with catAfter := some (gcb nx), resuming := r } := by
  refine ⟨?_, ?_, h.extd, ?_, ?_, h.pre, h.advanceRis, Or.inl ⟨rfl, by simp, by simp⟩⟩
  · simp [Cursor.advance, h.off, blen_cons, Nat.add_comm]
  · have := h.len; simp only [blen_cons] at this; simp [Cursor.advance, blen_cons, this]; omega
  · intro k hk; exact ⟨ch, ra, rfl, by simp only [Cursor.advance, h.advanceCat] at hk; exact (Option.some.inj hk).symm⟩
  · intro k hk; exact ⟨nx, it, rfl, (Option.some.inj hk).symm⟩

theorem At.advance_end {gcb : Nat → GCB} {ext : Bool} {ra : List Nat} {ch : Nat} {c : Cursor}
    (h : At gcb ext ra [ch] c) (r : Bool) :
    At gcb ext (ch :: ra) [] { (c.advance gcb ch).decide true with resuming := r } := by
  refine ⟨?_, ?_, h.extd, ?_, ?_, h.pre, h.advanceRis, Or.inr ?_⟩
  · simp [Cursor.advance, Cursor.decide, h.off, blen_cons, Nat.add_comm]
  · have := h.len; simp only [blen_cons] at this; simp [Cursor.advance, Cursor.decide, blen_cons, this]; omega
  · intro k hk; exact ⟨ch, ra, rfl, by simp only [Cursor.advance, Cursor.decide, h.advanceCat] at hk; exact (Option.some.inj hk).symm⟩
  · intro k hk; simp [Cursor.advance, Cursor.decide] at hk
  · simp [Cursor.decide, bd_nil_right]

/-- `u` is the piece of text from the position `(ra, u ++ v)` to the next boundary. -/
def Piece (gcb : Nat → GCB) (ext : Bool) (ra u v : List Nat) : Prop :=
  u ≠ [] ∧ bd gcb ext (u.reverse ++ ra) v = true ∧
    ∀ u1 u2, u = u1 ++ u2 → u1 ≠ [] → u2 ≠ [] → bd gcb ext (u1.reverse ++ ra) (u2 ++ v) = false

theorem Piece.cons {gcb : Nat → GCB} {ext : Bool} {ra u v : List Nat} {ch : Nat} (h : Piece gcb ext (ch :: ra) u v)
    (hb : bd gcb ext (ch :: ra) (u ++ v) = false) : Piece gcb ext ra (ch :: u) v := by
  refine ⟨by simp, by simpa using h.2.1, ?_⟩
  intro u1 u2 hu h1 h2
  cases u1 with
  | nil => exact absurd rfl h1
  | cons x u1 =>
    simp only [List.cons_append, List.cons.injEq] at hu
    obtain ⟨rfl, rfl⟩ := hu
    cases u1 with
    | nil => simpa using hb
    | cons y u1 => simpa using h.2.2 (y :: u1) u2 rfl (by simp) h2

theorem At.nextLoop {gcb : Nat → GCB} {ext : Bool} (iter : List Nat) {ra : List Nat} {ch : Nat} {c : Cursor}
    (h : At gcb ext ra (ch :: iter) c) (s : List Nat) (hs : s = ra.reverse ++ ch :: iter) :
    ∃ u v c', ch :: iter = u ++ v ∧ Piece gcb ext ra u v ∧
      c.nextLoop gcb s 0 iter ch = .ok (c', .ok (some (blen ra + blen u))) ∧
      At gcb ext (u.reverse ++ ra) v c' ∧ c'.resuming = false := by
  induction iter generalizing ra ch c with
  | nil =>
    have h1 := h.advance_end true
    obtain ⟨c', e1, e2, e3⟩ := h1.isBoundary
    rw [bd_nil_right] at e1
    refine ⟨[ch], [], { c' with resuming := false }, by simp, ⟨by simp, bd_nil_right _ _ _, ?_⟩, ?_, e2.withResuming _, rfl⟩
    · intro u1 u2 hu hn1 hn2
      have := congrArg List.length hu
      have a1 := List.length_pos_iff.mpr hn1
      have a2 := List.length_pos_iff.mpr hn2
      simp at this; omega
    · have hlen : (c.advance gcb ch).offset = (c.advance gcb ch).len := by
        have a := h1.off; have b := h1.len
        simp only [Cursor.decide] at a b
        rw [a, b]; simp [blen_nil]
      unfold Cursor.nextLoop
      simp only
      rw [if_pos hlen]
      have hs' : s = (ch :: ra).reverse ++ [] := by simp [hs]
      rw [hs', e1]
      simp only [bind_ok, pure_eq]
      rw [e2.off]
      simp [blen_cons, blen_nil, Nat.add_comm]
  | cons nx it ih =>
    have h1 := h.advance_cons true
    obtain ⟨c', e1, e2, e3⟩ := h1.isBoundary
    have hs' : s = (ch :: ra).reverse ++ nx :: it := by simp [hs]
    cases hb : bd gcb ext (ch :: ra) (nx :: it) with
    | true =>
      rw [hb] at e1
      refine ⟨[ch], nx :: it, { c' with resuming := false }, by simp, ⟨by simp, by simpa using hb, ?_⟩, ?_, e2.withResuming _, rfl⟩
      · intro u1 u2 hu hn1 hn2
        have := congrArg List.length hu
        have a1 := List.length_pos_iff.mpr hn1
        have a2 := List.length_pos_iff.mpr hn2
        simp at this; omega
      · unfold Cursor.nextLoop
        simp only
        rw [hs', e1]
        simp only [bind_ok, pure_eq]
        rw [e2.off]
        simp [blen_cons, blen_nil, Nat.add_comm]
    | false =>
      rw [hb] at e1
      obtain ⟨u, v, c'', g1, g2, g3, g4, g5⟩ := ih (e2.withResuming false) hs'
      refine ⟨ch :: u, v, c'', by simp [g1], g2.cons (by rw [← g1]; exact hb), ?_, by simpa using g4, g5⟩
      unfold Cursor.nextLoop
      simp only
      rw [hs', e1]
      simp only [bind_ok]
      rw [← hs', g3]
      simp [blen_cons]; omega

theorem At.nextBoundary {gcb : Nat → GCB} {ext : Bool} {ra b : List Nat} {c : Cursor}
    (h : At gcb ext ra b c) (hr : c.resuming = false) (hb : b ≠ []) :
    ∃ u v c', b = u ++ v ∧ Piece gcb ext ra u v ∧
      c.nextBoundary gcb (ra.reverse ++ b) 0 = .ok (c', .ok (some (blen ra + blen u))) ∧
      At gcb ext (u.reverse ++ ra) v c' ∧ c'.resuming = false := by
  obtain ⟨ch, iter, rfl⟩ := List.exists_cons_of_ne_nil hb
  obtain ⟨u, v, c', g1, g2, g3, g4, g5⟩ := At.nextLoop iter h _ rfl
  refine ⟨u, v, c', g1, g2, ?_, g4, g5⟩
  unfold Cursor.nextBoundary
  have hl : ¬ c.offset = c.len := by rw [h.off, h.len]; have := blen_pos ch iter; omega
  rw [if_neg hl, if_neg (by omega), Nat.sub_zero, h.off, ← blen_reverse ra, sliceFrom_append]
  simp only [bind_ok, hr, Bool.false_eq_true, if_false]
  rw [g3, blen_reverse]

theorem At.retreatRis {gcb : Nat → GCB} {ext : Bool} {ra b : List Nat} {ch : Nat} {c : Cursor} (h : At gcb ext (ch :: ra) b c) :
    ∀ n, (c.retreat ch).risCount = some n → n = riCount (ra.map gcb) := by
  intro n hn
  simp only [Cursor.retreat] at hn
  cases hr : c.risCount with
  | none => rw [hr] at hn; simp at hn
  | some m =>
    rw [hr] at hn
    have hm := h.ris m hr
    by_cases h0 : m > 0
    · simp only [h0, if_true] at hn
      by_cases hri : gcb ch = .RegionalIndicator
      · simp only [List.map_cons, hri, riCount] at hm
        have := Option.some.inj hn; omega
      · rw [List.map_cons, riCount_nonRI _ _ hri] at hm; omega
    · simp [h0] at hn

theorem At.retreat_cons {gcb : Nat → GCB} {ext : Bool} {ra b : List Nat} {ch p : Nat} {c : Cursor}
    (h : At gcb ext (ch :: p :: ra) b c) (r : Bool) :
    At gcb ext (p :: ra) (ch :: b) { c.retreat ch with catBefore := some (gcb p), resuming := r } := by
  refine ⟨?_, ?_, h.extd, ?_, ?_, h.pre, h.retreatRis, Or.inl ⟨rfl, by simp, by simp⟩⟩
  · have := h.off; simp only [blen_cons] at this; simp [Cursor.retreat, blen_cons, this]
  · have := h.len; simp only [blen_cons] at this; simp [Cursor.retreat, blen_cons, this]; omega
  · intro k hk; exact ⟨p, ra, rfl, (Option.some.inj hk).symm⟩
  · intro k hk
    obtain ⟨x, s, h1, h2⟩ := h.before k hk
    cases h1; exact ⟨ch, b, rfl, h2⟩

theorem At.retreat_end {gcb : Nat → GCB} {ext : Bool} {b : List Nat} {ch : Nat} {c : Cursor}
    (h : At gcb ext [ch] b c) (r : Bool) :
    At gcb ext [] (ch :: b) { (c.retreat ch).decide true with resuming := r } := by
  refine ⟨?_, ?_, h.extd, ?_, ?_, h.pre, h.retreatRis, Or.inr ?_⟩
  · have := h.off; simp only [blen_cons, blen_nil] at this; simp [Cursor.retreat, Cursor.decide, blen_nil, this]
  · have := h.len; simp only [blen_cons, blen_nil] at this; simp [Cursor.retreat, Cursor.decide, blen_cons, blen_nil, this]
  · intro k hk; simp [Cursor.retreat, Cursor.decide] at hk
  · intro k hk
    obtain ⟨x, s, h1, h2⟩ := h.before k hk
    cases h1; exact ⟨ch, b, rfl, h2⟩
  · simp [Cursor.decide, bd_nil_left]

/-- `u` is the piece of text from the previous boundary to the position `(u.reverse ++ rv, b)`. -/
def BackPiece (gcb : Nat → GCB) (ext : Bool) (rv u b : List Nat) : Prop :=
  u ≠ [] ∧ bd gcb ext rv (u ++ b) = true ∧
    ∀ u1 u2, u = u1 ++ u2 → u1 ≠ [] → u2 ≠ [] → bd gcb ext (u1.reverse ++ rv) (u2 ++ b) = false

theorem single_split {ch : Nat} {u1 u2 : List Nat} (hu : [ch] = u1 ++ u2) (h1 : u1 ≠ []) (h2 : u2 ≠ []) : False := by
  have := congrArg List.length hu
  have a1 := List.length_pos_iff.mpr h1
  have a2 := List.length_pos_iff.mpr h2
  simp at this; omega

theorem BackPiece.snoc {gcb : Nat → GCB} {ext : Bool} {rv u b : List Nat} {ch : Nat} (h : BackPiece gcb ext rv u (ch :: b))
    (hb : bd gcb ext (u.reverse ++ rv) (ch :: b) = false) : BackPiece gcb ext rv (u ++ [ch]) b := by
  refine ⟨by simp, by simpa using h.2.1, ?_⟩
  intro u1 u2 hu h1 h2
  rcases List.eq_nil_or_concat u2 with rfl | ⟨w, x, rfl⟩
  · exact absurd rfl h2
  · rw [List.concat_eq_append] at *
    rw [← List.append_assoc] at hu
    obtain ⟨rfl, hx⟩ := List.append_inj' hu rfl
    simp at hx; subst hx
    by_cases hw : w = []
    · subst hw; simpa using hb
    · simpa using h.2.2 u1 w rfl h1 hw

theorem At.prevLoop {gcb : Nat → GCB} {ext : Bool} (iter : List Nat) {b : List Nat} {ch : Nat} {c : Cursor}
    (h : At gcb ext (ch :: iter) b c) (s : List Nat) (hs : s = (ch :: iter).reverse ++ b) :
    ∃ u rv c', ch :: iter = u.reverse ++ rv ∧ BackPiece gcb ext rv u b ∧
      c.prevLoop gcb s 0 iter ch = .ok (c', .ok (some (blen rv))) ∧
      At gcb ext rv (u ++ b) c' ∧ c'.resuming = false := by
  induction iter generalizing b ch c with
  | nil =>
    have h0 : ¬ c.offset = 0 := by rw [h.off]; have := blen_pos ch []; omega
    have h1 := h.retreat_end true
    obtain ⟨c', e1, e2, e3⟩ := h1.isBoundary
    rw [bd_nil_left] at e1
    refine ⟨[ch], [], { c' with resuming := false }, by simp, ⟨by simp, bd_nil_left _ _ _, ?_⟩, ?_, e2.withResuming _, rfl⟩
    · intro u1 u2 hu hn1 hn2
      exact (single_split hu hn1 hn2).elim
    · have hz : (c.retreat ch).offset = 0 := by
        have a := h1.off
        simp only [Cursor.decide] at a
        rw [a, blen_nil]
      unfold Cursor.prevLoop
      simp only
      rw [if_neg h0, if_pos hz]
      have hs' : s = ([] : List Nat).reverse ++ ch :: b := by simp [hs]
      rw [hs', e1]
      simp only [bind_ok, pure_eq]
      rw [e2.off]
  | cons p it ih =>
    have h0 : ¬ c.offset = 0 := by rw [h.off]; have := blen_pos ch (p :: it); omega
    have h1 := h.retreat_cons true
    obtain ⟨c', e1, e2, e3⟩ := h1.isBoundary
    have hs' : s = (p :: it).reverse ++ ch :: b := by simp [hs]
    cases hb : bd gcb ext (p :: it) (ch :: b) with
    | true =>
      rw [hb] at e1
      refine ⟨[ch], p :: it, { c' with resuming := false }, by simp, ⟨by simp, by simpa using hb, ?_⟩, ?_, e2.withResuming _, rfl⟩
      · intro u1 u2 hu hn1 hn2
        exact (single_split hu hn1 hn2).elim
      · unfold Cursor.prevLoop
        simp only
        rw [if_neg h0, hs', e1]
        simp only [bind_ok, pure_eq]
        rw [e2.off]
    | false =>
      rw [hb] at e1
      obtain ⟨u, rv, c'', g1, g2, g3, g4, g5⟩ := ih (e2.withResuming false) hs'
      refine ⟨u ++ [ch], rv, c'', by simp [g1], g2.snoc (by rw [← g1]; exact hb), ?_, by simpa using g4, g5⟩
      unfold Cursor.prevLoop
      simp only
      rw [if_neg h0, hs', e1]
      simp only [bind_ok]
      rw [← hs', g3]

theorem At.prevBoundary {gcb : Nat → GCB} {ext : Bool} {ra b : List Nat} {c : Cursor}
    (h : At gcb ext ra b c) (hr : c.resuming = false) (hra : ra ≠ []) :
    ∃ u rv c', ra = u.reverse ++ rv ∧ BackPiece gcb ext rv u b ∧
      c.prevBoundary gcb (ra.reverse ++ b) 0 = .ok (c', .ok (some (blen rv))) ∧
      At gcb ext rv (u ++ b) c' ∧ c'.resuming = false := by
  obtain ⟨ch, iter, rfl⟩ := List.exists_cons_of_ne_nil hra
  obtain ⟨u, rv, c', g1, g2, g3, g4, g5⟩ := At.prevLoop iter h _ rfl
  refine ⟨u, rv, c', g1, g2, ?_, g4, g5⟩
  unfold Cursor.prevBoundary
  have hl : ¬ c.offset = 0 := by rw [h.off]; have := blen_pos ch iter; omega
  rw [if_neg hl, if_neg (by omega), Nat.sub_zero, h.off, ← blen_reverse (ch :: iter), sliceTo_append]
  simp only [bind_ok, List.reverse_reverse, hr, Bool.false_eq_true, if_false]
  exact g3

theorem At.new (gcb : Nat → GCB) (ext : Bool) (ra b : List Nat) :
    At gcb ext ra b (Cursor.new ext (blen ra) (blen (ra.reverse ++ b))) := by
  refine ⟨rfl, by simp [Cursor.new, blen_append, blen_reverse], rfl, by simp [Cursor.new], by simp [Cursor.new], rfl, by simp [Cursor.new], ?_⟩
  simp only [Cursor.new]
  by_cases h1 : ra = []
  · subst h1; right; simp [blen_nil, bd_nil_left]
  · by_cases h2 : b = []
    · subst h2; right; simp [blen_reverse, bd_nil_right]
    · left
      have a1 := mt (blen_eq_zero ra).mp h1
      have a2 := mt (blen_eq_zero b).mp h2
      rw [if_neg (by rw [blen_append, blen_reverse]; omega)]
      exact ⟨rfl, h1, h2⟩

theorem At.setCursor {gcb : Nat → GCB} {ext : Bool} {ra b ra' b' : List Nat} {c : Cursor} (h : At gcb ext ra b c)
    (ht : ra.reverse ++ b = ra'.reverse ++ b') :
    At gcb ext ra' b' (c.setCursor (blen ra')) ∧ (c.setCursor (blen ra')).resuming = c.resuming := by
  unfold Cursor.setCursor
  have hl : blen ra + blen b = blen ra' + blen b' := by
    have := congrArg blen ht; simpa [blen_append, blen_reverse] using this
  by_cases he : blen ra' = c.offset
  · rw [if_neg (by simpa using he)]
    refine ⟨?_, rfl⟩
    have hlen : blen ra = blen ra' := by rw [he, h.off]
    have hto := sliceTo_append ra.reverse b
    rw [ht, blen_reverse, hlen, ← blen_reverse ra', sliceTo_append] at hto
    have hr : ra = ra' := by
      have := Outcome.ok.inj hto; exact (List.reverse_injective this).symm
    subst hr
    rw [List.append_cancel_left ht] at h
    exact h
  · rw [if_pos he]
    refine ⟨⟨rfl, ?_, h.extd, by simp, by simp, h.pre, by simp, ?_⟩, rfl⟩
    · simp [h.len, hl]
    · simp only
      by_cases h1 : ra' = []
      · subst h1; right; simp [blen_nil, bd_nil_left]
      · by_cases h2 : b' = []
        · subst h2; right; simp [h.len, hl, blen_nil, bd_nil_right]
        · left
          have a1 := mt (blen_eq_zero ra').mp h1
          have a2 := mt (blen_eq_zero b').mp h2
          rw [if_neg (by rw [h.len]; omega)]
          exact ⟨rfl, h1, h2⟩

end Proofs.Grapheme
