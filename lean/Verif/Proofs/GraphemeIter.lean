import Verif.Proofs.Grapheme

/-! The grapheme iterators. -/
namespace Proofs.Grapheme
open Data Spec.Segment Model Model.Grapheme Proofs.Punycode

variable {gcb : Nat → GCB} {ext : Bool}

/-- `ps` are the pieces of text from the position `ra` to the position before `b`. -/
inductive Seg (gcb : Nat → GCB) (ext : Bool) : (ra : List Nat) → (ps : List (List Nat)) → (b : List Nat) → Prop
  | nil (ra b : List Nat) : Seg gcb ext ra [] b
  | cons {ra p b : List Nat} {ps : List (List Nat)} : Piece gcb ext ra p (ps.flatten ++ b) → Seg gcb ext (p.reverse ++ ra) ps b →
      Seg gcb ext ra (p :: ps) b

theorem append_cmp {a b c d : List Nat} (h : a ++ b = c ++ d) : (∃ w, c = a ++ w ∧ b = w ++ d) ∨ (∃ w, w ≠ [] ∧ a = c ++ w ∧ d = w ++ b) := by
  rcases List.append_eq_append_iff.mp h with ⟨w, h1, h2⟩ | ⟨w, h1, h2⟩
  · exact Or.inl ⟨w, h1, h2⟩
  · by_cases hw : w = []
    · subst hw; exact Or.inl ⟨[], by simpa using h1.symm, by simpa using h2.symm⟩
    · exact Or.inr ⟨w, hw, h1, h2⟩

theorem Piece.unique {ra u v u' v' : List Nat} (h : Piece gcb ext ra u v) (h' : Piece gcb ext ra u' v') (e : u ++ v = u' ++ v') :
    u = u' ∧ v = v' := by
  have key : ∀ {u v u' v' w : List Nat}, Piece gcb ext ra u v → Piece gcb ext ra u' v' → u' = u ++ w → v = w ++ v' → w = [] := by
    intro u v u' v' w h h' h1 h2
    by_cases hw : w = []
    · exact hw
    · have := h'.2.2 u w h1 h.1 hw
      rw [← h2, h.2.1] at this
      exact absurd this (by simp)
  rcases append_cmp e with ⟨w, h1, h2⟩ | ⟨w, hw, h1, h2⟩
  · have := key h h' h1 h2; subst this; simp_all
  · exact absurd (key h' h h1 h2) hw

theorem BackPiece.unique {rv u b rv' u' : List Nat} (h : BackPiece gcb ext rv u b) (h' : BackPiece gcb ext rv' u' b)
    (e : u.reverse ++ rv = u'.reverse ++ rv') : u = u' ∧ rv = rv' := by
  have key : ∀ {rv u b rv' u' w : List Nat}, BackPiece gcb ext rv u b → BackPiece gcb ext rv' u' b → u'.reverse = u.reverse ++ w →
      rv = w ++ rv' → w = [] := by
    intro rv u b rv' u' w h h' h1 h2
    by_cases hw : w = []
    · exact hw
    · have hu : u' = w.reverse ++ u := by
        have := congrArg List.reverse h1; simpa using this
      have := h'.2.2 w.reverse u hu (by simpa using hw) h.1
      rw [List.reverse_reverse, ← h2, h.2.1] at this
      exact absurd this (by simp)
  rcases append_cmp e with ⟨w, h1, h2⟩ | ⟨w, hw, h1, h2⟩
  · have := key h h' h1 h2
    subst this
    simp at h1 h2
    exact ⟨h1.symm, h2⟩
  · exact absurd (key h' h h1 h2) hw

theorem Piece.exists (ra b : List Nat) (hb : b ≠ []) : ∃ u v, b = u ++ v ∧ Piece gcb ext ra u v := by
  obtain ⟨u, v, _, h1, h2, _⟩ := (At.new gcb ext ra b).nextBoundary rfl hb
  exact ⟨u, v, h1, h2⟩

theorem Seg.exists (gcb : Nat → GCB) (ext : Bool) (n : Nat) : ∀ (ra b : List Nat), b.length ≤ n → ∃ ps, b = ps.flatten ∧ Seg gcb ext ra ps [] := by
  induction n with
  | zero => intro ra b h; exact ⟨[], by simpa using h, .nil _ _⟩
  | succ n ih =>
    intro ra b h
    by_cases hb : b = []
    · exact ⟨[], hb, .nil _ _⟩
    · obtain ⟨u, v, h1, h2⟩ := Piece.exists (gcb := gcb) (ext := ext) ra b hb
      have := List.length_pos_iff.mpr h2.1
      obtain ⟨ps, h3, h4⟩ := ih (u.reverse ++ ra) v (by rw [h1] at h; simp at h; omega)
      refine ⟨u :: ps, by simp [h1, h3], .cons ?_ h4⟩
      rw [List.append_nil, ← h3]; exact h2

theorem Seg.snoc_inv {ra b : List Nat} {ps : List (List Nat)} {p : List Nat} (h : Seg gcb ext ra (ps ++ [p]) b)
    (hb : bd gcb ext ra ((ps ++ [p]).flatten ++ b) = true) :
    Seg gcb ext ra ps (p ++ b) ∧ BackPiece gcb ext (ps.flatten.reverse ++ ra) p b := by
  induction ps generalizing ra with
  | nil =>
    cases h with
    | cons h1 h2 =>
      refine ⟨.nil _ _, h1.1, by simpa using hb, ?_⟩
      simpa using h1.2.2
  | cons q ps ih =>
    cases h with
    | cons h1 h2 =>
      obtain ⟨g1, g2⟩ := ih h2 h1.2.1
      refine ⟨.cons (by simpa using h1) g1, by simpa using g2⟩

theorem Seg.nonempty {ra b : List Nat} {ps : List (List Nat)} (h : Seg gcb ext ra ps b) : ∀ p ∈ ps, p ≠ [] := by
  induction h with
  | nil => simp
  | cons h1 _ ih =>
    intro p hp
    rcases List.mem_cons.mp hp with rfl | hp
    · exact h1.1
    · exact ih p hp

theorem Seg.boundary {ra b : List Nat} {ps : List (List Nat)} (h : Seg gcb ext ra ps b) (hb : bd gcb ext ra (ps.flatten ++ b) = true)
    (a c : List Nat) (e : ps.flatten = a ++ c) :
    bd gcb ext (a.reverse ++ ra) (c ++ b) = true ↔ ∃ k, a = (ps.take k).flatten := by
  induction h generalizing a c with
  | nil ra b =>
    have := List.append_eq_nil_iff.mp e.symm
    obtain ⟨rfl, rfl⟩ := this
    simpa using hb
  | @cons ra p b ps h1 h2 ih =>
    by_cases ha : a = []
    · subst ha
      rw [List.nil_append] at e
      rw [← e]
      exact ⟨fun _ => ⟨0, by simp⟩, fun _ => by simpa using hb⟩
    · rw [List.flatten_cons] at e
      rcases append_cmp e with ⟨w, rfl, hw⟩ | ⟨w, hw, hp, hc⟩
      · have := ih h1.2.1 w c hw
        rw [List.reverse_append, List.append_assoc, this]
        constructor
        · rintro ⟨k, rfl⟩; exact ⟨k + 1, by simp⟩
        · rintro ⟨k, hk⟩
          cases k with
          | zero => simp at hk; exact absurd hk.1 h1.1
          | succ k => exact ⟨k, by simpa using hk⟩
      · have := h1.2.2 a w hp ha hw
        rw [hc, List.append_assoc, this]
        simp only [Bool.false_eq_true, false_iff]
        rintro ⟨k, hk⟩
        cases k with
        | zero => simp at hk; exact ha hk
        | succ k =>
          rw [List.take_succ_cons, List.flatten_cons] at hk
          have := congrArg List.length hk
          have h3 := congrArg List.length hp
          have := List.length_pos_iff.mpr hw
          simp at *; omega

/-- The iterator state `g` over `s` has the pieces `ps` left, after `a` and before `z`. -/
structure ItInv (gcb : Nat → GCB) (ext : Bool) (s a : List Nat) (ps : List (List Nat)) (z : List Nat) (g : Graphemes) : Prop where
  text : s = a ++ ps.flatten ++ z
  string : g.string = s
  front : At gcb ext a.reverse (ps.flatten ++ z) g.cursor
  frontR : g.cursor.resuming = false
  back : At gcb ext (a ++ ps.flatten).reverse z g.cursorBack
  backR : g.cursorBack.resuming = false
  seg : Seg gcb ext a.reverse ps z
  start : bd gcb ext a.reverse (ps.flatten ++ z) = true

theorem ItInv.new (gcb : Nat → GCB) (ext : Bool) (s : List Nat) (ps : List (List Nat)) (h : Seg gcb ext [] ps []) (hs : s = ps.flatten) :
    ItInv gcb ext s [] ps [] (Graphemes.new ext s) := by
  refine ⟨by simp [hs], rfl, ?_, rfl, ?_, rfl, by simpa using h, bd_nil_left _ _ _⟩
  · have := At.new gcb ext [] s
    simpa [Graphemes.new, ← hs, blen_nil] using this
  · have := At.new gcb ext s.reverse []
    simpa [Graphemes.new, ← hs, blen_reverse] using this

theorem ItInv.offsets {s a z : List Nat} {ps : List (List Nat)} {g : Graphemes} (h : ItInv gcb ext s a ps z g) :
    g.cursor.curCursor = blen a ∧ g.cursorBack.curCursor = blen (a ++ ps.flatten) := by
  have h1 := h.front.off; have h2 := h.back.off
  rw [blen_reverse] at h1 h2
  exact ⟨h1, h2⟩

theorem ItInv.asStr {s a z : List Nat} {ps : List (List Nat)} {g : Graphemes} (h : ItInv gcb ext s a ps z g) :
    g.asStr = .ok ps.flatten := by
  unfold Graphemes.asStr
  rw [h.offsets.1, h.offsets.2, h.string, h.text]
  exact slice_append _ _ _

theorem ItInv.sizeHint {s a z : List Nat} {ps : List (List Nat)} {g : Graphemes} (h : ItInv gcb ext s a ps z g) :
    g.sizeHint = .ok (min (blen ps.flatten) 1, blen ps.flatten) := by
  unfold Graphemes.sizeHint
  rw [h.offsets.1, h.offsets.2, blen_append, if_neg (by omega), Nat.add_sub_cancel_left]

theorem ItInv.next_nil {s a z : List Nat} {g : Graphemes} (h : ItInv gcb ext s a [] z g) : g.next gcb = .ok (g, none) := by
  unfold Graphemes.next
  rw [h.offsets.1, h.offsets.2]; simp

theorem ItInv.nextBack_nil {s a z : List Nat} {g : Graphemes} (h : ItInv gcb ext s a [] z g) : g.nextBack gcb = .ok (g, none) := by
  unfold Graphemes.nextBack
  rw [h.offsets.1, h.offsets.2]; simp

theorem flatten_blen_pos {ps : List (List Nat)} {p : List Nat} (hp : p ≠ []) (h : p ∈ ps) : 0 < blen ps.flatten := by
  rcases Nat.eq_zero_or_pos (blen ps.flatten) with h0 | h0
  · have := (blen_eq_zero _).mp h0
    rw [List.flatten_eq_nil_iff] at this
    exact absurd (this p h) hp
  · exact h0

theorem ItInv.next_cons {s a z p : List Nat} {ps : List (List Nat)} {g : Graphemes} (h : ItInv gcb ext s a (p :: ps) z g) :
    ∃ g', g.next gcb = .ok (g', some p) ∧ ItInv gcb ext s (a ++ p) ps z g' := by
  have hpos := flatten_blen_pos (h.seg.nonempty p (by simp)) (List.mem_cons_self (l := ps))
  have hne : ¬ g.cursor.curCursor = g.cursorBack.curCursor := by
    rw [h.offsets.1, h.offsets.2, blen_append]; omega
  have hbne : (p :: ps).flatten ++ z ≠ [] := by
    intro hc; have := congrArg blen hc; rw [blen_append, blen_nil] at this; omega
  obtain ⟨u, v, c', h1, h2, h3, h4, h5⟩ := h.front.nextBoundary h.frontR hbne
  have hseg := h.seg
  cases hseg with
  | cons hp hs =>
    have e : u ++ v = p ++ (ps.flatten ++ z) := by rw [← h1]; simp
    obtain ⟨rfl, rfl⟩ := h2.unique hp e
    refine ⟨{ g with cursor := c' }, ?_, ?_⟩
    · unfold Graphemes.next
      rw [if_neg hne, h.string]
      rw [List.reverse_reverse, ← List.append_assoc, ← h.text] at h3
      rw [h3]
      simp only [bind_ok, pure_eq]
      rw [h.offsets.1, blen_reverse, ← blen_append, h.text]
      have : a ++ (u :: ps).flatten ++ z = a ++ u ++ (ps.flatten ++ z) := by simp
      rw [this, slice_append]
      rfl
    · refine ⟨by rw [h.text]; simp, h.string, by simpa using h4, h5, by simpa using h.back, h.backR, by simpa using hs, ?_⟩
      simpa using hp.2.1

theorem ItInv.nextBack_snoc {s a z p : List Nat} {ps : List (List Nat)} {g : Graphemes} (h : ItInv gcb ext s a (ps ++ [p]) z g) :
    ∃ g', g.nextBack gcb = .ok (g', some p) ∧ ItInv gcb ext s a ps (p ++ z) g' := by
  have hpos := flatten_blen_pos (ps := ps ++ [p]) (h.seg.nonempty p (by simp)) (by simp)
  have hne : ¬ g.cursorBack.curCursor = g.cursor.curCursor := by
    rw [h.offsets.1, h.offsets.2, blen_append]; omega
  have hane : (a ++ (ps ++ [p]).flatten).reverse ≠ [] := by
    intro hc; have := congrArg blen hc; rw [blen_reverse, blen_append, blen_nil] at this; omega
  obtain ⟨u, rv, c', h1, h2, h3, h4, h5⟩ := h.back.prevBoundary h.backR hane
  obtain ⟨g1, g2⟩ := h.seg.snoc_inv h.start
  have e : u.reverse ++ rv = p.reverse ++ (ps.flatten.reverse ++ a.reverse) := by rw [← h1]; simp
  obtain ⟨rfl, rfl⟩ := h2.unique g2 e
  refine ⟨{ g with cursorBack := c' }, ?_, ?_⟩
  · unfold Graphemes.nextBack
    rw [if_neg hne, h.string]
    rw [List.reverse_reverse, ← h.text] at h3
    rw [h3]
    simp only [bind_ok, pure_eq]
    have e1 : ps.flatten.reverse ++ a.reverse = (a ++ ps.flatten).reverse := by simp
    rw [h.offsets.2, e1, blen_reverse, h.text]
    have : a ++ (ps ++ [u]).flatten ++ z = a ++ ps.flatten ++ u ++ z := by simp
    rw [this, show a ++ (ps ++ [u]).flatten = a ++ ps.flatten ++ u by simp, slice_append]
    rfl
  · refine ⟨by rw [h.text]; simp, h.string, by simpa using h.front, h.frontR, by simpa using h4, h5, g1, by simpa using h.start⟩

end Proofs.Grapheme
