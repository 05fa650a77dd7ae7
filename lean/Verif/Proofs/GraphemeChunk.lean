import Verif.Proofs.Grapheme

/-! A grapheme cursor over a text given in chunks. -/
namespace Proofs.Grapheme
open Data Spec.Segment Model Model.Grapheme Proofs.Punycode

variable {gcb : Nat → GCB} {ext : Bool}

/-- all characters are regional indicators -/
def AllRI (gcb : Nat → GCB) (l : List Nat) : Prop := ∀ x ∈ l, gcb x = .RegionalIndicator
/-- all characters are `Extend` -/
def AllExtend (gcb : Nat → GCB) (l : List Nat) : Prop := ∀ x ∈ l, gcb x = .Extend

theorem riCount_all {l m : List Nat} (h : AllRI gcb l) : riCount ((l ++ m).map gcb) = l.length + riCount (m.map gcb) := by
  induction l with
  | nil => simp
  | cons x l ih =>
    have h1 := h x (by simp)
    have h2 := ih (fun y hy => h y (by simp [hy]))
    simp only [List.cons_append, List.map_cons, h1, riCount, h2, List.length_cons]; omega

theorem riCount_not_all {l m : List Nat} (h : ¬ AllRI gcb l) : riCount ((l ++ m).map gcb) = riCount (l.map gcb) := by
  induction l with
  | nil => exact absurd (by intro x hx; cases hx) h
  | cons x l ih =>
    by_cases h1 : gcb x = .RegionalIndicator
    · have : ¬ AllRI gcb l := fun hl => h (by
        intro y hy; rcases List.mem_cons.mp hy with rfl | hy
        · exact h1
        · exact hl y hy)
      simp only [List.cons_append, List.map_cons, h1, riCount, ih this]
    · simp only [List.cons_append, List.map_cons]; rw [riCount_nonRI _ _ h1, riCount_nonRI _ _ h1]

theorem emojiBase_all {l m : List Nat} (h : AllExtend gcb l) : emojiBase ((l ++ m).map gcb) = emojiBase (m.map gcb) := by
  induction l with
  | nil => simp
  | cons x l ih =>
    have h1 := h x (by simp)
    have h2 := ih (fun y hy => h y (by simp [hy]))
    simp only [List.cons_append, List.map_cons, h1, emojiBase, h2]

theorem emojiBase_not_all {l m : List Nat} (h : ¬ AllExtend gcb l) : emojiBase ((l ++ m).map gcb) = emojiBase (l.map gcb) := by
  induction l with
  | nil => exact absurd (by intro x hx; cases hx) h
  | cons x l ih =>
    by_cases h1 : gcb x = .Extend
    · have : ¬ AllExtend gcb l := fun hl => h (by
        intro y hy; rcases List.mem_cons.mp hy with rfl | hy
        · exact h1
        · exact hl y hy)
      simp only [List.cons_append, List.map_cons, h1, emojiBase, ih this]
    · simp only [List.cons_append, List.map_cons]
      cases hx : gcb x <;> first | rfl | exact absurd hx h1

theorem handleRegionalLoop_decided (c : Cursor) (start : Nat) (rev : List Nat) (n : Nat) (h : start = 0 ∨ ¬ AllRI gcb rev) :
    c.handleRegionalLoop gcb start rev n =
      { c with risCount := some (n + riCount (rev.map gcb)) }.decide ((n + riCount (rev.map gcb)) % 2 == 0) := by
  rcases h with rfl | h
  · exact handleRegionalLoop_zero ..
  · induction rev generalizing n with
    | nil => exact absurd (by intro x hx; cases hx) h
    | cons x rev ih =>
      rw [Cursor.handleRegionalLoop]
      by_cases h1 : gcb x = .RegionalIndicator
      · have : ¬ AllRI gcb rev := fun hl => h (by
          intro y hy; rcases List.mem_cons.mp hy with rfl | hy
          · exact h1
          · exact hl y hy)
        rw [if_neg (by simpa using h1), ih _ this]
        simp only [List.map_cons, h1, riCount]
        rw [show n + 1 + riCount (rev.map gcb) = n + (riCount (rev.map gcb) + 1) by omega]
      · rw [if_pos h1, List.map_cons, riCount_nonRI _ _ h1, Nat.add_zero]

theorem handleRegionalLoop_more (c : Cursor) (start : Nat) (rev : List Nat) (n : Nat) (h0 : start ≠ 0) (h : AllRI gcb rev) :
    c.handleRegionalLoop gcb start rev n = { c with risCount := some (n + rev.length), preContextOffset := some start } := by
  induction rev generalizing n with
  | nil => simp [Cursor.handleRegionalLoop, h0]
  | cons x rev ih =>
    rw [Cursor.handleRegionalLoop, if_neg (by simpa using h x (by simp)), ih _ (fun y hy => h y (by simp [hy]))]
    rw [List.length_cons, show n + 1 + rev.length = n + (rev.length + 1) by omega]

theorem handleEmojiLoop_decided (c : Cursor) (start : Nat) (rev : List Nat) (h : start = 0 ∨ ¬ AllExtend gcb rev) :
    c.handleEmojiLoop gcb start rev = c.decide (!emojiBase (rev.map gcb)) := by
  rcases h with rfl | h
  · exact handleEmojiLoop_zero ..
  · induction rev with
    | nil => exact absurd (by intro x hx; cases hx) h
    | cons x rev ih =>
      rw [Cursor.handleEmojiLoop, List.map_cons]
      cases h1 : gcb x <;> simp [emojiBase]
      exact ih (fun hl => h (by
          intro y hy; rcases List.mem_cons.mp hy with rfl | hy
          · exact h1
          · exact hl y hy))

theorem handleEmojiLoop_more (c : Cursor) (start : Nat) (rev : List Nat) (h0 : start ≠ 0) (h : AllExtend gcb rev) :
    c.handleEmojiLoop gcb start rev = { c with preContextOffset := some start } := by
  induction rev with
  | nil => simp [Cursor.handleEmojiLoop, h0]
  | cons x rev ih =>
    rw [Cursor.handleEmojiLoop, h x (by simp)]
    exact ih (fun y hy => h y (by simp [hy]))

/-- The answer before a regional indicator. -/
theorem bd_RI {ra b : List Nat} {y : Nat} (hy : gcb y = .RegionalIndicator) (hra : ra ≠ []) :
    bd gcb ext ra (y :: b) = (if ext = true ∧ ra.head?.map gcb = some .Prepend then false else riCount (ra.map gcb) % 2 == 0) := by
  obtain ⟨x, ra, rfl⟩ := List.exists_cons_of_ne_nil hra
  simp only [bd, List.map_cons, bnd, hy, List.head?_cons, Option.map_some, Option.some.injEq]
  cases hx : gcb x <;> simp [checkPair, riCount]

/-- The answer before an emoji modifier. -/
theorem bd_EM {ra b : List Nat} {y : Nat} (hy : gcb y = .EModifier) (hra : ra ≠ []) :
    bd gcb ext ra (y :: b) = (if ext = true ∧ ra.head?.map gcb = some .Prepend then false else !emojiBase (ra.map gcb)) := by
  obtain ⟨x, ra, rfl⟩ := List.exists_cons_of_ne_nil hra
  simp only [bd, List.map_cons, bnd, hy, List.head?_cons, Option.map_some, Option.some.injEq]
  cases hx : gcb x <;> simp [checkPair, emojiBase]

/-- `decidePair` inside a chunk: `ra1.reverse` is the part of the chunk before the cursor. -/
theorem decidePair_chunk {c : Cursor} {chunk ra1 ra2 b : List Nat} {x y start off : Nat}
    (hext : c.isExtended = ext) (hpre : c.preContextOffset = none)
    (hris : ∀ n, c.risCount = some n → n = riCount ((ra1 ++ ra2).map gcb))
    (hx : (ra1 ++ ra2).head? = some x)
    (hR : gcb x = .RegionalIndicator → gcb y = .RegionalIndicator → c.risCount = none →
      sliceTo chunk off = .ok ra1.reverse ∧ ((start = 0 ∧ ra2 = []) ∨ ¬ AllRI gcb ra1))
    (hE : gcb x = .Extend → gcb y = .EModifier →
      sliceTo chunk off = .ok ra1.reverse ∧ ((start = 0 ∧ ra2 = []) ∨ ¬ AllExtend gcb ra1)) :
    ∃ r : Option Nat, c.decidePair gcb chunk start off (gcb x) (gcb y) =
        .ok (({ c with risCount := r }).decide (bd gcb ext (ra1 ++ ra2) (y :: b)), .ok (bd gcb ext (ra1 ++ ra2) (y :: b))) ∧
      (∀ n, r = some n → n = riCount ((ra1 ++ ra2).map gcb)) ∧ (r = none → c.risCount = none) := by
  have hbd : bd gcb ext (ra1 ++ ra2) (y :: b) = (match checkPair (gcb x) (gcb y) with
    | .NotBreak => false
    | .Break => true
    | .Extended => !ext
    | .Regional => riCount ((ra1 ++ ra2).map gcb) % 2 == 0
    | .Emoji => !emojiBase ((ra1 ++ ra2).map gcb)) := by
    cases h : ra1 ++ ra2 with
    | nil => rw [h] at hx; simp at hx
    | cons z l => rw [h] at hx; simp at hx; subst hx; rfl
  unfold Cursor.decidePair
  cases hp : checkPair (gcb x) (gcb y) <;> simp only [hp] at hbd <;> simp only
  · exact ⟨c.risCount, by rw [hbd], hris, id⟩
  · exact ⟨c.risCount, by rw [hbd], hris, id⟩
  · exact ⟨c.risCount, by subst hext; rw [hbd], hris, id⟩
  · have hpr : gcb x = .RegionalIndicator ∧ gcb y = .RegionalIndicator := by
      revert hp; cases gcb x <;> cases gcb y <;> simp [checkPair]
    cases hr : c.risCount with
    | some n =>
      have hn := hris n hr
      refine ⟨c.risCount, ?_, hris, by simp [hr]⟩
      rw [hbd, ← hn]
    | none =>
      obtain ⟨hto, hall⟩ := hR hpr.1 hpr.2 hr
      have hcount : riCount (ra1.map gcb) = riCount ((ra1 ++ ra2).map gcb) := by
        rcases hall with ⟨_, rfl⟩ | hall
        · simp
        · exact (riCount_not_all hall).symm
      simp only [hto, bind_ok, Cursor.handleRegional, List.reverse_reverse, hr, Option.getD_none]
      rw [handleRegionalLoop_decided _ _ _ _ (hall.imp And.left id), Nat.zero_add, hcount, ← hbd]
      refine ⟨some (riCount ((ra1 ++ ra2).map gcb)), ?_, ?_, by simp⟩
      · cases bd gcb ext (ra1 ++ ra2) (y :: b) <;> simp [Cursor.isBoundaryResult, Cursor.decide, bind_ok]
      · intro n hn; exact (Option.some.inj hn).symm
  · have hpr : gcb x = .Extend ∧ gcb y = .EModifier := by
      revert hp; cases gcb x <;> cases gcb y <;> simp [checkPair]
    obtain ⟨hto, hall⟩ := hE hpr.1 hpr.2
    have hb : emojiBase (ra1.map gcb) = emojiBase ((ra1 ++ ra2).map gcb) := by
      rcases hall with ⟨_, rfl⟩ | hall
      · simp
      · exact (emojiBase_not_all hall).symm
    simp only [hto, bind_ok, Cursor.handleEmoji, List.reverse_reverse]
    rw [handleEmojiLoop_decided _ _ _ (hall.imp And.left id), hb, ← hbd]
    refine ⟨c.risCount, ?_, hris, id⟩
    cases bd gcb ext (ra1 ++ ra2) (y :: b) <;> simp [Cursor.isBoundaryResult, Cursor.decide, bind_ok]

end Proofs.Grapheme
