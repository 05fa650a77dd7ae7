import Verif.Data.Enums

/-! # Specification: text segmentation by ordered rules (UAX #29, revision for Unicode 10)

A rule looks at the text before and after a position; the first rule that applies decides. -/
namespace Spec.Segment
open Data

/-- a rule `left × right` (`brk = false`) or `left ÷ right` (`brk = true`) -/
structure Rule (K : Type) where
  left : List K → Prop
  right : List K → Prop
  brk : Bool

/-- the rule applies between `before` and `after` -/
def Rule.Applies {K : Type} (r : Rule K) (before after : List K) : Prop := r.left before ∧ r.right after

/-- The first rule that applies says "break". -/
def Breaks {K : Type} : List (Rule K) → (before after : List K) → Prop
  | [], _, _ => False
  | r :: rs, before, after =>
    (r.Applies before after ∧ r.brk = true) ∨ (¬ r.Applies before after ∧ Breaks rs before after)

/-- anything, including the start or end of text -/
def any {K : Type} : List K → Prop := fun _ => True
/-- start of text / end of text -/
def nothing {K : Type} : List K → Prop := fun l => l = []
/-- the text before ends in a character of one of these classes -/
def endsIn {K : Type} (cs : List K) : List K → Prop := fun l => ∃ p c, l = p ++ [c] ∧ c ∈ cs
/-- the text after begins with a character of one of these classes -/
def beginsWith {K : Type} (cs : List K) : List K → Prop := fun l => ∃ c s, l = c :: s ∧ c ∈ cs

/-- UAX #29 table 1c: rules GB1 to GB999, in order; GB9a and GB9b are for extended grapheme clusters only. -/
def graphemeRules (extended : Bool) : List (Rule GraphemeClusterBreak) :=
  [ ⟨nothing, any, true⟩, -- GB1
    ⟨any, nothing, true⟩, -- GB2
    ⟨endsIn [.CR], beginsWith [.LF], false⟩, -- GB3
    ⟨endsIn [.Control, .CR, .LF], any, true⟩, -- GB4
    ⟨any, beginsWith [.Control, .CR, .LF], true⟩, -- GB5
    ⟨endsIn [.L], beginsWith [.L, .V, .LV, .LVT], false⟩, -- GB6
    ⟨endsIn [.LV, .V], beginsWith [.V, .T], false⟩, -- GB7
    ⟨endsIn [.LVT, .T], beginsWith [.T], false⟩, -- GB8
    ⟨any, beginsWith [.Extend, .ZWJ], false⟩ ] -- GB9
  ++ (if extended then
      [ ⟨any, beginsWith [.SpacingMark], false⟩, -- GB9a
        ⟨endsIn [.Prepend], any, false⟩ ] -- GB9b
    else []) ++
  [ -- GB10: (E_Base | EBG) Extend* × E_Modifier
    ⟨fun l => ∃ p b es, l = p ++ b :: es ∧ (b = .EBase ∨ b = .EBaseGAZ) ∧ ∀ e ∈ es, e = .Extend, beginsWith [.EModifier], false⟩,
    ⟨endsIn [.ZWJ], beginsWith [.GlueAfterZwj, .EBaseGAZ], false⟩, -- GB11
    -- GB12: sot (RI RI)* RI × RI
    ⟨fun l => ∃ k, l = List.replicate (2 * k + 1) .RegionalIndicator, beginsWith [.RegionalIndicator], false⟩,
    -- GB13: [^RI] (RI RI)* RI × RI
    ⟨fun l => ∃ p x k, l = p ++ x :: List.replicate (2 * k + 1) .RegionalIndicator ∧ x ≠ .RegionalIndicator,
      beginsWith [.RegionalIndicator], false⟩,
    ⟨any, any, true⟩ ] -- GB999

/-- There is a grapheme cluster boundary between `before` and `after`. -/
def GraphemeBoundary (extended : Bool) (before after : List GraphemeClusterBreak) : Prop :=
  Breaks (graphemeRules extended) before after

end Spec.Segment

namespace Spec.Segment

/-- `ps` are the non-empty pieces into which the boundaries `B` (a predicate on the text before and the text after a
position) cut the text `s`: the boundaries of `s` are exactly the ends of the first `k` pieces, for `k = 0, 1, …`. -/
def Segmentation (B : List Nat → List Nat → Prop) (s : List Nat) (ps : List (List Nat)) : Prop :=
  ps.flatten = s ∧ (∀ p ∈ ps, p ≠ []) ∧ ∀ a b, s = a ++ b → (B a b ↔ ∃ k, a = (ps.take k).flatten)

/-- one end of a double-ended iterator -/
inductive End where
  | front | back
deriving DecidableEq, Repr

/-- What a double-ended iterator over the items `l` returns to a sequence of calls, and the items it has left. -/
def deque {α : Type} : List α → List End → List (Option α) × List α
  | l, [] => ([], l)
  | l, .front :: ops => let r := deque l.tail ops; (l.head? :: r.1, r.2)
  | l, .back :: ops => let r := deque l.dropLast ops; (l.getLast? :: r.1, r.2)

/-- the pieces with their offsets, `len` being the length of a piece and `n` the offset of the first -/
def indexed (len : List Nat → Nat) : Nat → List (List Nat) → List (Nat × List Nat)
  | _, [] => []
  | n, p :: ps => (n, p) :: indexed len (n + len p) ps

/-- A text is cut into pieces in only one way. -/
theorem Segmentation.unique {B : List Nat → List Nat → Prop} {s : List Nat} {ps qs : List (List Nat)}
    (h1 : Segmentation B s ps) (h2 : Segmentation B s qs) : ps = qs := by
  have key : ∀ (ps qs : List (List Nat)), (∀ p ∈ ps, p ≠ []) → (∀ p ∈ qs, p ≠ []) → ps.flatten = qs.flatten →
      (∀ a, (∃ k, a = (ps.take k).flatten) ↔ ∃ k, a = (qs.take k).flatten) → ps = qs := by
    intro ps
    induction ps with
    | nil =>
      intro qs _ hq e _
      cases qs with
      | nil => rfl
      | cons q qs => simp at e; exact absurd e.1 (hq q (by simp))
    | cons p ps ih =>
      intro qs hp hq e hpre
      cases qs with
      | nil => simp at e; exact absurd e.1 (hp p (by simp))
      | cons q qs =>
        have hpn := hp p (by simp)
        have hqn := hq q (by simp)
        have e1 : p = q := by
          obtain ⟨k, hk⟩ := (hpre p).mp ⟨1, by simp⟩
          obtain ⟨j, hj⟩ := (hpre q).mpr ⟨1, by simp⟩
          cases k with
          | zero => simp at hk; exact absurd hk hpn
          | succ k =>
            cases j with
            | zero => simp at hj; exact absurd hj hqn
            | succ j =>
              have a1 := congrArg List.length hk
              have a2 := congrArg List.length hj
              simp only [List.take_succ_cons, List.flatten_cons, List.length_append] at a1 a2 hk
              have : (qs.take k).flatten = [] := List.eq_nil_of_length_eq_zero (by omega)
              rw [this, List.append_nil] at hk; exact hk
        subst e1
        congr 1
        refine ih qs (fun x hx => hp x (by simp [hx])) (fun x hx => hq x (by simp [hx])) (by simpa using e) ?_
        intro a
        have := hpre (p ++ a)
        constructor
        · rintro ⟨k, rfl⟩
          obtain ⟨j, hj⟩ := this.mp ⟨k + 1, by simp⟩
          cases j with
          | zero => simp at hj; exact absurd hj.1 hpn
          | succ j => exact ⟨j, by simpa using hj⟩
        · rintro ⟨k, rfl⟩
          obtain ⟨j, hj⟩ := this.mpr ⟨k + 1, by simp⟩
          cases j with
          | zero => simp at hj; exact absurd hj.1 hpn
          | succ j => exact ⟨j, by simpa using hj⟩
  refine key ps qs h1.2.1 h2.2.1 (h1.1.trans h2.1.symm) ?_
  intro a
  constructor
  · rintro ⟨k, rfl⟩
    have hs : s = (ps.take k).flatten ++ (ps.drop k).flatten := by
      rw [← List.flatten_append, List.take_append_drop]; exact h1.1.symm
    exact (h2.2.2 _ _ hs).mp ((h1.2.2 _ _ hs).mpr ⟨k, rfl⟩)
  · rintro ⟨k, rfl⟩
    have hs : s = (qs.take k).flatten ++ (qs.drop k).flatten := by
      rw [← List.flatten_append, List.take_append_drop]; exact h2.1.symm
    exact (h1.2.2 _ _ hs).mp ((h2.2.2 _ _ hs).mpr ⟨k, rfl⟩)

end Spec.Segment
