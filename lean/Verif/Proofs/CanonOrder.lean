import Verif.Spec.Normal
import Verif.Model.Normal

/-! Canonical ordering by insertion, and the bubble sort of the code. -/
namespace Proofs.CanonOrder
open Spec.Normal Model.Normal

section
variable {α : Type} (key : α → Nat)

def ins (a : α) : List α → List α
  | [] => [a]
  | x :: xs => if key x ≠ 0 ∧ key x < key a then x :: ins a xs else a :: x :: xs

def order (s : List α) : List α := s.foldr (ins key) []

/-- no reorderable adjacent pair -/
def AdjOrd : List α → Prop
  | a :: b :: r => ¬ (key a > key b ∧ key b > 0) ∧ AdjOrd (b :: r)
  | _ => True

variable {key}

theorem ins_starter {a : α} (h : key a = 0) (l : List α) : ins key a l = a :: l := by
  cases l with
  | nil => rfl
  | cons x xs => rw [ins, if_neg (by omega)]

theorem ins_comm {a b : α} (h : key a > key b) (hb : key b > 0) (l : List α) :
    ins key a (ins key b l) = ins key b (ins key a l) := by
  induction l with
  | nil =>
    simp only [ins]
    rw [if_pos (by omega), if_neg (by omega)]
  | cons x xs ih =>
    by_cases h1 : key x ≠ 0 ∧ key x < key b
    · simp only [ins]
      rw [if_pos h1, if_pos (by omega)]
      simp only [ins]
      rw [if_pos h1, if_pos (by omega), ih]
    · by_cases h2 : key x ≠ 0 ∧ key x < key a
      · simp only [ins]
        rw [if_neg h1, if_pos h2]
        simp only [ins]
        rw [if_pos (by omega), if_pos h2, if_neg h1]
      · simp only [ins]
        rw [if_neg h1, if_neg h2]
        simp only [ins]
        rw [if_pos (by omega), if_neg h2, if_neg (by omega)]

theorem order_cons (a : α) (s : List α) : order key (a :: s) = ins key a (order key s) := rfl

theorem order_append (s t : List α) : order key (s ++ t) = s.foldr (ins key) (order key t) := by
  simp [order, List.foldr_append]

theorem order_swap {a b : α} (h : key a > key b) (hb : key b > 0) (x y : List α) :
    order key (x ++ a :: b :: y) = order key (x ++ b :: a :: y) := by
  rw [order_append, order_append, order_cons, order_cons, order_cons, order_cons, ins_comm h hb]

theorem ins_append_starter {c : α} (hc : key c = 0) (a : α) (u v : List α) :
    ins key a (u ++ c :: v) = ins key a u ++ c :: v := by
  induction u with
  | nil => simp only [List.nil_append, ins]; rw [if_neg (by omega)]; rfl
  | cons x u ih =>
    simp only [List.cons_append, ins]
    split
    · rw [ih]; rfl
    · rfl

theorem order_starter {c : α} (hc : key c = 0) (s t : List α) :
    order key (s ++ c :: t) = order key s ++ c :: order key t := by
  rw [order_append, order_cons, ins_starter hc]
  induction s with
  | nil => rfl
  | cons a s ih => rw [List.foldr_cons, ih, ins_append_starter hc]; rfl

theorem order_starter_cons {c : α} (hc : key c = 0) (t : List α) : order key (c :: t) = c :: order key t := by
  have := order_starter hc [] t
  simpa [order] using this

theorem ins_perm (a : α) (l : List α) : (ins key a l).Perm (a :: l) := by
  induction l with
  | nil => exact .refl _
  | cons x xs ih =>
    rw [ins]
    split
    · exact (ih.cons x).trans (List.Perm.swap a x xs)
    · exact .refl _

theorem order_perm (s : List α) : (order key s).Perm s := by
  induction s with
  | nil => exact .refl _
  | cons a s ih => exact (ins_perm a _).trans (ih.cons a)

theorem mem_order {x : α} {s : List α} : x ∈ order key s ↔ x ∈ s := (order_perm s).mem_iff

theorem adjOrd_tail {a : α} {s : List α} (h : AdjOrd key (a :: s)) : AdjOrd key s := by
  cases s with
  | nil => trivial
  | cons b s => exact h.2

theorem order_of_adjOrd {s : List α} (h : AdjOrd key s) : order key s = s := by
  induction s with
  | nil => rfl
  | cons a s ih =>
    rw [order_cons, ih (adjOrd_tail h)]
    cases s with
    | nil => rfl
    | cons b r => rw [ins, if_neg]; have := h.1; omega

theorem adjOrd_ins (a : α) {l : List α} (h : AdjOrd key l) : AdjOrd key (ins key a l) := by
  induction l with
  | nil => trivial
  | cons x xs ih =>
    rw [ins]
    split
    · rename_i hx
      have ih' := ih (adjOrd_tail h)
      cases xs with
      | nil => exact ⟨by omega, trivial⟩
      | cons y ys =>
        rw [ins] at ih' ⊢
        split
        · rename_i hy
          rw [if_pos hy] at ih'
          exact ⟨h.1, ih'⟩
        · rename_i hy
          rw [if_neg hy] at ih'
          exact ⟨by omega, ih'⟩
    · rename_i hx
      exact ⟨by omega, h⟩

theorem adjOrd_order (s : List α) : AdjOrd key (order key s) := by
  induction s with
  | nil => trivial
  | cons a s ih => exact adjOrd_ins a ih

theorem order_order (s : List α) : order key (order key s) = order key s := order_of_adjOrd (adjOrd_order s)

/-- inserting then continuing is the same as continuing from the inserted position -/
theorem foldr_ins_cons (a : α) (l y : List α) :
    (ins key a l).foldr (ins key) y = ins key a (l.foldr (ins key) y) := by
  induction l with
  | nil => rfl
  | cons x xs ih =>
    rw [ins]
    split
    · rename_i h
      rw [List.foldr_cons, ih, List.foldr_cons]
      exact (ins_comm (by omega) (by omega) _).symm
    · rfl

theorem order_congr_left (s t : List α) : order key (order key s ++ t) = order key (s ++ t) := by
  rw [order_append, order_append]
  induction s with
  | nil => rfl
  | cons a s ih => rw [order_cons, foldr_ins_cons, ih]; rfl

theorem order_congr_right (s t : List α) : order key (s ++ order key t) = order key (s ++ t) := by
  rw [order_append, order_append, order_order]

theorem order_congr {s s' t t' : List α} (hs : order key s = order key s') (ht : order key t = order key t') :
    order key (s ++ t) = order key (s' ++ t') := by
  rw [← order_congr_left s t, ← order_congr_left s' t', hs, ← order_congr_right _ t, ← order_congr_right _ t', ht]

theorem order_move {c : α} (l y : List α) (h : ∀ b ∈ l, 0 < key b ∧ key b < key c) :
    order key (c :: l ++ y) = order key (l ++ c :: y) := by
  induction l with
  | nil => rfl
  | cons b l ih =>
    have hb := h b (by simp)
    have ih' := ih (fun b hb => h b (by simp [hb]))
    have := order_swap (key := key) hb.2 hb.1 [] (l ++ y)
    simp only [List.nil_append] at this
    simp only [List.cons_append] at ih' ⊢
    rw [this, order_cons, ih', ← order_cons]
end

section
variable {ccc : Nat → Nat}

theorem reorder_order {s t : List Nat} (h : Reorder ccc s t) : order ccc s = order ccc t := by
  cases h with
  | swap x y a b h hb => exact order_swap h hb x y

theorem reorders_order {s t : List Nat} (h : Reorders ccc s t) : order ccc s = order ccc t := by
  induction h with
  | refl => rfl
  | step h _ ih => exact (reorder_order h).trans ih

theorem adjOrd_of_ordered {s : List Nat} (h : Ordered ccc s) : AdjOrd ccc s := by
  induction s with
  | nil => trivial
  | cons a s ih =>
    have h' : Ordered ccc s := by
      rintro t ⟨x, y, a', b', h1, h2⟩
      exact h _ (Reorder.swap (a :: x) y a' b' h1 h2)
    cases s with
    | nil => trivial
    | cons b r => exact ⟨fun hab => h _ (Reorder.swap [] r a b hab.1 hab.2), ih h'⟩

theorem adjOrd_append_right {s t : List Nat} (h : AdjOrd ccc (s ++ t)) : AdjOrd ccc t := by
  induction s with
  | nil => exact h
  | cons a s ih => exact ih (adjOrd_tail h)

theorem ordered_of_adjOrd {s : List Nat} (h : AdjOrd ccc s) : Ordered ccc s := by
  rintro t ⟨x, y, a, b, h1, h2⟩
  exact (adjOrd_append_right h).1 ⟨h1, h2⟩

theorem Reorders.trans' {s t u : List Nat} (h : Reorders ccc s t) (h' : Reorders ccc t u) : Reorders ccc s u := by
  induction h with
  | refl => exact h'
  | step a _ ih => exact .step a (ih h')

theorem Reorders.cons' {s t : List Nat} (c : Nat) (h : Reorders ccc s t) : Reorders ccc (c :: s) (c :: t) := by
  induction h with
  | refl => exact .refl _
  | step h _ ih =>
    refine .step ?_ ih
    cases h with
    | swap x y a b h hb => exact Reorder.swap (c :: x) y a b h hb

theorem reorders_ins (a : Nat) (l : List Nat) : Reorders ccc (a :: l) (ins ccc a l) := by
  induction l with
  | nil => exact .refl _
  | cons x xs ih =>
    rw [ins]
    split
    · rename_i h
      exact .step (Reorder.swap [] xs a x (by omega) (by omega)) (Reorders.cons' x ih)
    · exact .refl _

theorem reorders_to_order (s : List Nat) : Reorders ccc s (order ccc s) := by
  induction s with
  | nil => exact .refl _
  | cons a s ih => exact Reorders.trans' (Reorders.cons' a ih) (reorders_ins a _)

theorem isCanonicalOrdering_order (s : List Nat) : IsCanonicalOrdering ccc s (order ccc s) :=
  ⟨reorders_to_order s, ordered_of_adjOrd (adjOrd_order s)⟩

theorem isCanonicalOrdering_unique {s t : List Nat} (h : IsCanonicalOrdering ccc s t) : t = order ccc s := by
  rw [reorders_order h.1, order_of_adjOrd (adjOrd_of_ordered h.2)]

end

/-! ## The bubble sort -/
section

def key : Entry → Nat := Prod.snd

theorem pass_order (n : Nat) (l x : List Entry) : order key (x ++ (bubblePass n l).1) = order key (x ++ l) := by
  induction n generalizing l x with
  | zero => cases l <;> rfl
  | succ n ih =>
    match n, l with
    | 0, _ => rfl
    | n + 1, [] => rfl
    | n + 1, [a] => rfl
    | n + 1, a :: b :: r =>
      rw [bubblePass]
      split
      · rename_i h
        have := ih (a :: r) (x ++ [b])
        simp only [List.append_assoc, List.cons_append, List.nil_append] at this ⊢
        rw [this]
        exact (order_swap (key := key) (by simpa [key] using h.2.2) (by have := h.2.1; simp only [key]; omega) x r).symm
      · have := ih (b :: r) (x ++ [a])
        simpa only [List.append_assoc, List.cons_append, List.nil_append] using this

theorem pass_perm (n : Nat) (l : List Entry) : (bubblePass n l).1.Perm l := by
  induction n generalizing l with
  | zero => cases l <;> exact .refl _
  | succ n ih =>
    match n, l with
    | 0, _ => exact .refl _
    | n + 1, [] => exact .refl _
    | n + 1, [a] => exact .refl _
    | n + 1, a :: b :: r =>
      rw [bubblePass]
      split
      · exact ((ih (a :: r)).cons b).trans (List.Perm.swap a b r)
      · exact (ih (b :: r)).cons a

theorem pass_length (n : Nat) (l : List Entry) : (bubblePass n l).1.length = l.length := (pass_perm n l).length_eq

/-- a pass over a prefix leaves the rest alone -/
theorem pass_append (p s : List Entry) : bubblePass p.length (p ++ s) = ((bubblePass p.length p).1 ++ s, (bubblePass p.length p).2) := by
  match p with
  | [] => cases s <;> rfl
  | [a] => cases s <;> rfl
  | a :: b :: r =>
    have h1 := pass_append (a :: r) s
    have h2 := pass_append (b :: r) s
    simp only [List.length_cons, List.cons_append] at h1 h2 ⊢
    rw [bubblePass, bubblePass]
    split
    · rw [h1]; rfl
    · rw [h2]; rfl
termination_by p.length

theorem pass_not_swapped (l : List Entry) (h : (bubblePass l.length l).2 = false) :
    (bubblePass l.length l).1 = l ∧ AdjOrd key l := by
  match l with
  | [] => exact ⟨rfl, trivial⟩
  | [a] => exact ⟨rfl, trivial⟩
  | a :: b :: r =>
    have ih := pass_not_swapped (b :: r)
    simp only [List.length_cons] at h ih ⊢
    rw [bubblePass] at h ⊢
    split at h
    · simp at h
    · rename_i hc
      rw [if_neg hc]
      obtain ⟨h1, h2⟩ := ih h
      exact ⟨by simp [h1], by simp only [key]; omega, h2⟩
termination_by l.length

/-- every entry of the run of non-starters at the end of `p` has key at most `k` -/
def LastRunLe (p : List Entry) (k : Nat) : Prop :=
  ∀ x a mid, p = x ++ a :: mid → (∀ m ∈ a :: mid, key m ≠ 0) → key a ≤ k

theorem lastRunLe_cons {a : Entry} {p : List Entry} {k : Nat} (hp : LastRunLe p k)
    (h : (∀ m ∈ a :: p, key m ≠ 0) → key a ≤ k) : LastRunLe (a :: p) k := by
  intro x b mid he hm
  cases x with
  | nil =>
    simp only [List.nil_append, List.cons.injEq] at he
    obtain ⟨rfl, rfl⟩ := he
    exact h hm
  | cons y x =>
    simp only [List.cons_append, List.cons.injEq] at he
    exact hp x b mid he.2 hm

theorem lastRunLe_tail {a : Entry} {p : List Entry} {k : Nat} (h : LastRunLe (a :: p) k) : LastRunLe p k :=
  fun x b mid he hm => h (a :: x) b mid (by simp [he]) hm

theorem pass_last (a : Entry) (l : List Entry) :
    ∃ q m, (bubblePass (l.length + 1) (a :: l)).1 = q ++ [m] ∧
      (∀ k, LastRunLe (a :: l) k → key m ≠ 0 → key m ≤ k) ∧
      (key m ≠ 0 → LastRunLe q (key m)) ∧
      ((∀ x ∈ q, key x ≠ 0) → key m ≠ 0 → key a ≤ key m) := by
  match l with
  | [] =>
    refine ⟨[], a, rfl, fun k h hm => h [] a [] rfl (by simpa using hm), ?_, fun _ _ => Nat.le_refl _⟩
    intro _ x b mid he
    simp at he
  | b :: r =>
    rw [List.length_cons, bubblePass]
    split
    · rename_i hc
      obtain ⟨q, m, h1, h2, h3, h4⟩ := pass_last a r
      refine ⟨b :: q, m, by simp [h1], ?_, ?_, ?_⟩
      · intro k hk
        apply h2 k
        apply lastRunLe_cons (lastRunLe_tail (lastRunLe_tail hk))
        intro hm
        exact hk [] a (b :: r) rfl (by
          intro m' hm'
          simp only [List.mem_cons] at hm'
          rcases hm' with rfl | rfl | hm'
          · exact hm m' (by simp)
          · exact hc.2.1
          · exact hm m' (by simp [hm']))
      · intro hm
        apply lastRunLe_cons (h3 hm)
        intro hall
        have := h4 (fun x hx => hall x (by simp [hx])) hm
        have := hc.2.2
        simp only [key] at *; omega
      · intro hall hm
        exact h4 (fun x hx => hall x (by simp [hx])) hm
    · rename_i hc
      obtain ⟨q, m, h1, h2, h3, h4⟩ := pass_last b r
      have key3 : (∀ x ∈ a :: q, key x ≠ 0) → key m ≠ 0 → key a ≤ key m := by
        intro hall hm
        have hb : key b ≠ 0 := by
          have hp := pass_perm (r.length + 1) (b :: r)
          rw [h1] at hp
          have : b ∈ q ++ [m] := hp.mem_iff.2 (by simp)
          rcases List.mem_append.1 this with h | h
          · exact hall b (by simp [h])
          · rw [List.mem_singleton.1 h]; exact hm
        have := h4 (fun x hx => hall x (by simp [hx])) hm
        have ha := hall a (by simp)
        simp only [key] at *; omega
      refine ⟨a :: q, m, by simp [h1], ?_, ?_, key3⟩
      · intro k hk
        exact h2 k (lastRunLe_tail hk)
      · intro hm
        apply lastRunLe_cons (h3 hm)
        intro hall
        exact key3 hall hm
termination_by l.length

theorem adjOrd_append_last (p : List Entry) (y : Entry) (s : List Entry) (hp : AdjOrd key p) (hs : AdjOrd key (y :: s))
    (h : key y ≠ 0 → LastRunLe p (key y)) : AdjOrd key (p ++ y :: s) := by
  induction p with
  | nil => exact hs
  | cons a p ih =>
    have ih' := ih (adjOrd_tail hp) (fun hy => lastRunLe_tail (h hy))
    cases p with
    | nil =>
      refine ⟨?_, ih'⟩
      rintro ⟨h1, h2⟩
      have := h (by omega) [] a [] rfl (by simp; omega)
      omega
    | cons b p => exact ⟨hp.1, ih'⟩

theorem adjOrd_sortLoop (p s : List Entry) (hs : AdjOrd key s) (h : ∀ y r, s = y :: r → key y ≠ 0 → LastRunLe p (key y)) :
    AdjOrd key (sortLoop p.length (p ++ s)) := by
  match hp : p with
  | [] => exact hs
  | a :: l =>
    rw [List.length_cons, sortLoop]
    have hpa := pass_append (a :: l) s
    simp only [List.length_cons] at hpa
    rw [hpa]
    simp only
    split
    · obtain ⟨q, m, h1, h2, h3, _⟩ := pass_last a l
      rw [h1]
      have hlen : q.length = l.length := by
        have := pass_length (l.length + 1) (a :: l)
        rw [h1] at this
        simp at this; omega
      have := adjOrd_sortLoop q (m :: s) (by
        cases s with
        | nil => trivial
        | cons y r =>
          refine ⟨?_, hs⟩
          rintro ⟨g1, g2⟩
          have := h2 (key y) (h y r rfl (by omega)) (by omega)
          omega) (by
        rintro y r he hy
        simp only [List.cons.injEq] at he
        obtain ⟨rfl, rfl⟩ := he
        exact h3 hy)
      rw [hlen] at this
      simpa using this
    · rename_i hsw
      obtain ⟨g1, g2⟩ := pass_not_swapped (a :: l) (by simpa using hsw)
      simp only [List.length_cons] at g1
      rw [g1]
      cases s with
      | nil => simpa using g2
      | cons y r => exact adjOrd_append_last _ y r g2 hs (h y r rfl)
termination_by p.length

theorem sortLoop_order (n : Nat) (l : List Entry) : order key (sortLoop n l) = order key l := by
  induction n generalizing l with
  | zero => rfl
  | succ n ih =>
    rw [sortLoop]
    have := pass_order (n + 1) l []
    simp only [List.nil_append] at this
    simp only
    split
    · rw [ih, this]
    · exact this

/-- The bubble sort computes the canonical ordering. -/
theorem canonicalSort_eq (l : List Entry) : canonicalSort l = order key l := by
  have h := adjOrd_sortLoop l [] trivial (by intro y r h; simp at h)
  rw [List.append_nil] at h
  rw [canonicalSort, ← sortLoop_order l.length l, order_of_adjOrd h]

end

end Proofs.CanonOrder
