/-! Generic lemmas about strictly ascending lists of naturals. -/
namespace Proofs

theorem sorted_ext : ∀ {l₁ l₂ : List Nat}, l₁.Pairwise (· < ·) → l₂.Pairwise (· < ·) →
    (∀ x, x ∈ l₁ ↔ x ∈ l₂) → l₁ = l₂
  | [], [], _, _, _ => rfl
  | [], b :: l₂, _, _, h => absurd ((h b).2 List.mem_cons_self) (by simp)
  | a :: l₁, [], _, _, h => absurd ((h a).1 List.mem_cons_self) (by simp)
  | a :: l₁, b :: l₂, h₁, h₂, h => by
    have h₁' := List.pairwise_cons.1 h₁
    have h₂' := List.pairwise_cons.1 h₂
    have hab : a = b := by
      rcases List.mem_cons.1 ((h a).1 List.mem_cons_self) with e | e
      · exact e
      · rcases List.mem_cons.1 ((h b).2 List.mem_cons_self) with e' | e'
        · exact e'.symm
        · have := h₂'.1 a e
          have := h₁'.1 b e'
          omega
    subst hab
    congr 1
    refine sorted_ext h₁'.2 h₂'.2 fun x => ?_
    constructor
    · intro hx
      rcases List.mem_cons.1 ((h x).1 (List.mem_cons_of_mem _ hx)) with e | e
      · have := h₁'.1 x hx; omega
      · exact e
    · intro hx
      rcases List.mem_cons.1 ((h x).2 (List.mem_cons_of_mem _ hx)) with e | e
      · have := h₂'.1 x hx; omega
      · exact e

theorem pairwise_range' (s n : Nat) : (List.range' s n).Pairwise (· < ·) :=
  List.pairwise_lt_range' (s := s) (n := n) (step := 1)

end Proofs
