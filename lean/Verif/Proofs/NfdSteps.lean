import Verif.Props.Normal

/-! What is kept by every mapping and every reordering is kept by NFD; parts of a text in NFD are in NFD. -/
namespace Proofs.NfdSteps
open Spec.Normal Model Model.UcdNormal Model.Normal Proofs.FullDecomp Proofs.NormalGood Proofs.NormalAlg Proofs.CanonOrder Props.Normal

theorem nfd_preserves (P : List Nat → Prop)
    (hexp : ∀ x y c m, mappingWith canonicalDecomposition c = some m → P (x ++ [c] ++ y) → P (x ++ m ++ y))
    (hre : ∀ x y a b, Ucd.combiningClass a > 0 → Ucd.combiningClass b > 0 → P (x ++ [a, b] ++ y) → P (x ++ [b, a] ++ y))
    (s : List Nat) (h : P s) : P (nfd s) := by
  have hT : T false = canonicalDecomposition := funext T_false
  have full : ∀ c out, FullDecomp (mappingWith (T false)) c out → ∀ x y, P (x ++ [c] ++ y) → P (x ++ out ++ y) := by
    intro c out hd
    exact FullDecomp.rec (motive_1 := fun c out _ => ∀ x y, P (x ++ [c] ++ y) → P (x ++ out ++ y))
      (motive_2 := fun cs out _ => ∀ x y, P (x ++ cs ++ y) → P (x ++ out ++ y))
      (fun _ x y h => h)
      (fun {c m out} hm _ ih x y h => ih x y (hexp x y c m (hT ▸ hm) h))
      (fun x y h => h)
      (fun {c cs a b} _ _ ih1 ih2 x y h => by
        have h1 := ih1 x (cs ++ y) (by simpa using h)
        have h2 := ih2 (x ++ a) y (by simpa using h1)
        simpa using h2) hd
  have flat : ∀ (s x : List Nat), P (x ++ s) → P (x ++ s.flatMap (D false)) := by
    intro s
    induction s with
    | nil => intro x h; exact h
    | cons c s ih =>
      intro x h
      rw [List.flatMap_cons, ← List.append_assoc]
      exact ih _ (full c _ (fullDecomp_D false c) x s (by simpa using h))
  have reo : ∀ s t, Reorders Ucd.combiningClass s t → P s → P t := by
    intro s t h
    induction h with
    | refl => exact id
    | step h _ ih =>
      cases h with
      | swap x y a b h hb =>
        intro hp
        refine ih ?_
        have := hre x y a b (by omega) hb (by simpa using hp)
        simpa using this
  rw [nfd_eq, nd]
  exact reo _ _ (reorders_to_order _) (flat s [] h)

theorem adjOrd_prefix {key : Nat → Nat} : ∀ (s t : List Nat), AdjOrd key (s ++ t) → AdjOrd key s
  | [], _, _ => trivial
  | [_], _, _ => trivial
  | a :: b :: s, t, h => by
    simp only [List.cons_append, AdjOrd] at h ⊢
    exact ⟨h.1, adjOrd_prefix (b :: s) t h.2⟩

theorem nfd_part {s x q y : List Nat} (h : nfd s = x ++ q ++ y) : nfd q = q := by
  rw [nfd_eq] at h ⊢
  have h1 : ∀ c ∈ q, D false c = [c] := fun c hc => nd_irr (good false) s c (by rw [h]; simp [hc])
  have h2 : AdjOrd Ucd.combiningClass (nd Ucd.combiningClass (D false) s) := nd_adjOrd s
  rw [h, List.append_assoc] at h2
  rw [nd, flatMap_irr h1]
  exact order_of_adjOrd (adjOrd_prefix q y (adjOrd_append_right h2))

theorem nfd_pieces {s : List Nat} {ps : List (List Nat)} (h : ps.flatten = nfd s) : ∀ p ∈ ps, nfd p = p := by
  intro p hp
  obtain ⟨a, b, rfl⟩ := List.append_of_mem hp
  exact nfd_part (s := s) (x := a.flatten) (y := b.flatten) (by rw [← h]; simp)

end Proofs.NfdSteps
