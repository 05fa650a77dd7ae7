import Verif.Proofs.StepFn

/-! # A merge of step functions the kernel evaluates faster

The same function as `Proofs.StepFn.merge`, by recursion on the two lists instead of on a bound. -/
namespace Proofs.StepFn

/-- The inner walk: `ih` goes on with the rest of the first list. -/
def zipInner {α β γ : Type} (f : α → β → γ) (s : Nat) (a : α) (ih : α → β → List (Nat × β) → List (Nat × γ)) :
    List (Nat × β) → α → β → List (Nat × γ)
  | [], _, cb => (s, f a cb) :: ih a cb []
  | (t, b) :: lb, ca, cb =>
    bif Nat.blt s t then (s, f a cb) :: ih a cb ((t, b) :: lb)
    else bif Nat.blt t s then (t, f ca b) :: zipInner f s a ih lb ca b
    else (s, f a b) :: ih a b lb

def zipSteps {α β γ : Type} (f : α → β → γ) : List (Nat × α) → α → β → List (Nat × β) → List (Nat × γ)
  | [], ca, _, lb => lb.map fun e => (e.1, f ca e.2)
  | (s, a) :: la, ca, cb, lb => zipInner f s a (zipSteps f la) lb ca cb

theorem blt_false {a b : Nat} (h : ¬ a < b) : Nat.blt a b = false := by
  cases hb : Nat.blt a b with
  | false => rfl
  | true => exact absurd (Nat.le_of_ble_eq_true hb) h

theorem evalSF_zipInner {α β γ : Type} (f : α → β → γ) (s : Nat) (a : α) (la : List (Nat × α))
    (ih : α → β → List (Nat × β) → List (Nat × γ))
    (hih : ∀ ca cb lb c, evalSF (f ca cb) (ih ca cb lb) c = f (evalSF ca la c) (evalSF cb lb c)) :
    ∀ (lb : List (Nat × β)) (ca : α) (cb : β) (c : Nat),
      evalSF (f ca cb) (zipInner f s a ih lb ca cb) c = f (evalSF ca ((s, a) :: la) c) (evalSF cb lb c)
  | [], ca, cb, c => by
    simp only [zipInner, evalSF]
    split
    · rfl
    · rw [hih]; simp only [evalSF]
  | (t, b) :: lb, ca, cb, c => by
    simp only [zipInner]
    by_cases h1 : s < t
    · rw [show Nat.blt s t = true from by first | exact Nat.ble_eq_true_of_le h1 | exact blt_false h1]
      simp only [cond_true, evalSF]
      split
      · rw [if_pos (by omega)]
      · rw [hih]; simp only [evalSF]
    · rw [show Nat.blt s t = false from by first | exact Nat.ble_eq_true_of_le h1 | exact blt_false h1]
      by_cases h2 : t < s
      · rw [show Nat.blt t s = true from by first | exact Nat.ble_eq_true_of_le h2 | exact blt_false h2]
        simp only [cond_true, cond_false, evalSF]
        by_cases hc : c < t
        · rw [if_pos hc, if_pos (by omega), if_pos hc]
        · rw [if_neg hc, if_neg hc, evalSF_zipInner f s a la ih hih lb ca b c]; simp only [evalSF]
      · rw [show Nat.blt t s = false from by first | exact Nat.ble_eq_true_of_le h2 | exact blt_false h2]
        have : s = t := by omega
        subst this
        simp only [cond_false, evalSF]
        split
        · rfl
        · rw [hih]

theorem evalSF_zipSteps {α β γ : Type} (f : α → β → γ) : ∀ (la : List (Nat × α)) (ca : α) (cb : β) (lb : List (Nat × β)) (c : Nat),
    evalSF (f ca cb) (zipSteps f la ca cb lb) c = f (evalSF ca la c) (evalSF cb lb c)
  | [], ca, cb, lb, c => evalSF_map (f ca) cb lb c
  | (s, a) :: la, ca, cb, lb, c =>
    evalSF_zipInner f s a la (zipSteps f la) (evalSF_zipSteps f la) lb ca cb c

namespace SF
def zip {α β γ : Type} (f : α → β → γ) (a : SF α) (b : SF β) : SF γ :=
  ⟨f a.cur b.cur, zipSteps f a.steps a.cur b.cur b.steps⟩

theorem eval_zip {α β γ : Type} (f : α → β → γ) (a : SF α) (b : SF β) (c : Nat) :
    (zip f a b).eval c = f (a.eval c) (b.eval c) := evalSF_zipSteps f _ _ _ _ c

theorem zip₂ {α β : Type} (p : α → β → Bool) (a : SF α) (b : SF β)
    (h : (zip p a b).all id = true) (c : Nat) : p (a.eval c) (b.eval c) = true := by
  have := all_eval h c
  rwa [eval_zip] at this

theorem zip₃ {α β γ : Type} (p : α → β → γ → Bool) (a : SF α) (b : SF β) (d : SF γ)
    (h : (zip (fun x y => p x.1 x.2 y) (zip Prod.mk a b) d).all id = true) (c : Nat) :
    p (a.eval c) (b.eval c) (d.eval c) = true := by
  have := all_eval h c
  rwa [eval_zip, eval_zip] at this

theorem zip₄ {α β γ δ : Type} (p : α → β → γ → δ → Bool) (a : SF α) (b : SF β) (d : SF γ) (e : SF δ)
    (h : (zip (fun x y => p x.1 x.2.1 x.2.2 y) (zip (fun x y => (x, y)) a (zip Prod.mk b d)) e).all id = true) (c : Nat) :
    p (a.eval c) (b.eval c) (d.eval c) (e.eval c) = true := by
  have := all_eval h c
  rwa [eval_zip, eval_zip, eval_zip] at this
end SF
end Proofs.StepFn
