import Verif.Proofs.WordSpec

/-! A boundary separates: what is on one side of it does not matter for the boundaries on the other side. -/
namespace Proofs.Word
open Data Spec.Segment Model.Word

/-- the terms of `joins` that look at the second class before -/
def far2 (e2 : Option WB) (e b : WB) : Bool :=
  (midL e && ahl b && optB ahl e2) || (e == .DoubleQuote && b == .HebrewLetter && e2 == some .HebrewLetter)
  || (midN e && b == .Numeric && e2 == some .Numeric)

theorem joins_e2 (e : WB) (e2 : Option WB) (odd : Bool) (b : WB) (b2 : Option WB) :
    joins e e2 odd b b2 = (joins e none odd b b2 || far2 e2 e b) := by
  have n1 : ((none : Option WB) == some .HebrewLetter) = false := rfl
  have n2 : ((none : Option WB) == some .Numeric) = false := rfl
  have n3 : optB ahl none = false := rfl
  simp only [joins, far2, n1, n2, n3, Bool.and_false, Bool.or_false]
  ac_rfl

theorem joins_b2 (e : WB) (e2 : Option WB) (odd : Bool) (b : WB) (b2 : Option WB) :
    joins e e2 odd b b2 = (joins e e2 odd b none || (ahl e && midL b && optB ahl b2)
      || (e == .HebrewLetter && b == .DoubleQuote && b2 == some .HebrewLetter)
      || (e == .Numeric && midN b && b2 == some .Numeric)) := by
  have n1 : ((none : Option WB) == some .HebrewLetter) = false := rfl
  have n2 : ((none : Option WB) == some .Numeric) = false := rfl
  have n3 : optB ahl none = false := rfl
  simp only [joins, n1, n2, n3, Bool.and_false, Bool.or_false]
  ac_rfl

/-- the terms that look at the second class after are those that look at the second class before, one place on -/
theorem joins_far2 (e : WB) (e2 : Option WB) (odd : Bool) (b : WB) (b2 : Option WB) :
    joins e e2 odd b b2 = (joins e e2 odd b none || optB (far2 (some e) b) b2) := by
  rw [joins_b2, Bool.or_assoc, Bool.or_assoc]
  congr 1
  cases b2 with
  | none => simp [optB]
  | some d =>
    rw [Bool.eq_iff_iff]
    simp only [optB, far2, Bool.or_eq_true, Bool.and_eq_true, beq_iff_eq, Option.some.injEq]
    tauto

theorem far2_classes {d e b : WB} (h : far2 (some d) e b = true) :
    isNl d = false ∧ isNl e = false ∧ isNl b = false ∧ isIgn e = false ∧ isIgn b = false ∧ e ≠ .GlueAfterZwj ∧ e ≠ .EBaseGAZ
      ∧ b ≠ .GlueAfterZwj ∧ b ≠ .EBaseGAZ := by
  simp only [far2, Bool.or_eq_true, Bool.and_eq_true, beq_iff_eq, optB, Option.some.injEq] at h
  rcases h with (⟨⟨h2, h3⟩, h1⟩ | ⟨⟨rfl, rfl⟩, rfl⟩) | ⟨⟨h2, rfl⟩, rfl⟩
  · revert h1 h2 h3
    cases d <;> simp [ahl, isNl] <;> cases e <;> simp [midL, isIgn] <;> cases b <;> simp [ahl, isIgn]
  · simp [isNl, isIgn]
  · revert h2; cases e <;> simp [midN, isNl, isIgn]

theorem ctx_odd (l : List WB) (h : (ctx l).odd = true) : (ctx l).e1 = some .RegionalIndicator := by
  induction l with
  | nil => cases h
  | cons x l ih =>
    simp only [ctx, Ctx.push] at h ⊢
    split
    · rename_i hc; rw [if_pos hc] at h; exact ih h
    · rename_i hc; rw [if_neg hc] at h; simp at h; simp [h.1]

theorem ctx_cons_e1 (x : WB) (l : List WB) : ∃ e, (ctx (x :: l)).e1 = some e := by
  simp only [ctx, Ctx.push]
  split
  · rename_i h; simp only [Bool.and_eq_true, Ctx.open] at h
    revert h; cases (ctx l).e1 <;> simp
  · exact ⟨x, rfl⟩

theorem nextSig_append_ign (j r : List WB) (h : ∀ x ∈ j, isIgn x = true) : nextSig (j ++ r) = nextSig r := by
  induction j with
  | nil => rfl
  | cons x j ih =>
    rw [List.cons_append, nextSig, if_pos (h x (by simp))]; exact ih (fun y hy => h y (by simp [hy]))

/-- the summary of `u ++ x :: a` against that of `x :: a` alone -/
theorem ctx_local {ru : List WB} {x : WB} {b2 : Option WB} (hb : bnd (ctx ru) x b2 = true) (ra : List WB) :
    (ctx (ra ++ x :: ru)).e1 = (ctx (ra ++ [x])).e1 ∧ (ctx (ra ++ x :: ru)).odd = (ctx (ra ++ [x])).odd ∧
    (ctx (ra ++ x :: ru)).z = (ctx (ra ++ [x])).z ∧
    ((ctx (ra ++ x :: ru)).e2 = (ctx (ra ++ [x])).e2 ∨
      ((ctx (ra ++ [x])).e2 = none ∧ (ctx (ra ++ x :: ru)).e2 = (ctx ru).e1 ∧ (ctx (ra ++ [x])).e1 = some x ∧ ∀ y ∈ ra, isIgn y = true)) := by
  induction ra with
  | nil =>
    have ho : (isIgn x && (ctx ru).open) = false := by
      rw [Bool.eq_false_iff]; intro h
      simp only [Bool.and_eq_true, Ctx.open] at h
      revert hb h
      simp only [bnd]
      cases (ctx ru).e1 with
      | none => simp
      | some e =>
        simp only
        intro hb ⟨h1, h2⟩
        have e1 : isNl x = false := by revert h1; cases x <;> simp [isIgn, isNl]
        have e2 : (x == .GlueAfterZwj || x == .EBaseGAZ) = false := by revert h1; cases x <;> simp [isIgn]
        simp at h2
        have e3 : (e == .CR && x == .LF) = false := by revert h1; cases x <;> simp [isIgn]
        simp [e1, e2, e3, h1, h2] at hb
    have ho2 : (isIgn x && (ctx []).open) = false := by simp [ctx, Ctx.nil, Ctx.open]
    have e1 : ctx (x :: ru) = ⟨some x, (ctx ru).e1, x == .RegionalIndicator && !(ctx ru).odd, x == .ZWJ⟩ := by
      rw [ctx, Ctx.push, ho]; rfl
    have e2 : ctx [x] = ⟨some x, none, x == .RegionalIndicator, x == .ZWJ⟩ := by
      rw [ctx, Ctx.push, ho2]; simp [ctx, Ctx.nil]
    rw [List.nil_append, List.nil_append, e1, e2]
    refine ⟨rfl, ?_, rfl, .inr ⟨rfl, rfl, rfl, fun _ h => by cases h⟩⟩
    by_cases hx : x = .RegionalIndicator
    · subst hx
      cases hod : (ctx ru).odd with
      | false => rfl
      | true =>
        have := ctx_odd ru hod
        simp [bnd, this, isNl, isIgn, joins, hod] at hb
    · simp [hx]
  | cons y ra ih =>
    obtain ⟨h1, h2, h3, h4⟩ := ih
    have hop : (ctx (ra ++ x :: ru)).open = (ctx (ra ++ [x])).open := by simp only [Ctx.open, h1]
    simp only [List.cons_append, ctx, Ctx.push, hop]
    split
    · refine ⟨h1, h2, rfl, ?_⟩
      rcases h4 with h4 | ⟨a, b, c, d⟩
      · exact .inl h4
      · rename_i hc
        simp only [Bool.and_eq_true] at hc
        refine .inr ⟨a, b, c, ?_⟩
        intro z hz
        rcases List.mem_cons.mp hz with rfl | hz
        · exact hc.1
        · exact d z hz
    · refine ⟨rfl, by rw [h2], rfl, .inl h1⟩

theorem bw_left {ru a b : List WB} (ha : a ≠ []) (h : bw ru (a ++ b) = true) :
    bw (a.reverse ++ ru) b = bw a.reverse b := by
  cases b with
  | nil => rfl
  | cons b1 b' =>
  cases a with
  | nil => exact absurd rfl ha
  | cons x a =>
    rw [List.cons_append] at h
    simp only [bw] at h ⊢
    rw [List.reverse_cons, List.append_assoc, List.singleton_append]
    obtain ⟨h1, h2, h3, h4⟩ := ctx_local h a.reverse
    rcases h4 with h4 | ⟨ha2, hb2, hc, hd⟩
    · have : ctx (a.reverse ++ x :: ru) = ctx (a.reverse ++ [x]) := by
        cases hc1 : ctx (a.reverse ++ x :: ru); cases hc2 : ctx (a.reverse ++ [x])
        simp only [hc1, hc2] at h1 h2 h3 h4
        simp [h1, h2, h3, h4]
      rw [this]
    · simp only [bnd, h1, h2, h3, hc, hb2, ha2]
      rw [joins_e2 x (ctx ru).e1]
      cases hf : far2 (ctx ru).e1 x b1 with
      | false => rw [Bool.or_false]
      | true =>
        exfalso
        cases hd1 : (ctx ru).e1 with
        | none => rw [hd1] at hf; simp [far2, optB] at hf
        | some d =>
          rw [hd1] at hf
          obtain ⟨c1, c2, c3, c4, c5, c6, c7, c8, c9⟩ := far2_classes hf
          have hns : nextSig (a ++ b1 :: b') = some b1 := by
            rw [nextSig_append_ign a _ (fun y hy => hd y (by simpa using hy)), nextSig, if_neg (by simp [c5])]
          rw [hns] at h
          have hx : (x == .LF) = false := by revert c2; cases x <;> simp [isNl]
          simp only [bnd, hd1, c1, c2, c4, hx, Bool.and_false, Bool.or_false, Bool.false_eq_true, if_false] at h
          rw [if_neg (by simp [c6, c7]), joins_far2, optB, hf] at h
          simp at h

theorem bw_right {ra b v : List WB} (hb : b ≠ []) (h : bw (b.reverse ++ ra) v = true) :
    bw ra (b ++ v) = bw ra b := by
  cases b with
  | nil => exact absurd rfl hb
  | cons b1 b' =>
    rw [List.cons_append]
    simp only [bw]
    have key : nextSig (b' ++ v) = nextSig b' ∨ ((∀ y ∈ b', isIgn y = true) ∧ nextSig b' = none) := by
      clear h hb
      induction b' with
      | nil => exact .inr ⟨fun _ h => (by cases h), rfl⟩
      | cons y b' ih =>
        simp only [List.cons_append, nextSig]
        by_cases hy : isIgn y = true
        · rw [if_pos hy, if_pos hy]
          rcases ih with ih | ⟨h1, h2⟩
          · exact .inl ih
          · refine .inr ⟨?_, h2⟩
            intro z hz
            rcases List.mem_cons.mp hz with rfl | hz
            · exact hy
            · exact h1 z hz
        · rw [if_neg hy, if_neg hy]; exact .inl rfl
    rcases key with key | ⟨hig, hn⟩
    · rw [key]
    rw [hn]
    cases he : (ctx ra).e1 with
    | none => simp only [bnd, he]
    | some e =>
    simp only [bnd, he]
    rw [joins_far2 e _ _ b1 (nextSig (b' ++ v))]
    cases hf : optB (far2 (some e) b1) (nextSig (b' ++ v)) with
    | false => rw [Bool.or_false]
    | true =>
      exfalso
      rw [nextSig_append_ign _ _ hig] at hf
      cases v with
      | nil => simp [nextSig, optB] at hf
      | cons v1 v =>
        -- the summary at the boundary before `v1`
        obtain ⟨d, hd⟩ : ∃ d, nextSig (v1 :: v) = some d := by
          revert hf; cases nextSig (v1 :: v) <;> simp [optB]
        rw [hd] at hf
        obtain ⟨c1, c2, c3, c4, c5, c6, c7, c8, c9⟩ := far2_classes hf
        have hctx : ∀ l : List WB, (∀ y ∈ l, isIgn y = true) →
            (ctx (l ++ b1 :: ra)).e1 = some b1 ∧ (ctx (l ++ b1 :: ra)).e2 = some e := by
          intro l
          induction l with
          | nil => intro _; simp [ctx, Ctx.push, c4, he]
          | cons y l ih =>
            intro hl
            obtain ⟨i1, i2⟩ := ih (fun z hz => hl z (by simp [hz]))
            simp only [List.cons_append, ctx, Ctx.push, Ctx.open, i1, hl y (by simp), c2, Bool.not_false, Bool.and_true, if_true]
            exact ⟨trivial, i2⟩
        obtain ⟨k1, k2⟩ := hctx b'.reverse (fun y hy => hig y (by simpa using hy))
        rw [List.reverse_cons, List.append_assoc, List.singleton_append] at h
        simp only [bw, bnd, k1, k2] at h
        have hcr : (b1 == .CR) = false := by revert c2; cases b1 <;> simp [isNl]
        by_cases hv : isIgn v1 = true
        · have e1 : isNl v1 = false := by revert hv; cases v1 <;> simp [isIgn, isNl]
          simp only [hcr, c2, e1, hv, Bool.false_and, Bool.or_false, Bool.false_eq_true, if_false, if_true, ite_self] at h
        · rw [nextSig, if_neg hv] at hd
          cases hd
          simp only [hcr, c2, c3, Bool.false_and, Bool.or_false, Bool.false_eq_true, if_false] at h
          have hf' : far2 (some e) b1 v1 = true := hf
          rw [if_neg (by simp [c8, c9]), if_neg hv, joins_e2, hf'] at h
          simp at h

end Proofs.Word
