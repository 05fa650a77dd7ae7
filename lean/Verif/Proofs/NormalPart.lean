import Verif.Proofs.NormalAlg

/-! Parts of a composed text are composed, for abstract data satisfying `Good`. -/
namespace Proofs.NormalPart
open Spec.Normal Proofs.CanonOrder Proofs.NormalIter Proofs.NormalAlg

section top
variable {ccc : Nat → Nat}

/-- largest class after the last starter -/
def topFrom (ccc : Nat → Nat) (m : Nat) (s : List Nat) : Nat := s.foldl (fun m x => if ccc x = 0 then 0 else max m (ccc x)) m
abbrev top (ccc : Nat → Nat) (s : List Nat) : Nat := topFrom ccc 0 s

theorem topFrom_cons (m x : Nat) (s : List Nat) : topFrom ccc m (x :: s) = topFrom ccc (if ccc x = 0 then 0 else max m (ccc x)) s := rfl
theorem topFrom_append (m : Nat) (s t : List Nat) : topFrom ccc m (s ++ t) = topFrom ccc (topFrom ccc m s) t := List.foldl_append

theorem topFrom_mono (s : List Nat) : ∀ {m n : Nat}, m ≤ n → topFrom ccc m s ≤ topFrom ccc n s := by
  induction s with
  | nil => intro m n h; exact h
  | cons x s ih =>
    intro m n h
    rw [topFrom_cons, topFrom_cons]
    exact ih (by split <;> omega)

theorem top_suffix (a b : List Nat) : top ccc b ≤ top ccc (a ++ b) := by
  rw [top, top, topFrom_append]; exact topFrom_mono b (Nat.zero_le _)

theorem topFrom_marks (s : List Nat) : ∀ (m : Nat), (∀ x ∈ s, ccc x ≠ 0) → m ≤ topFrom ccc m s := by
  induction s with
  | nil => intro m _; exact Nat.le_refl _
  | cons x s ih =>
    intro m h
    rw [topFrom_cons, if_neg (h x (by simp))]
    exact Nat.le_trans (Nat.le_max_left _ _) (ih _ fun y hy => h y (by simp [hy]))

theorem top_prefix (a b : List Nat) (h : ∀ x ∈ b, ccc x ≠ 0) : top ccc a ≤ top ccc (a ++ b) := by
  rw [top, top, topFrom_append]; exact topFrom_marks b _ h

theorem top_snoc (s : List Nat) (y : Nat) : top ccc (s ++ [y]) = if ccc y = 0 then 0 else max (top ccc s) (ccc y) := by
  rw [top, topFrom_append]; rfl

theorem topFrom_ins (a : Nat) (l : List Nat) : ∀ m, topFrom ccc m (ins ccc a l) = topFrom ccc m (a :: l) := by
  induction l with
  | nil => intro m; rfl
  | cons x l ih =>
    intro m
    rw [ins]
    split
    · rename_i h
      rw [topFrom_cons, ih, topFrom_cons, topFrom_cons, topFrom_cons, if_neg h.1, if_neg (by omega), if_neg (by omega)]
      congr 1
      have : ccc a ≠ 0 := by omega
      simp only [this, if_false]
      omega
    · rfl

theorem topFrom_order (s : List Nat) : ∀ m, topFrom ccc m (order ccc s) = topFrom ccc m s := by
  induction s with
  | nil => intro m; rfl
  | cons a s ih => intro m; rw [order_cons, topFrom_ins, topFrom_cons, topFrom_cons, ih]

theorem adjOrd_snoc {s : List Nat} {y : Nat} (h : AdjOrd ccc s) (hy : ccc y = 0 ∨ top ccc s ≤ ccc y) : AdjOrd ccc (s ++ [y]) := by
  rcases List.eq_nil_or_concat s with rfl | ⟨s', z, rfl⟩
  · trivial
  · rw [List.concat_eq_append] at *
    rw [List.append_assoc]
    refine adjOrd_append h ⟨?_, trivial⟩
    rw [top_snoc] at hy
    rintro ⟨h1, h2⟩
    split at hy <;> omega

theorem top_le_length : ∀ (n : Nat) (t : List Nat) (y : Nat), t.length = n → AdjOrd ccc (t ++ [y]) → ccc y = 0 ∨ top ccc t ≤ ccc y := by
  intro n
  induction n with
  | zero =>
    intro t y ht _
    rw [List.length_eq_zero_iff] at ht
    subst ht
    exact .inr (Nat.zero_le _)
  | succ n ih =>
    intro t y ht h
    rcases List.eq_nil_or_concat t with rfl | ⟨t', z, rfl⟩
    · exact .inr (Nat.zero_le _)
    · rw [List.concat_eq_append] at *
      have h1 : AdjOrd ccc (t' ++ [z]) := adjOrd_prefix h
      have h2 := ih t' z (by simpa using ht) h1
      rw [List.append_assoc] at h
      have h3 := (adjOrd_append_right h).1
      rw [top_snoc]
      split <;> omega

theorem top_le {t : List Nat} {y : Nat} (h : AdjOrd ccc (t ++ [y])) : ccc y = 0 ∨ top ccc t ≤ ccc y := top_le_length _ t y rfl h
end top

section walk
variable {ccc : Nat → Nat} {comp : Nat → Nat → Option Nat}

/-- the state says where the last starter of the text is -/
structure WF (ccc : Nat → Nat) (w : Walk) : Prop where
  none : w.starter = none → w.after = [] ∧ ∀ x ∈ w.before, ccc x ≠ 0
  some : ∀ l, w.starter = some l → ccc l = 0
  after : ∀ x ∈ w.after, ccc x ≠ 0

/-- the two outcomes of a step -/
theorem step_cases {w : Walk} (hw : WF ccc w) (y : Nat) :
    ((walkStep ccc comp w y).text = w.text ++ [y] ∧ WF ccc (walkStep ccc comp w y) ∧
      (∀ b ∈ (walkStep ccc comp w y).after, b ∈ w.after ∨ b = y) ∧
      ∀ l p, w.starter = some l → blocked ccc w.after y = false → comp l y ≠ some p) ∨
    (∃ l p, w.starter = some l ∧ blocked ccc w.after y = false ∧ comp l y = some p ∧
      walkStep ccc comp w y = { w with starter := some p }) := by
  obtain ⟨bef, st, aft⟩ := w
  unfold walkStep
  cases st with
  | none =>
    obtain ⟨h1, h2⟩ := hw.none rfl
    simp only at h1 h2
    subst h1
    left
    simp only
    refine ⟨?_, ?_, ?_, by simp⟩
    · split <;> simp [Walk.text]
    · split
      · rename_i h
        exact ⟨by simp, by simp [h], by simp⟩
      · rename_i h
        refine ⟨fun _ => ⟨rfl, ?_⟩, by simp, by simp⟩
        intro x hx
        simp only [List.mem_append, List.mem_singleton] at hx
        rcases hx with hx | rfl
        · exact h2 x hx
        · exact h
    · split <;> simp
  | some l =>
    have hret : (if ccc y = 0 then (⟨Walk.text ⟨bef, some l, aft⟩, some y, []⟩ : Walk) else ⟨bef, some l, aft ++ [y]⟩).text =
        Walk.text ⟨bef, some l, aft⟩ ++ [y] ∧
        WF ccc (if ccc y = 0 then (⟨Walk.text ⟨bef, some l, aft⟩, some y, []⟩ : Walk) else ⟨bef, some l, aft ++ [y]⟩) ∧
        (∀ b ∈ (if ccc y = 0 then (⟨Walk.text ⟨bef, some l, aft⟩, some y, []⟩ : Walk) else ⟨bef, some l, aft ++ [y]⟩).after, b ∈ aft ∨ b = y) := by
      refine ⟨?_, ?_, ?_⟩
      · split <;> simp [Walk.text]
      · split
        · rename_i h
          exact ⟨by simp, by simp [h], by simp⟩
        · rename_i h
          refine ⟨by simp, hw.some, ?_⟩
          intro x hx
          simp only [List.mem_append, List.mem_singleton] at hx
          rcases hx with hx | rfl
          · exact hw.after x hx
          · exact h
      · split <;> simp
    simp only
    split
    · rename_i hb
      left
      refine ⟨hret.1, hret.2.1, hret.2.2, ?_⟩
      intro _ _ _ h
      rw [hb] at h; cases h
    · rename_i hb
      have hb : blocked ccc aft y = false := by simpa using hb
      cases hp : comp l y with
      | some p => right; exact ⟨l, p, rfl, hb, hp, rfl⟩
      | none =>
        left
        refine ⟨hret.1, hret.2.1, hret.2.2, ?_⟩
        intro l' p hl _
        cases hl
        rw [hp]; simp

theorem step_wf (hz : ∀ a b c, comp a b = some c → ccc c = 0) {w : Walk} (hw : WF ccc w) (y : Nat) : WF ccc (walkStep ccc comp w y) := by
  rcases step_cases (comp := comp) hw y with h | ⟨l, p, h1, h2, h3, h4⟩
  · exact h.2.1
  · rw [h4]
    exact ⟨by simp, fun q hq => by cases hq; exact hz l y p h3, hw.after⟩

theorem init_wf : WF ccc ⟨[], none, []⟩ := ⟨fun _ => ⟨rfl, by simp⟩, by simp, by simp⟩

theorem walk_wf (hz : ∀ a b c, comp a b = some c → ccc c = 0) (s : List Nat) : ∀ w, WF ccc w → WF ccc (s.foldl (walkStep ccc comp) w) := by
  induction s with
  | nil => intro w h; exact h
  | cons a s ih => intro w h; exact ih _ (step_wf hz h a)

theorem last_starter {u v u' v' : List Nat} {l l' : Nat} (h : u ++ l :: v = u' ++ l' :: v') (hl : ccc l = 0) (hl' : ccc l' = 0)
    (hv : ∀ x ∈ v, ccc x ≠ 0) (hv' : ∀ x ∈ v', ccc x ≠ 0) : u = u' ∧ l = l' ∧ v = v' := by
  rcases List.append_eq_append_iff.mp h with ⟨a, h1, h2⟩ | ⟨a, h1, h2⟩
  · cases a with
    | nil => simp only [List.nil_append, List.cons.injEq, List.append_nil] at h1 h2; exact ⟨h1.symm, h2⟩
    | cons b a =>
      rw [List.cons_append] at h2
      obtain ⟨rfl, rfl⟩ := List.cons.inj h2
      exact absurd hl' (hv l' (by simp))
  · cases a with
    | nil => simp only [List.nil_append, List.cons.injEq, List.append_nil] at h1 h2; exact ⟨h1, h2.1.symm, h2.2.symm⟩
    | cons b a =>
      rw [List.cons_append] at h2
      obtain ⟨rfl, rfl⟩ := List.cons.inj h2
      exact absurd hl (hv' l (by simp))

theorem text_some {w : Walk} {l : Nat} (h : w.starter = some l) : w.text = w.before ++ l :: w.after := by
  simp [Walk.text, h]

/-- the state is determined by the text -/
theorem WF.state {w : Walk} (hw : WF ccc w) {u v : List Nat} {l : Nat} (h : w.text = u ++ l :: v) (hl : ccc l = 0) (hv : ∀ x ∈ v, ccc x ≠ 0) :
    w = ⟨u, Option.some l, v⟩ := by
  obtain ⟨bef, st, aft⟩ := w
  cases st with
  | none =>
    obtain ⟨h1, h2⟩ := hw.none rfl
    simp only at h1 h2
    subst h1
    simp only [Walk.text, List.append_nil] at h
    exact absurd hl (h2 l (by rw [h]; simp))
  | some q =>
    rw [text_some rfl] at h
    obtain ⟨h1, h2, h3⟩ := last_starter h (hw.some q rfl) hl hw.after hv
    simp only at h1 h3
    rw [h1, h2, h3]
end walk

section parts
variable {ccc : Nat → Nat} {dec : Nat → List Nat} {comp : Nat → Nat → Option Nat}

/-- invariant of the walk over `t` -/
structure PInv (ccc : Nat → Nat) (dec : Nat → List Nat) (comp : Nat → Nat → Option Nat) (w : Walk) (t : List Nat) : Prop where
  wf : WF ccc w
  irr : ∀ b ∈ w.after, dec b = [b]
  topEq : top ccc (w.text.flatMap dec) = top ccc t
  parts : ∀ a b c, w.text = a ++ b ++ c → nc ccc dec comp b = b

theorem nd_snoc {b : List Nat} {y : Nat} (hy : dec y = [y]) (h : ccc y = 0 ∨ top ccc (b.flatMap dec) ≤ ccc y) :
    order ccc (b.flatMap dec ++ [y]) = nd ccc dec b ++ [y] := by
  have h1 : AdjOrd ccc (order ccc (b.flatMap dec) ++ [y]) := by
    refine adjOrd_snoc (adjOrd_order _) ?_
    rw [top, topFrom_order]; exact h
  rw [← order_congr_left, order_of_adjOrd h1, nd]

/-- the walk over the decomposition of a composed text -/
theorem walk_of (hz : ∀ a b c, comp a b = some c → ccc c = 0) {b : List Nat} (h : nc ccc dec comp b = b) :
    ∃ w, WF ccc w ∧ w.text = b ∧ (nd ccc dec b).foldl (walkStep ccc comp) ⟨[], none, []⟩ = w :=
  ⟨_, walk_wf hz _ _ init_wf, h, rfl⟩

theorem pinv_step (H : Good ccc dec comp) (hz : ∀ a b c, comp a b = some c → ccc c = 0)
    (hLV : ∀ l, IsLV l → ∃ x v, dec l = x ++ [v] ∧ ccc v = 0) {w : Walk} {t : List Nat} (I : PInv ccc dec comp w t) {y : Nat}
    (hy : dec y = [y]) (ho : AdjOrd ccc (t ++ [y])) : PInv ccc dec comp (walkStep ccc comp w y) (t ++ [y]) := by
  have hyo := top_le ho
  rw [← I.topEq] at hyo
  rcases step_cases (comp := comp) I.wf y with ⟨h1, h2, h3, h4⟩ | ⟨l, p, h1, h2, h3, h4⟩
  · refine ⟨h2, ?_, ?_, ?_⟩
    · intro b hb
      rcases h3 b hb with hb | rfl
      · exact I.irr b hb
      · exact hy
    · rw [h1, List.flatMap_append, List.flatMap_singleton, hy, top_snoc, top_snoc, I.topEq]
    · intro a b c hs
      rw [h1] at hs
      rcases List.eq_nil_or_concat c with rfl | ⟨c', z, rfl⟩
      · rw [List.append_nil] at hs
        rcases List.eq_nil_or_concat b with rfl | ⟨b', z, rfl⟩
        · rfl
        · rw [List.concat_eq_append] at *
          rw [← List.append_assoc] at hs
          obtain ⟨hs1, hs2⟩ := List.append_inj' hs rfl
          obtain rfl : y = z := by simpa using hs2
          have hnb := I.parts a b' [] (by rw [List.append_nil]; exact hs1)
          have htop : ccc y = 0 ∨ top ccc (b'.flatMap dec) ≤ ccc y := by
            rcases hyo with h | h
            · exact .inl h
            · refine .inr (Nat.le_trans ?_ h)
              rw [hs1, List.flatMap_append]; exact top_suffix _ _
          obtain ⟨wb, hwf, htx, hwk⟩ := walk_of (dec := dec) hz hnb
          rw [nc, nd, List.flatMap_append, List.flatMap_singleton, hy, nd_snoc hy htop, composed, List.foldl_append, hwk]
          show (walkStep ccc comp wb y).text = _
          rcases step_cases (comp := comp) hwf y with ⟨g1, _⟩ | ⟨l, p, g1, g2, g3, g4⟩
          · rw [g1, htx]
          · exfalso
            have hst := I.wf.state (u := a ++ wb.before) (l := l) (v := wb.after)
              (by rw [hs1, ← htx, text_some g1, List.append_assoc]) (hwf.some l g1) hwf.after
            rw [hst] at h4
            exact h4 l p rfl g2 g3
      · rw [List.concat_eq_append] at *
        rw [← List.append_assoc] at hs
        obtain ⟨hs1, _⟩ := List.append_inj' hs rfl
        exact I.parts a b c' hs1
  · have hnb := not_blocked h2
    have hl0 := I.wf.some l h1
    have htx := text_some h1
    rw [h4]
    by_cases hT : y = T0
    · subst hT
      obtain ⟨rfl, hlv⟩ := (H.cmpT0 l p).1 h3
      have hw : ({ w with starter := some p } : Walk) = w := by cases w; simp_all
      rw [hw]
      refine ⟨I.wf, I.irr, ?_, I.parts⟩
      have ha : w.after = [] := by
        cases ha : w.after with
        | nil => rfl
        | cons b r =>
          have := hnb b (by simp [ha])
          rw [H.cccT0] at this; omega
      obtain ⟨x, v, hd, hv⟩ := hLV p hlv
      rw [htx, ha, List.flatMap_append, List.flatMap_cons, hd, List.flatMap_nil, List.append_nil, ← List.append_assoc, top_snoc, top_snoc,
        if_pos hv, if_pos H.cccT0]
    · have hdp : dec p = dec l ++ [y] := by rw [H.cmp l y p h3 hT, hy]
      have hA : w.after.flatMap dec = w.after := flatMap_irr I.irr
      -- the new character can be moved behind any marks that follow the starter
      have hmove : ∀ (u v : List Nat), (∀ b ∈ v, b ∈ w.after) →
          order ccc ((u ++ p :: v).flatMap dec) = order ccc ((u ++ l :: v).flatMap dec ++ [y]) := by
        intro u v hv
        have hV : v.flatMap dec = v := flatMap_irr fun b hb => I.irr b (hv b hb)
        have h2 := order_move (key := ccc) (c := y) v [] fun b hb => hnb b (hv b hb)
        have := order_pre (ccc := ccc) (u.flatMap dec ++ dec l) h2
        simp only [List.flatMap_append, List.flatMap_cons, hdp, hV]
        simpa using this
      have hmain : ∀ (a u v c : List Nat), w.before = a ++ u → w.after = v ++ c → nc ccc dec comp (u ++ p :: v) = u ++ p :: v := by
        intro a u v c hu hv
        have hvm : ∀ b ∈ v, b ∈ w.after := fun b hb => by rw [hv]; simp [hb]
        have hnb1 := I.parts a (u ++ l :: v) c (by rw [htx, hu, hv]; simp)
        have htop : ccc y = 0 ∨ top ccc ((u ++ l :: v).flatMap dec) ≤ ccc y := by
          rcases hyo with h | h
          · exact .inl h
          · refine .inr (Nat.le_trans ?_ h)
            have hC : c.flatMap dec = c := flatMap_irr fun b hb => I.irr b (by rw [hv]; simp [hb])
            have e : w.text.flatMap dec = a.flatMap dec ++ ((u ++ l :: v).flatMap dec ++ c) := by
              rw [htx, hu, hv]
              simp only [List.flatMap_append, List.flatMap_cons, hC, List.append_assoc]
            rw [e]
            exact Nat.le_trans (top_prefix _ c fun b hb => I.wf.after b (by rw [hv]; simp [hb])) (top_suffix _ _)
        obtain ⟨wb, hwf, htx', hwk⟩ := walk_of (dec := dec) hz hnb1
        have hst := hwf.state htx' hl0 fun b hb => I.wf.after b (hvm b hb)
        have hbl : blocked ccc v y = false := by
          simp only [blocked, List.any_eq_false, Bool.or_eq_true, decide_eq_true_eq, not_or]
          intro b hb
          have := hnb b (hvm b hb)
          omega
        rw [nc, nd, hmove u v hvm, nd_snoc hy htop, composed, List.foldl_append, hwk, hst]
        show (walkStep ccc comp ⟨u, some l, v⟩ y).text = _
        rw [walkStep]
        simp only [hbl, Bool.false_eq_true, if_false, h3]
        rw [text_some rfl]
      refine ⟨⟨by simp, fun q hq => by cases hq; exact hz l y p h3, I.wf.after⟩, I.irr, ?_, ?_⟩
      · rw [text_some rfl]
        have := congrArg (topFrom ccc 0) (hmove w.before w.after fun _ h => h)
        rw [topFrom_order, topFrom_order, ← htx] at this
        rw [top, this]
        show top ccc _ = _
        rw [top_snoc, top_snoc, I.topEq]
      · intro a b c hs
        rw [text_some rfl] at hs
        simp only at hs
        rw [List.append_assoc] at hs
        rcases List.append_eq_append_iff.mp hs with ⟨x, e1, e2⟩ | ⟨x, e1, e2⟩
        · -- the starter is in `a` or after it
          cases x with
          | nil =>
            rw [List.append_nil] at e1
            rw [List.nil_append] at e2
            cases b with
            | nil => rfl
            | cons q b =>
              rw [List.cons_append] at e2
              obtain ⟨rfl, e3⟩ := List.cons.inj e2
              exact hmain a [] b c (by rw [List.append_nil]; exact e1.symm) e3
          | cons q x =>
            rw [List.cons_append] at e2
            obtain ⟨rfl, e3⟩ := List.cons.inj e2
            exact I.parts (w.before ++ l :: x) b c (by rw [htx, e3]; simp)
        · rcases List.append_eq_append_iff.mp e2.symm with ⟨z, f1, f2⟩ | ⟨z, f1, f2⟩
          · cases z with
            | nil =>
              rw [List.append_nil] at f1
              exact I.parts a b (l :: w.after) (by rw [htx, e1, f1])
            | cons q z =>
              rw [List.cons_append] at f2
              obtain ⟨rfl, f3⟩ := List.cons.inj f2
              rw [f1]
              exact hmain a x z c e1 f3
          · exact I.parts a b (z ++ l :: w.after) (by rw [htx, e1, f1]; simp)

theorem pinv_walk (H : Good ccc dec comp) (hz : ∀ a b c, comp a b = some c → ccc c = 0)
    (hLV : ∀ l, IsLV l → ∃ x v, dec l = x ++ [v] ∧ ccc v = 0) (rest : List Nat) : ∀ {w : Walk} {t : List Nat}, PInv ccc dec comp w t →
    (∀ y ∈ rest, dec y = [y]) → AdjOrd ccc (t ++ rest) → PInv ccc dec comp (rest.foldl (walkStep ccc comp) w) (t ++ rest) := by
  induction rest with
  | nil => intro w t I _ _; rw [List.append_nil]; exact I
  | cons y rest ih =>
    intro w t I hr ho
    have e : t ++ y :: rest = t ++ [y] ++ rest := by simp
    rw [e] at ho ⊢
    exact ih (pinv_step H hz hLV I (hr y (by simp)) (adjOrd_prefix ho)) (fun z hz => hr z (by simp [hz])) ho

/-- every part of a composed form is in the composed form -/
theorem parts_composed (H : Good ccc dec comp) (hz : ∀ a b c, comp a b = some c → ccc c = 0)
    (hLV : ∀ l, IsLV l → ∃ x v, dec l = x ++ [v] ∧ ccc v = 0) (s a b c : List Nat) (h : nc ccc dec comp s = a ++ b ++ c) :
    nc ccc dec comp b = b := by
  have I : PInv ccc dec comp ⟨[], none, []⟩ [] := ⟨init_wf, by simp, rfl, by
    intro a b c h
    obtain rfl : b = [] := by
      have := congrArg List.length h
      simp only [Walk.text, List.append_nil, List.length_nil, List.length_append] at this
      exact List.length_eq_zero_iff.1 (by omega)
    rfl⟩
  exact (pinv_walk H hz hLV (nd ccc dec s) I (nd_irr H s) (nd_adjOrd s)).parts a b c h

theorem adjOrd_suffix {a b : List Nat} (h : AdjOrd ccc (a ++ b)) : AdjOrd ccc b := by
  induction a with
  | nil => exact h
  | cons x a ih => exact ih (adjOrd_tail h)

/-- every part of a decomposed form is in the decomposed form -/
theorem parts_decomposed (H : Good ccc dec comp) (s a b c : List Nat) (h : nd ccc dec s = a ++ b ++ c) : nd ccc dec b = b := by
  have h1 := nd_irr H s
  have h2 : AdjOrd ccc (nd ccc dec s) := nd_adjOrd s
  rw [h] at h1 h2
  rw [nd, flatMap_irr fun x hx => h1 x (by simp [hx]), order_of_adjOrd (adjOrd_suffix (adjOrd_prefix h2))]
end parts
end Proofs.NormalPart
