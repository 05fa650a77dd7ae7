import Verif.Proofs.NormalIter

/-! Algebra of normalization forms, for abstract data satisfying `Good`. -/
namespace Proofs.NormalAlg
open Spec.Normal Proofs.CanonOrder Proofs.NormalIter

/-- leading consonants, vowels and LV syllables -/
def IsL (a : Nat) : Prop := 0x1100 ≤ a ∧ a ≤ 0x1112
def IsV (a : Nat) : Prop := 0x1161 ≤ a ∧ a ≤ 0x1175
def IsLV (a : Nat) : Prop := 0xAC00 ≤ a ∧ a ≤ 0xD788 ∧ (a - 0xAC00) % 28 = 0
/-- U+11A7 -/
abbrev T0 : Nat := 0x11A7

/-- what normalization needs from the data -/
structure Good (ccc : Nat → Nat) (dec : Nat → List Nat) (comp : Nat → Nat → Option Nat) : Prop where
  irr : ∀ c, ∀ x ∈ dec c, dec x = [x]
  ne : ∀ c, dec c ≠ []
  cls : ∀ c, ccc c ≠ 0 → ∀ x ∈ dec c, ccc x = ccc c
  only : ∀ c, T0 ∈ dec c → c = T0
  jamo : ∀ c, 0x1100 ≤ c → c ≤ 0x11FF → dec c = [c] ∧ ccc c = 0
  lv : ∀ c, IsLV c → dec c ≠ [c]
  cmp : ∀ a b c, comp a b = some c → b ≠ T0 → dec c = dec a ++ dec b
  cmpT0 : ∀ a c, comp a T0 = some c ↔ c = a ∧ IsLV a
  cmpLV : ∀ a b c, comp a b = some c → b ≠ T0 → IsLV c → IsL a ∧ IsV b
  LVcmp : ∀ a b, IsL a → IsV b → ∃ c, comp a b = some c ∧ IsLV c
  noL : ∀ a b c, comp a b = some c → ¬ IsL c ∧ ¬ IsL b

section order
variable {ccc : Nat → Nat}

theorem order_swap_blocks (A B Y : List Nat) (h : ∀ a ∈ A, ∀ b ∈ B, 0 < ccc b ∧ ccc b < ccc a) :
    order ccc (A ++ B ++ Y) = order ccc (B ++ A ++ Y) := by
  induction A with
  | nil => simp
  | cons a A ih =>
    have ih' := ih fun a ha b hb => h a (by simp [ha]) b hb
    rw [List.cons_append, List.cons_append, order_cons, ih', ← order_cons]
    have := order_move (key := ccc) (c := a) B (A ++ Y) fun b hb => h a (by simp) b hb
    simpa using this

theorem order_pre (x : List Nat) {s t : List Nat} (h : order ccc s = order ccc t) : order ccc (x ++ s) = order ccc (x ++ t) :=
  order_congr rfl h

theorem flatMap_reorder {dec : Nat → List Nat} (hcls : ∀ c, ccc c ≠ 0 → ∀ x ∈ dec c, ccc x = ccc c) {s t : List Nat}
    (h : Reorder ccc s t) : order ccc (s.flatMap dec) = order ccc (t.flatMap dec) := by
  cases h with
  | swap x y a b h hb =>
    rw [List.flatMap_append, List.flatMap_append]
    refine order_pre _ ?_
    simp only [List.flatMap_cons]
    have := order_swap_blocks (ccc := ccc) (dec a) (dec b) (y.flatMap dec) (by
      intro x hx z hz
      rw [hcls a (by omega) x hx, hcls b (by omega) z hz]
      exact ⟨hb, h⟩)
    simpa using this

theorem flatMap_order {dec : Nat → List Nat} (hcls : ∀ c, ccc c ≠ 0 → ∀ x ∈ dec c, ccc x = ccc c) (s : List Nat) :
    order ccc ((order ccc s).flatMap dec) = order ccc (s.flatMap dec) := by
  have h := reorders_to_order (ccc := ccc) s
  generalize order ccc s = t at h
  induction h with
  | refl => rfl
  | step h _ ih => rw [ih, flatMap_reorder hcls h]

theorem flatMap_irr {dec : Nat → List Nat} {s : List Nat} (h : ∀ x ∈ s, dec x = [x]) : s.flatMap dec = s := by
  induction s with
  | nil => rfl
  | cons a s ih =>
    rw [List.flatMap_cons, h a (by simp), ih fun x hx => h x (by simp [hx])]
    rfl

theorem adjOrd_append {s : List Nat} {a : Nat} {t : List Nat} (h1 : AdjOrd ccc (s ++ [a])) (h2 : AdjOrd ccc (a :: t)) :
    AdjOrd ccc (s ++ a :: t) := by
  induction s with
  | nil => exact h2
  | cons b s ih =>
    cases s with
    | nil => exact ⟨h1.1, ih (adjOrd_tail h1)⟩
    | cons c s => exact ⟨h1.1, ih (adjOrd_tail h1)⟩

end order

/-! ## Dropping U+11A7 after an LV pair -/

inductive Rem : List Nat → List Nat → Prop
  | mk (x y : List Nat) (a v : Nat) (ha : IsL a) (hv : IsV v) : Rem (x ++ a :: v :: T0 :: y) (x ++ a :: v :: y)

inductive Rems : List Nat → List Nat → Prop
  | refl (s) : Rems s s
  | step {s t u} : Rems s t → Rem t u → Rems s u

section
variable {ccc : Nat → Nat} {dec : Nat → List Nat} {comp : Nat → Nat → Option Nat}

theorem Good.cccL (H : Good ccc dec comp) {a : Nat} (h : IsL a) : ccc a = 0 := (H.jamo a h.1 (by have := h.2; omega)).2
theorem Good.cccV (H : Good ccc dec comp) {a : Nat} (h : IsV a) : ccc a = 0 :=
  (H.jamo a (by have := h.1; omega) (by have := h.2; omega)).2
theorem Good.cccT0 (H : Good ccc dec comp) : ccc T0 = 0 := (H.jamo T0 (by decide) (by decide)).2

theorem rem_adjOrd (H : Good ccc dec comp) {s t : List Nat} (h : Rem s t) (hs : AdjOrd ccc s) : AdjOrd ccc t := by
  cases h with
  | mk x y a v ha hv =>
    have h1 : AdjOrd ccc (x ++ [a]) := adjOrd_prefix (q := v :: T0 :: y) (by simpa using hs)
    have h2 : AdjOrd ccc (a :: v :: T0 :: y) := adjOrd_append_right hs
    refine adjOrd_append h1 ⟨h2.1, ?_⟩
    cases y with
    | nil => trivial
    | cons b y => exact ⟨by rw [H.cccV hv]; omega, h2.2.2.2⟩

theorem rems_adjOrd (H : Good ccc dec comp) {s t : List Nat} (h : Rems s t) (hs : AdjOrd ccc s) : AdjOrd ccc t := by
  induction h with
  | refl => exact hs
  | step _ h ih => exact rem_adjOrd H h ih

/-- the step on a starter that cannot be the second of a pair -/
theorem walkStep_L (H : Good ccc dec comp) (w : Walk) {a : Nat} (ha : IsL a) : walkStep ccc comp w a = ⟨w.text, some a, []⟩ := by
  have hn : ∀ l, comp l a = none := fun l => by
    cases h : comp l a with
    | none => rfl
    | some c => exact absurd ha (H.noL l a c h).2
  simp only [walkStep, H.cccL ha, if_true]
  split
  · rfl
  · split
    · rfl
    · rw [hn]

theorem walkStep_comp (b : List Nat) (l c p : Nat) (h : comp l c = some p) :
    walkStep ccc comp ⟨b, some l, []⟩ c = ⟨b, some p, []⟩ := by
  simp [walkStep, blocked, h]

theorem rem_composed (H : Good ccc dec comp) {s t : List Nat} (h : Rem s t) : composed ccc comp s = composed ccc comp t := by
  cases h with
  | mk x y a v ha hv =>
    obtain ⟨p, hp, hlv⟩ := H.LVcmp a v ha hv
    simp only [composed, List.foldl_append, List.foldl_cons]
    rw [walkStep_L H _ ha, walkStep_comp _ _ _ _ hp, walkStep_comp _ _ _ _ ((H.cmpT0 p p).2 ⟨rfl, hlv⟩)]

theorem rems_composed (H : Good ccc dec comp) {s t : List Nat} (h : Rems s t) : composed ccc comp s = composed ccc comp t := by
  induction h with
  | refl => rfl
  | step _ h ih => rw [ih, rem_composed H h]

theorem rem_flatMap (H : Good ccc dec comp) {s t : List Nat} (h : Rem s t) :
    Rem (order ccc (s.flatMap dec)) (order ccc (t.flatMap dec)) := by
  cases h with
  | mk x y a v ha hv =>
    have h1 := (H.jamo a ha.1 (by have := ha.2; omega)).1
    have h2 := (H.jamo v (by have := hv.1; omega) (by have := hv.2; omega)).1
    have h3 := (H.jamo T0 (by decide) (by decide)).1
    simp only [List.flatMap_append, List.flatMap_cons, h1, h2, h3, List.cons_append, List.nil_append]
    rw [order_starter (H.cccL ha), order_starter (H.cccL ha), order_starter_cons (H.cccV hv), order_starter_cons (H.cccV hv),
      order_starter_cons H.cccT0]
    exact .mk _ _ _ _ ha hv

theorem rems_flatMap (H : Good ccc dec comp) {s t : List Nat} (h : Rems s t) :
    Rems (order ccc (s.flatMap dec)) (order ccc (t.flatMap dec)) := by
  induction h with
  | refl => exact .refl _
  | step _ h ih => exact .step ih (rem_flatMap H h)

theorem rems_no {s t : List Nat} (h : Rems s t) (hn : T0 ∉ s) : t = s := by
  induction h with
  | refl => rfl
  | step _ h ih =>
    exfalso
    cases h with
    | mk x y a v ha hv => rw [← ih] at hn; simp at hn

/-- invariant of the walk, with the characters kept so far -/
structure KInv (ccc : Nat → Nat) (dec : Nat → List Nat) (w : Walk) (kept : List Nat) : Prop where
  text : order ccc (w.text.flatMap dec) = order ccc kept
  after : ∀ b ∈ w.after, dec b = [b]
  lvs : ∀ l, w.starter = some l → w.after = [] → IsLV l → ∃ x a v, kept = x ++ [a, v] ∧ IsL a ∧ IsV v
  none : w.starter = none → w.after = []
  ls : ∀ l, w.starter = some l → w.after = [] → IsL l → ∃ x, kept = x ++ [l]

theorem kinv_retained (H : Good ccc dec comp) {w : Walk} {kept : List Nat} (I : KInv ccc dec w kept) {c : Nat} (hc : dec c = [c]) :
    KInv ccc dec (if ccc c = 0 then ⟨w.text, some c, []⟩ else
      match w.starter with
      | some _ => { w with after := w.after ++ [c] }
      | none => { w with before := w.before ++ [c] }) (kept ++ [c]) := by
  have htext : ∀ u : List Nat, u = w.text ++ [c] → order ccc (u.flatMap dec) = order ccc (kept ++ [c]) := by
    rintro u rfl
    rw [List.flatMap_append, List.flatMap_cons, hc, List.flatMap_nil, List.append_nil]
    exact order_congr I.text rfl
  split
  · refine ⟨htext _ (by simp [Walk.text]), by simp, ?_, by simp, ?_⟩
    · intro l hl _ hlv
      simp only [Option.some.injEq] at hl
      subst hl
      exact absurd hc (H.lv _ hlv)
    · intro l hl _ _
      simp only [Option.some.injEq] at hl
      subst hl
      exact ⟨kept, rfl⟩
  · cases hw : w.starter with
    | some l =>
      refine ⟨htext _ (by simp [Walk.text, hw]), ?_, by simp, by simp, by simp⟩
      intro b hb
      simp only [List.mem_append, List.mem_singleton] at hb
      rcases hb with hb | rfl
      · exact I.after b hb
      · exact hc
    | none =>
      have ha := I.none hw
      exact ⟨htext _ (by simp [Walk.text, hw, ha]), I.after, by simp [hw], fun _ => ha, by simp [hw]⟩

theorem not_blocked {after : List Nat} {c : Nat} (h : blocked ccc after c = false) : ∀ b ∈ after, 0 < ccc b ∧ ccc b < ccc c := by
  intro b hb
  simp only [blocked, List.any_eq_false, Bool.or_eq_true, decide_eq_true_eq, not_or] at h
  have := h b hb
  omega

theorem kinv_step (H : Good ccc dec comp) {w : Walk} {kept : List Nat} (I : KInv ccc dec w kept) {c : Nat} (hc : dec c = [c]) :
    KInv ccc dec (walkStep ccc comp w c) (kept ++ [c]) ∨
    (walkStep ccc comp w c = w ∧ c = T0 ∧ ∃ x a v, kept = x ++ [a, v] ∧ IsL a ∧ IsV v) := by
  have hr := kinv_retained H I hc
  unfold walkStep
  cases hw : w.starter with
  | none =>
    left
    simp only [hw] at hr ⊢
    exact hr
  | some l =>
    simp only [hw] at hr ⊢
    by_cases hb : blocked ccc w.after c = true
    · left; rw [if_pos hb]; exact hr
    · rw [if_neg hb]
      cases hp : comp l c with
      | none => left; exact hr
      | some p =>
        simp only []
        have hb : blocked ccc w.after c = false := by simpa using hb
        have hnb := not_blocked hb
        by_cases hc0 : c = T0
        · right
          subst hc0
          obtain ⟨rfl, hlv⟩ := (H.cmpT0 l p).1 hp
          have ha : w.after = [] := by
            cases ha : w.after with
            | nil => rfl
            | cons b r =>
              have := hnb b (by simp [ha])
              rw [H.cccT0] at this; omega
          refine ⟨?_, rfl, I.lvs p hw ha hlv⟩
          cases w; simp_all
        · left
          have hA : w.after.flatMap dec = w.after := flatMap_irr I.after
          refine ⟨?_, I.after, ?_, by simp, ?_⟩
          · have h1 : order ccc (w.text.flatMap dec ++ [c]) = order ccc (kept ++ [c]) := order_congr I.text rfl
            rw [← h1]
            simp only [Walk.text, hw, List.flatMap_append, List.flatMap_cons, List.flatMap_nil, List.append_nil, hA,
              H.cmp l c p hp hc0, hc]
            have h2 := order_move (key := ccc) (c := c) w.after [] hnb
            have := order_pre (ccc := ccc) (w.before.flatMap dec ++ dec l) h2
            simpa using this
          · intro q hq ha hlv
            simp only [Option.some.injEq] at hq
            subst hq
            obtain ⟨hL, hV⟩ := H.cmpLV l c p hp hc0 hlv
            obtain ⟨x, hx⟩ := I.ls l hw ha hL
            exact ⟨x, l, c, by simp [hx], hL, hV⟩
          · intro q hq _ hL
            simp only [Option.some.injEq] at hq
            subst hq
            exact absurd hL (H.noL l c p hp).1

theorem walk_kept (H : Good ccc dec comp) (rest : List Nat) : ∀ (w : Walk) (kept : List Nat), KInv ccc dec w kept →
    (∀ c ∈ rest, dec c = [c]) →
    ∃ kept', KInv ccc dec (rest.foldl (walkStep ccc comp) w) kept' ∧ Rems (kept ++ rest) kept' := by
  induction rest with
  | nil => intro w kept I _; exact ⟨kept, I, by simpa using .refl _⟩
  | cons c rest ih =>
    intro w kept I hr
    rw [List.foldl_cons]
    rcases kinv_step H I (hr c (by simp)) with I' | ⟨hw, rfl, x, a, v, hk, ha, hv⟩
    · obtain ⟨kept', h1, h2⟩ := ih _ _ I' fun c hc => hr c (by simp [hc])
      exact ⟨kept', h1, by simpa using h2⟩
    · rw [hw]
      obtain ⟨kept', h1, h2⟩ := ih _ _ I fun c hc => hr c (by simp [hc])
      refine ⟨kept', h1, ?_⟩
      have h3 : Rem (kept ++ T0 :: rest) (kept ++ rest) := by
        have := Rem.mk x rest a v ha hv
        rw [hk]
        simpa using this
      have h4 : ∀ {s t : List Nat}, Rems s t → ∀ r, Rem r s → Rems r t := by
        intro s t h
        induction h with
        | refl => intro r hr; exact .step (.refl _) hr
        | step _ h ih => intro r hr; exact .step (ih r hr) h
      exact h4 h2 _ h3

/-- decomposing a composed text gives back the text, up to dropped U+11A7 -/
theorem decompose_composed (H : Good ccc dec comp) {t : List Nat} (ht : ∀ c ∈ t, dec c = [c]) (ho : AdjOrd ccc t) :
    Rems t (order ccc ((composed ccc comp t).flatMap dec)) := by
  obtain ⟨kept, h1, h2⟩ := walk_kept H t ⟨[], none, []⟩ [] ⟨rfl, by simp, by simp, fun _ => rfl, by simp⟩ ht
  rw [List.nil_append] at h2
  rw [composed, h1.text, order_of_adjOrd (rems_adjOrd H h2 ho)]
  exact h2

/-! ## The normal forms -/

/-- decomposed form and composed form -/
def nd (ccc : Nat → Nat) (dec : Nat → List Nat) (s : List Nat) : List Nat := order ccc (s.flatMap dec)
def nc (ccc : Nat → Nat) (dec : Nat → List Nat) (comp : Nat → Nat → Option Nat) (s : List Nat) : List Nat :=
  composed ccc comp (nd ccc dec s)

theorem nd_irr (H : Good ccc dec comp) (s : List Nat) : ∀ c ∈ nd ccc dec s, dec c = [c] := by
  intro c hc
  rw [nd, mem_order] at hc
  obtain ⟨y, _, hy⟩ := List.mem_flatMap.1 hc
  exact H.irr y c hy

theorem nd_adjOrd (s : List Nat) : AdjOrd ccc (nd ccc dec s) := adjOrd_order _

theorem nd_nd (H : Good ccc dec comp) (s : List Nat) : nd ccc dec (nd ccc dec s) = nd ccc dec s := by
  rw [nd, flatMap_irr (nd_irr H s), nd, order_order]

theorem nc_nd (H : Good ccc dec comp) (s : List Nat) : nc ccc dec comp (nd ccc dec s) = nc ccc dec comp s := by
  rw [nc, nd_nd H, nc]

theorem nd_nc (H : Good ccc dec comp) (s : List Nat) : Rems (nd ccc dec s) (nd ccc dec (nc ccc dec comp s)) :=
  decompose_composed H (nd_irr H s) (nd_adjOrd s)

theorem nc_nc (H : Good ccc dec comp) (s : List Nat) : nc ccc dec comp (nc ccc dec comp s) = nc ccc dec comp s := by
  rw [nc, ← rems_composed H (nd_nc H s)]; rfl

theorem nd_T0 (H : Good ccc dec comp) (s : List Nat) (h : T0 ∉ s) : T0 ∉ nd ccc dec s := by
  intro hc
  rw [nd, mem_order] at hc
  obtain ⟨y, hy, hc⟩ := List.mem_flatMap.1 hc
  exact h (H.only y hc ▸ hy)

theorem nd_nc_of (H : Good ccc dec comp) (s : List Nat) (h : T0 ∉ s) : nd ccc dec (nc ccc dec comp s) = nd ccc dec s :=
  rems_no (nd_nc H s) (nd_T0 H s h)

section two
variable {dec' : Nat → List Nat}

/-- `dec'` (compatibility) decomposes further than `dec` (canonical) -/
theorem nd'_nd (H' : Good ccc dec' comp) (habs : ∀ c, (dec c).flatMap dec' = dec' c) (s : List Nat) :
    nd ccc dec' (nd ccc dec s) = nd ccc dec' s := by
  rw [nd, nd, flatMap_order H'.cls, List.flatMap_assoc]
  simp only [habs]
  rfl

theorem nd_nd' (H' : Good ccc dec' comp) (hirr : ∀ c, dec' c = [c] → dec c = [c]) (s : List Nat) :
    nd ccc dec (nd ccc dec' s) = nd ccc dec' s := by
  rw [nd, flatMap_irr fun c hc => hirr c (nd_irr H' s c hc), nd, order_order]

theorem nc'_nc (H : Good ccc dec comp) (H' : Good ccc dec' comp) (habs : ∀ c, (dec c).flatMap dec' = dec' c) (s : List Nat) :
    nc ccc dec' comp (nc ccc dec comp s) = nc ccc dec' comp s := by
  have h1 := rems_flatMap H' (nd_nc H s)
  have h2 : order ccc ((nd ccc dec (nc ccc dec comp s)).flatMap dec') = nd ccc dec' (nc ccc dec comp s) := nd'_nd H' habs _
  have h3 : order ccc ((nd ccc dec s).flatMap dec') = nd ccc dec' s := nd'_nd H' habs _
  rw [h2, h3] at h1
  rw [nc, ← rems_composed H' h1]; rfl
end two

end
end Proofs.NormalAlg
