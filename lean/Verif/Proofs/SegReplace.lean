import Verif.Spec.Segment
import Verif.Proofs.FullDecomp
import Mathlib.Data.List.Forall2

/-! Segmentation of a text in which a block of characters that is never cut is replaced by another such block. -/
namespace Proofs.SegReplace
open Spec.Segment Spec.Normal

/-- the text `a` is the text of the first pieces -/
def Cut (ps : List (List Nat)) (a : List Nat) : Prop := ∃ k, a = (ps.take k).flatten

theorem cut_split (l : List (List Nat)) (w : List Nat) (r : List (List Nat)) (a : List Nat) :
    Cut (l ++ w :: r) a ↔ Cut l a ∨ ∃ a', Cut r a' ∧ a = l.flatten ++ w ++ a' := by
  constructor
  · rintro ⟨k, rfl⟩
    by_cases hk : k ≤ l.length
    · exact .inl ⟨k, by rw [List.take_append_of_le_length hk]⟩
    · refine .inr ⟨(r.take (k - l.length - 1)).flatten, ⟨_, rfl⟩, ?_⟩
      obtain ⟨j, rfl⟩ : ∃ j, k = l.length + (j + 1) := ⟨k - l.length - 1, by omega⟩
      rw [List.take_length_add_append]
      simp
  · rintro (⟨k, rfl⟩ | ⟨a', ⟨k, rfl⟩, rfl⟩)
    · refine ⟨min k l.length, ?_⟩
      rw [List.take_append_of_le_length (Nat.min_le_right ..)]
      congr 1
      rcases Nat.le_total k l.length with h | h
      · rw [Nat.min_eq_left h]
      · rw [Nat.min_eq_right h, List.take_of_length_le h, List.take_length]
    · refine ⟨l.length + (k + 1), ?_⟩
      rw [List.take_length_add_append]
      simp

theorem cut_length {ps : List (List Nat)} {a : List Nat} (h : Cut ps a) : a.length ≤ ps.flatten.length := by
  obtain ⟨k, rfl⟩ := h
  have : ps.flatten = (ps.take k).flatten ++ (ps.drop k).flatten := by rw [← List.flatten_append, List.take_append_drop]
  rw [this, List.length_append]; omega

/-- a block that is not cut lies in one piece -/
theorem locate {u y : List Nat} (hu : u ≠ []) : ∀ (ps : List (List Nat)) (x : List Nat), ps.flatten = x ++ u ++ y →
    (∀ a b, u = a ++ b → a ≠ [] → b ≠ [] → ¬ Cut ps (x ++ a)) →
    ∃ l p q r, ps = l ++ (p ++ u ++ q) :: r ∧ x = l.flatten ++ p := by
  intro ps
  induction ps with
  | nil => intro x h _; simp at h; exact absurd h.2.1 hu
  | cons w ps ih =>
    intro x h hc
    rw [List.flatten_cons, List.append_assoc] at h
    rcases List.append_eq_append_iff.mp h with ⟨x', hx, ht⟩ | ⟨w', hw, ht⟩
    · obtain ⟨l, p, q, r, e1, e2⟩ := ih x' (by rw [ht, List.append_assoc]) (by
        intro a b hab ha hb ⟨k, hk⟩
        exact hc a b hab ha hb ⟨k + 1, by rw [List.take_succ_cons, List.flatten_cons, ← hk, hx, List.append_assoc]⟩)
      exact ⟨w :: l, p, q, r, by rw [e1]; rfl, by rw [hx, e2]; simp⟩
    · rcases List.append_eq_append_iff.mp ht with ⟨q, hq, _⟩ | ⟨b, hb, _⟩
      · exact ⟨[], x, q, ps, by rw [hw, hq]; simp, by simp⟩
      · by_cases hb0 : b = []
        · subst hb0
          exact ⟨[], x, [], ps, by rw [hw, hb]; simp, by simp⟩
        · by_cases hw0 : w' = []
          · subst hw0
            obtain ⟨l, p, q, r, e1, e2⟩ := ih [] (by simpa using ht.symm) (by
              intro a b hab ha hb ⟨k, hk⟩
              exact hc a b hab ha hb ⟨k + 1, by rw [List.take_succ_cons, List.flatten_cons, ← hk, hw]; simp⟩)
            have e2 := e2.symm
            rw [List.append_eq_nil_iff] at e2
            refine ⟨w :: l, p, q, r, by rw [e1]; rfl, ?_⟩
            rw [List.flatten_cons, e2.1, e2.2, hw]; simp
          · exact absurd ⟨1, by simp [hw]⟩ (hc w' b hb hw0 hb0)

/-- Replacing the block `u` by `v` changes the piece that contains it and no other. -/
theorem seg_replace {B : List Nat → List Nat → Prop} {x u v y : List Nat} (hu : u ≠ []) (hv : v ≠ [])
    (h1 : ∀ a b, x = a ++ b → (B a (b ++ u ++ y) ↔ B a (b ++ v ++ y)))
    (h2u : ∀ a b, u = a ++ b → a ≠ [] → b ≠ [] → ¬ B (x ++ a) (b ++ y))
    (h2v : ∀ a b, v = a ++ b → a ≠ [] → b ≠ [] → ¬ B (x ++ a) (b ++ y))
    (h3 : ∀ a b, y = a ++ b → (B (x ++ u ++ a) b ↔ B (x ++ v ++ a) b))
    {ps : List (List Nat)} (h : Segmentation B (x ++ u ++ y) ps) :
    ∃ l p q r, ps = l ++ (p ++ u ++ q) :: r ∧ Segmentation B (x ++ v ++ y) (l ++ (p ++ v ++ q) :: r) := by
  obtain ⟨hf, hne, hb⟩ := h
  have hb : ∀ a b, x ++ u ++ y = a ++ b → (B a b ↔ Cut ps a) := hb
  obtain ⟨l, p, q, r, e1, e2⟩ := locate hu ps x hf (by
    intro a b hab ha hb' hc
    exact h2u a b hab ha hb' ((hb _ _ (by rw [hab]; simp)).mpr hc))
  have e3 : y = q ++ r.flatten := by
    rw [e1, e2] at hf
    simp only [List.flatten_append, List.flatten_cons, List.append_assoc, List.append_cancel_left_eq] at hf
    exact hf.symm
  have hul : 0 < u.length := List.length_pos_iff.mpr hu
  have hvl : 0 < v.length := List.length_pos_iff.mpr hv
  have hxl : x.length = l.flatten.length + p.length := by rw [e2, List.length_append]
  refine ⟨l, p, q, r, e1, ?_, ?_, ?_⟩
  · rw [e2, e3]; simp
  · intro w hw
    rw [e1] at hne
    simp only [List.mem_append, List.mem_cons] at hw
    rcases hw with hw | hw | hw
    · exact hne w (by simp [hw])
    · subst hw; simp [hv]
    · exact hne w (by simp [hw])
  · intro a b hab
    show B a b ↔ Cut (l ++ (p ++ v ++ q) :: r) a
    have hlen := congrArg List.length hab
    simp only [List.length_append] at hlen
    by_cases ha : a.length ≤ x.length
    · obtain ⟨b', hx, hb'⟩ : ∃ b', x = a ++ b' ∧ b = b' ++ v ++ y := by
        rw [List.append_assoc] at hab
        rcases List.append_eq_append_iff.mp hab with ⟨c, hc, hd⟩ | ⟨c, hc, hd⟩
        · have : c = [] := by
            have := congrArg List.length hc
            rw [List.length_append] at this
            exact List.eq_nil_of_length_eq_zero (by omega)
          subst this
          exact ⟨[], by simpa using hc.symm, by simpa using hd.symm⟩
        · exact ⟨c, hc, by rw [hd, List.append_assoc]⟩
      rw [hb', ← h1 a b' hx, hb a _ (by rw [hx]; simp), e1, cut_split, cut_split]
      refine or_congr Iff.rfl ⟨?_, ?_⟩
      · rintro ⟨a', _, ha'⟩
        have := congrArg List.length ha'
        simp only [List.length_append] at this
        omega
      · rintro ⟨a', _, ha'⟩
        have := congrArg List.length ha'
        simp only [List.length_append] at this
        omega
    · by_cases ha2 : a.length < x.length + v.length
      · obtain ⟨c, hc⟩ : ∃ c, a = x ++ c := by
          rw [List.append_assoc] at hab
          rcases List.append_eq_append_iff.mp hab with ⟨c, hc, hd⟩ | ⟨c, hc, hd⟩
          · exact ⟨c, hc⟩
          · have := congrArg List.length hc
            rw [List.length_append] at this; omega
        subst hc
        rw [List.length_append] at ha ha2
        rw [List.append_assoc, List.append_assoc, List.append_cancel_left_eq] at hab
        obtain ⟨d, hd, hby⟩ : ∃ d, v = c ++ d ∧ b = d ++ y := by
          rcases List.append_eq_append_iff.mp hab with ⟨d, hd, hd2⟩ | ⟨d, hd, hd2⟩
          · have := congrArg List.length hd
            rw [List.length_append] at this
            omega
          · exact ⟨d, hd, hd2⟩
        have hdl := congrArg List.length hd
        rw [List.length_append] at hdl
        constructor
        · intro h
          subst hby
          exact absurd h (h2v c d hd (by intro h; subst h; simp at ha) (by intro h; subst h; simp at hdl; omega))
        · intro h
          exfalso
          rcases (cut_split ..).mp h with h | ⟨a', _, h⟩
          · have := cut_length h
            rw [List.length_append] at this; omega
          · have := congrArg List.length h
            simp only [List.length_append] at this; omega
      · obtain ⟨c, hc, hy⟩ : ∃ c, a = x ++ v ++ c ∧ y = c ++ b := by
          rcases List.append_eq_append_iff.mp hab with ⟨d, hd, hd2⟩ | ⟨d, hd, hd2⟩
          · exact ⟨d, hd, hd2⟩
          · have := congrArg List.length hd
            simp only [List.length_append] at this
            have hd0 : d = [] := List.eq_nil_of_length_eq_zero (by omega)
            subst hd0
            exact ⟨[], by simpa using hd.symm, by simpa using hd2.symm⟩
        rw [hc, ← h3 c b hy, hb _ b (by rw [hy]; simp), e1, cut_split, cut_split, e2]
        refine or_congr ⟨?_, ?_⟩ ⟨?_, ?_⟩
        · intro h
          have := cut_length h
          simp only [List.length_append] at this; omega
        · intro h
          have := cut_length h
          simp only [List.length_append] at this; omega
        · rintro ⟨a', h, he⟩
          refine ⟨a', h, ?_⟩
          simp only [List.append_assoc, List.append_cancel_left_eq] at he ⊢
          exact he
        · rintro ⟨a', h, he⟩
          refine ⟨a', h, ?_⟩
          simp only [List.append_assoc, List.append_cancel_left_eq] at he ⊢
          exact he

/-- In every text the block `u` can be replaced by the block `v`: neither is cut, and the other boundaries stay. -/
structure Alike (B : List Nat → List Nat → Prop) (u v : List Nat) : Prop where
  nonempty : u ≠ [] ∧ v ≠ []
  before : ∀ a b y, B a (b ++ u ++ y) ↔ B a (b ++ v ++ y)
  inside : ∀ x a b y, a ≠ [] → b ≠ [] → (u = a ++ b ∨ v = a ++ b) → ¬ B (x ++ a) (b ++ y)
  after : ∀ x a b, B (x ++ u ++ a) b ↔ B (x ++ v ++ a) b

theorem Alike.symm {B : List Nat → List Nat → Prop} {u v : List Nat} (h : Alike B u v) : Alike B v u :=
  ⟨⟨h.nonempty.2, h.nonempty.1⟩, fun a b y => (h.before a b y).symm, fun x a b y ha hb e => h.inside x a b y ha hb e.symm,
    fun x a b => (h.after x a b).symm⟩

theorem forall₂_self {R : List Nat → List Nat → Prop} (h : ∀ a, R a a) (l : List (List Nat)) : List.Forall₂ R l l := by
  induction l with
  | nil => exact .nil
  | cons a l ih => exact .cons (h a) ih

theorem forall₂_app {R : List Nat → List Nat → Prop} {a b c d : List (List Nat)} (h : List.Forall₂ R a b) (h' : List.Forall₂ R c d) :
    List.Forall₂ R (a ++ c) (b ++ d) := by
  induction h with
  | nil => exact h'
  | cons h _ ih => exact .cons h ih

theorem forall₂_trans {R : List Nat → List Nat → Prop} (ht : ∀ a b c, R a b → R b c → R a c) {a b c : List (List Nat)}
    (h : List.Forall₂ R a b) (h' : List.Forall₂ R b c) : List.Forall₂ R a c := by
  induction h generalizing c with
  | nil => cases h'; exact .nil
  | cons h _ ih => cases h' with | cons h1 h2 => exact .cons (ht _ _ _ h h1) (ih h2)

/-- Equivalent texts are cut into equivalent pieces, if every character can be replaced by its mapping and adjacent
non-starters can be exchanged. -/
theorem seg_equivalent {B : List Nat → List Nat → Prop} {ccc : Nat → Nat} {mapping : Nat → Option (List Nat)}
    (hex : ∀ s, ∃ ps, Segmentation B s ps) (hexp : ∀ c m, mapping c = some m → Alike B [c] m)
    (hswap : ∀ a b, ccc a > 0 → ccc b > 0 → Alike B [a, b] [b, a]) {s t : List Nat} (h : Equivalent ccc mapping s t) :
    ∀ ps qs, Segmentation B s ps → Segmentation B t qs → List.Forall₂ (Equivalent ccc mapping) ps qs := by
  have one : ∀ x u v y, Alike B u v → Equivalent ccc mapping u v → ∀ ps qs, Segmentation B (x ++ u ++ y) ps →
      Segmentation B (x ++ v ++ y) qs → List.Forall₂ (Equivalent ccc mapping) ps qs := by
    intro x u v y ha he ps qs hp hq
    obtain ⟨l, p, q, r, e1, h2⟩ := seg_replace ha.nonempty.1 ha.nonempty.2 (fun a b _ => ha.before a b y)
      (fun a b hab h1 h2 => ha.inside x a b y h1 h2 (.inl hab)) (fun a b hab h1 h2 => ha.inside x a b y h1 h2 (.inr hab))
      (fun a b _ => ha.after x a b) hp
    rw [e1, hq.unique h2]
    exact forall₂_app (forall₂_self .refl l) (.cons (Proofs.FullDecomp.Equivalent.congr he p q) (forall₂_self .refl r))
  induction h with
  | refl s => intro ps qs hp hq; rw [hp.unique hq]; exact forall₂_self .refl qs
  | symm _ ih => intro ps qs hp hq; exact (ih qs ps hq hp).flip.imp fun _ _ h => h.symm
  | @trans s t u _ _ ih1 ih2 =>
    intro ps qs hp hq
    obtain ⟨rs, hr⟩ := hex t
    exact forall₂_trans (fun _ _ _ => .trans) (ih1 ps rs hp hr) (ih2 rs qs hr hq)
  | expand x y c m hm =>
    intro ps qs hp hq
    refine one x [c] m y (hexp c m hm) ?_ ps qs (by simpa using hp) hq
    have := Equivalent.expand (ccc := ccc) [] [] c m hm
    simpa using this
  | reorder h =>
    cases h with
    | swap x y a b h hb =>
      intro ps qs hp hq
      refine one x [a, b] [b, a] y (hswap a b (by omega) hb) ?_ ps qs (by simpa using hp) (by simpa using hq)
      exact .reorder (.swap [] [] a b h hb)

/-- Every text can be cut, if its start and its end are boundaries. -/
theorem cut_exists (B : List Nat → List Nat → Prop) (h0 : ∀ s, B [] s) (h1 : ∀ s, B s []) (s : List Nat) : ∃ ps, Segmentation B s ps := by
  classical
  -- pieces of `y` after the text `x`, `cur` being the last piece of `x`
  let go : List Nat → List Nat → List Nat → List (List Nat) := fun x cur y =>
    List.rec (motive := fun _ => List Nat → List Nat → List (List Nat)) (fun _ cur => [cur])
      (fun c y ih x cur => if B x (c :: y) then cur :: ih (x ++ [c]) [c] else ih (x ++ [c]) (cur ++ [c])) y x cur
  have spec : ∀ y x l cur, x = l.flatten ++ cur → (∀ p ∈ l, p ≠ []) → cur ≠ [] →
      (∀ a b, x ++ y = a ++ b → a.length < x.length → (B a b ↔ Cut (l ++ [cur]) a)) →
      Segmentation B (x ++ y) (l ++ go x cur y) := by
    intro y
    induction y with
    | nil =>
      intro x l cur hx hl hc hb
      refine ⟨by simp [go, hx], ?_, ?_⟩
      · intro p hp
        simp only [go, List.mem_append, List.mem_singleton] at hp
        rcases hp with hp | rfl
        · exact hl p hp
        · exact hc
      · intro a b e
        by_cases h : a.length < x.length
        · exact hb a b e h
        · have hlen := congrArg List.length e
          simp only [List.length_append, List.length_nil] at hlen
          have hb0 : b = [] := List.eq_nil_of_length_eq_zero (by omega)
          subst hb0
          refine ⟨fun _ => ⟨l.length + 1, ?_⟩, fun _ => h1 a⟩
          rw [List.append_nil, List.append_nil] at e
          rw [← e, hx, List.take_of_length_le (by simp [go])]
          simp [go]
    | cons c y ih =>
      intro x l cur hx hl hc hb
      have hcl : 0 < cur.length := List.length_pos_iff.mpr hc
      have hxl : x.length = l.flatten.length + cur.length := by rw [hx, List.length_append]
      have hgo : go x cur (c :: y) = if B x (c :: y) then cur :: go (x ++ [c]) [c] y else go (x ++ [c]) (cur ++ [c]) y := rfl
      have exa : ∀ a b, x ++ [c] ++ y = a ++ b → a.length < (x ++ [c]).length → ¬ a.length < x.length → a = x ∧ b = c :: y := by
        intro a b e h1 h2
        rw [List.length_append, List.length_singleton] at h1
        rw [List.append_assoc] at e
        exact (List.append_inj e.symm (by omega)).imp id id
      rw [hgo]
      split
      · rename_i hB
        have := ih (x ++ [c]) (l ++ [cur]) [c] (by rw [hx]; simp)
          (by intro p hp; rcases List.mem_append.mp hp with hp | hp
              · exact hl p hp
              · simp at hp; exact hp ▸ hc) (by simp) (by
            intro a b e hlt
            by_cases h : a.length < x.length
            · rw [hb a b (by rw [← e]; simp) h, cut_split (l ++ [cur])]
              constructor
              · exact .inl
              · rintro (h' | ⟨a', _, h'⟩)
                · exact h'
                · have := congrArg List.length h'
                  simp only [List.length_append, List.flatten_append, List.flatten_cons, List.flatten_nil, List.length_nil] at this
                  omega
            · obtain ⟨rfl, rfl⟩ := exa a b e hlt h
              refine ⟨fun _ => (cut_split ..).mpr (.inl ⟨l.length + 1, ?_⟩), fun _ => hB⟩
              rw [List.take_of_length_le (by simp), hx]; simp)
        simpa using this
      · rename_i hB
        have := ih (x ++ [c]) l (cur ++ [c]) (by rw [hx]; simp) hl (by simp) (by
            intro a b e hlt
            by_cases h : a.length < x.length
            · rw [hb a b (by rw [← e]; simp) h, cut_split, cut_split]
              refine or_congr Iff.rfl ⟨?_, ?_⟩
              · rintro ⟨a', _, h'⟩
                have := congrArg List.length h'
                simp only [List.length_append] at this; omega
              · rintro ⟨a', _, h'⟩
                have := congrArg List.length h'
                simp only [List.length_append, List.length_singleton] at this; omega
            · obtain ⟨rfl, rfl⟩ := exa a b e hlt h
              refine ⟨fun h => absurd h hB, fun h => ?_⟩
              exfalso
              rcases (cut_split ..).mp h with h | ⟨a', _, h⟩
              · have := cut_length h; omega
              · have := congrArg List.length h
                simp only [List.length_append, List.length_singleton] at this; omega)
        simpa using this
  cases s with
  | nil => exact ⟨[], rfl, by simp, by intro a b e; have := List.append_eq_nil_iff.mp e.symm; rw [this.1, this.2]; exact ⟨fun _ => ⟨0, rfl⟩, fun _ => h0 _⟩⟩
  | cons c s =>
    refine ⟨go [c] [c] s, ?_⟩
    have := spec s [c] [] [c] (by simp) (by simp) (by simp) (by
      intro a b e h
      simp at h
      subst h
      exact ⟨fun _ => ⟨0, rfl⟩, fun _ => h0 _⟩)
    simpa using this

theorem map_eq_of_forall₂ {f : List Nat → List Nat} {ps qs : List (List Nat)} (h : List.Forall₂ (fun p q => f p = f q) ps qs)
    (hq : ∀ q ∈ qs, f q = q) : ps.map f = qs := by
  induction h with
  | nil => rfl
  | cons h _ ih => rw [List.map_cons, h, hq _ (by simp), ih fun q hq' => hq q (by simp [hq'])]

theorem deque_map {α β : Type} (f : α → β) (ops : List End) (ps : List α) :
    (deque (ps.map f) ops).1 = (deque ps ops).1.map (Option.map f) := by
  induction ops generalizing ps with
  | nil => rfl
  | cons op ops ih =>
    cases op
    · simp only [deque, List.map_cons]
      rw [← List.map_tail, ih, List.head?_map]
    · simp only [deque, List.map_cons]
      rw [List.getLast?_map, ← ih, List.map_dropLast]

end Proofs.SegReplace
