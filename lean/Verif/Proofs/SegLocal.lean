import Verif.Proofs.WordSeg
import Verif.Proofs.SegReplace
import Verif.Props.Grapheme

/-! Boundaries separate: the two sides of a boundary are cut independently of each other. -/
namespace Proofs.SegLocal
open Data Spec.Segment Proofs.SegReplace

/-- what lies beyond a boundary does not matter -/
structure Local (B : List Nat → List Nat → Prop) : Prop where
  start : ∀ b, B [] b
  stop : ∀ a, B a []
  left : ∀ {u a b}, a ≠ [] → B u (a ++ b) → (B (u ++ a) b ↔ B a b)
  right : ∀ {a b v}, b ≠ [] → B (a ++ b) v → (B a (b ++ v) ↔ B a b)

theorem cut_append (ps qs : List (List Nat)) (a : List Nat) :
    Cut (ps ++ qs) a ↔ Cut ps a ∨ ∃ a', Cut qs a' ∧ a = ps.flatten ++ a' := by
  constructor
  · rintro ⟨k, rfl⟩
    by_cases hk : k ≤ ps.length
    · exact .inl ⟨k, by rw [List.take_append_of_le_length hk]⟩
    · obtain ⟨j, rfl⟩ : ∃ j, k = ps.length + j := ⟨k - ps.length, by omega⟩
      refine .inr ⟨_, ⟨j, rfl⟩, ?_⟩
      rw [List.take_length_add_append, List.flatten_append]
  · rintro (⟨k, rfl⟩ | ⟨a', ⟨j, rfl⟩, rfl⟩)
    · refine ⟨min k ps.length, ?_⟩
      rw [List.take_append_of_le_length (Nat.min_le_right ..)]
      congr 1
      rcases Nat.le_total k ps.length with h | h
      · rw [Nat.min_eq_left h]
      · rw [Nat.min_eq_right h, List.take_of_length_le h, List.take_length]
    · exact ⟨ps.length + j, by rw [List.take_length_add_append, List.flatten_append]⟩

theorem cut_zero (ps : List (List Nat)) : Cut ps [] := ⟨0, rfl⟩
theorem cut_all (ps : List (List Nat)) : Cut ps ps.flatten := ⟨ps.length, by rw [List.take_length]⟩

/-- the pieces of two texts put together at a boundary -/
theorem seg_concat {B : List Nat → List Nat → Prop} (L : Local B) {s t : List Nat} {ps qs : List (List Nat)}
    (hb : B s t) (hs : Segmentation B s ps) (ht : Segmentation B t qs) : Segmentation B (s ++ t) (ps ++ qs) := by
  obtain ⟨fs, ns, bs⟩ := hs
  obtain ⟨ft, nt, bt⟩ := ht
  have bs : ∀ a b, s = a ++ b → (B a b ↔ Cut ps a) := bs
  have bt : ∀ a b, t = a ++ b → (B a b ↔ Cut qs a) := bt
  refine ⟨by rw [List.flatten_append, fs, ft], ?_, ?_⟩
  · intro p hp
    rcases List.mem_append.mp hp with h | h
    · exact ns p h
    · exact nt p h
  intro a b hab
  change _ ↔ Cut (ps ++ qs) a
  rw [cut_append, fs]
  rcases List.append_eq_append_iff.mp hab with ⟨c, rfl, rfl⟩ | ⟨c, rfl, rfl⟩
  · -- cut inside `t` (or at its start)
    by_cases hc : c = []
    · subst hc
      simp only [List.append_nil, List.nil_append] at hb ⊢
      exact ⟨fun _ => .inr ⟨[], cut_zero _, by simp⟩, fun _ => hb⟩
    · rw [L.left hc hb, bt c b rfl]
      constructor
      · intro h; exact .inr ⟨c, h, rfl⟩
      · rintro (h | ⟨a', h, e⟩)
        · have := cut_length h
          rw [fs, List.length_append] at this
          have : c.length = 0 := by omega
          exact absurd (List.length_eq_zero_iff.mp this) hc
        · rw [List.append_cancel_left e]; exact h
  · by_cases hc : c = []
    · subst hc
      simp only [List.append_nil, List.nil_append] at hb fs ⊢
      exact ⟨fun _ => .inl (fs ▸ cut_all ps), fun _ => hb⟩
    · rw [L.right hc hb, bs a c rfl]
      constructor
      · exact .inl
      · rintro (h | ⟨a', h, e⟩)
        · exact h
        · have := congrArg List.length e
          rw [List.length_append, List.length_append] at this
          have : c.length = 0 := by omega
          exact absurd (List.length_eq_zero_iff.mp this) hc

/-- consecutive pieces of a text are the pieces of their own text -/
theorem seg_infix {B : List Nat → List Nat → Prop} (L : Local B) {s : List Nat} {l m r : List (List Nat)}
    (h : Segmentation B s (l ++ m ++ r)) : Segmentation B m.flatten m := by
  obtain ⟨f, n, b⟩ := h
  have b : ∀ x y, s = x ++ y → (B x y ↔ Cut (l ++ m ++ r) x) := b
  refine ⟨rfl, fun p hp => n p (by simp [hp]), ?_⟩
  intro x y hxy
  change _ ↔ Cut m x
  have hs : s = l.flatten ++ (x ++ (y ++ r.flatten)) := by
    rw [← f, List.flatten_append, List.flatten_append, hxy]; simp
  have h1 : B l.flatten (x ++ (y ++ r.flatten)) := (b _ _ hs).mpr (by
    rw [List.append_assoc, cut_append]; exact .inl (cut_all l))
  have h3 : B (l.flatten ++ x ++ y) r.flatten := (b _ _ (by rw [hs]; simp)).mpr (by
    rw [cut_append]; left
    have := cut_all (l ++ m)
    rwa [List.flatten_append, hxy, ← List.append_assoc] at this)
  by_cases hx : x = []
  · subst hx; exact ⟨fun _ => cut_zero m, fun _ => L.start y⟩
  by_cases hy : y = []
  · subst hy
    refine ⟨fun _ => ?_, fun _ => L.stop x⟩
    have := cut_all m
    rwa [hxy, List.append_nil] at this
  have e1 : B (l.flatten ++ x) (y ++ r.flatten) ↔ B x (y ++ r.flatten) := L.left hx h1
  have h3' : B (x ++ y) r.flatten := by
    have := (L.left (u := l.flatten) (a := x ++ y) (b := r.flatten) (by simp [hx]) (by rw [List.append_assoc]; exact h1)).mp
      (by rw [← List.append_assoc]; exact h3)
    exact this
  have e2 : B x (y ++ r.flatten) ↔ B x y := L.right hy h3'
  rw [← e2, ← e1, b _ _ (by rw [hs]; simp), cut_append, cut_append]
  have hxm : x.length < m.flatten.length := by
    rw [hxy, List.length_append]
    have := List.length_pos_iff.mpr hy
    omega
  constructor
  · rintro ((h | ⟨a', h, e⟩) | ⟨a', h, e⟩)
    · have := cut_length h
      rw [List.length_append] at this
      have := List.length_pos_iff.mpr hx
      omega
    · rw [List.append_cancel_left e]; exact h
    · have := congrArg List.length e
      rw [List.length_append, List.flatten_append, List.length_append, List.length_append] at this
      omega
  · intro h
    exact .inl (.inr ⟨x, h, rfl⟩)

/-! ### Words -/

theorem word_local (wb : Nat → WordBreak) : Local (Proofs.Word.Boundary wb) where
  start b := (Proofs.Word.Bd_iff wb [] b).mp (Proofs.Word.Bd_nil_left wb b)
  stop a := by
    rw [← Proofs.Word.Bd_iff]
    unfold Proofs.Word.Bd Proofs.Word.bw
    cases (a.map wb).reverse <;> rfl
  left ha h := by
    rw [← Proofs.Word.Bd_iff, ← Proofs.Word.Bd_iff, Proofs.Word.Bd_left ha ((Proofs.Word.Bd_iff ..).mpr h)]
  right hb h := by
    rw [← Proofs.Word.Bd_iff, ← Proofs.Word.Bd_iff, Proofs.Word.Bd_right hb ((Proofs.Word.Bd_iff ..).mpr h)]

/-! ### Grapheme clusters -/
open Model.Grapheme Proofs.Grapheme

theorem emojiBase_left {ext : Bool} {ru r : List GCB} {x : GCB} (h : bnd ext ru (x :: r) = true) (ra : List GCB) :
    emojiBase (ra ++ x :: ru) = emojiBase (ra ++ [x]) := by
  induction ra with
  | nil =>
    cases ru with
    | nil => rfl
    | cons y ru =>
      cases x <;> try rfl
      cases y <;> first | rfl | (cases ext <;> simp [bnd, checkPair] at h)
  | cons y ra ih => cases y <;> simp [emojiBase, ih]

theorem riCount_left {ext : Bool} {ru r : List GCB} {x : GCB} (h : bnd ext ru (x :: r) = true) (ra : List GCB) :
    riCount (ra ++ x :: ru) % 2 = riCount (ra ++ [x]) % 2 := by
  induction ra with
  | nil =>
    cases ru with
    | nil => rfl
    | cons y ru =>
      cases x <;> try rfl
      by_cases hy : y = .RegionalIndicator
      · subst hy
        simp only [bnd, checkPair, beq_iff_eq] at h
        simp only [List.nil_append, riCount] at h ⊢
        omega
      · simp [riCount, riCount_nonRI y ru hy]
  | cons y ra ih => cases y <;> simp [riCount] <;> omega

theorem bnd_left {ext : Bool} {ru ra b : List GCB} (ha : ra ≠ []) (h : bnd ext ru (ra.reverse ++ b) = true) :
    bnd ext (ra ++ ru) b = bnd ext ra b := by
  rcases List.eq_nil_or_concat ra with rfl | ⟨ra', x, rfl⟩
  · exact absurd rfl ha
  rw [List.concat_eq_append] at h ⊢
  rw [List.reverse_append] at h
  have h : bnd ext ru (x :: (ra'.reverse ++ b)) = true := by simpa using h
  rw [List.append_assoc]
  have he := emojiBase_left h ra'
  have hr := riCount_left h ra'
  cases b with
  | nil => cases ra' <;> simp [bnd]
  | cons y b =>
    cases ra' with
    | nil =>
      simp only [List.nil_append, List.cons_append] at he hr ⊢
      simp only [bnd, he, hr]
    | cons z ra' =>
      simp only [List.cons_append, List.nil_append] at he hr ⊢
      simp only [bnd, he, hr]

theorem bnd_right {ext : Bool} (ra : List GCB) {b v : List GCB} (hb : b ≠ []) : bnd ext ra (b ++ v) = bnd ext ra b := by
  cases b with
  | nil => exact absurd rfl hb
  | cons y b => cases ra <;> rfl

theorem gBoundary_iff (gcb : Nat → GCB) (ext : Bool) (a b : List Nat) :
    Props.Grapheme.Boundary gcb ext a b ↔ bnd ext (a.map gcb).reverse (b.map gcb) = true := by
  rw [Props.Grapheme.Boundary, ← bnd_spec, List.reverse_reverse]

theorem grapheme_right (gcb : Nat → GCB) (ext : Bool) {a b v : List Nat} (hb : b ≠ []) :
    Props.Grapheme.Boundary gcb ext a (b ++ v) ↔ Props.Grapheme.Boundary gcb ext a b := by
  rw [gBoundary_iff, gBoundary_iff, List.map_append, bnd_right _ (by simpa using hb)]

theorem grapheme_local (gcb : Nat → GCB) (ext : Bool) : Local (Props.Grapheme.Boundary gcb ext) where
  start b := by rw [gBoundary_iff]; rfl
  stop a := by rw [gBoundary_iff]; cases (a.map gcb).reverse <;> rfl
  left ha h := by
    rw [gBoundary_iff] at h
    rw [gBoundary_iff, gBoundary_iff, List.map_append, List.reverse_append,
      bnd_left (by simpa using ha) (by rw [List.reverse_reverse, ← List.map_append]; exact h)]
  right hb _ := grapheme_right gcb ext hb

/-- What is added to a text lengthens its last piece at most, when a boundary does not depend on more than one character
after it. -/
theorem seg_extend {B : List Nat → List Nat → Prop}
    (R : ∀ {a b v : List Nat}, b ≠ [] → (B a (b ++ v) ↔ B a b)) {s t : List Nat}
    {ps rs : List (List Nat)} {p : List Nat} (hs : Segmentation B s (ps ++ [p])) (ht : Segmentation B (s ++ t) rs) :
    ∃ q qs, rs = ps ++ (p ++ q) :: qs ∧ t = q ++ qs.flatten := by
  obtain ⟨fs, ns, bs⟩ := hs
  obtain ⟨ft, nt, bt⟩ := ht
  have bs : ∀ a b, s = a ++ b → (B a b ↔ Cut (ps ++ [p]) a) := bs
  have bt : ∀ a b, s ++ t = a ++ b → (B a b ↔ Cut rs a) := bt
  have hp : p ≠ [] := ns p (by simp)
  rw [List.flatten_append, List.flatten_singleton] at fs
  -- `ps` is cut off in the long text too
  have main : ∀ (ps rs : List (List Nat)), (∀ x ∈ ps, x ≠ []) → (∀ x ∈ rs, x ≠ []) → rs.flatten = ps.flatten ++ p ++ t →
      (∀ a b, ps.flatten ++ p = a ++ b → b ≠ [] → (Cut rs a ↔ Cut (ps ++ [p]) a)) →
      ∃ q qs, rs = ps ++ (p ++ q) :: qs := by
    intro ps
    induction ps with
    | nil =>
      intro rs _ nr hf hc
      obtain ⟨l, x, q, r, e1, e2⟩ := locate (x := []) (y := t) hp rs (by simpa using hf) (by
        intro a b hab ha hb hcut
        have h1 := (hc a b (by simpa using hab) hb).mp (by simpa using hcut)
        obtain ⟨k, hk⟩ := h1
        match k with
        | 0 => simp at hk; exact ha hk
        | k + 1 =>
          simp at hk
          rw [hk] at hab
          exact hb (by simpa using hab))
      have e3 : l = [] ∧ x = [] := by
        have := e2.symm
        rw [List.append_eq_nil_iff] at this
        refine ⟨?_, this.2⟩
        cases l with
        | nil => rfl
        | cons w l =>
          have hw := nr w (by rw [e1]; simp)
          rw [List.flatten_cons, List.append_eq_nil_iff] at this
          exact absurd this.1.1 hw
      rw [e3.1, e3.2] at e1
      exact ⟨q, r, by simpa using e1⟩
    | cons w ps ih =>
      intro rs np nr hf hc
      have hw : w ≠ [] := np w (by simp)
      have hcw : Cut rs w := (hc w (ps.flatten ++ p) (by simp) (by simp [hp])).mpr ⟨1, by simp⟩
      -- the first piece of `rs` is `w`
      cases rs with
      | nil => 
        obtain ⟨k, hk⟩ := hcw
        simp at hk; exact absurd hk hw
      | cons v rs =>
        have hv : v ≠ [] := nr v (by simp)
        have hvw : v = w := by
          obtain ⟨k, hk⟩ := hcw
          obtain ⟨j, rfl⟩ : ∃ j, k = j + 1 := by
            cases k with
            | zero => simp at hk; exact absurd hk hw
            | succ j => exact ⟨j, rfl⟩
          rw [List.take_succ_cons, List.flatten_cons] at hk
          have h2 := (hc v ((rs.take j).flatten ++ (ps.flatten ++ p)) (by rw [List.flatten_cons, hk]; simp) (by simp [hp])).mp ⟨1, by simp⟩
          obtain ⟨i, hi⟩ := h2
          cases i with
          | zero => simp at hi; exact absurd hi hv
          | succ i =>
            rw [List.cons_append, List.take_succ_cons, List.flatten_cons] at hi
            have l1 := congrArg List.length hk
            have l2 := congrArg List.length hi
            rw [List.length_append] at l1 l2
            have : ((rs.take j).flatten).length = 0 := by omega
            rw [List.length_eq_zero_iff.mp this, List.append_nil] at hk
            exact hk.symm
        subst hvw
        obtain ⟨q, qs, e⟩ := ih rs (fun x hx => np x (by simp [hx])) (fun x hx => nr x (by simp [hx]))
          (by rw [List.flatten_cons, List.flatten_cons, List.append_assoc, List.append_assoc] at hf
              rw [List.append_cancel_left hf]; simp) (by
            intro a b hab hb
            have := hc (v ++ a) b (by rw [List.flatten_cons, List.append_assoc, hab]; simp) hb
            constructor
            · rintro ⟨k, hk⟩
              obtain ⟨i, hi⟩ := this.mp ⟨k + 1, by rw [List.take_succ_cons, List.flatten_cons, hk]⟩
              cases i with
              | zero =>
                rw [List.take_zero, List.flatten_nil, List.append_eq_nil_iff] at hi
                exact absurd hi.1 hv
              | succ i =>
                rw [List.cons_append, List.take_succ_cons, List.flatten_cons] at hi
                exact ⟨i, List.append_cancel_left hi⟩
            · rintro ⟨k, hk⟩
              obtain ⟨i, hi⟩ := this.mpr ⟨k + 1, by rw [List.cons_append, List.take_succ_cons, List.flatten_cons, hk]⟩
              cases i with
              | zero =>
                rw [List.take_zero, List.flatten_nil, List.append_eq_nil_iff] at hi
                exact absurd hi.1 hv
              | succ i =>
                rw [List.take_succ_cons, List.flatten_cons] at hi
                exact ⟨i, List.append_cancel_left hi⟩)
        exact ⟨q, qs, by rw [e]; rfl⟩
  obtain ⟨q, qs, e⟩ := main ps rs (fun x hx => ns x (by simp [hx])) nt (by rw [ft, fs]) (by
    intro a b hab hb
    rw [fs] at hab
    rw [← bs a b hab, ← bt a (b ++ t) (by rw [hab]; simp), R hb])
  refine ⟨q, qs, e, ?_⟩
  rw [e, ← fs] at ft
  simp only [List.flatten_append, List.flatten_cons, List.append_assoc] at ft
  exact (List.append_cancel_left (List.append_cancel_left ft)).symm

/-- Two divisions that cut the text of the first pieces alike begin with the same pieces. -/
theorem cut_prefix : ∀ (ps r rs : List (List Nat)), (∀ x ∈ ps, x ≠ []) → (∀ x ∈ rs, x ≠ []) →
    (∀ a b, ps.flatten = a ++ b → (Cut rs a ↔ Cut (ps ++ r) a)) → ∃ qs, rs = ps ++ qs := by
  intro ps
  induction ps with
  | nil => intro r rs _ _ _; exact ⟨rs, rfl⟩
  | cons w ps ih =>
    intro r rs np nr hc
    have hw : w ≠ [] := np w (by simp)
    have hcw : Cut rs w := (hc w ps.flatten (by simp)).mpr ⟨1, by simp⟩
    cases rs with
    | nil =>
      obtain ⟨k, hk⟩ := hcw
      simp at hk; exact absurd hk hw
    | cons v rs =>
      have hv : v ≠ [] := nr v (by simp)
      have hvw : v = w := by
        obtain ⟨k, hk⟩ := hcw
        obtain ⟨j, rfl⟩ : ∃ j, k = j + 1 := by
          cases k with
          | zero => simp at hk; exact absurd hk hw
          | succ j => exact ⟨j, rfl⟩
        rw [List.take_succ_cons, List.flatten_cons] at hk
        have h2 := (hc v ((rs.take j).flatten ++ ps.flatten) (by rw [List.flatten_cons, hk]; simp)).mp ⟨1, by simp⟩
        obtain ⟨i, hi⟩ := h2
        cases i with
        | zero => simp at hi; exact absurd hi hv
        | succ i =>
          rw [List.cons_append, List.take_succ_cons, List.flatten_cons] at hi
          have l1 := congrArg List.length hk
          have l2 := congrArg List.length hi
          rw [List.length_append] at l1 l2
          have : ((rs.take j).flatten).length = 0 := by omega
          rw [List.length_eq_zero_iff.mp this, List.append_nil] at hk
          exact hk.symm
      subst hvw
      obtain ⟨qs, e⟩ := ih r rs (fun x hx => np x (by simp [hx])) (fun x hx => nr x (by simp [hx])) (by
        intro a b hab
        have := hc (v ++ a) b (by rw [List.flatten_cons, hab]; simp)
        constructor
        · rintro ⟨k, hk⟩
          obtain ⟨i, hi⟩ := this.mp ⟨k + 1, by rw [List.take_succ_cons, List.flatten_cons, hk]⟩
          cases i with
          | zero =>
            rw [List.take_zero, List.flatten_nil, List.append_eq_nil_iff] at hi
            exact absurd hi.1 hv
          | succ i =>
            rw [List.cons_append, List.take_succ_cons, List.flatten_cons] at hi
            exact ⟨i, List.append_cancel_left hi⟩
        · rintro ⟨k, hk⟩
          obtain ⟨i, hi⟩ := this.mpr ⟨k + 1, by rw [List.cons_append, List.take_succ_cons, List.flatten_cons, hk]⟩
          cases i with
          | zero =>
            rw [List.take_zero, List.flatten_nil, List.append_eq_nil_iff] at hi
            exact absurd hi.1 hv
          | succ i =>
            rw [List.take_succ_cons, List.flatten_cons] at hi
            exact ⟨i, List.append_cancel_left hi⟩)
      exact ⟨qs, by rw [e]; rfl⟩

open Model.Word Proofs.Word in
theorem ctx_ign_nl (ra J : List WordBreak) (h : ∀ y ∈ J, isIgn y = true) {e : WordBreak} (he : (ctx (J ++ ra)).e1 = some e)
    (hn : isNl e = true) : (ctx ra).e1 = some e := by
  induction J with
  | nil => exact he
  | cons y J ih =>
    simp only [List.cons_append, ctx, Ctx.push, h y (by simp), Bool.true_and] at he
    split at he
    · exact ih (fun z hz => h z (by simp [hz])) he
    · simp only [Option.some.injEq] at he
      subst he
      have := h y (by simp)
      revert this hn; cases y <;> simp [isIgn, isNl]

open Model.Word Proofs.Word in
/-- a word boundary does not depend on what is beyond the next boundary but one after it -/
theorem bw_far {ra b1 b2 v : List WordBreak} (h1 : b1 ≠ []) (h2 : b2 ≠ []) (h : bw (b1.reverse ++ ra) b2 = true) :
    bw ra (b1 ++ b2 ++ v) = bw ra (b1 ++ b2) := by
  cases b1 with
  | nil => exact absurd rfl h1
  | cons x J =>
  cases b2 with
  | nil => exact absurd rfl h2
  | cons y K =>
  simp only [List.cons_append, bw]
  by_cases hig : ∀ z ∈ J ++ y :: K, isIgn z = true
  · have hJ : ∀ z ∈ J.reverse, isIgn z = true := fun z hz => hig z (by simp [List.mem_reverse.mp hz])
    have hy : isIgn y = true := hig y (by simp)
    have hyn : isNl y = false := by revert hy; cases y <;> simp [isIgn, isNl]
    have hylf : (y == .LF) = false := by revert hy; cases y <;> simp [isIgn]
    have hyg : (y == .GlueAfterZwj || y == .EBaseGAZ) = false := by revert hy; cases y <;> simp [isIgn]
    -- the boundary before `y` is one after a newline
    have hnl : isNl x = true := by
      simp only [bw, List.reverse_cons, List.append_assoc, List.cons_append, List.nil_append] at h
      cases he : (ctx (J.reverse ++ x :: ra)).e1 with
      | none =>
        exfalso
        have hne : J.reverse ++ x :: ra ≠ [] := by simp
        cases hl : J.reverse ++ x :: ra with
        | nil => exact hne hl
        | cons z l => obtain ⟨e, h⟩ := ctx_cons_e1 z l; rw [hl, h] at he; cases he
      | some e =>
        simp only [Word.bnd, he, hylf, hyn, hyg, hy, Bool.and_false, Bool.or_false, Bool.false_eq_true, if_false] at h
        have hen : isNl e = true := by
          cases hn : isNl e with
          | true => rfl
          | false => rw [hn] at h; simp at h
        have := ctx_ign_nl (x :: ra) J.reverse hJ he hen
        simp only [ctx, Ctx.push] at this
        split at this
        · rename_i hc
          have h3 : (ctx ra).e1 = some e := this
          simp [Ctx.open, h3, hen] at hc
        · simp only [Option.some.injEq] at this
          rw [this]; exact hen
    cases he : (ctx ra).e1 with
    | none => simp only [Word.bnd, he]
    | some e => simp only [Word.bnd, he, hnl, Bool.or_true, if_true]
  · -- a significant class before the end of `b2`
    have : ∀ l : List WordBreak, (¬ ∀ z ∈ l, isIgn z = true) → nextSig (l ++ v) = nextSig l := by
      intro l
      induction l with
      | nil => intro h; exact absurd (fun _ h => (by cases h)) h
      | cons z l ih =>
        intro h
        simp only [List.cons_append, nextSig]
        by_cases hz : isIgn z = true
        · rw [if_pos hz, if_pos hz]
          refine ih (fun hl => h ?_)
          intro w hw
          rcases List.mem_cons.mp hw with rfl | hw
          · exact hz
          · exact hl w hw
        · rw [if_neg hz, if_neg hz]
    have := this _ hig
    simp only [List.append_assoc, List.cons_append] at this ⊢
    rw [this]

open Proofs.Word in
/-- What is added to a text changes its last two word pieces at most. -/
theorem word_extend (wb : Nat → WordBreak) {s t : List Nat} {ps rs : List (List Nat)} {p q : List Nat}
    (hs : Segmentation (Boundary wb) s (ps ++ [p, q])) (ht : Segmentation (Boundary wb) (s ++ t) rs) :
    ∃ qs, rs = ps ++ qs := by
  obtain ⟨fs, ns, bs⟩ := hs
  obtain ⟨ft, nt, bt⟩ := ht
  have bs : ∀ a b, s = a ++ b → (Boundary wb a b ↔ Cut (ps ++ [p, q]) a) := bs
  have bt : ∀ a b, s ++ t = a ++ b → (Boundary wb a b ↔ Cut rs a) := bt
  have hp : p ≠ [] := ns p (by simp)
  have hq : q ≠ [] := ns q (by simp)
  refine cut_prefix ps [p, q] rs (fun x hx => ns x (by simp [hx])) nt ?_
  intro a b hab
  have es : s = a ++ ((b ++ p) ++ q) := by rw [← fs]; simp [hab]
  have h1 : Boundary wb (a ++ (b ++ p)) q := (bs _ _ (by rw [es]; simp)).mpr ⟨ps.length + 1, by
    rw [List.take_length_add_append]; simp [hab]⟩
  rw [← bs _ _ es, ← bt a ((b ++ p) ++ q ++ t) (by rw [es]; simp), ← Bd_iff, ← Bd_iff]
  rw [← Bd_iff, Bd, List.map_append, List.reverse_append] at h1
  have := bw_far (v := t.map wb) (by simp [hp]) (by simpa using hq) h1
  rw [Bd, Bd, List.map_append, List.map_append, this, ← List.map_append]

end Proofs.SegLocal
