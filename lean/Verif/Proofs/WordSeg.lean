import Verif.Proofs.WordBwd
import Verif.Proofs.UcdSF
import Verif.Props.Grapheme

/-! From one piece to all pieces. -/
namespace Proofs.Word
open Data Spec.Segment Model Model.Word Model.Grapheme Proofs.Grapheme Proofs.Punycode Props.Grapheme

/-- Rules WB1–WB999 put a boundary between `a` and `b`, for the classes `wb` of their characters. -/
def Boundary (wb : Nat → WB) (a b : List Nat) : Prop := WordBoundary (a.map wb) (b.map wb)

theorem Bd_iff (wb : Nat → WB) (a b : List Nat) : Bd wb a b = true ↔ Boundary wb a b := by
  rw [Boundary, Bd, ← wordBoundary_iff, List.reverse_reverse]

theorem Bd_nil_left (wb : Nat → WB) (b : List Nat) : Bd wb [] b = true := by
  cases b <;> rfl

theorem Bd_left {wb : Nat → WB} {u a b : List Nat} (ha : a ≠ []) (h : Bd wb u (a ++ b) = true) : Bd wb (u ++ a) b = Bd wb a b := by
  unfold Bd at *
  rw [List.map_append] at h
  rw [List.map_append, List.reverse_append]
  exact bw_left (by simpa using ha) h

theorem Bd_right {wb : Nat → WB} {a b v : List Nat} (hb : b ≠ []) (h : Bd wb (a ++ b) v = true) : Bd wb a (b ++ v) = Bd wb a b := by
  unfold Bd at *
  rw [List.map_append, List.reverse_append] at h
  rw [List.map_append]
  exact bw_right (by simpa using hb) h

theorem seg_nil (wb : Nat → WB) : Segmentation (Boundary wb) [] [] := by
  refine ⟨rfl, fun _ h => (by cases h), ?_⟩
  intro a b h
  obtain ⟨rfl, rfl⟩ : a = [] ∧ b = [] := by simpa using h.symm
  exact ⟨fun _ => ⟨0, rfl⟩, fun _ => (Bd_iff wb [] []).mp rfl⟩

theorem seg_front {wb : Nat → WB} {u w : List Nat} {ps : List (List Nat)} (hu : u ≠ []) (hf : First wb u w)
    (hs : Segmentation (Boundary wb) w ps) : Segmentation (Boundary wb) (u ++ w) (u :: ps) := by
  refine ⟨by simp [hs.1], ?_, ?_⟩
  · intro p hp
    rcases List.mem_cons.mp hp with rfl | hp
    · exact hu
    · exact hs.2.1 p hp
  · intro a b hab
    rw [← Bd_iff]
    rcases List.append_eq_append_iff.mp hab with ⟨x, e1, e2⟩ | ⟨x, e1, e2⟩
    · -- the position is at or after the end of `u`
      subst e1
      have hw := hs.2.2 x b e2
      rw [← Bd_iff] at hw
      have hb : Bd wb (u ++ x) b = Bd wb x b := by
        by_cases hx : x = []
        · subst hx
          rw [List.append_nil, Bd_nil_left]
          have : b = w := by simpa using e2.symm
          rw [this]; exact hf.bd
        · exact Bd_left hx (by rw [← e2]; exact hf.bd)
      rw [hb, hw]
      constructor
      · rintro ⟨k, rfl⟩; exact ⟨k + 1, by simp⟩
      · rintro ⟨k, hk⟩
        cases k with
        | zero => simp at hk; exact absurd hk.1 hu
        | succ k => exact ⟨k, by simpa using hk⟩
    · by_cases ha : a = []
      · subst ha
        exact ⟨fun _ => ⟨0, rfl⟩, fun _ => Bd_nil_left wb b⟩
      by_cases hx : x = []
      · subst hx
        rw [List.append_nil] at e1; rw [List.nil_append] at e2
        subst e1 e2
        exact ⟨fun _ => ⟨1, by simp⟩, fun _ => hf.bd⟩
      · have := hf.inner a x e1 ha hx
        rw [e2, this]
        refine ⟨fun h => (by cases h), ?_⟩
        rintro ⟨k, hk⟩
        cases k with
        | zero => exact absurd (by simpa using hk) ha
        | succ k =>
          have l1 := congrArg List.length hk
          have l2 := congrArg List.length e1
          have l3 := List.length_pos_iff.mpr hx
          simp only [List.take_succ_cons, List.flatten_cons, List.length_append] at l1 l2
          omega

theorem take_flatten_snoc (ps : List (List Nat)) (w : List Nat) (k : Nat) (hk : k ≤ ps.length) :
    ((ps ++ [w]).take k).flatten = (ps.take k).flatten := by rw [List.take_append_of_le_length hk]

theorem seg_back {wb : Nat → WB} {u w : List Nat} {ps : List (List Nat)} (hw : w ≠ []) (hl : Last wb u w)
    (hs : Segmentation (Boundary wb) u ps) : Segmentation (Boundary wb) (u ++ w) (ps ++ [w]) := by
  have hfl : ∀ k, ((ps ++ [w]).take k).flatten = (ps.take k).flatten ∨ ((ps ++ [w]).take k).flatten = u ++ w := by
    intro k
    by_cases hk : k ≤ ps.length
    · exact .inl (take_flatten_snoc ps w k hk)
    · right
      rw [List.take_of_length_le (by simp; omega)]
      simp [hs.1]
  refine ⟨by simp [hs.1], ?_, ?_⟩
  · intro p hp
    rcases List.mem_append.mp hp with hp | hp
    · exact hs.2.1 p hp
    · rw [List.mem_singleton.mp hp]; exact hw
  · intro a b hab
    rw [← Bd_iff]
    rcases List.append_eq_append_iff.mp hab with ⟨x, e1, e2⟩ | ⟨x, e1, e2⟩
    · subst e1
      by_cases hb : b = []
      · subst hb
        rw [List.append_nil] at e2; subst e2
        refine ⟨fun _ => ⟨ps.length + 1, ?_⟩, fun _ => rfl⟩
        rw [List.take_of_length_le (by simp)]; simp [hs.1]
      by_cases hx : x = []
      · subst hx
        rw [List.nil_append] at e2; subst e2
        rw [List.append_nil]
        refine ⟨fun _ => ⟨ps.length, ?_⟩, fun _ => hl.bd⟩
        rw [take_flatten_snoc _ _ _ (Nat.le_refl _), List.take_length, hs.1]
      · rw [hl.inner x b e2 hx hb]
        refine ⟨fun h => (by cases h), ?_⟩
        rintro ⟨k, hk⟩
        have l2 := congrArg List.length e2
        have p1 := List.length_pos_iff.mpr hx
        have p2 := List.length_pos_iff.mpr hb
        rw [List.length_append] at l2
        rcases hfl k with h | h
        · rw [h] at hk
          have l3 := congrArg List.length hk
          have l4 := congrArg List.length hs.1
          have l5 : (ps.take k).flatten.length ≤ ps.flatten.length := by
            conv_rhs => rw [← List.take_append_drop k ps]
            rw [List.flatten_append, List.length_append]
            exact Nat.le_add_right _ _
          rw [List.length_append] at l3
          omega
        · rw [h] at hk
          have l3 := congrArg List.length hk
          rw [List.length_append, List.length_append] at l3
          omega
    · subst e1
      have hu := hs.2.2 a x rfl
      rw [← Bd_iff] at hu
      have hb : Bd wb a b = Bd wb a x := by
        rw [e2]
        by_cases hx : x = []
        · subst hx
          rw [List.nil_append]
          have := hl.bd
          rw [List.append_nil] at this
          rw [this]; rfl
        · exact Bd_right hx hl.bd
      rw [hb, hu]
      constructor
      · rintro ⟨k, hk⟩
        by_cases hkl : k ≤ ps.length
        · exact ⟨k, by rw [take_flatten_snoc _ _ _ hkl]; exact hk⟩
        · refine ⟨ps.length, ?_⟩
          rw [take_flatten_snoc _ _ _ (Nat.le_refl _), List.take_length]
          rw [List.take_of_length_le (by omega)] at hk; exact hk
      · rintro ⟨k, hk⟩
        rcases hfl k with h | h
        · exact ⟨k, by rw [← h]; exact hk⟩
        · rw [h] at hk
          have l3 := congrArg List.length hk
          have p1 := List.length_pos_iff.mpr hw
          simp only [List.length_append] at l3
          omega

theorem fwdClean_right {p k : List WB} (h : FwdClean (p ++ k)) : FwdClean k := by
  obtain ⟨h1, h2, h3⟩ := h
  refine ⟨?_, ?_, ?_⟩
  · intro q m J g r e; exact h1 (p ++ q) m J g r (by rw [e]; simp)
  · intro q J x r e; exact h2 (p ++ q) J x r (by rw [e]; simp)
  · intro q J r e; exact h3 (p ++ q) J r (by rw [e]; simp)
theorem fwdClean_left {k p : List WB} (h : FwdClean (k ++ p)) : FwdClean k := by
  obtain ⟨h1, h2, h3⟩ := h
  refine ⟨?_, ?_, ?_⟩
  · intro q m J g r e; exact h1 q m J g (r ++ p) (by rw [e]; simp)
  · intro q J x r e; exact h2 q J x (r ++ p) (by rw [e]; simp)
  · intro q J r e; exact h3 q J (r ++ p) (by rw [e]; simp)
theorem bwdClean_right {p k : List WB} (h : BwdClean (p ++ k)) : BwdClean k := by
  intro q J r e; exact h (p ++ q) J r (by rw [e]; simp)
theorem bwdClean_left {k p : List WB} (h : BwdClean (k ++ p)) : BwdClean k := by
  intro q J r e; exact h q J (r ++ p) (by rw [e]; simp)

/-- the iterator is consistent -/
def Good2 (wb : Nat → WB) (b : WordBounds) : Prop := b.string ≠ [] → CacheF wb b ∧ CacheB wb b

theorem good_new (wb : Nat → WB) (s : List Nat) : Good2 wb (.new s) := fun _ => ⟨.inl rfl, .inl rfl⟩

theorem next_step {wb : Nat → WB} (hcr : CrOneByte wb) {b : WordBounds} (hs : b.string ≠ []) (hg : Good2 wb b) :
    ∃ u b', b.string = u ++ b'.string ∧ u ≠ [] ∧ b.next wb = .ok (b', some u) ∧ Good2 wb b' ∧
      (FwdClean (b.string.map wb) → First wb u b'.string) := by
  obtain ⟨u, w, cat, h1, h2, h3, h4, h5⟩ := next_spec wb hcr b hs (hg hs).1
  refine ⟨u, _, h1, h2, h3, ?_, h5⟩
  intro hw
  refine ⟨h4, ?_⟩
  rcases (hg hs).2 with h | ⟨ui, y, e1, e2⟩
  · exact .inl h
  · simp only at hw
    rcases List.eq_nil_or_concat w with rfl | ⟨wi, z, rfl⟩
    · exact absurd rfl hw
    · rw [List.concat_eq_append, ← List.append_assoc] at h1
      have := (List.append_inj' (e1.symm.trans h1) rfl).2
      cases this
      exact .inr ⟨wi, y, List.concat_eq_append, e2⟩

theorem nextBack_step {wb : Nat → WB} (hcr : CrOneByte wb) {b : WordBounds} (hs : b.string ≠ []) (hg : Good2 wb b) :
    ∃ w b', b.string = b'.string ++ w ∧ w ≠ [] ∧ b.nextBack wb = .ok (b', some w) ∧ Good2 wb b' ∧
      (BwdClean (b.string.map wb) → Last wb b'.string w) := by
  obtain ⟨u, w, cat, h1, h2, h3, h4, h5⟩ := nextBack_spec wb hcr b hs (hg hs).2
  refine ⟨w, _, h1, h2, h3, ?_, h5⟩
  intro hu
  refine ⟨?_, h4⟩
  rcases (hg hs).1 with h | ⟨y, r, e1, e2⟩
  · exact .inl h
  · simp only at hu
    cases u with
    | nil => exact absurd rfl hu
    | cons z u =>
      have := e1.symm.trans h1
      rw [List.cons_append, List.cons.injEq] at this
      exact .inr ⟨z, u, rfl, by rw [← this.1]; exact e2⟩

theorem next_end {wb : Nat → WB} {b : WordBounds} (hs : b.string = []) : b.next wb = .ok (b, none) ∧ b.nextBack wb = .ok (b, none) := by
  rw [WordBounds.next, WordBounds.nextBack, if_pos hs, if_pos hs]; exact ⟨rfl, rfl⟩

/-- Every text is cut into pieces by the rules. -/
theorem seg_exists (wb : Nat → WB) : ∀ (n : Nat) (s : List Nat), s.length ≤ n → ∃ ps, Segmentation (Boundary wb) s ps := by
  intro n
  induction n with
  | zero =>
    intro s hs
    obtain rfl := List.eq_nil_of_length_eq_zero (Nat.le_zero.mp hs)
    exact ⟨[], seg_nil wb⟩
  | succ n ih =>
    intro s hs
    by_cases he : s = []
    · subst he; exact ⟨[], seg_nil wb⟩
    -- the shortest non-empty prefix that ends at a boundary
    have hex : ∃ k, 0 < k ∧ k ≤ s.length ∧ Bd wb (s.take k) (s.drop k) = true :=
      ⟨s.length, List.length_pos_iff.mpr he, Nat.le_refl _, by rw [List.drop_length]; rfl⟩
    have hmin : ∃ k, (0 < k ∧ k ≤ s.length ∧ Bd wb (s.take k) (s.drop k) = true) ∧
        ∀ j, j < k → ¬ (0 < j ∧ j ≤ s.length ∧ Bd wb (s.take j) (s.drop j) = true) := by
      obtain ⟨k, hk⟩ := hex
      revert hk
      induction k using Nat.strongRecOn with
      | ind k ihk =>
        intro hk
        by_cases h : ∃ j, j < k ∧ (0 < j ∧ j ≤ s.length ∧ Bd wb (s.take j) (s.drop j) = true)
        · obtain ⟨j, hj, hj'⟩ := h
          exact ihk j hj hj'
        · exact ⟨k, hk, fun j hj hj' => h ⟨j, hj, hj'⟩⟩
    obtain ⟨k, ⟨k1, k2, k3⟩, k4⟩ := hmin
    obtain ⟨ps, hps⟩ := ih (s.drop k) (by rw [List.length_drop]; omega)
    refine ⟨s.take k :: ps, ?_⟩
    have hu : s.take k ≠ [] := by
      intro h
      have := congrArg List.length h
      rw [List.length_take, List.length_nil] at this
      omega
    have := seg_front hu (w := s.drop k) ⟨k3, ?_⟩ hps
    · rwa [List.take_append_drop] at this
    · intro u1 u2 hu hu1 hu2
      have hl := congrArg List.length hu
      rw [List.length_take, List.length_append, Nat.min_eq_left k2] at hl
      have p1 := List.length_pos_iff.mpr hu1
      have p2 := List.length_pos_iff.mpr hu2
      have h4 := k4 u1.length (by omega)
      have es : s = u1 ++ (u2 ++ s.drop k) := by rw [← List.append_assoc, ← hu, List.take_append_drop]
      have e1 : s.take u1.length = u1 := by conv_lhs => rw [es]; exact List.take_left
      have e2 : s.drop u1.length = u2 ++ s.drop k := by conv_lhs => rw [es]; exact List.drop_left
      rw [e1, e2] at h4
      cases hb : Bd wb u1 (u2 ++ s.drop k) with
      | false => rfl
      | true => exact absurd ⟨p1, by omega, hb⟩ h4

def crSF : Proofs.StepFn.SF Bool := ⟨false, [(0xD, true), (0xE, false)]⟩

/-- The only character of class CR is U+000D. -/
theorem ucd_cr : CrOneByte Ucd.wordBreak := by
  intro c hc
  have h := Proofs.StepFn.SF.all₂ (fun x y => !decide (x = .CR) || y) Proofs.UcdSF.wordBreakSF crSF (by decide +kernel) c
  rw [← Proofs.UcdSF.wordBreak_sf, hc] at h
  have : c = 0xD := by
    simp only [crSF, Proofs.StepFn.SF.eval, Proofs.StepFn.evalSF] at h
    split at h
    · simp at h
    · split at h
      · omega
      · simp at h
  subst this; rfl

end Proofs.Word
