import Verif.Proofs.SegmentData
import Verif.Proofs.NfdSteps
import Verif.Props.Grapheme
import Verif.Spec.SegmentNormal

/-! # C70: grapheme clusters of canonically equivalent texts -/
namespace Props.SegmentNormal
open Data Spec.Segment Spec.Normal Model Model.UcdNormal Model.Normal Model.Grapheme Props.Grapheme Props.Normal
open Proofs.GraphemeState Proofs.SegReplace Proofs.SegmentData Proofs.NfdSteps

local notation "gcb" => Ucd.graphemeClusterBreak

theorem boundary_iff {s : List Nat} (h : NoSpacing (s.map gcb)) (a b : List Nat) (e : s = a ++ b) :
    Boundary gcb true a b ↔ cutAt true (a.map gcb) (b.map gcb) = true := by
  rw [Boundary, boundary_cutAt, cutAt_agree h _ _ (by rw [e, List.map_append])]

theorem seg_iff {s : List Nat} (h : NoSpacing (s.map gcb)) (ps : List (List Nat)) :
    Segmentation (Boundary gcb true) s ps ↔ Segmentation (fun a b => cutAt true (a.map gcb) (b.map gcb) = true) s ps := by
  refine and_congr Iff.rfl (and_congr Iff.rfl ?_)
  constructor
  · intro h1 a b e; rw [← h1 a b e, boundary_iff h a b e]
  · intro h1 a b e; rw [← h1 a b e, boundary_iff h a b e]

theorem cut_exists' (s : List Nat) : ∃ ps, Segmentation (fun a b => cutAt true (a.map gcb) (b.map gcb) = true) s ps := by
  refine cut_exists _ ?_ ?_ s
  · intro s; cases s <;> rfl
  · intro s; rfl

/-- The full claim: in canonically equivalent texts the extended grapheme clusters are equivalent one by one. -/
def ClustersRespect (ext : Bool) : Prop := ∀ s t, nfd s = nfd t → ∀ ps qs, Segmentation (Boundary gcb ext) s ps →
  Segmentation (Boundary gcb ext) t qs → List.Forall₂ (fun p q => nfd p = nfd q) ps qs

/-- **C70, partial.** Canonically equivalent texts have equally many extended grapheme clusters, and these are canonically
equivalent one by one — provided that in neither text a spacing mark stands between an emoji base and its modifier. Missing:
texts with such a mark, for which the claim is false (`c70_false`). -/
theorem c70_equivalent_partial (s t : List Nat) (h : nfd s = nfd t) (hs : NoSpacing (s.map gcb)) (ht : NoSpacing (t.map gcb))
    (ps qs : List (List Nat)) (hp : Segmentation (Boundary gcb true) s ps) (hq : Segmentation (Boundary gcb true) t qs) :
    List.Forall₂ (fun p q => nfd p = nfd q) ps qs := by
  rw [seg_iff hs] at hp
  rw [seg_iff ht] at hq
  refine (seg_equivalent cut_exists' ?_ ?_ ((c18_equivalent s t).mpr h) ps qs hp hq).imp fun p q h => (c18_equivalent p q).mp h
  · intro c m hm
    exact alike_spec (by simpa using (mapping_gcb hm).1)
  · intro a b ha hb
    exact alike_spec (by simpa using (marks_alike (nonstarter_gcb a ha) (nonstarter_gcb b hb)).1)

/-- NFD does not introduce such a mark. -/
theorem nfd_noSpacing (s : List Nat) (h : NoSpacing (s.map gcb)) : NoSpacing ((nfd s).map gcb) := by
  rw [agree_iff] at h ⊢
  refine nfd_preserves (fun s => Agree (s.map gcb)) ?_ ?_ s h
  · intro x y c m hm h
    simp only [List.map_append, List.map_cons, List.map_nil] at h ⊢
    exact agree_replace h (mapping_gcb hm).1 (mapping_gcb hm).2
  · intro x y a b ha hb h
    simp only [List.map_append, List.map_cons, List.map_nil] at h ⊢
    have := marks_alike (nonstarter_gcb a ha) (nonstarter_gcb b hb)
    exact agree_replace h this.1 this.2

/-- **C70, partial.** The extended grapheme clusters of the NFD of a text are the NFD of its clusters. -/
theorem c70_nfd_partial (s : List Nat) (h : NoSpacing (s.map gcb)) (ps : List (List Nat))
    (hp : Segmentation (Boundary gcb true) s ps) : Segmentation (Boundary gcb true) (nfd s) (ps.map nfd) := by
  have h' := nfd_noSpacing s h
  obtain ⟨qs, hq⟩ := cut_exists' (nfd s)
  have hq := (seg_iff h' qs).mpr hq
  have := c70_equivalent_partial s (nfd s) (c15_idempotent s).1.symm h h' ps qs hp hq
  rw [map_eq_of_forall₂ this (nfd_pieces hq.1)]; exact hq

/-- **C70, partial.** In terms of the iterators: whatever calls of `next` and `next_back` are made on
`Graphemes::new(nfd(s), true)`, the answers are the NFD of the answers to the same calls on `Graphemes::new(s, true)`. -/
theorem c70_iteration_partial (s : List Nat) (h : NoSpacing (s.map gcb)) (ops : List End) :
    ∃ rs g g', calls (·.next gcb) (·.nextBack gcb) (Graphemes.new true s) ops = .ok (rs, g) ∧
      calls (·.next gcb) (·.nextBack gcb) (Graphemes.new true (nfd s)) ops = .ok (rs.map (Option.map nfd), g') := by
  obtain ⟨ps, hp, hc⟩ := c35_iteration gcb true s
  obtain ⟨qs, hq, hd⟩ := c35_iteration gcb true (nfd s)
  obtain ⟨g, hg, _⟩ := hc ops
  obtain ⟨g', hg', _⟩ := hd ops
  rw [hq.unique (c70_nfd_partial s h ps hp)] at hg'
  refine ⟨_, g, g', hg, ?_⟩
  rw [hg']
  congr 2
  exact deque_map nfd ops ps

/-- **C70, partial.** NFC keeps the clusters too, for texts without U+11A7 (C17). -/
theorem c70_nfc_partial (s : List Nat) (h0 : 0x11A7 ∉ s) (h : NoSpacing (s.map gcb)) (h' : NoSpacing ((nfc s).map gcb))
    (ps qs : List (List Nat)) (hp : Segmentation (Boundary gcb true) s ps) (hq : Segmentation (Boundary gcb true) (nfc s) qs) :
    List.Forall₂ (fun p q => nfd p = nfd q) ps qs :=
  c70_equivalent_partial s (nfc s) (c17_partial s h0).1.symm h h' ps qs hp hq

theorem pieces_of (ext : Bool) (s : List Nat) (ps : List (List Nat)) (ops : List End)
    (h : (calls (·.next gcb) (·.nextBack gcb) (Graphemes.new ext s) ops).map (·.1) = .ok (ps.map some)) (hl : ps.flatten = s)
    (ho : ops = List.replicate ps.length .front) : Segmentation (Boundary gcb ext) s ps := by
  obtain ⟨qs, hq, hc⟩ := c35_iteration gcb ext s
  obtain ⟨g, hg, _⟩ := hc ops
  rw [hg] at h
  simp only [Outcome.map, Outcome.ok.injEq] at h
  subst ho
  have key : ∀ (ps qs : List (List Nat)), (∀ q ∈ qs, q ≠ []) → ps.flatten = qs.flatten →
      (deque qs (List.replicate ps.length .front)).1 = ps.map some → ps = qs := by
    intro ps
    induction ps with
    | nil =>
      intro qs hne e _
      cases qs with
      | nil => rfl
      | cons q qs => exact absurd (List.append_eq_nil_iff.mp e.symm).1 (hne q (by simp))
    | cons p ps ih =>
      intro qs hne e h
      cases qs with
      | nil => simp [List.replicate_succ, deque] at h
      | cons q qs =>
        simp only [List.length_cons, List.replicate_succ, deque, List.head?_cons, List.tail_cons, List.map_cons, List.cons.injEq,
          Option.some.injEq] at h
        obtain ⟨rfl, h⟩ := h
        rw [ih qs (fun x hx => hne x (by simp [hx])) (by simpa using e) h]
  rw [key ps qs hq.2.1 (hl.trans hq.1.symm) h]
  exact hq

/-- **C70.** The full claim is false for extended clusters: woman, U+0CC0 (a spacing mark), light skin tone are two clusters, but the
NFD of U+0CC0 is two Extend characters, and then the modifier belongs to the cluster of its base. -/
theorem c70_false : ¬ ClustersRespect true := by
  intro h
  have h1 : nfd [0x1F469, 0xCC0, 0x1F3FB] = nfd [0x1F469, 0xCBF, 0xCD5, 0x1F3FB] := by rw [nfd_lookup, nfd_lookup]; decide +kernel
  have := h _ _ h1 [[0x1F469, 0xCC0], [0x1F3FB]] [[0x1F469, 0xCBF, 0xCD5, 0x1F3FB]]
    (pieces_of true _ _ _ (by decide +kernel) rfl rfl) (pieces_of true _ _ _ (by decide +kernel) rfl rfl)
  exact absurd this.length_eq (by decide)

/-- **C70.** And it is false for legacy clusters, where a spacing mark is a cluster of its own: U+1B06 is one cluster, its NFD two. -/
theorem c70_legacy_false : ¬ ClustersRespect false := by
  intro h
  have h1 : nfd [0x1B06] = nfd [0x1B05, 0x1B35] := by rw [nfd_lookup, nfd_lookup]; decide +kernel
  have := h _ _ h1 [[0x1B06]] [[0x1B05], [0x1B35]]
    (pieces_of false _ _ _ (by decide +kernel) rfl rfl) (pieces_of false _ _ _ (by decide +kernel) rfl rfl)
  exact absurd this.length_eq (by decide)

theorem noSpacing_of_no_modifier (k : List GraphemeClusterBreak) (h : .EModifier ∉ k) : NoSpacing k := by
  intro p b ms m q e _ _ hm
  subst hm
  exact absurd (by rw [e]; simp) h

/-- Non-vacuity: a text with a syllable, an emoji with its modifier after a mark, and letters with marks in any order. -/
example : NoSpacing (([0xAC01, 0x1F469, 0xFE0F, 0x1F3FB, 0x1E69, 0x316, 0x61, 0x301, 0x316] : List Nat).map gcb) ∧
    Segmentation (Boundary gcb true) [0xAC01, 0x1F469, 0xFE0F, 0x1F3FB, 0x1E69, 0x316, 0x61, 0x301, 0x316]
      [[0xAC01], [0x1F469, 0xFE0F, 0x1F3FB], [0x1E69, 0x316], [0x61, 0x301, 0x316]] ∧
    nfd [0xAC01] = [0x1100, 0x1161, 0x11A8] ∧ nfd [0x61, 0x301, 0x316] = [0x61, 0x316, 0x301] := by
  refine ⟨?_, pieces_of true _ _ _ (by decide +kernel) rfl rfl, ?_, ?_⟩
  · have k : ([0xAC01, 0x1F469, 0xFE0F, 0x1F3FB, 0x1E69, 0x316, 0x61, 0x301, 0x316] : List Nat).map gcb =
      [.LVT, .EBaseGAZ, .Extend, .EModifier, .Other, .Extend, .Other, .Extend, .Extend] := by decide +kernel
    rw [k]
    intro p b ms m q e _ hm _ x hx
    rcases hm x hx with h | h
    · exact h
    · exfalso
      have : GraphemeClusterBreak.SpacingMark ∈
          ([.LVT, .EBaseGAZ, .Extend, .EModifier, .Other, .Extend, .Other, .Extend, .Extend] : List GraphemeClusterBreak) := by
        rw [e]; simp [h ▸ hx]
      revert this; decide
  · rw [nfd_lookup]; decide +kernel
  · rw [nfd_lookup]; decide +kernel

end Props.SegmentNormal
