import Verif.Proofs.BidiEquiv

/-! # C81: paragraphs, base direction and direction predicates of canonically equivalent texts -/
namespace Props.BidiEquiv
open Data Model Model.Bidi Model.Normal Spec.Normal Spec.Bidi Proofs.Bidi Proofs.BidiEquiv Props.Bidi Model.BidiClass
open Model.Ucd (bidiClass)

/-- canonical equivalence, D70 -/
abbrev Canonical (s t : List Nat) : Prop := Equivalent Ucd.combiningClass (mappingWith UcdNormal.canonicalDecomposition) s t

/-- **C81.** The paragraphs of canonically equivalent texts are canonically equivalent, one by one. -/
theorem c81_paragraphs (s t : List Nat) (he : Canonical s t) (ps qs : List (List Nat)) (hp : IsParagraphs bidiClass s ps)
    (hq : IsParagraphs bidiClass t qs) : List.Forall₂ Canonical ps qs := by
  have h := (inv_equiv ((Props.Normal.c18_equivalent s t).1 he)).paras
  rw [cls_eq] at hp hq
  rw [splitParas_unique hp, splitParas_unique hq] at h
  exact h.imp fun a b h => (Props.Normal.c18_equivalent a b).2 h.1

/-- **C81.** They have the same levels: the analysis finds as many paragraphs, with the same base directions. -/
theorem c81_levels (s t : List Nat) (he : Canonical s t) (dflt : Option Nat) (hd : ∀ d, dflt = some d → d ≤ 125) :
    ∃ i j, bidiInfo s dflt = .ok i ∧ bidiInfo t dflt = .ok j ∧ i.paras.map (·.level) = j.paras.map (·.level) := by
  have h := (inv_equiv ((Props.Normal.c18_equivalent s t).1 he)).paras
  obtain ⟨i, h1, _, h2, h3⟩ := c27_paragraphs s dflt hd _ (splitParas_ok bidiClass s)
  obtain ⟨j, h4, _, h5, h6⟩ := c27_paragraphs t dflt hd _ (splitParas_ok bidiClass t)
  refine ⟨i, j, h1, h4, ?_⟩
  rw [← cls_eq] at h
  apply List.ext_getElem?
  intro k
  rw [List.getElem?_map, List.getElem?_map]
  have hl := h.length_eq
  by_cases hk : k < (splitParas bidiClass s).length
  · have hk' : k < (splitParas bidiClass t).length := by omega
    rw [h3 k _ (List.getElem?_eq_getElem hk), h6 k _ (List.getElem?_eq_getElem hk')]
    have := (List.forall₂_iff_get.1 h).2 k hk hk'
    simp only [List.get_eq_getElem] at this
    have h7 := this.2
    rw [← cls_eq] at h7
    simp only [Option.map_some, h7]
  · rw [List.getElem?_eq_none (by omega), List.getElem?_eq_none (by omega)]

theorem transfer {cls : Nat → BidiClass} {s t : List Nat} (hs : (s.map cls).filter special = (t.map cls).filter special)
    (hr : s.any (fun c => strongR (cls c)) = t.any (fun c => strongR (cls c))) (P : BidiClass → Prop)
    (hP : ∀ b, P b → special b = true ∨ (strongR b = true ∧ ∀ b', strongR b' = true → P b')) :
    (∃ c ∈ s, P (cls c)) → ∃ c ∈ t, P (cls c) := by
  rintro ⟨c, hc, hb⟩
  rcases hP _ hb with h1 | ⟨h1, h2⟩
  · have : cls c ∈ (t.map cls).filter special := by
      rw [← hs, List.mem_filter]
      exact ⟨List.mem_map_of_mem hc, h1⟩
    obtain ⟨x, hx, e⟩ := List.mem_map.1 (List.mem_filter.1 this).1
    exact ⟨x, hx, by rw [e]; exact hb⟩
  · have : s.any (fun c => strongR (cls c)) = true := List.any_eq_true.2 ⟨c, hc, h1⟩
    rw [hr] at this
    obtain ⟨x, hx, e⟩ := List.any_eq_true.1 this
    exact ⟨x, hx, h2 _ e⟩

/-- **C81.** The direction predicates do not distinguish them. -/
theorem c81_predicates (s t : List Nat) (he : Canonical s t) :
    hasRtl s = hasRtl t ∧ hasLtr s = hasLtr t ∧ hasBidiExplicit s = hasBidiExplicit t := by
  have h := inv_equiv ((Props.Normal.c18_equivalent s t).1 he)
  have h1 := h.special
  have h2 := h.rtl
  rw [← cls_eq] at h1 h2
  have hP : ∀ b : BidiClass, b ∈ Props.Direction.rtlClasses →
      special b = true ∨ (strongR b = true ∧ ∀ b', strongR b' = true → b' ∈ Props.Direction.rtlClasses) := by
    have hS : ∀ b' : BidiClass, strongR b' = true → b' ∈ Props.Direction.rtlClasses := by
      intro b; cases b <;> simp [Props.Direction.rtlClasses, strongR]
    intro b hb
    have : special b = true ∨ strongR b = true := by revert hb; cases b <;> simp [Props.Direction.rtlClasses, strongR, special]
    exact this.imp id fun h => ⟨h, hS⟩
  have hE : ∀ b : BidiClass, b ∈ Props.Direction.explicitClasses →
      special b = true ∨ (strongR b = true ∧ ∀ b', strongR b' = true → b' ∈ Props.Direction.explicitClasses) := by
    intro b hb
    left
    revert hb
    cases b <;> simp [Props.Direction.explicitClasses, special]
  have hrtl : (∃ ch ∈ s, bidiClass ch ∈ Props.Direction.rtlClasses) ↔ ∃ ch ∈ t, bidiClass ch ∈ Props.Direction.rtlClasses :=
    ⟨transfer h1 h2 _ hP, transfer h1.symm h2.symm _ hP⟩
  refine ⟨?_, ?_, ?_⟩
  · rw [Bool.eq_iff_iff, Props.Direction.c48_has_rtl, Props.Direction.c48_has_rtl]
    exact hrtl
  · rw [Bool.eq_iff_iff, Props.Direction.c48_has_ltr_partial, Props.Direction.c48_has_ltr_partial]
    exact hrtl
  · rw [Bool.eq_iff_iff, Props.Direction.c48_has_bidi_explicit, Props.Direction.c48_has_bidi_explicit]
    exact ⟨transfer h1 h2 _ hE, transfer h1.symm h2.symm _ hE⟩

/-- a Hebrew letter with a point in one character and in two, after "!", and a second paragraph with "é" -/
example : Canonical [0x21, 0xFB2A, 0x2029, 0xE9] [0x21, 0x5E9, 0x5C1, 0x2029, 0x65, 0x301] := by
  refine (Props.Normal.c18_equivalent _ _).2 ?_
  rw [Props.Normal.nfd_lookup, Props.Normal.nfd_lookup]; decide +kernel
example : [[0x21, 0xFB2A, 0x2029], [0xE9]].map (fun p => paragraphLevel (p.map clsC)) = [1, 0] ∧
    splitParas clsC [0x21, 0xFB2A, 0x2029, 0xE9] = [[0x21, 0xFB2A, 0x2029], [0xE9]] := by decide +kernel

end Props.BidiEquiv
