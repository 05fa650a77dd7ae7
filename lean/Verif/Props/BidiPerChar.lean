import Verif.Props.BidiLine

/-! # Property C57, continued: levels per character -/
namespace Props.Bidi
open Model Model.Bidi Data Model.Grapheme Spec.Bidi Proofs.Bidi Proofs.Grapheme
open Model.Ucd (bidiClass)

theorem charIndices_eq : ∀ (text : List Nat) (i : Nat), charIndices text i = (List.range text.length).map fun k => i + blen (text.take k)
  | [], _ => rfl
  | c :: text, i => by
    rw [charIndices, charIndices_eq text, List.length_cons, List.range_succ_eq_map, List.map_cons, List.map_map]
    simp only [List.take_zero, blen_nil, Nat.add_zero, List.cons.injEq, true_and]
    apply List.map_congr_left
    intro k _
    simp only [Function.comp, List.take_succ_cons, blen_cons]
    omega

/-- **C57.** `reordered_levels_per_char` gives one level for each character of the text, the one `reordered_levels` gives at the
character's first byte. It does not panic where `reordered_levels` does not. -/
theorem c57_per_char (pre line post : List Nat) (dflt : Option Nat) (hd : ∀ d, dflt = some d → d ≤ 125) (info : BidiInfo)
    (hi : bidiInfo (pre ++ line ++ post) dflt = .ok info) (hne : line ≠ []) (para : Para) (hp : para.level ≤ 126) (levels : List Nat)
    (hv : reorderedLevels info para (lineRange pre line) = .ok levels) :
    ∃ ls, reorderedLevelsPerChar info para (lineRange pre line) = .ok ls ∧ ls.length = (pre ++ line ++ post).length ∧
      ∀ k, k < (pre ++ line ++ post).length → ls[k]? = levels[blen ((pre ++ line ++ post).take k)]? := by
  obtain ⟨h1, h2, h3, h4, h5, h6⟩ := info_facts hd hi
  have hv' : ∃ order, visualRuns info para (lineRange pre line) = .ok (levels, order) := by
    unfold reorderedLevels at hv
    cases h : visualRuns info para (lineRange pre line) with
    | panic => rw [h] at hv; simp [Proofs.Punycode.bind_panic] at hv
    | ok x =>
      obtain ⟨a, b⟩ := x
      rw [h, Proofs.Punycode.bind_ok] at hv
      simp only [Proofs.Punycode.pure_eq, Outcome.ok.injEq] at hv
      exact ⟨b, by rw [hv]⟩
  obtain ⟨order, hv'⟩ := hv'
  have hL := (visual_levels hd hi hne hp hv').1
  have hlen : levels.length = blen (pre ++ line ++ post) := by subst hL; simp [l1Levels, h5]
  have hin : ∀ k, k < (pre ++ line ++ post).length → blen ((pre ++ line ++ post).take k) < levels.length := by
    intro k hk
    have := off_lt (t := pre ++ line ++ post) hk (Nat.le_refl _)
    rw [off_length] at this
    rw [hlen]; exact this
  refine ⟨(List.range (pre ++ line ++ post).length).map fun k => levels.getD (blen ((pre ++ line ++ post).take k)) 0, ?_, by simp, ?_⟩
  · rw [reorderedLevelsPerChar, hv, Proofs.Punycode.bind_ok, h1, charIndices_eq]
    rw [mapOutcome_ok (g := fun i => levels.getD i 0), List.map_map]
    · simp [Function.comp_def]
    · intro i hi
      obtain ⟨k, hk, rfl⟩ := List.mem_map.1 hi
      have := hin k (List.mem_range.1 hk)
      simp only [Nat.zero_add, at']
      generalize blen ((pre ++ line ++ post).take k) = o at this
      simp [List.getD_eq_getElem?_getD, List.getElem?_eq_getElem this]
  · intro k hk
    have := hin k hk
    rw [List.getElem?_map, List.getElem?_range hk]
    simp only [Option.map_some]
    generalize blen ((pre ++ line ++ post).take k) = o at this
    simp [List.getD_eq_getElem?_getD, List.getElem?_eq_getElem this]

/-- Non-vacuity: three characters in five bytes. -/
example : ∃ info, bidiInfo ([] ++ [0x5D0, 0x31, 0x5D1] ++ []) none = .ok info ∧
    reorderedLevels info ⟨⟨0, 5⟩, 1⟩ (lineRange [] [0x5D0, 0x31, 0x5D1]) = .ok [1, 1, 2, 1, 1] ∧
    reorderedLevelsPerChar info ⟨⟨0, 5⟩, 1⟩ (lineRange [] [0x5D0, 0x31, 0x5D1]) = .ok [1, 2, 1] := by
  rw [bidiInfo, new_sample (by decide)]
  exact ⟨_, rfl, by decide +kernel, by decide +kernel⟩

end Props.Bidi
