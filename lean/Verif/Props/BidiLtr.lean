import Verif.Proofs.BidiLtr
import Verif.Props.BidiLine

/-! # Property C33: left-to-right text -/
namespace Props.Bidi
open Model Model.Bidi Data Model.Grapheme Spec.Bidi Proofs.Bidi Proofs.Grapheme
open Model.Ucd (bidiClass)

/-- right-to-left letters, Arabic numbers and the formatting characters that start right-to-left text -/
def rtlClasses : List BidiClass := [.RightToLeft, .ArabicLetter, .ArabicNumber, .RightToLeftEmbedding, .RightToLeftOverride, .RightToLeftIsolate]

/-- formatting characters that start left-to-right text, or text of a direction to be found -/
def ltrOpeners : List BidiClass := [.LeftToRightEmbedding, .LeftToRightOverride, .LeftToRightIsolate, .FirstStrongIsolate]

theorem noRtl_of {c : BidiClass} (h : c ∉ rtlClasses) : noRtl c = true := by cases c <;> simp_all [rtlClasses, noRtl]
theorem noOpener_of {c : BidiClass} (h : c ∉ ltrOpeners) : noOpener c = true := by cases c <;> simp_all [ltrOpeners, noOpener]

/-- **C33.** A text without right-to-left characters, laid out without default level or with an even one, has only even levels, `has_rtl` is false,
and `reorder_line` returns every line of every paragraph as it is. -/
theorem c33_ltr (text : List Nat) (dflt : Option Nat) (hd : ∀ d, dflt = some d → d ≤ 125 ∧ d % 2 = 0) (hc : ∀ c ∈ text, bidiClass c ∉ rtlClasses) :
    ∃ info, bidiInfo text dflt = .ok info ∧ (∀ l ∈ info.levels, l % 2 = 0) ∧ hasRtl info = false ∧
      ∀ para ∈ info.paras, ∀ pre line post, text = pre ++ line ++ post → line ≠ [] → reorderLine info para (lineRange pre line) = .ok line := by
  have hd' : ∀ d, dflt = some d → d ≤ 125 := fun d h => (hd d h).1
  have hc' : ∀ c ∈ text, noRtl (bidiClass c) = true := fun c h => noRtl_of (hc c h)
  have hnew := new_ok fsi_len hd' text
  have hparas : ∀ p ∈ paragraphInfos bidiClass dflt 0 (splitParas bidiClass text), p.level ≤ 125 ∧ p.level % 2 = 0 := by
    intro p hp
    obtain ⟨i, hi, rfl⟩ := List.getElem_of_mem hp
    rw [infos_length] at hi
    have := infos_get (cls := bidiClass) (dflt := dflt) (splitParas bidiClass text) 0 i _ (List.getElem?_eq_getElem hi)
    rw [List.getElem?_eq_getElem (by rw [infos_length]; exact hi)] at this
    simp only [Option.some.injEq] at this
    rw [this]
    simp only
    cases dflt with
    | none =>
      rw [Option.getD_none, paragraphLevel_ltr]
      · exact ⟨by omega, rfl⟩
      · intro c hcm
        obtain ⟨x, hx, rfl⟩ := List.mem_map.1 hcm
        refine hc' x ?_
        obtain ⟨h1, _⟩ := splitParas_ok bidiClass text
        rw [← h1]
        exact List.mem_flatten.2 ⟨_, List.getElem_mem _, hx⟩
    | some d => exact hd d rfl
  generalize hinfo : BidiInfo.mk _ _ _ _ = info at hnew
  have hp' : info.paras = paragraphInfos bidiClass dflt 0 (splitParas bidiClass text) := by rw [← hinfo]
  obtain ⟨h1, h2, h3, h4, h5, h6⟩ := info_facts hd' hnew
  have hev : ∀ l ∈ info.levels, l % 2 = 0 ∧ l ≤ 125 := by
    intro l hl
    rw [h3] at hl
    exact textLevels_even hd hc' l (expand_mem _ _ hl)
  refine ⟨info, hnew, fun l hl => (hev l hl).1, ?_, ?_⟩
  · unfold hasRtl Level.hasRtl
    rw [List.any_eq_false]
    intro l hl
    have := (hev l hl).1
    unfold Level.isRtl
    simp [this]
  · intro para hpa pre line post ht hne
    obtain ⟨p1, p2⟩ := hparas para (hp' ▸ hpa)
    have ht' : info.text = pre ++ line ++ post := by rw [h1, ht]
    obtain ⟨runs, lo, hi, hr, hv⟩ := visualRuns_eq (para := para) ht' (by rw [h4, h1]) (by rw [h5, h1]) hne
    have hL : ∀ (k : Nat) l, (l1Levels info para.level line)[k]? = some l → l % 2 = 0 ∧ l ≤ 125 := by
      intro k l hk
      rw [l1Levels, setAll_getElem?] at hk
      split_ifs at hk
      · simp only [Option.some.injEq] at hk; omega
      · exact hev l (List.mem_of_getElem? hk)
    obtain ⟨k, k1, k2, k3⟩ := hr.low
    obtain ⟨q, q1, _⟩ := lowest_rtl lo (by have := hL k lo k3; omega)
    rw [visualResult, q1] at hv
    simp only at hv
    have hlen : (l1Levels info para.level line).length = blen pre + blen line + blen post := by
      simp only [l1Levels, setAll_length, h5, ht, blen_append]
    unfold reorderLine
    rw [hv, Proofs.Punycode.bind_ok]
    simp only
    generalize ho : reverseDown (fun r => info.levels.getD r.start 0) q (hi + 1 - q) runs = order
    have hin : ∀ r ∈ order, (l1Levels info para.level line)[(id r).start]? = some ((l1Levels info para.level line).getD r.start 0) := by
      intro r hr'
      rw [← ho] at hr'
      have := (tiles_in hr.tiles).2 r ((reverseDown_perm _ _).mem_iff.1 hr')
      rw [getD_of_lt (by omega)]
      exact List.getElem?_eq_getElem _
    have := allLtr_ok (L := l1Levels info para.level line) (g := id) (lr := fun r => (l1Levels info para.level line).getD r.start 0) order hin
    rw [List.map_id] at this
    rw [this, Proofs.Punycode.bind_ok, if_pos]
    · have hs := slice_append pre line post
      rw [blen_append, ← ht'] at hs
      exact hs
    · rw [List.all_eq_true]
      intro r hr'
      have := (hL _ _ (hin r hr')).1
      rw [this]; rfl

/-- **C33.** Without formatting characters that start anything, and without default level or with the default level 0, all levels are 0. -/
theorem c33_zero (text : List Nat) (dflt : Option Nat) (hd : ∀ d, dflt = some d → d = 0) (hc : ∀ c ∈ text, bidiClass c ∉ rtlClasses ++ ltrOpeners) :
    ∃ info, bidiInfo text dflt = .ok info ∧ ∀ l ∈ info.levels, l = 0 := by
  refine ⟨_, new_ok fsi_len (fun d h => by have := hd d h; omega) text, ?_⟩
  intro l hl
  refine textLevels_zero hd (fun c h => ?_) l (expand_mem _ _ hl)
  have := hc c h
  rw [List.mem_append, not_or] at this
  exact ⟨noRtl_of this.1, noOpener_of this.2⟩

/-- **C33.** `has_rtl` is true exactly if some level is odd. -/
theorem c33_has_rtl (info : BidiInfo) : hasRtl info = true ↔ ∃ l ∈ info.levels, l % 2 = 1 := by
  unfold hasRtl Level.hasRtl Level.isRtl
  simp [List.any_eq_true]

/-- A text that meets the hypotheses, with an isolate that raises the level; and one with a Hebrew letter, which does not. -/
example : (∀ c ∈ [0x61, 0x2068, 0x31, 0x20, 0x2069, 0x2029, 0x25], bidiClass c ∉ rtlClasses) ∧
    ∃ info, bidiInfo [0x61, 0x2068, 0x31, 0x20, 0x2069, 0x2029, 0x25] none = .ok info ∧ info.levels = [0, 0, 0, 0, 2, 2, 0, 0, 0, 0, 0, 0, 0] := by
  constructor
  · intro c hc
    rw [sample_ok (text := [0x61, 0x2068, 0x31, 0x20, 0x2069, 0x2029, 0x25]) (by decide) c hc]
    revert c
    decide
  · rw [bidiInfo, new_sample (by decide)]
    exact ⟨_, rfl, by decide +kernel⟩

example : ∃ info, bidiInfo [0x61, 0x5D0] none = .ok info ∧ hasRtl info = true := by
  rw [bidiInfo, new_sample (by decide)]
  exact ⟨_, rfl, by decide +kernel⟩

end Props.Bidi
