import Verif.Proofs.CompData
import Verif.Proofs.NormalAlg

/-! The shipped data satisfy what the algebra of normalization needs. -/
namespace Proofs.NormalGood
open Model Model.UcdNormal Model.Hangul Proofs.DecompGen Proofs.DecompData Proofs.CompData Proofs.NormalAlg Proofs.Hangul

/-- the full decomposition by the shipped tables -/
abbrev D (k : Bool) (c : Nat) : List Nat := full canonicalDecomposition compatibilityDecomposition k c

theorem d_full (k : Bool) (fuel c : Nat) (h : 4 ≤ fuel) : d fuel k c = some (D k c) := by
  unfold d
  exact dWith_full (levelled k) c fuel (by have := lv_le k c; omega)

theorem decomposeCanonical_eq (c : Nat) : decomposeCanonical c = D false c := by
  rw [decomposeCanonical, d_full false FUEL c (by decide), Option.getD_some]
theorem decomposeCompatible_eq (c : Nat) : decomposeCompatible c = D true c := by
  rw [decomposeCompatible, d_full true FUEL c (by decide), Option.getD_some]

theorem tableMap_canon {c : Nat} {m : List Nat} (h : canonicalDecomposition c = some m) (k : Bool) :
    tableMap canonicalDecomposition compatibilityDecomposition k c = some m := by rw [tableMap, h]

theorem isSyllable_LV {c : Nat} (h : IsLV c) : isSyllable c = true := (isSyllable_iff c).2 ⟨h.1, by have := h.2.1; omega⟩

/-- composing two characters -/
theorem compose_cases {a b c : Nat} (h : compose a b = some c) :
    (IsL a ∧ IsV b ∧ c = 0xAC00 + (a - 0x1100) * 588 + (b - 0x1161) * 28) ∨
    (IsLV a ∧ 0x11A7 ≤ b ∧ b ≤ 0x11C2 ∧ c = a + (b - 0x11A7)) ∨ compC a b = some c := by
  rw [compose_eq, composeSyllable_def] at h
  simp only [IsL, IsV, IsLV]
  split at h
  · rename_i r hr
    simp only [Option.some.injEq] at h
    subst h
    split at hr
    · rename_i h1
      simp only [Option.some.injEq] at hr
      left
      exact ⟨⟨h1.1, by omega⟩, ⟨h1.2.2.1, by omega⟩, hr.symm⟩
    · split at hr
      · rename_i h1
        simp only [Option.some.injEq] at hr
        right; left
        exact ⟨⟨h1.1, h1.2.1, h1.2.2.2.2⟩, h1.2.2.1, by omega, hr.symm⟩
      · simp at hr
  · exact .inr (.inr h)

theorem compC_facts {a b c : Nat} (h : compC a b = some c) (k : Bool) :
    D k c = D k a ++ D k b ∧ isSyllable c = false ∧ b ≠ T0 ∧ ¬ IsL c ∧ ¬ IsL b ∧ 0x300 ≤ b ∧ 0x7f < c := by
  obtain ⟨h1, h2, h3, h4, _, _⟩ := compC_some h
  have hm := tableMap_canon h1 k
  obtain ⟨h5, h6, _, h7⟩ := (levelled k).down c _ hm
  refine ⟨by rw [D, full_table (levelled k) hm]; simp, h6, (h7 b (by simp)).2.1, ?_, ?_, h2, h5⟩
  · rintro ⟨_, _⟩; omega
  · rintro ⟨_, _⟩; omega

theorem good (k : Bool) : Good Ucd.combiningClass (D k) compose where
  irr := full_irr (levelled k)
  ne := full_ne (levelled k)
  cls := full_ccc (levelled k) _ (fun c hs => ccc_zero c (.inr (.inr (by have := (isSyllable_iff c).1 hs; omega)))) (ccc_uniform k)
  only := full_11a7 (levelled k)
  jamo c h1 h2 := ⟨full_jamo (levelled k) h1 h2, ccc_zero c (.inr (.inl ⟨h1, h2⟩))⟩
  lv c h := by
    rw [D, full_syllable (isSyllable_LV h), decomposeSyllable_def]
    split <;> simp
  cmp a b c h hb := by
    rcases compose_cases h with ⟨⟨h1, h2⟩, ⟨h3, h4⟩, hc⟩ | ⟨hlv, h1, h2, hc⟩ | h
    · have hs : isSyllable c = true := (isSyllable_iff _).2 ⟨by omega, by omega⟩
      rw [D, D, D, full_syllable hs, full_jamo (levelled k) h1 (by omega), full_jamo (levelled k) (x := b) (by omega) (by omega),
        decomposeSyllable_def, if_neg (by omega)]
      simp only [List.cons_append, List.nil_append, List.cons.injEq, and_true]
      omega
    · have hb' : b ≠ 0x11A7 := hb
      obtain ⟨h3, h4, h5⟩ := hlv
      have hs : isSyllable c = true := (isSyllable_iff _).2 ⟨by omega, by omega⟩
      have hs' : isSyllable a = true := (isSyllable_iff _).2 ⟨by omega, by omega⟩
      rw [D, D, D, full_syllable hs, full_syllable hs', full_jamo (levelled k) (x := b) (by omega) (by omega),
        decomposeSyllable_def, decomposeSyllable_def, if_pos (by omega), if_neg (by omega)]
      simp only [List.cons_append, List.nil_append, List.cons.injEq, and_true]
      omega
    · exact (compC_facts h k).1
  cmpT0 a c := by
    constructor
    · intro h
      rcases compose_cases h with ⟨_, ⟨_, h4⟩, _⟩ | ⟨hlv, h1, h2, hc⟩ | h
      · simp only [T0] at h4; omega
      · exact ⟨by omega, hlv⟩
      · exact absurd rfl (compC_facts h k).2.2.1
    · rintro ⟨rfl, h1, h2, h3⟩
      rw [compose_eq, composeSyllable_def, if_neg (by simp only [T0]; omega), if_pos (by simp only [T0]; omega)]
      simp [T0]
  cmpLV a b c h hb hlv := by
    rcases compose_cases h with ⟨h1, h2, hc⟩ | ⟨h0, h1, h2, hc⟩ | h
    · exact ⟨h1, h2⟩
    · exfalso
      have hb' : b ≠ 0x11A7 := hb
      have h3 := hlv.2.2
      have h4 := h0.2.2
      have h5 := h0.1
      omega
    · have := (compC_facts h k).2.1
      rw [isSyllable_LV hlv] at this
      simp at this
  LVcmp a b ha hb := by
    obtain ⟨h1, h2⟩ := ha
    obtain ⟨h3, h4⟩ := hb
    refine ⟨0xAC00 + (a - 0x1100) * 588 + (b - 0x1161) * 28, ?_, ⟨by omega, by omega, by omega⟩⟩
    rw [compose_eq, composeSyllable_def, if_pos (by omega)]
  noL a b c h := by
    rcases compose_cases h with ⟨⟨h1, h2⟩, ⟨h3, h4⟩, hc⟩ | ⟨⟨h0, _⟩, h1, h2, hc⟩ | h
    · exact ⟨fun h => by have := h.2; omega, fun h => by have := h.2; omega⟩
    · exact ⟨fun h => by have := h.2; omega, fun h => by have := h.2; omega⟩
    · exact ⟨(compC_facts h k).2.2.2.1, (compC_facts h k).2.2.2.2.1⟩

theorem absorb (c : Nat) : (D false c).flatMap (D true) = D true c := full_absorb (levelled false) (levelled true) c
theorem irr_mono' (c : Nat) (h : D true c = [c]) : D false c = [c] := irr_mono (levelled false) (levelled true) h

/-- ASCII -/
theorem D_ascii (k : Bool) {c : Nat} (h : c ≤ 0x7f) : D k c = [c] := full_none (by rw [mapOf, if_pos h])

theorem compose_ascii {a b : Nat} (hb : b ≤ 0x7f) : compose a b = none := by
  cases h : compose a b with
  | none => rfl
  | some c =>
    exfalso
    rcases compose_cases h with ⟨_, ⟨h3, h4⟩, _⟩ | ⟨_, h1, h2, hc⟩ | h
    · omega
    · omega
    · have := (compC_facts h false).2.2.2.2.2.1; omega

end Proofs.NormalGood
