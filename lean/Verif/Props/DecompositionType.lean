import Verif.Props.Normal

/-! # C12: the decomposition type of a character -/
namespace Props.Normal
open Model Model.UcdNormal Model.Hangul Proofs.DecompGen Proofs.DecompData Proofs.NormalGood Proofs.Chunked Proofs.UcdTables

theorem full_lv {can cm : Nat → Option (List Nat)} {k : Bool} {lv : Nat → Nat} (H : Levelled can cm k lv) :
    ∀ c, isSyllable c = false → ∀ x ∈ full can cm k c, lv x ≤ lv c := by
  refine level_induction H _ (fun c hs hn => by rw [hs] at hn; cases hn) (fun c hs hm _ x hx => ?_) (fun c m hs hm ih _ x hx => ?_)
  · rw [full_none' H hs hm, List.mem_singleton] at hx; rw [hx]; exact Nat.le_refl _
  · rw [full_table H hm] at hx
    obtain ⟨y, hy, hx⟩ := List.mem_flatMap.1 hx
    have hd := (H.down c m hm).2.2.2 y hy
    have := ih y hy hd.1 x hx
    omega

/-- a character with a mapping does not decompose to itself -/
theorem full_self {can cm : Nat → Option (List Nat)} {k : Bool} {lv : Nat → Nat} (H : Levelled can cm k lv) (c : Nat) :
    full can cm k c = [c] ↔ isSyllable c = false ∧ tableMap can cm k c = none := by
  constructor
  · intro h
    cases hs : isSyllable c with
    | true =>
      rw [full_syllable hs] at h
      have := decomposeSyllable_jamo hs c (by rw [h]; simp)
      rw [jamo_not_syllable this.2.1] at hs; cases hs
    | false =>
      refine ⟨rfl, ?_⟩
      cases hm : tableMap can cm k c with
      | none => rfl
      | some m =>
        rw [full_table H hm] at h
        have hc : c ∈ m.flatMap (full can cm k) := by rw [h]; simp
        obtain ⟨y, hy, hx⟩ := List.mem_flatMap.1 hc
        have hd := (H.down c m hm).2.2.2 y hy
        have := full_lv H y hd.1 c hx
        omega
  · rintro ⟨hs, hm⟩; exact full_none' H hs hm

theorem compat_not_canonical : ∀ c t m, compatibilityTable.findVal c = some (t, m) → t ≠ .Canonical := by
  intro c t m h
  rw [compatibilityTable, findVal_ofDirect _ compatibilityTable_asc] at h
  have hall : allEntries (fun _ (v : Data.DecompositionType × List Nat) => decide (v.1 ≠ .Canonical)) Data.compatibilityDecomposition = true := by
    decide +kernel
  simpa using allEntries_spec hall (lookupCD_mem h)

/-- **C12.** `DecompositionType::of` is `Canonical` exactly for the characters that canonical decomposition changes
(Hangul syllables included), and absent exactly for the characters that compatibility decomposition leaves alone. -/
theorem c12_decomposition_type (c : Nat) :
    (decompositionType c = some .Canonical ↔ decomposeCanonical c ≠ [c]) ∧
    (decompositionType c = none ↔ decomposeCompatible c = [c]) := by
  rw [decomposeCanonical_eq, decomposeCompatible_eq, D, D, ne_eq, full_self (levelled false), full_self (levelled true)]
  have h0 : tableMap canonicalDecomposition compatibilityDecomposition false c = canonicalDecomposition c := by
    rw [tableMap]; cases canonicalDecomposition c <;> rfl
  rw [h0, tableMap, decompositionType]
  cases hs : isSyllable c with
  | true => simp
  | false =>
    cases hc : canonicalDecomposition c with
    | some m => simp
    | none =>
      cases hv : compatibilityTable.findVal c with
      | none => simp [compatibilityDecomposition, hv]
      | some p =>
        have := compat_not_canonical c p.1 p.2 (by rw [hv])
        simp [compatibilityDecomposition, hv, this]

/-- the three cases: a syllable and a letter with canonical mappings, a ligature with a compatibility mapping, a letter -/
example : decompositionType 0xAC00 = some .Canonical ∧ decompositionType 0xE9 = some .Canonical ∧
    decompositionType 0xFB01 = some .Compat ∧ decompositionType 0x61 = none := by
  have h : ∀ c, decompositionType c = if isSyllable c || (canonC c).isSome then some .Canonical
      else (lookupCD Data.compatibilityDecomposition c).map (·.1) := by
    intro c
    rw [decompositionType, canonicalDecomposition_eq, compatibilityTable, findVal_ofDirect _ compatibilityTable_asc]
  rw [h, h, h, h]
  decide +kernel

end Props.Normal
