import Verif.Props.Normal
import Verif.Spec.Scalar

/-! Normalization maps scalar values to scalar values. -/
namespace Proofs.NormalScalar
open Model Model.UcdNormal Model.Hangul Model.Normal Proofs.DecompGen Proofs.DecompData Proofs.CompData Proofs.NormalAlg
  Proofs.NormalGood Proofs.Hangul Spec.Normal Proofs.CanonOrder Proofs.Chunked

/-- `Spec.IsScalar` as a cheap test -/
def isScalarB (c : Nat) : Bool := Nat.blt c 0x110000 && !(Nat.ble 0xD800 c && Nat.ble c 0xDFFF)

theorem isScalarB_iff {c : Nat} : isScalarB c = true ↔ Spec.IsScalar c := by
  simp only [isScalarB, Spec.IsScalar, Bool.and_eq_true, Bool.not_eq_true', Nat.blt_eq]
  constructor
  · rintro ⟨h1, h2⟩
    refine ⟨h1, fun ⟨h3, h4⟩ => ?_⟩
    rw [Nat.ble_eq_true_of_le h3, Nat.ble_eq_true_of_le h4] at h2
    simp at h2
  · rintro ⟨h1, h2⟩
    refine ⟨h1, ?_⟩
    cases h3 : (Nat.ble 0xD800 c && Nat.ble c 0xDFFF) with
    | false => rfl
    | true =>
      rw [Bool.and_eq_true, Nat.ble_eq, Nat.ble_eq] at h3
      exact absurd h3 h2

def chkS (c : Nat) (m : List Nat) : Bool := isScalarB c && m.all isScalarB

theorem canon_chk : allEntries chkS Data.canonicalDecomposition = true := by decide +kernel
theorem compat_chk : allEntries (fun c m => chkS c m.2) Data.compatibilityDecomposition = true := by decide +kernel

theorem tableMap_scalar (k : Bool) {c : Nat} {m : List Nat}
    (h : tableMap canonicalDecomposition compatibilityDecomposition k c = some m) : chkS c m = true := by
  rw [tableMap, canonicalDecomposition_eq, compatibilityDecomposition_eq, canonC, compatC] at h
  cases hc : lookupCD Data.canonicalDecomposition c with
  | some m' =>
    rw [hc] at h
    simp only [Option.some.injEq] at h
    subst h
    exact allEntries_spec canon_chk (lookupCD_mem hc)
  | none =>
    rw [hc] at h
    cases k with
    | false => simp at h
    | true =>
      cases hd : lookupCD Data.compatibilityDecomposition c with
      | none => rw [hd] at h; simp at h
      | some m' =>
        rw [hd] at h
        simp only [if_true, Option.map_some, Option.some.injEq] at h
        subst h
        exact allEntries_spec compat_chk (lookupCD_mem hd)

theorem D_scalar (k : Bool) : ∀ c, Spec.IsScalar c → ∀ x ∈ D k c, Spec.IsScalar x := by
  refine level_induction (levelled k) _ (fun c hs hc => ?_) (fun c hs hm hc => ?_) (fun c m hs hm ih hc => ?_)
  · rw [D, full_syllable hs]
    intro x hx
    have := decomposeSyllable_jamo hs x hx
    unfold Spec.IsScalar; omega
  · rw [D, full_none' (levelled k) hs hm]
    intro x hx
    rw [List.mem_singleton] at hx
    rw [hx]; exact hc
  · rw [D, full_table (levelled k) hm]
    intro x hx
    obtain ⟨y, hy, hxy⟩ := List.mem_flatMap.1 hx
    have h1 := tableMap_scalar k hm
    rw [chkS, Bool.and_eq_true, List.all_eq_true] at h1
    exact ih y hy (isScalarB_iff.1 (h1.2 y hy)) x hxy

theorem compose_scalar {a b c : Nat} (h : compose a b = some c) : Spec.IsScalar c := by
  rcases compose_cases h with ⟨⟨h1, h2⟩, ⟨h3, h4⟩, hc⟩ | ⟨⟨h3, h4, _⟩, h1, h2, hc⟩ | h
  · unfold Spec.IsScalar; omega
  · unfold Spec.IsScalar; omega
  · have h1 := tableMap_scalar false (tableMap_canon (compC_some h).1 false)
    rw [chkS, Bool.and_eq_true] at h1
    exact isScalarB_iff.1 h1.1

/-- a property of the characters and of the composites holds of the composition -/
theorem walk_all {ccc : Nat → Nat} {comp : Nat → Nat → Option Nat} {P : Nat → Prop} (hc : ∀ a b c, P a → P b → comp a b = some c → P c) :
    ∀ (s : List Nat) (w : Walk), (∀ x ∈ s, P x) → (∀ x ∈ w.text, P x) → ∀ x ∈ (s.foldl (walkStep ccc comp) w).text, P x := by
  intro s
  induction s with
  | nil => intro w _ hw; exact hw
  | cons a s ih =>
    intro w hs hw
    rw [List.foldl_cons]
    refine ih _ (fun x hx => hs x (by simp [hx])) ?_
    have ha := hs a (by simp)
    obtain ⟨bef, st, aft⟩ := w
    simp only [Walk.text] at hw
    unfold walkStep
    cases st with
    | none =>
      simp only [List.append_nil, List.mem_append] at hw
      simp only
      split
      · simp only [Walk.text, List.append_nil, List.mem_append, List.mem_singleton]
        rintro x ((hx | hx) | hx)
        · exact hw x (.inl hx)
        · exact hw x (.inr hx)
        · rw [hx]; exact ha
      · simp only [Walk.text, List.append_nil, List.mem_append, List.mem_singleton]
        rintro x ((hx | hx) | hx)
        · exact hw x (.inl hx)
        · rw [hx]; exact ha
        · exact hw x (.inr hx)
    | some l =>
      simp only [List.mem_append, List.mem_singleton] at hw
      have hret : ∀ x ∈ (if ccc a = 0 then (⟨Walk.text ⟨bef, some l, aft⟩, some a, []⟩ : Walk) else ⟨bef, some l, aft ++ [a]⟩).text, P x := by
        split
        · simp only [Walk.text, List.append_nil, List.mem_append, List.mem_singleton]
          rintro x (((hx | hx) | hx) | hx)
          · exact hw x (.inl (.inl hx))
          · exact hw x (.inl (.inr hx))
          · exact hw x (.inr hx)
          · rw [hx]; exact ha
        · simp only [Walk.text, List.mem_append, List.mem_singleton]
          rintro x ((hx | hx) | (hx | hx))
          · exact hw x (.inl (.inl hx))
          · exact hw x (.inl (.inr hx))
          · exact hw x (.inr hx)
          · rw [hx]; exact ha
      simp only
      split
      · exact hret
      · split
        · rename_i p hp
          simp only [Walk.text, List.mem_append, List.mem_singleton]
          rintro x ((hx | hx) | hx)
          · exact hw x (.inl (.inl hx))
          · rw [hx]; exact hc l a p (hw l (.inl (.inr rfl))) ha hp
          · exact hw x (.inr hx)
        · exact hret

theorem nfd_scalar {s : List Nat} (h : ∀ c ∈ s, Spec.IsScalar c) : ∀ c ∈ nfd s, Spec.IsScalar c := by
  intro c hc
  rw [Props.Normal.nfd_eq, nd, mem_order] at hc
  obtain ⟨y, hy, hxy⟩ := List.mem_flatMap.1 hc
  exact D_scalar false y (h y hy) c hxy

theorem nfc_scalar {s : List Nat} (h : ∀ c ∈ s, Spec.IsScalar c) : ∀ c ∈ nfc s, Spec.IsScalar c := by
  rw [Props.Normal.nfc_eq, nc, composed]
  refine walk_all (fun a b c _ _ h => compose_scalar h) _ _ ?_ (by simp [Walk.text])
  intro c hc
  rw [nd, mem_order] at hc
  obtain ⟨y, hy, hxy⟩ := List.mem_flatMap.1 hc
  exact D_scalar false y (h y hy) c hxy

end Proofs.NormalScalar
