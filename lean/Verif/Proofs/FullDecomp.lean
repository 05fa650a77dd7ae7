import Verif.Proofs.NormalGood

/-! The recursive expansion of the code is full decomposition by mappings, and canonical equivalence. -/
namespace Proofs.FullDecomp
open Model Model.UcdNormal Model.Hangul Spec.Normal Proofs.DecompGen Proofs.DecompData Proofs.NormalGood Proofs.NormalAlg Proofs.Hangul
open Proofs.CanonOrder

/-- the table of mappings of one kind -/
abbrev T (k : Bool) : Nat → Option (List Nat) := tableMap canonicalDecomposition compatibilityDecomposition k

theorem T_false (c : Nat) : T false c = canonicalDecomposition c := by
  simp only [T, tableMap]
  cases canonicalDecomposition c <;> rfl

theorem mapping_syllable (k : Bool) {c : Nat} (hs : isSyllable c = true) :
    mappingWith (T k) c = some (if (c - 0xAC00) % 28 = 0 then [0x1100 + (c - 0xAC00) / 588, 0x1161 + (c - 0xAC00) % 588 / 28]
      else [c - (c - 0xAC00) % 28, 0x11A7 + (c - 0xAC00) % 28]) := by
  have := (isSyllable_iff c).1 hs
  rw [mappingWith, if_pos (by omega)]

theorem mapping_table (k : Bool) {c : Nat} (hs : isSyllable c = false) : mappingWith (T k) c = T k c := by
  rw [mappingWith, if_neg]
  intro h
  have := (isSyllable_iff c).2 ⟨h.1, by omega⟩
  rw [this] at hs
  simp at hs

theorem D_of_none (k : Bool) {c : Nat} (h : mappingWith (T k) c = none) : D k c = [c] := by
  cases hs : isSyllable c with
  | true => rw [mapping_syllable k hs] at h; simp at h
  | false => rw [mapping_table k hs] at h; exact full_none' (levelled k) hs h

theorem D_of_some (k : Bool) {c : Nat} {m : List Nat} (h : mappingWith (T k) c = some m) : D k c = m.flatMap (D k) := by
  cases hs : isSyllable c with
  | false => rw [mapping_table k hs] at h; exact full_table (levelled k) h
  | true =>
    have hr := (isSyllable_iff c).1 hs
    rw [mapping_syllable k hs, Option.some.injEq] at h
    subst h
    rw [D, full_syllable hs, decomposeSyllable_def]
    by_cases h0 : (c - 0xAC00) % 28 = 0
    · rw [if_pos h0, if_neg (by omega)]
      simp only [List.flatMap_cons, List.flatMap_nil]
      rw [((good k).jamo (0x1100 + (c - 0xAC00) / 588) (by omega) (by omega)).1,
        ((good k).jamo (0x1161 + (c - 0xAC00) % 588 / 28) (by omega) (by omega)).1]
      rfl
    · rw [if_neg h0, if_pos (by omega)]
      simp only [List.flatMap_cons, List.flatMap_nil]
      have hs' : isSyllable (c - (c - 0xAC00) % 28) = true := (isSyllable_iff _).2 ⟨by omega, by omega⟩
      have hd : D k (c - (c - 0xAC00) % 28) = decomposeSyllable (c - (c - 0xAC00) % 28) := full_syllable hs'
      rw [hd, ((good k).jamo (0x11A7 + (c - 0xAC00) % 28) (by omega) (by omega)).1, decomposeSyllable_def,
        if_neg (by omega)]
      simp only [List.cons_append, List.nil_append, List.append_nil, List.cons.injEq, and_true]
      omega

theorem fullDecomp_eq (k : Bool) {c : Nat} {out : List Nat} (h : Spec.Normal.FullDecomp (mappingWith (T k)) c out) : out = D k c :=
  Spec.Normal.FullDecomp.rec (motive_1 := fun c out _ => out = D k c) (motive_2 := fun cs out _ => out = cs.flatMap (D k))
    (fun hm => (D_of_none k hm).symm)
    (fun hm _ ih => by rw [D_of_some k hm]; exact ih)
    rfl
    (fun _ _ ih1 ih2 => by rw [ih1, ih2, List.flatMap_cons])
    h

theorem fullDecomps_of (k : Bool) {m : List Nat} (h : ∀ x ∈ m, Spec.Normal.FullDecomp (mappingWith (T k)) x (D k x)) :
    Spec.Normal.FullDecomps (mappingWith (T k)) m (m.flatMap (D k)) := by
  induction m with
  | nil => exact .nil
  | cons a m ih =>
    rw [List.flatMap_cons]
    exact .cons (h a (by simp)) (ih fun x hx => h x (by simp [hx]))

theorem jamo_leaf (k : Bool) {x : Nat} (h1 : 0x1100 ≤ x) (h2 : x ≤ 0x11FF) : Spec.Normal.FullDecomp (mappingWith (T k)) x (D k x) := by
  rw [D, full_jamo (levelled k) h1 h2]
  refine .leaf ?_
  rw [mapping_table k (jamo_not_syllable h2)]
  exact (levelled k).zero x ((levelled k).jamo x h1 h2)

theorem fullDecomp_D (k : Bool) : ∀ c, Spec.Normal.FullDecomp (mappingWith (T k)) c (D k c) := by
  have node : ∀ c m, mappingWith (T k) c = some m → (∀ x ∈ m, Spec.Normal.FullDecomp (mappingWith (T k)) x (D k x)) →
      Spec.Normal.FullDecomp (mappingWith (T k)) c (D k c) := by
    intro c m hm h
    rw [D_of_some k hm]
    exact .node hm (fullDecomps_of k h)
  have hlv : ∀ c, isSyllable c = true → (c - 0xAC00) % 28 = 0 → Spec.Normal.FullDecomp (mappingWith (T k)) c (D k c) := by
    intro c hs h0
    have hr := (isSyllable_iff c).1 hs
    refine node c _ (mapping_syllable k hs) ?_
    rw [if_pos h0]
    intro x hx
    simp only [List.mem_cons, List.not_mem_nil, or_false] at hx
    exact jamo_leaf k (by omega) (by omega)
  refine level_induction (levelled k) _ (fun c hs => ?_) (fun c hs hm => ?_) (fun c m hs hm ih => ?_)
  · by_cases h0 : (c - 0xAC00) % 28 = 0
    · exact hlv c hs h0
    · have hr := (isSyllable_iff c).1 hs
      refine node c _ (mapping_syllable k hs) ?_
      rw [if_neg h0]
      intro x hx
      simp only [List.mem_cons, List.not_mem_nil, or_false] at hx
      rcases hx with hx | hx
      · rw [hx]
        exact hlv _ ((isSyllable_iff _).2 ⟨by omega, by omega⟩) (by omega)
      · exact jamo_leaf k (by omega) (by omega)
  · rw [D, full_none' (levelled k) hs hm]
    exact .leaf (by rw [mapping_table k hs]; exact hm)
  · exact node c m (by rw [mapping_table k hs]; exact hm) ih

/-! ## Canonical equivalence -/
variable {ccc : Nat → Nat} {mp : Nat → Option (List Nat)}

theorem Equivalent.congr {s t : List Nat} (h : Equivalent ccc mp s t) (x y : List Nat) : Equivalent ccc mp (x ++ s ++ y) (x ++ t ++ y) := by
  induction h with
  | refl => exact .refl _
  | symm _ ih => exact .symm ih
  | trans _ _ ih1 ih2 => exact .trans ih1 ih2
  | expand x' y' c m h =>
    have := Equivalent.expand (ccc := ccc) (x ++ x') (y' ++ y) c m h
    simpa using this
  | reorder h =>
    cases h with
    | swap x' y' a b h hb =>
      have := Reorder.swap (ccc := ccc) (x ++ x') (y' ++ y) a b h hb
      exact .reorder (by simpa using this)

theorem equivalent_fullDecomp {c : Nat} {out : List Nat} (h : Spec.Normal.FullDecomp mp c out) : Equivalent ccc mp [c] out :=
  Spec.Normal.FullDecomp.rec (motive_1 := fun c out _ => Equivalent ccc mp [c] out) (motive_2 := fun cs out _ => Equivalent ccc mp cs out)
    (fun _ => .refl _)
    (fun {c m out} hm _ ih => .trans (by have := Equivalent.expand (ccc := ccc) [] [] c m hm; simpa using this) ih)
    (.refl _)
    (fun {c cs a b} _ _ ih1 ih2 => .trans (by have := Equivalent.congr ih1 [] cs; simpa using this)
      (by have := Equivalent.congr ih2 a []; simpa using this))
    h

theorem equivalent_reorders {s t : List Nat} (h : Reorders ccc s t) : Equivalent ccc mp s t := by
  induction h with
  | refl => exact .refl _
  | step h _ ih => exact .trans (.reorder h) ih

theorem equivalent_flatMap {dec : Nat → List Nat} (h : ∀ c, Equivalent ccc mp [c] (dec c)) (s : List Nat) :
    Equivalent ccc mp s (s.flatMap dec) := by
  induction s with
  | nil => exact .refl _
  | cons a s ih =>
    rw [List.flatMap_cons]
    refine .trans (by have := Equivalent.congr (h a) [] s; simpa using this) (by have := Equivalent.congr ih (dec a) []; simpa using this)

theorem equivalent_nd (k : Bool) (s : List Nat) : Equivalent Ucd.combiningClass (mappingWith (T k)) s (nd Ucd.combiningClass (D k) s) :=
  .trans (equivalent_flatMap (fun c => equivalent_fullDecomp (fullDecomp_D k c)) s) (equivalent_reorders (reorders_to_order _))

theorem nd_equivalent (k : Bool) {s t : List Nat} (h : Equivalent Ucd.combiningClass (mappingWith (T k)) s t) :
    nd Ucd.combiningClass (D k) s = nd Ucd.combiningClass (D k) t := by
  induction h with
  | refl => rfl
  | symm _ ih => exact ih.symm
  | trans _ _ ih1 ih2 => exact ih1.trans ih2
  | expand x y c m h =>
    simp only [nd, List.flatMap_append, List.flatMap_cons, D_of_some k h, List.append_assoc]
  | reorder h => exact flatMap_reorder (good k).cls h

theorem equivalent_iff (k : Bool) (s t : List Nat) :
    Equivalent Ucd.combiningClass (mappingWith (T k)) s t ↔ nd Ucd.combiningClass (D k) s = nd Ucd.combiningClass (D k) t :=
  ⟨nd_equivalent k, fun h => .trans (equivalent_nd k s) (h ▸ .symm (equivalent_nd k t))⟩

end Proofs.FullDecomp
