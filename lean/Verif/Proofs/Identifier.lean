import Verif.Proofs.IdentifierData

/-! Identifiers and the normalization forms. -/
namespace Proofs.Identifier
open Data Model Model.Normal Proofs.UcdSF Proofs.StepFn Spec.Normal Proofs.CompData Proofs.DecompData Proofs.Chunked Proofs.UcdTables
  Proofs.FullDecomp Proofs.NormalGood Proofs.NormalAlg Proofs.CanonOrder Proofs.DecompGen Props.Normal Spec.Identifier

/-- in the same class: both nonempty, both made of continue characters or not, both identifiers or not -/
structure Alike (S C : Nat → Bool) (b m : List Nat) : Prop where
  ne : b ≠ [] ∧ m ≠ []
  all : b.all C = m.all C
  ident : identB S C b = identB S C m
/-- one way only -/
structure Down (S C : Nat → Bool) (b m : List Nat) : Prop where
  ne : b ≠ [] ∧ m ≠ []
  all : b.all C = true → m.all C = true
  ident : identB S C b = true → identB S C m = true

theorem Alike.down {S C : Nat → Bool} {b m : List Nat} (h : Alike S C b m) : Down S C b m := ⟨h.ne, fun e => h.all ▸ e, fun e => h.ident ▸ e⟩
theorem Alike.symm {S C : Nat → Bool} {b m : List Nat} (h : Alike S C b m) : Alike S C m b := ⟨⟨h.ne.2, h.ne.1⟩, h.all.symm, h.ident.symm⟩

theorem identB_append (S C : Nat → Bool) {b : List Nat} (h : b ≠ []) (y : List Nat) : identB S C (b ++ y) = (identB S C b && y.all C) := by
  cases b with
  | nil => exact absurd rfl h
  | cons c r => simp [identB, List.all_append, Bool.and_assoc]

theorem down_step {S C : Nat → Bool} {b m : List Nat} (h : Down S C b m) (x y : List Nat) (hs : identB S C (x ++ b ++ y) = true) :
    identB S C (x ++ m ++ y) = true := by
  cases x with
  | nil =>
    rw [List.nil_append, identB_append S C h.ne.1, Bool.and_eq_true] at hs
    rw [List.nil_append, identB_append S C h.ne.2, h.ident hs.1, hs.2]; rfl
  | cons c x =>
    simp only [List.cons_append, identB, List.all_append, Bool.and_eq_true] at hs ⊢
    exact ⟨hs.1, ⟨hs.2.1.1, h.all hs.2.1.2⟩, hs.2.2⟩

/-- what the data must satisfy for identifiers to be kept by canonical equivalence -/
structure Kept (S C : Nat → Bool) : Prop where
  map : ∀ c m, mappingWith UcdNormal.canonicalDecomposition c = some m → Alike S C [c] m
  mark : ∀ c, Ucd.combiningClass c > 0 → S c = false
  t0 : C 0x11A7 = true

theorem swap_alike {S C : Nat → Bool} (K : Kept S C) {a b : Nat} (ha : Ucd.combiningClass a > 0) (hb : Ucd.combiningClass b > 0) :
    Alike S C [a, b] [b, a] :=
  ⟨by simp, by simp [Bool.and_comm], by simp [identB, K.mark a ha, K.mark b hb]⟩

theorem nfd_ident {S C : Nat → Bool} (K : Kept S C) (s : List Nat) : identB S C (nfd s) = identB S C s := by
  refine Proofs.NfdSteps.nfd_preserves (fun t => identB S C t = identB S C s) ?_ ?_ s rfl
  · intro x y c m hm h
    refine Eq.trans ?_ h
    have := K.map c m hm
    exact Bool.eq_iff_iff.2 ⟨down_step this.symm.down x y, down_step this.down x y⟩
  · intro x y a b ha hb h
    refine Eq.trans ?_ h
    have := swap_alike K ha hb
    exact Bool.eq_iff_iff.2 ⟨down_step this.symm.down x y, down_step this.down x y⟩

theorem rems_ident {S C : Nat → Bool} (K : Kept S C) {s t : List Nat} (h : Rems s t) : identB S C s = identB S C t := by
  induction h with
  | refl => rfl
  | step _ h ih =>
    rw [ih]
    cases h with
    | mk x y l v hl hv =>
      cases x with
      | nil => simp [identB, K.t0]
      | cons c x => simp [identB, K.t0]

theorem nfc_ident {S C : Nat → Bool} (K : Kept S C) (s : List Nat) : identB S C (nfc s) = identB S C s := by
  rw [← nfd_ident K (nfc s), ← nfd_ident K s, nfd_eq, nfd_eq, nfc_eq]
  exact (rems_ident K (nd_nc (good false) s)).symm

/-- NFKC is NFC after NFKD -/
theorem nfkc_nfc (s : List Nat) : nfkc s = nfc (nfkd s) := by
  rw [(c14_nfc s).2, (c14_nfc (nfkd s)).1, (c18_decomposed s).2]

/-- what is kept by every compatibility mapping and every reordering is kept by NFKD -/
theorem nfkd_preserves (P : List Nat → Prop)
    (hexp : ∀ x y c m, mappingWith (T true) c = some m → P (x ++ [c] ++ y) → P (x ++ m ++ y))
    (hre : ∀ x y a b, Ucd.combiningClass a > 0 → Ucd.combiningClass b > 0 → P (x ++ [a, b] ++ y) → P (x ++ [b, a] ++ y))
    (s : List Nat) (h : P s) : P (nfkd s) := by
  have full : ∀ c out, FullDecomp (mappingWith (T true)) c out → ∀ x y, P (x ++ [c] ++ y) → P (x ++ out ++ y) := by
    intro c out hd
    exact FullDecomp.rec (motive_1 := fun c out _ => ∀ x y, P (x ++ [c] ++ y) → P (x ++ out ++ y))
      (motive_2 := fun cs out _ => ∀ x y, P (x ++ cs ++ y) → P (x ++ out ++ y))
      (fun _ x y h => h)
      (fun {c m out} hm _ ih x y h => ih x y (hexp x y c m hm h))
      (fun x y h => h)
      (fun {c cs a b} _ _ ih1 ih2 x y h => by
        have h1 := ih1 x (cs ++ y) (by simpa using h)
        have h2 := ih2 (x ++ a) y (by simpa using h1)
        simpa using h2) hd
  have flat : ∀ (s x : List Nat), P (x ++ s) → P (x ++ s.flatMap (D true)) := by
    intro s
    induction s with
    | nil => intro x h; exact h
    | cons c s ih =>
      intro x h
      rw [List.flatMap_cons, ← List.append_assoc]
      exact ih _ (full c _ (fullDecomp_D true c) x s (by simpa using h))
  have reo : ∀ s t, Reorders Ucd.combiningClass s t → P s → P t := by
    intro s t h
    induction h with
    | refl => exact id
    | step h _ ih =>
      cases h with
      | swap x y a b h hb =>
        intro hp
        refine ih ?_
        have := hre x y a b (by omega) hb (by simpa using hp)
        simpa using this
  rw [nfkd_eq, nd]
  exact reo _ _ (reorders_to_order _) (flat s [] h)

theorem nfkd_ident {S C : Nat → Bool} (K : Kept S C)
    (hk : ∀ c m, UcdNormal.compatibilityDecomposition c = some m → Down S C [c] m) (s : List Nat) (h : identB S C s = true) :
    identB S C (nfkd s) = true := by
  refine nfkd_preserves (fun t => identB S C t = true) ?_ ?_ s h
  · intro x y c m hm
    refine down_step ?_ x y
    by_cases hcan : ∃ m', UcdNormal.canonicalDecomposition c = some m'
    · refine (K.map c m ?_).down
      obtain ⟨m', hm'⟩ := hcan
      rw [mappingWith] at hm ⊢
      split at hm
      · rename_i h1; rw [if_pos h1]; exact hm
      · rename_i h1
        rw [if_neg h1, hm', ← hm, T, tableMap, hm']
    · have hn : UcdNormal.canonicalDecomposition c = none := by
        cases hc : UcdNormal.canonicalDecomposition c with
        | none => rfl
        | some m' => exact absurd ⟨m', hc⟩ hcan
      rw [mappingWith] at hm
      split at hm
      · rename_i h1
        refine (K.map c m ?_).down
        rw [mappingWith, if_pos h1]; exact hm
      · refine hk c m ?_
        rw [← hm, T, tableMap, hn]; rfl
  · intro x y a b ha hb
    exact down_step (swap_alike K ha hb).down x y

theorem kept_of {S C : Nat → Bool} {SS CS : SF (Option Unit)} (hS : ∀ c, S c = (SS.eval c).isSome) (hC : ∀ c, C c = (CS.eval c).isSome)
    (can : ∀ c, canP S C (canonSF.eval c) (SS.eval c) (CS.eval c) = true)
    (mark : ∀ c, markP (combiningClassSF.eval c) (SS.eval c) = true)
    (han : ∀ c, hanP ((rangesSF hangulR).eval c) (SS.eval c) (CS.eval c) = true) : Kept S C := by
  have hh : ∀ c, (0x1100 ≤ c ∧ c ≤ 0x1112) ∨ (0x1161 ≤ c ∧ c ≤ 0x1175) ∨ (0x11A7 ≤ c ∧ c ≤ 0x11C2) ∨ (0xAC00 ≤ c ∧ c ≤ 0xD7A3) →
      S c = true ∧ C c = true := by
    intro c hc
    have h2 := any_sf hangulR (by decide) c
    have h3 : (hangulR.any fun r => decide (r.1 ≤ c) && decide (c ≤ r.2)) = true := by
      simp only [hangulR, List.any_cons, List.any_nil, Bool.or_false, Bool.or_eq_true, Bool.and_eq_true, decide_eq_true_eq]
      exact hc
    rw [h3] at h2
    have h1 := han c
    cases hr : (rangesSF hangulR).eval c with
    | none => rw [hr] at h2; simp at h2
    | some u =>
      rw [hr] at h1
      simp only [hanP, Bool.and_eq_true] at h1
      rw [hS, hC]; exact h1
  refine ⟨?_, ?_, (hh 0x11A7 (by omega)).2⟩
  · intro c m h
    rw [mappingWith] at h
    split at h
    · simp only [Option.some.injEq] at h
      have h0 := hh c (by omega)
      have hm : ∀ x ∈ m, S x = true ∧ C x = true := by
        intro x hx
        refine hh x ?_
        rw [← h] at hx
        split at hx <;> simp only [List.mem_cons, List.not_mem_nil, or_false] at hx <;> omega
      have hne : m ≠ [] := by rw [← h]; split <;> simp
      cases m with
      | nil => exact absurd rfl hne
      | cons a m =>
        have h1 : (a :: m).all C = true := List.all_eq_true.2 fun x hx => (hm x hx).2
        have h2 : m.all C = true := List.all_eq_true.2 fun x hx => (hm x (by simp [hx])).2
        refine ⟨by simp, by rw [h1]; simp [h0.2], ?_⟩
        simp only [identB, h2, (hm a (by simp)).1, h0.1, List.all_nil]
    · have h1 := can c
      rw [← canonSF_eq, h] at h1
      simp only [canP, Bool.and_eq_true, Bool.not_eq_true', beq_iff_eq, ← hS, ← hC] at h1
      obtain ⟨⟨h1, h2⟩, h3⟩ := h1
      refine ⟨⟨by simp, fun e => by rw [e] at h1; simp at h1⟩, by simpa using h2, by simpa [identB] using h3⟩
  · intro c hc
    have h1 := mark c
    rw [← combiningClass_sf] at h1
    rw [hS]
    cases he : SS.eval c with
    | none => rfl
    | some u =>
      rw [he] at h1
      have := Nat.eq_of_beq_eq_true h1
      omega

theorem kept_xid : Kept Ucd.isXidStart Ucd.isXidContinue :=
  kept_of isXidStart_sf isXidContinue_sf (by rw [xids_eq, xidc_eq]; exact can_xid) mark_xid han_xid
theorem kept_id : Kept Ucd.isIdStart Ucd.isIdContinue :=
  kept_of isIdStart_sf isIdContinue_sf (by rw [ids_eq, idc_eq]; exact can_id) mark_id han_id

theorem compat_xid (c : Nat) (m : List Nat) (h : UcdNormal.compatibilityDecomposition c = some m) : Down Ucd.isXidStart Ucd.isXidContinue [c] m := by
  have h1 := com_xid c
  rw [← compatSF_eq, h, ← xids_eq, ← xidc_eq] at h1
  simp only [comP, Bool.and_eq_true, Bool.not_eq_true', Bool.or_eq_true, ← isXidStart_sf, ← isXidContinue_sf] at h1
  obtain ⟨⟨h1, h2⟩, h3⟩ := h1
  refine ⟨⟨by simp, fun e => by rw [e] at h1; simp at h1⟩, ?_, ?_⟩
  · intro e
    simp only [List.all_cons, List.all_nil, Bool.and_true] at e
    rw [e] at h2
    simpa using h2
  · intro e
    simp only [identB, List.all_nil, Bool.and_true] at e
    rw [e] at h3
    simpa using h3

end Proofs.Identifier
