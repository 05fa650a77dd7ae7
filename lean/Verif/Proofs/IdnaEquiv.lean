import Verif.Proofs.IdnaEquivData

/-! Mapping the characters of canonically equivalent names. -/
namespace Proofs.IdnaEquiv
open Model Model.Idna Model.IdnaMapping Data Proofs.NormalScalar Proofs.UcdSF Proofs.Chunked Proofs.StepFn Model.UcdNormal Model.Normal
  Proofs.DecompData Proofs.DecompGen Proofs.CompData Proofs.NormalAlg Proofs.NormalGood Proofs.Hangul Spec.Normal Spec.Idna Proofs.CanonOrder Model.Hangul
  Proofs.IdnaData Proofs.FullDecomp Props.Normal

/-- what a character becomes -/
def rep (tr : Bool) (c : Nat) : List Nat := match mapC c with
  | some m => replacement tr c m
  | none => [c]
/-- it is no error -/
def okc (std3 : Bool) (c : Nat) : Bool := match mapC c with
  | some m => !(disM m || (std3 && dis3M m))
  | none => false

theorem okc_eq (std3 : Bool) (c : Nat) : okc std3 c = !(disC c || (std3 && dis3C c)) := by
  unfold okc disC dis3C
  cases mapC c <;> simp

theorem disM_iff (std3 : Bool) (m : Mapping) : (disM m || (std3 && dis3M m)) = true ↔ Disallowed std3 m := by
  cases m <;> simp [disM, dis3M, Disallowed]

theorem nfd_congr {a a' b b' : List Nat} (h : nfd a = nfd a') (h' : nfd b = nfd b') : nfd (a ++ b) = nfd (a' ++ b') := by
  rw [(c50_concat_forms a b).1, (c50_concat_forms a' b').1, h, h']

theorem nfd_sameD {a b : List Nat} (h : sameD a b = true) : nfd a = nfd b := by
  have hD : D false = decC false := funext fun c => by
    rw [← decomposeCanonical_eq, decomposeCanonical, d_lookup, decC, FUEL]
  rw [sameD, Bool.or_eq_true] at h
  rcases h with h | h
  · rw [eq_of_beq h]
  · rw [nfd_eq, nfd_eq, nd, nd, hD, eq_of_beq h]

theorem rep_self {tr : Bool} {x : Nat} (h : selfC x = true) : rep tr x = [x] := by
  unfold selfC at h
  unfold rep
  cases hm : mapC x with
  | none => rfl
  | some m => rw [hm] at h; cases m <;> first | rfl | simp at h

theorem rep_repC {tr : Bool} {x : Nat} {s : List Nat} (h : repC x = some s) : rep tr x = s := by
  unfold repC at h
  unfold rep
  cases hm : mapC x with
  | none => rw [hm] at h; simp at h
  | some m => rw [hm] at h; cases m <;> first | (simp only [Option.some.injEq] at h; subst h; rfl) | simp at h

theorem rep_concatO {tr : Bool} : ∀ {m t : List Nat}, concatO (m.map repC) = some t → m.flatMap (rep tr) = t := by
  intro m
  induction m with
  | nil => intro t h; simp [concatO] at h; simp [h]
  | cons x m ih =>
    intro t h
    rw [List.map_cons] at h
    cases hx : repC x with
    | none => rw [hx] at h; simp [concatO] at h
    | some a =>
      rw [hx] at h
      cases hr : concatO (m.map repC) with
      | none => simp [concatO, hr] at h
      | some b =>
        simp only [concatO, hr, Option.some.injEq] at h
        rw [List.flatMap_cons, rep_repC hx, ih hr, h]

theorem all_okc (std3 : Bool) (m : List Nat) : m.all (okc std3) = !(m.any disC || (std3 && m.any dis3C)) := by
  induction m with
  | nil => simp
  | cons x m ih =>
    rw [List.all_cons, ih, okc_eq, List.any_cons, List.any_cons]
    cases disC x <;> cases dis3C x <;> cases m.any disC <;> cases m.any dis3C <;> cases std3 <;> rfl

/-- what replacing a character by its canonical mapping keeps -/
structure Step (tr std3 : Bool) (c : Nat) (m : List Nat) : Prop where
  rep : nfd (rep tr c) = nfd (m.flatMap (rep tr))
  ok : okc std3 c = m.all (okc std3)
  rtl : rtlB c = m.any rtlB
  five : ∀ x ∈ m, isFive x = false

theorem tableMap_canon {c : Nat} {m : List Nat} (h : canonicalDecomposition c = some m) :
    tableMap canonicalDecomposition compatibilityDecomposition false c = some m := by rw [tableMap, h]

theorem D_table {c : Nat} {m : List Nat} (h : canonicalDecomposition c = some m) : D false c = m.flatMap (D false) := by
  rw [D, full_table (levelled false) (tableMap_canon h)]

theorem nfd_single {c : Nat} {m : List Nat} (h : canonicalDecomposition c = some m) : nfd [c] = nfd m := by
  rw [nfd_eq, nfd_eq, nd, nd, List.flatMap_cons, List.flatMap_nil, List.append_nil, D_table h]

theorem flatMap_self {tr : Bool} {m : List Nat} (hs : m.all selfC = true) : m.flatMap (rep tr) = m := by
  induction m with
  | nil => rfl
  | cons x m ih =>
    rw [List.all_cons, Bool.and_eq_true] at hs
    rw [List.flatMap_cons, rep_self hs.1, ih hs.2]; rfl

theorem step_table (tr std3 : Bool) {c : Nat} {m : List Nat} (h : canonicalDecomposition c = some m) (h5 : isFive c = false) :
    Step tr std3 c m := by
  have h1 := can_chk c
  rw [fiveSF_eval h5, ← canonSF_eq, h, ← mapC_sf] at h1
  have h2 := rtl_canon c
  rw [← canonSF_eq, h, ← rtlB_sf] at h2
  have hrtl : rtlB c = m.any rtlB := by
    cases hc : rtlB c with
    | true =>
      rw [hc] at h2
      have h3 : m.any rtlC = true := h2
      rw [funext rtlB_eq, h3]
    | false =>
      rw [hc] at h2
      have h3 : m.all (fun x => !rtlC x) = true := h2
      symm
      rw [List.any_eq_false]
      intro x hx
      have := List.all_eq_true.1 h3 x hx
      rw [rtlB_eq]
      simpa using this
  cases hm : mapC c with
  | none => rw [hm] at h1; simp [canP] at h1
  | some mp =>
    rw [hm] at h1
    simp only [canP, Bool.and_eq_true] at h1
    obtain ⟨⟨⟨h3, h4⟩, h6⟩, h7⟩ := h1
    refine ⟨?_, ?_, hrtl, fun x hx => by simpa using List.all_eq_true.1 h3 x hx⟩
    · have hself : m.all selfC = true → nfd [c] = nfd (m.flatMap (rep tr)) := by
        intro hs
        rw [nfd_single h, flatMap_self hs]
      have hmap : ∀ s, (match concatO (m.map repC) with | some t => sameD s t | none => false) = true → nfd s = nfd (m.flatMap (rep tr)) := by
        intro s hs
        cases hc : concatO (m.map repC) with
        | none => rw [hc] at hs; simp at hs
        | some t =>
          rw [hc] at hs
          rw [rep_concatO hc]
          exact nfd_sameD hs
      rw [rep, hm]
      cases mp with
      | Valid => exact hself h7
      | Disallowed => exact hself h7
      | DisallowedStd3Valid => exact hself h7
      | Mapped s => exact hmap s h7
      | DisallowedStd3Mapped s => exact hmap s h7
      | Ignored => simp at h7
      | Deviation s => simp at h7
    · rw [all_okc, okc, hm, ← eq_of_beq h4, ← eq_of_beq h6]

theorem hangul_facts {c : Nat} (h : (0x1100 ≤ c ∧ c ≤ 0x1112) ∨ (0x1161 ≤ c ∧ c ≤ 0x1175) ∨ (0x11A8 ≤ c ∧ c ≤ 0x11C2) ∨ (0xAC00 ≤ c ∧ c ≤ 0xD7A3)) :
    mapC c = some .Valid ∧ rtlB c = false ∧ isFive c = false := by
  have h1 := hangul_chk c
  have h2 := any_sf hangulRanges (by decide) c
  have h3 : (hangulRanges.any fun r => decide (r.1 ≤ c) && decide (c ≤ r.2)) = true := by
    simp only [hangulRanges, List.any_cons, List.any_nil, Bool.or_false, Bool.or_eq_true, Bool.and_eq_true, decide_eq_true_eq]
    exact h
  rw [h3] at h2
  rw [← mapC_sf, ← rtlB_sf] at h1
  have h5 : isFive c = false := by
    have hb : ∀ b, c ≠ b → Nat.beq c b = false := fun b h => by
      cases hc : Nat.beq c b with
      | false => rfl
      | true => exact absurd (Nat.eq_of_beq_eq_true hc) h
    simp only [isFive, Bool.or_eq_false_iff]
    refine ⟨⟨⟨⟨hb _ ?_, hb _ ?_⟩, hb _ ?_⟩, hb _ ?_⟩, hb _ ?_⟩ <;> omega
  cases hr : (rangesSF hangulRanges).eval c with
  | none => rw [hr] at h2; simp at h2
  | some u =>
    rw [hr] at h1
    cases hm : mapC c with
    | none => rw [hm] at h1; simp [hangulP] at h1
    | some m =>
      rw [hm] at h1
      cases m <;> simp [hangulP] at h1
      exact ⟨rfl, h1, h5⟩

theorem step_mapping (tr std3 : Bool) {c : Nat} {m : List Nat} (h : mappingWith canonicalDecomposition c = some m) (h5 : isFive c = false) :
    Step tr std3 c m := by
  rw [mappingWith] at h
  split at h
  · rename_i hs
    simp only [Option.some.injEq] at h
    have hm : ∀ x ∈ m, mapC x = some .Valid ∧ rtlB x = false ∧ isFive x = false := by
      intro x hx
      refine hangul_facts ?_
      rw [← h] at hx
      split at hx <;> simp only [List.mem_cons, List.not_mem_nil, or_false] at hx <;> omega
    have hc := hangul_facts (c := c) (by omega)
    have hrep : m.flatMap (rep tr) = m := by
      clear h
      induction m with
      | nil => rfl
      | cons x m ih =>
        rw [List.flatMap_cons, ih fun y hy => hm y (by simp [hy]), rep, (hm x (by simp)).1]; rfl
    refine ⟨?_, ?_, ?_, fun x hx => (hm x hx).2.2⟩
    · rw [hrep, rep, hc.1]
      have := Equivalent.expand (ccc := Ucd.combiningClass) (mapping := mappingWith canonicalDecomposition) [] [] c m (by
        rw [mappingWith, if_pos hs]; simp only [h])
      exact (c18_equivalent [c] m).1 (by simpa using this)
    · have : m.all (okc std3) = true := by
        rw [List.all_eq_true]
        intro x hx
        rw [okc, (hm x hx).1]
        cases std3 <;> rfl
      rw [this, okc, hc.1]
      cases std3 <;> rfl
    · rw [hc.2.1]
      symm
      rw [List.any_eq_false]
      intro x hx
      rw [(hm x hx).2.1]; simp
  · exact step_table tr std3 h h5

/-- a mark other than the iota subscript is replaced by what it decomposes to -/
theorem mark_facts (tr : Bool) {c : Nat} (h : Ucd.combiningClass c > 0) :
    Ucd.combiningClass c ≤ 240 ∧ (Ucd.combiningClass c < 240 → nfd (rep tr c) = nfd [c]) := by
  have h1 := mark_chk c
  rw [← combiningClass_sf, ← canonSF_eq, ← mapC_sf] at h1
  have h0 : Nat.beq (Ucd.combiningClass c) 0 = false := by
    cases hc : Nat.beq (Ucd.combiningClass c) 0 with
    | false => rfl
    | true => have := Nat.eq_of_beq_eq_true hc; omega
  unfold markP at h1
  dsimp only at h1
  rw [h0, Bool.false_or, Bool.and_eq_true] at h1
  obtain ⟨h1, h2⟩ := h1
  refine ⟨Nat.le_of_ble_eq_true h1, fun hlt => ?_⟩
  unfold rep
  cases hm : mapC c with
  | none => rfl
  | some m =>
    rw [hm] at h2
    cases m with
    | Valid => rfl
    | Mapped s =>
      simp only at h2
      cases hc : canonicalDecomposition c with
      | none =>
        rw [hc] at h2
        have := Nat.eq_of_beq_eq_true h2; omega
      | some m =>
        rw [hc] at h2
        rw [nfd_single hc]
        exact nfd_sameD h2
    | _ => simp at h2

/-- `nfd_preserves` with the full condition of a reordering step -/
theorem nfd_preserves (P : List Nat → Prop)
    (hexp : ∀ x y c m, mappingWith UcdNormal.canonicalDecomposition c = some m → P (x ++ [c] ++ y) → P (x ++ m ++ y))
    (hre : ∀ x y a b, Ucd.combiningClass a > Ucd.combiningClass b → Ucd.combiningClass b > 0 → P (x ++ [a, b] ++ y) → P (x ++ [b, a] ++ y))
    (s : List Nat) (h : P s) : P (nfd s) := by
  have hT : T false = UcdNormal.canonicalDecomposition := funext T_false
  have full : ∀ c out, FullDecomp (mappingWith (T false)) c out → ∀ x y, P (x ++ [c] ++ y) → P (x ++ out ++ y) := by
    intro c out hd
    exact FullDecomp.rec (motive_1 := fun c out _ => ∀ x y, P (x ++ [c] ++ y) → P (x ++ out ++ y))
      (motive_2 := fun cs out _ => ∀ x y, P (x ++ cs ++ y) → P (x ++ out ++ y))
      (fun _ x y h => h)
      (fun {c m out} hm _ ih x y h => ih x y (hexp x y c m (hT ▸ hm) h))
      (fun x y h => h)
      (fun {c cs a b} _ _ ih1 ih2 x y h => by
        have h1 := ih1 x (cs ++ y) (by simpa using h)
        have h2 := ih2 (x ++ a) y (by simpa using h1)
        simpa using h2) hd
  have flat : ∀ (s x : List Nat), P (x ++ s) → P (x ++ s.flatMap (D false)) := by
    intro s
    induction s with
    | nil => intro x h; exact h
    | cons c s ih =>
      intro x h
      rw [List.flatMap_cons, ← List.append_assoc]
      exact ih _ (full c _ (fullDecomp_D false c) x s (by simpa using h))
  have reo : ∀ s t, Reorders Ucd.combiningClass s t → P s → P t := by
    intro s t h
    induction h with
    | refl => exact id
    | step h _ ih =>
      cases h with
      | swap x y a b h hb =>
        intro hp
        refine ih ?_
        have := hre x y a b h hb (by simpa using hp)
        simpa using this
  rw [nfd_eq, nd]
  exact reo _ _ (reorders_to_order _) (flat s [] h)

/-- no iota subscript is directly followed by a mark -/
def Safe (t : List Nat) : Prop := ∀ p x q, t = p ++ [0x345, x] ++ q → Ucd.combiningClass x = 0

theorem ccc_iota : Ucd.combiningClass 0x345 = 240 := by rw [combiningClass_eq]; decide +kernel

theorem iota_only {c : Nat} (h : Ucd.combiningClass c = 240) : c = 0x345 := by
  have h1 := SF.all₂ (fun a b => !Nat.beq a 240 || b.isSome) combiningClassSF (rangesSF [(0x345, 0x345)]) (by decide +kernel) c
  rw [← combiningClass_sf, ← any_sf _ (by decide), h] at h1
  simp only [List.any_cons, List.any_nil, Bool.or_false, Bool.or_eq_true, Bool.and_eq_true, decide_eq_true_eq] at h1
  rcases h1 with h1 | h1
  · simp at h1
  · omega
theorem iota_D : D false 0x345 = [0x345] := by
  rw [← decomposeCanonical_eq, decomposeCanonical, d_lookup]; decide +kernel

theorem safe_swap {X A B Y : List Nat} (hA : ∀ c ∈ A, Ucd.combiningClass c > 0) (hA0 : A ≠ []) (hB : ∀ c ∈ B, Ucd.combiningClass c > 0)
    (hB0 : B ≠ []) (hBA : ∀ a ∈ A, ∀ b ∈ B, Ucd.combiningClass b < Ucd.combiningClass a) (hle : ∀ a ∈ A, Ucd.combiningClass a ≤ 240)
    (h : Safe (X ++ A ++ B ++ Y)) : 0x345 ∉ A ∧ Safe (X ++ B ++ A ++ Y) := by
  have iA : 0x345 ∉ A := by
    intro hm
    obtain ⟨u, v, rfl⟩ := List.append_of_mem hm
    cases v with
    | nil =>
      obtain ⟨b, B', rfl⟩ := List.exists_cons_of_ne_nil hB0
      have := h (X ++ u) b (B' ++ Y) (by simp)
      have := hB b (by simp)
      omega
    | cons z v =>
      have := h (X ++ u) z (v ++ B ++ Y) (by simp)
      have := hA z (by simp)
      omega
  have iB : 0x345 ∉ B := by
    intro hm
    obtain ⟨a, A', rfl⟩ := List.exists_cons_of_ne_nil hA0
    have h1 := hBA a (by simp) _ hm
    have h2 := hle a (by simp)
    rw [ccc_iota] at h1
    omega
  refine ⟨iA, ?_⟩
  intro p x q e
  rw [List.append_assoc, List.append_assoc X B] at e
  -- where the iota is
  rcases List.append_eq_append_iff.1 (show X ++ ((B ++ A) ++ Y) = p ++ ([0x345, x] ++ q) by simpa using e) with ⟨u, hp, h2⟩ | ⟨u, hX, h2⟩
  · -- behind X
    rcases List.append_eq_append_iff.1 h2 with ⟨v, h3, h4⟩ | ⟨v, h3, h4⟩
    · -- in Y
      exact h (X ++ A ++ B ++ v) x q (by rw [h4]; simp)
    · cases v with
      | nil =>
        refine h (X ++ A ++ B) x q ?_
        rw [List.nil_append] at h4
        rw [← h4]; simp
      | cons z v =>
        simp only [List.cons_append, List.nil_append, List.cons.injEq] at h4
        have : z ∈ B ++ A := by rw [h3]; simp
        rw [← h4.1, List.mem_append] at this
        rcases this with h5 | h5
        · exact absurd h5 iB
        · exact absurd h5 iA
  · cases u with
    | nil =>
      obtain ⟨b, B', rfl⟩ := List.exists_cons_of_ne_nil hB0
      simp only [List.cons_append, List.nil_append, List.cons.injEq] at h2
      exact absurd (by rw [h2.1]; simp) iB
    | cons z u =>
      simp only [List.cons_append, List.nil_append, List.cons.injEq] at h2
      obtain ⟨rfl, h2⟩ := h2
      cases u with
      | nil =>
        obtain ⟨a, A', rfl⟩ := List.exists_cons_of_ne_nil hA0
        have := h p a (A' ++ B ++ Y) (by rw [hX]; simp)
        have := hA a (by simp)
        omega
      | cons w u =>
        simp only [List.cons_append, List.nil_append, List.cons.injEq] at h2
        obtain ⟨rfl, h2⟩ := h2
        exact h p x (u ++ A ++ B ++ Y) (by rw [hX]; simp)

/-- what holds of a name on the way to its NFD -/
structure Inv (tr std3 : Bool) (d t : List Nat) : Prop where
  rep : nfd (t.flatMap (rep tr)) = nfd (d.flatMap (rep tr))
  ok : t.all (okc std3) = d.all (okc std3)
  rtl : t.any rtlB = d.any rtlB
  five : ∀ x ∈ t, isFive x = false
  safe : Safe (t.flatMap (D false))

theorem inv_nfd (tr std3 : Bool) {d : List Nat} (h5 : ∀ x ∈ d, isFive x = false) (hs : Safe (d.flatMap (D false))) : Inv tr std3 d (nfd d) := by
  refine nfd_preserves (Inv tr std3 d) ?_ ?_ d ⟨rfl, rfl, rfl, h5, hs⟩
  · intro x y c m hm h
    have hc : isFive c = false := h.five c (by simp)
    have s := step_mapping tr std3 hm hc
    refine ⟨?_, ?_, ?_, ?_, ?_⟩
    · rw [← h.rep, List.flatMap_append, List.flatMap_append, List.flatMap_append, List.flatMap_append]
      refine nfd_congr (nfd_congr rfl ?_) rfl
      rw [← s.rep, List.flatMap_cons, List.flatMap_nil, List.append_nil]
    · rw [← h.ok]; simp [List.all_append, s.ok]
    · rw [← h.rtl]; simp [List.any_append, s.rtl]
    · intro z hz
      rw [List.mem_append, List.mem_append] at hz
      rcases hz with (hz | hz) | hz
      · exact h.five z (by simp [hz])
      · exact s.five z hz
      · exact h.five z (by simp [hz])
    · have hD : D false c = m.flatMap (D false) := by
        have hT : T false = UcdNormal.canonicalDecomposition := funext T_false
        exact D_of_some false (hT ▸ hm)
      have := h.safe
      simpa [List.flatMap_append, hD] using this
  · intro x y a b hab hb h
    have hca : ∀ z ∈ D false a, Ucd.combiningClass z = Ucd.combiningClass a := (good false).cls a (by omega)
    have hcb : ∀ z ∈ D false b, Ucd.combiningClass z = Ucd.combiningClass b := (good false).cls b (by omega)
    have ha := mark_facts tr (c := a) (by omega)
    have hbf := mark_facts tr hb
    have hs := h.safe
    simp only [List.flatMap_append, List.flatMap_cons, List.flatMap_nil, List.append_nil, ← List.append_assoc] at hs
    obtain ⟨i1, i2⟩ := safe_swap (fun c hc => by rw [hca c hc]; omega) ((good false).ne a) (fun c hc => by rw [hcb c hc]; omega) ((good false).ne b)
      (fun u hu v hv => by rw [hca u hu, hcb v hv]; exact hab) (fun u hu => by rw [hca u hu]; exact ha.1) hs
    have ha240 : Ucd.combiningClass a < 240 := by
      rcases Nat.lt_or_ge (Ucd.combiningClass a) 240 with h1 | h1
      · exact h1
      · have h2 : a = 0x345 := iota_only (Nat.le_antisymm ha.1 h1)
        rw [h2, iota_D] at i1
        simp at i1
    refine ⟨?_, ?_, ?_, ?_, ?_⟩
    · rw [← h.rep]
      simp only [List.flatMap_append, List.flatMap_cons, List.flatMap_nil, List.append_nil]
      refine nfd_congr (nfd_congr rfl ?_) rfl
      rw [nfd_congr (hbf.2 (by omega)) (ha.2 ha240), nfd_congr (ha.2 ha240) (hbf.2 (by omega))]
      exact ((c18_equivalent _ _).1 (Equivalent.reorder (Reorder.swap [] [] a b hab hb))).symm
    · rw [← h.ok]; simp [List.all_append, Bool.and_comm, Bool.and_assoc, Bool.and_left_comm]
    · rw [← h.rtl]; simp [List.any_append, Bool.or_comm, Bool.or_assoc, Bool.or_left_comm]
    · intro z hz
      refine h.five z ?_
      simp only [List.mem_append, List.mem_cons, List.not_mem_nil, or_false] at hz ⊢
      rcases hz with (hz | hz | hz) | hz
      · exact .inl (.inl hz)
      · exact .inl (.inr (.inr hz))
      · exact .inl (.inr (.inl hz))
      · exact .inr hz
    · simpa only [List.flatMap_append, List.flatMap_cons, List.flatMap_nil, List.append_nil, ← List.append_assoc] using i2

end Proofs.IdnaEquiv
