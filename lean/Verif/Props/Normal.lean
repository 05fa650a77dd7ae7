import Verif.Proofs.FullDecomp
import Verif.Spec.Hangul
import Verif.Props.Hangul

/-! # Properties C12-C19: decomposition and normalization forms -/
namespace Props.Normal
open Model Model.UcdNormal Model.Normal Spec.Normal Proofs.NormalGood Proofs.NormalAlg Proofs.NormalIter Proofs.CanonOrder
open Proofs.DecompGen Proofs.DecompData

/-- The combining class of a character. -/
local notation "ccc" => Ucd.combiningClass

/-! Lemmas: the iterators over the shipped data. -/
theorem nfd_eq (s : List Nat) : nfd s = nd ccc (D false) s := by
  rw [nfd, collect_new, nd, funext decomposeCanonical_eq]
theorem nfkd_eq (s : List Nat) : nfkd s = nd ccc (D true) s := by
  rw [nfkd, collect_new, nd, funext decomposeCompatible_eq]
theorem nfc_eq (s : List Nat) : nfc s = nc ccc (D false) compose s := by
  rw [nfc, rcollect_new, nc, nd, funext decomposeCanonical_eq]
theorem nfkc_eq (s : List Nat) : nfkc s = nc ccc (D true) compose s := by
  rw [nfkc, rcollect_new, nc, nd, funext decomposeCompatible_eq]

/-! ## C12 -/

/-- **C12.** The recursion of `decompose_canonical` (`k = false`) and `decompose_compatible` (`k = true`)
ends within four levels for every character whatever larger bound is given, emits at least one
character, and every emitted character decomposes to itself. -/
theorem c12_terminates (k : Bool) (c : Nat) :
    ∃ out, out ≠ [] ∧ (∀ fuel, 4 ≤ fuel → d fuel k c = some out) ∧
      ∀ x ∈ out, ∀ fuel, 4 ≤ fuel → d fuel k x = some [x] := by
  refine ⟨D k c, (good k).ne c, fun fuel h => d_full k fuel c h, fun x hx fuel h => ?_⟩
  rw [d_full k fuel x h, (good k).irr c x hx]

/-- **C12.** `decompose_canonical` emits the full canonical decomposition: the result of applying
canonical mappings recursively until none applies (Hangul syllables by arithmetic), and there is only one. -/
theorem c12_canonical (c : Nat) (out : List Nat) :
    FullDecomp (mappingWith canonicalDecomposition) c out ↔ decomposeCanonical c = out := by
  have hT : Proofs.FullDecomp.T false = canonicalDecomposition := funext Proofs.FullDecomp.T_false
  rw [decomposeCanonical_eq, ← hT]
  exact ⟨fun h => (Proofs.FullDecomp.fullDecomp_eq false h).symm, fun h => h ▸ Proofs.FullDecomp.fullDecomp_D false c⟩

/-- **C12.** `decompose_compatible` emits the full compatibility decomposition: the result of applying
canonical mappings and, for characters without one, compatibility mappings recursively. -/
theorem c12_compatible (c : Nat) (out : List Nat) :
    FullDecomp (mappingWith fun c => (canonicalDecomposition c).or (compatibilityDecomposition c)) c out ↔
      decomposeCompatible c = out := by
  have hT : Proofs.FullDecomp.T true = fun c => (canonicalDecomposition c).or (compatibilityDecomposition c) := by
    funext c
    simp only [Proofs.FullDecomp.T, tableMap]
    cases canonicalDecomposition c with
    | none => simp only [Option.none_or, if_true]
    | some m => rw [Option.some_or]
  rw [decomposeCompatible_eq, ← hT]
  exact ⟨fun h => (Proofs.FullDecomp.fullDecomp_eq true h).symm, fun h => h ▸ Proofs.FullDecomp.fullDecomp_D true c⟩

/-- **C12.** The emitted characters are fixed points of the decomposition functions. -/
theorem c12_fixed_point (c : Nat) :
    (∀ x ∈ decomposeCanonical c, decomposeCanonical x = [x]) ∧ decomposeCanonical c ≠ [] ∧
    (∀ x ∈ decomposeCompatible c, decomposeCompatible x = [x]) ∧ decomposeCompatible c ≠ [] := by
  simp only [decomposeCanonical_eq, decomposeCompatible_eq]
  exact ⟨(good false).irr c, (good false).ne c, (good true).irr c, (good true).ne c⟩

/-- Evaluation with kernel-friendly lookups, for the examples. -/
theorem d_lookup (fuel : Nat) (k : Bool) (c : Nat) : d fuel k c = dWith canonC compatC fuel k c := by
  unfold d
  rw [funext canonicalDecomposition_eq, funext compatibilityDecomposition_eq]

/-- Non-vacuity: a character that needs three levels, a compatibility ligature, a syllable, ASCII. -/
example : d 4 false 0x1F82 = some [0x3B1, 0x313, 0x300, 0x345] ∧ d 3 false 0x1F82 = none ∧
    d 4 true 0xFDFA = some [0x635, 0x644, 0x649, 0x20, 0x627, 0x644, 0x644, 0x647, 0x20, 0x639, 0x644, 0x64A, 0x647,
      0x20, 0x648, 0x633, 0x644, 0x645] ∧
    d 4 false 0xAC01 = some [0x1100, 0x1161, 0x11A8] ∧ d 4 true 0x41 = some [0x41] := by
  simp only [d_lookup]
  decide +kernel

/-! ## C13 -/

/-- **C13.** Collecting `nfd()` gives the canonical ordering of the full canonical decompositions of the
characters, and that is the only canonical ordering. -/
theorem c13_nfd (s t : List Nat) : IsCanonicalOrdering ccc (s.flatMap decomposeCanonical) t ↔ t = nfd s := by
  rw [nfd, collect_new]
  exact ⟨isCanonicalOrdering_unique, fun h => h ▸ isCanonicalOrdering_order _⟩

/-- **C13.** The same for `nfkd()`. -/
theorem c13_nfkd (s t : List Nat) : IsCanonicalOrdering ccc (s.flatMap decomposeCompatible) t ↔ t = nfkd s := by
  rw [nfkd, collect_new]
  exact ⟨isCanonicalOrdering_unique, fun h => h ▸ isCanonicalOrdering_order _⟩

/-- **C13.** Call by call: whatever the number of calls, `next()` returns the characters of the form one
after the other and then `None` forever. -/
theorem c13_calls (s : List Nat) (n : Nat) :
    calls (Decompositions.next ccc decomposeCanonical) n (.new s) = ((nfd s).map some ++ List.replicate n none).take n ∧
    calls (Decompositions.next ccc decomposeCompatible) n (.new s) = ((nfkd s).map some ++ List.replicate n none).take n := by
  constructor
  · rw [calls_ok next_ok n _ (inv_new s), out_new, nfd, collect_new]
  · rw [calls_ok next_ok n _ (inv_new s), out_new, nfkd, collect_new]

/-- Evaluation with kernel-friendly lookups, for the examples. -/
def decC (k : Bool) (c : Nat) : List Nat := (dWith canonC compatC 8 k c).getD []
def composeC (a b : Nat) : Option Nat := match Hangul.composeSyllable a b with | some r => some r | none => compC a b
theorem nfd_lookup (s : List Nat) : nfd s = (Decompositions.new s).collect cccC (decC false) := by
  have h : decomposeCanonical = decC false := funext fun c => by rw [decomposeCanonical, d_lookup, decC, FUEL]
  rw [nfd, h, funext combiningClass_eq]
theorem nfkd_lookup (s : List Nat) : nfkd s = (Decompositions.new s).collect cccC (decC true) := by
  have h : decomposeCompatible = decC true := funext fun c => by rw [decomposeCompatible, d_lookup, decC, FUEL]
  rw [nfkd, h, funext combiningClass_eq]
theorem nfc_lookup (s : List Nat) : nfc s = (Recompositions.new s).collect cccC (decC false) composeC := by
  have h : decomposeCanonical = decC false := funext fun c => by rw [decomposeCanonical, d_lookup, decC, FUEL]
  have h2 : compose = composeC := funext fun a => funext fun b => by
    rw [Proofs.CompData.compose_eq, composeC]; cases Hangul.composeSyllable a b <;> rfl
  rw [nfc, h, h2, funext combiningClass_eq]
theorem nfkc_lookup (s : List Nat) : nfkc s = (Recompositions.new s).collect cccC (decC true) composeC := by
  have h : decomposeCompatible = decC true := funext fun c => by rw [decomposeCompatible, d_lookup, decC, FUEL]
  have h2 : compose = composeC := funext fun a => funext fun b => by
    rw [Proofs.CompData.compose_eq, composeC]; cases Hangul.composeSyllable a b <;> rfl
  rw [nfkc, h, h2, funext combiningClass_eq]

/-- Non-vacuity: decomposition and reordering across a decomposed character. -/
example : nfd [0x1E69, 0x61, 0x301, 0x316, 0xAC01] = [0x73, 0x323, 0x307, 0x61, 0x316, 0x301, 0x1100, 0x1161, 0x11A8] ∧
    nfkd [0xFB01, 0x323] = [0x66, 0x69, 0x323] := by
  rw [nfd_lookup, nfkd_lookup]; decide +kernel

/-! ## C14 -/

/-- The pairs that compose, by the standard (D114, primary composites): Hangul by arithmetic, and
canonical mappings of two characters that are not excluded from composition. -/
def PrimaryComposite (a b c : Nat) : Prop :=
  Spec.Hangul.Composes a b c ∨ (canonicalDecomposition c = some [a, b] ∧ ¬ Excluded ccc c a)

/-- **C14.** Collecting `nfc()` / `nfkc()` gives the result of the canonical composition algorithm, with
the crate's pairwise `compose`, applied to the NFD / NFKD form. -/
theorem c14_nfc (s : List Nat) : nfc s = composed ccc compose (nfd s) ∧ nfkc s = composed ccc compose (nfkd s) := by
  rw [nfc, rcollect_new, nfd, collect_new, nfkc, rcollect_new, nfkd, collect_new]
  exact ⟨rfl, rfl⟩

/-- **C14.** Call by call: `next()` returns the characters of the form and then `None` forever. -/
theorem c14_calls (s : List Nat) (n : Nat) :
    calls (Recompositions.next ccc decomposeCanonical compose) n (.new s) = ((nfc s).map some ++ List.replicate n none).take n ∧
    calls (Recompositions.next ccc decomposeCompatible compose) n (.new s) = ((nfkc s).map some ++ List.replicate n none).take n := by
  constructor
  · rw [calls_ok rnext_ok n _ (rinv_new s), nfc, rcollect_new]
    simp only [remaining, Recompositions.new, out_new]
    rfl
  · rw [calls_ok rnext_ok n _ (rinv_new s), nfkc, rcollect_new]
    simp only [remaining, Recompositions.new, out_new]
    rfl

/-- The full claim about `compose`. -/
def ComposeStandard : Prop := ∀ a b c, compose a b = some c ↔ PrimaryComposite a b c

/-- **C14 (partial).** `compose` finds exactly the primary composites of the standard.
Missing: second character U+11A7, where the claim is false. -/
theorem c14_compose_partial (a b c : Nat) (hb : b ≠ 0x11A7) : compose a b = some c ↔ PrimaryComposite a b c := by
  rw [PrimaryComposite, ← Props.Hangul.c11_compose_exact_partial a b c hb, Proofs.CompData.compose_eq]
  constructor
  · intro h
    cases hc : Hangul.composeSyllable a b with
    | some r => rw [hc] at h; exact .inl h
    | none =>
      rw [hc] at h
      have h1 := (Proofs.CompData.compC_some h).1
      exact .inr ⟨h1, (Proofs.CompData.compC_complete h1).1 h⟩
  · rintro (h | ⟨h1, h2⟩)
    · rw [h]
    · have h3 := (Proofs.CompData.compC_complete h1).2 h2
      cases hc : Hangul.composeSyllable a b with
      | none => exact h3
      | some r =>
        exfalso
        have h6 := (Proofs.CompData.compC_some h3).2.2.1
        rw [Proofs.Hangul.composeSyllable_def] at hc
        split at hc
        · omega
        · split at hc
          · omega
          · simp at hc

/-- **The full claim about `compose` is false of the code**: U+11A7 is composed with any LV syllable. -/
theorem c14_compose_false : ¬ ComposeStandard := by
  intro h
  have h1 : compose 0xAC00 0x11A7 = some 0xAC00 := by
    rw [Proofs.CompData.compose_eq]; decide +kernel
  rcases (h _ _ _).1 h1 with h2 | ⟨h2, _⟩
  · have := (Props.Hangul.c11_is_syllable 0xAC00)
    rcases h2 with ⟨l, v, _, _, ha, _, _⟩ | ⟨l, v, t, _, _, h0, _, _, hb, _⟩
    · simp only [Spec.Hangul.leading] at ha; omega
    · simp only [Spec.Hangul.trailing] at hb; omega
  · rw [canonicalDecomposition_eq] at h2
    revert h2
    decide +kernel

/-- The full claim: the composed forms are those of the standard, for a composition function `std` that
finds exactly the primary composites. -/
def NfcStandard : Prop := ∀ std : Nat → Nat → Option Nat, (∀ a b c, std a b = some c ↔ PrimaryComposite a b c) →
  ∀ s, nfc s = composed ccc std (nfd s) ∧ nfkc s = composed ccc std (nfkd s)

/-- **C14 (partial).** For every text without U+11A7, NFC and NFKC are the standard's: the canonical
composition algorithm with the standard's primary composites. Missing: texts with U+11A7, for which the
claim is false. -/
theorem c14_standard_partial (std : Nat → Nat → Option Nat) (hstd : ∀ a b c, std a b = some c ↔ PrimaryComposite a b c)
    (s : List Nat) (hs : 0x11A7 ∉ s) :
    nfc s = composed ccc std (nfd s) ∧ nfkc s = composed ccc std (nfkd s) := by
  have hagree : ∀ a b, b ≠ 0x11A7 → compose a b = std a b := by
    intro a b hb
    cases h1 : compose a b with
    | some c => exact ((hstd a b c).2 ((c14_compose_partial a b c hb).1 h1)).symm
    | none =>
      cases h2 : std a b with
      | none => rfl
      | some c => rw [(c14_compose_partial a b c hb).2 ((hstd a b c).1 h2)] at h1; simp at h1
  have hfold : ∀ (t : List Nat) (w : Walk), 0x11A7 ∉ t → t.foldl (walkStep ccc compose) w = t.foldl (walkStep ccc std) w := by
    intro t
    induction t with
    | nil => intros; rfl
    | cons c t ih =>
      intro w hn
      simp only [List.mem_cons, not_or] at hn
      have hw : walkStep ccc compose w c = walkStep ccc std w c := by
        simp only [walkStep, hagree _ c (Ne.symm hn.1)]
      rw [List.foldl_cons, List.foldl_cons, hw, ih _ hn.2]
  rw [(c14_nfc s).1, (c14_nfc s).2]
  simp only [composed]
  rw [hfold _ _ (by rw [nfd_eq]; exact nd_T0 (good false) s hs), hfold _ _ (by rw [nfkd_eq]; exact nd_T0 (good true) s hs)]
  exact ⟨rfl, rfl⟩

/-- A composition function that finds exactly the primary composites exists (so the hypothesis above is met). -/
theorem std_exists : ∃ std : Nat → Nat → Option Nat, ∀ a b c, std a b = some c ↔ PrimaryComposite a b c := by
  refine ⟨fun a b => if b = 0x11A7 then none else compose a b, fun a b c => ?_⟩
  by_cases hb : b = 0x11A7
  · simp only [hb, if_true]
    refine ⟨by simp, ?_⟩
    rintro (h | ⟨h1, _⟩)
    · exfalso
      rcases h with ⟨l, v, _, hv, _, hb, _⟩ | ⟨l, v, t, _, _, h0, _, _, hb, _⟩
      · simp only [Spec.Hangul.vowel] at hb; omega
      · simp only [Spec.Hangul.trailing] at hb; omega
    · exfalso
      have := ((levelled false).down c _ (tableMap_canon h1 false)).2.2.2 0x11A7 (by simp)
      exact this.2.1 rfl
  · simp only [hb, if_false]
    exact c14_compose_partial a b c hb

/-- **The full claim is false of the code**: NFC of L V U+11A7 loses U+11A7, by the standard it is kept. -/
theorem c14_standard_false : ¬ NfcStandard := by
  intro h
  obtain ⟨std, hstd⟩ := std_exists
  have h1 := (h std hstd [0xAC00, 0x11A7]).1
  have hnfc : nfc [0xAC00, 0x11A7] = [0xAC00] := by rw [nfc_lookup]; decide +kernel
  have hnfd : nfd [0xAC00, 0x11A7] = [0x1100, 0x1161, 0x11A7] := by rw [nfd_lookup]; decide +kernel
  have hc1 : std 0x1100 0x1161 = some 0xAC00 := (hstd _ _ _).2 ((c14_compose_partial _ _ _ (by decide)).1 (by
    rw [Proofs.CompData.compose_eq]; decide +kernel))
  have hc2 : std 0xAC00 0x11A7 = none := by
    cases h2 : std 0xAC00 0x11A7 with
    | none => rfl
    | some c =>
      exfalso
      rcases (hstd _ _ _).1 h2 with h | ⟨h1, _⟩
      · rcases h with ⟨l, v, _, hv, _, hb, _⟩ | ⟨l, v, t, _, _, h0, _, _, hb, _⟩
        · simp only [Spec.Hangul.vowel] at hb; omega
        · simp only [Spec.Hangul.trailing] at hb; omega
      · have := ((levelled false).down c _ (tableMap_canon h1 false)).2.2.2 0x11A7 (by simp)
        exact this.2.1 rfl
  have hz : ∀ c, 0x1100 ≤ c → c ≤ 0x11FF → ccc c = 0 := fun c h1 h2 => ccc_zero c (.inr (.inl ⟨h1, h2⟩))
  rw [hnfc, hnfd] at h1
  simp [composed, walkStep, blocked, Walk.text, hc1, hc2, hz] at h1

/-- Non-vacuity. -/
example : nfc [0x73, 0x307, 0x323, 0x1100, 0x1161, 0x11A8, 0x958] = [0x1E69, 0xAC01, 0x915, 0x93C] ∧
    nfkc [0xFB01, 0x212B] = [0x66, 0x69, 0xC5] := by
  rw [nfc_lookup, nfkc_lookup]; decide +kernel

/-! ## C15, C16 -/

/-- **C15.** NFD and NFKD are idempotent. -/
theorem c15_idempotent (s : List Nat) : nfd (nfd s) = nfd s ∧ nfkd (nfkd s) = nfkd s := by
  simp only [nfd_eq, nfkd_eq]
  exact ⟨nd_nd (good false) s, nd_nd (good true) s⟩

/-- **C16.** NFC and NFKC are idempotent. -/
theorem c16_idempotent (s : List Nat) : nfc (nfc s) = nfc s ∧ nfkc (nfkc s) = nfkc s := by
  simp only [nfc_eq, nfkc_eq]
  exact ⟨nc_nc (good false) s, nc_nc (good true) s⟩

/-! ## C17 -/

/-- The full statement of C17. -/
def NfcPreserves : Prop := ∀ s, nfd (nfc s) = nfd s ∧ nfkd (nfkc s) = nfkd s

/-- **C17 is false of the code**: U+11A7 after an LV syllable is lost. -/
theorem c17_false : ¬ NfcPreserves := by
  intro h
  have h1 := (h [0xAC00, 0x11A7]).1
  revert h1
  rw [nfc_lookup, nfd_lookup, nfd_lookup]
  decide +kernel

/-- **C17 (partial).** For every text without U+11A7, NFC is canonically equivalent and NFKC compatibility
equivalent to the text. Missing: texts with U+11A7, for which the claim is false. -/
theorem c17_partial (s : List Nat) (hs : 0x11A7 ∉ s) : nfd (nfc s) = nfd s ∧ nfkd (nfkc s) = nfkd s := by
  simp only [nfc_eq, nfkc_eq, nfd_eq, nfkd_eq]
  exact ⟨nd_nc_of (good false) s hs, nd_nc_of (good true) s hs⟩

/-- Deleting U+11A7 after a leading consonant and a vowel jamo, any number of times. -/
inductive Deletes : List Nat → List Nat → Prop
  | refl (s) : Deletes s s
  | step {s x y : List Nat} {l v : Nat} (hl : 0x1100 ≤ l ∧ l ≤ 0x1112) (hv : 0x1161 ≤ v ∧ v ≤ 0x1175)
      (h : Deletes s (x ++ [l, v, 0x11A7] ++ y)) : Deletes s (x ++ [l, v] ++ y)

/-- **C17.** What the code does for every text: all that NFC and NFKC can lose are U+11A7 that follow
an L V jamo pair in the decomposed form. -/
theorem c17_loss (s : List Nat) : Deletes (nfd s) (nfd (nfc s)) ∧ Deletes (nfkd s) (nfkd (nfkc s)) := by
  have conv : ∀ {s t : List Nat}, Rems s t → Deletes s t := by
    intro s t h
    induction h with
    | refl => exact .refl _
    | step _ h ih =>
      cases h with
      | mk x y a v ha hv =>
        have := Deletes.step (s := s) (x := x) (y := y) ha hv (by simpa using ih)
        simpa using this
  simp only [nfc_eq, nfkc_eq, nfd_eq, nfkd_eq]
  exact ⟨conv (nd_nc (good false) s), conv (nd_nc (good true) s)⟩

/-! ## C18 -/

/-- **C18.** Decomposed forms absorb each other. -/
theorem c18_decomposed (s : List Nat) : nfkd (nfd s) = nfkd s ∧ nfd (nfkd s) = nfkd s := by
  simp only [nfd_eq, nfkd_eq]
  exact ⟨nd'_nd (good true) absorb s, nd_nd' (good true) irr_mono' s⟩

/-- **C18.** Composed forms absorb the others. -/
theorem c18_composed (s : List Nat) : nfc (nfd s) = nfc s ∧ nfkc (nfkd s) = nfkc s ∧ nfkc (nfc s) = nfkc s ∧
    nfkc (nfd s) = nfkc s := by
  simp only [nfc_eq, nfkc_eq, nfd_eq, nfkd_eq]
  refine ⟨nc_nd (good false) s, nc_nd (good true) s, nc'_nc (good false) (good true) absorb s, ?_⟩
  rw [nc, nd'_nd (good true) absorb s]
  rfl

/-- **C18.** Two texts are canonically equivalent (they can be transformed into each other by replacing
characters by their canonical mappings, back and forth, and by canonical reordering) exactly when they
have the same NFD. -/
theorem c18_equivalent (s t : List Nat) : Equivalent ccc (mappingWith canonicalDecomposition) s t ↔ nfd s = nfd t := by
  have hT : Proofs.FullDecomp.T false = canonicalDecomposition := funext Proofs.FullDecomp.T_false
  rw [← hT, nfd_eq, nfd_eq]
  exact Proofs.FullDecomp.equivalent_iff false s t

/-- **C18.** Canonically equivalent texts have the same NFC, NFKC and NFKD. -/
theorem c18_equivalent_forms (s t : List Nat) (h : Equivalent ccc (mappingWith canonicalDecomposition) s t) :
    nfc s = nfc t ∧ nfkd s = nfkd t ∧ nfkc s = nfkc t := by
  have h1 := (c18_equivalent s t).1 h
  refine ⟨?_, ?_, ?_⟩
  · rw [(c14_nfc s).1, h1, (c14_nfc t).1]
  · rw [← (c18_decomposed s).1, h1, (c18_decomposed t).1]
  · rw [← (c18_composed s).2.2.2, h1, (c18_composed t).2.2.2]

/-- Non-vacuity: two different equivalent texts. -/
example : Equivalent ccc (mappingWith canonicalDecomposition) [0x1E69] [0x73, 0x307, 0x323] := by
  rw [c18_equivalent, nfd_lookup, nfd_lookup]; decide +kernel

/-! ## C19 -/

/-- **C19.** In NFD and NFKD no non-starter directly follows a character of greater combining class. -/
theorem c19_ordered (s x y : List Nat) (a b : Nat) :
    (nfd s = x ++ a :: b :: y → ccc b = 0 ∨ ccc a ≤ ccc b) ∧ (nfkd s = x ++ a :: b :: y → ccc b = 0 ∨ ccc a ≤ ccc b) := by
  constructor
  · intro h
    have h1 : AdjOrd ccc (nfd s) := by rw [nfd_eq]; exact nd_adjOrd s
    rw [h] at h1
    have := (adjOrd_append_right h1).1
    omega
  · intro h
    have h1 : AdjOrd ccc (nfkd s) := by rw [nfkd_eq]; exact nd_adjOrd s
    rw [h] at h1
    have := (adjOrd_append_right h1).1
    omega

/-- **C19.** No form of a non-empty text is empty, and every form of the empty text is. -/
theorem c19_nonempty (s : List Nat) : (nfd s = [] ↔ s = []) ∧ (nfkd s = [] ↔ s = []) ∧ (nfc s = [] ↔ s = []) ∧
    (nfkc s = [] ↔ s = []) := by
  have hnd : ∀ k, nd ccc (D k) s = [] ↔ s = [] := by
    intro k
    rw [nd]
    have : order ccc (s.flatMap (D k)) = [] ↔ s.flatMap (D k) = [] := by
      rw [← List.length_eq_zero_iff, (order_perm _).length_eq, List.length_eq_zero_iff]
    rw [this]
    cases s with
    | nil => simp
    | cons a s => simp [(good k).ne a]
  have hstep : ∀ (t : List Nat) (w : Walk), w.text ≠ [] → (t.foldl (walkStep ccc compose) w).text ≠ [] := by
    intro t
    induction t with
    | nil => intro w h; exact h
    | cons c t ih =>
      intro w h
      rw [List.foldl_cons]
      refine ih _ ?_
      simp only [walkStep]
      (repeat' split) <;> simp_all [Walk.text]
  have hc : ∀ t, composed ccc compose t = [] ↔ t = [] := by
    intro t
    cases t with
    | nil => simp [composed, Walk.text]
    | cons c t =>
      simp only [reduceCtorEq, iff_false, composed, List.foldl_cons]
      refine hstep t _ ?_
      simp only [walkStep]
      split <;> simp [Walk.text]
  refine ⟨by rw [nfd_eq, hnd], by rw [nfkd_eq, hnd], by rw [nfc_eq, nc, hc, hnd], by rw [nfkc_eq, nc, hc, hnd]⟩

/-- **C19.** ASCII text is unchanged by every form. -/
theorem c19_ascii (s : List Nat) (hs : ∀ c ∈ s, c ≤ 0x7f) : nfd s = s ∧ nfkd s = s ∧ nfc s = s ∧ nfkc s = s := by
  have hord : order ccc s = s := by
    refine order_of_adjOrd ?_
    induction s with
    | nil => trivial
    | cons a s ih =>
      cases s with
      | nil => trivial
      | cons b s =>
        refine ⟨?_, ih fun c hc => hs c (by simp [hc])⟩
        have := ccc_zero b (.inl (hs b (by simp)))
        omega
  have hnd : ∀ k, nd ccc (D k) s = s := fun k => by
    rw [nd, flatMap_irr fun c hc => D_ascii k (hs c hc), hord]
  have hfold : ∀ (t : List Nat) (w : Walk), (∀ c ∈ t, c ≤ 0x7f) → (t.foldl (walkStep ccc compose) w).text = w.text ++ t := by
    intro t
    induction t with
    | nil => intros; simp
    | cons c t ih =>
      intro w h
      rw [List.foldl_cons, ih _ fun c hc => h c (by simp [hc])]
      have h0 := ccc_zero c (.inl (h c (by simp)))
      have h1 : walkStep ccc compose w c = ⟨w.text, some c, []⟩ := by
        simp only [walkStep, h0, if_true, compose_ascii (h c (by simp))]
        (repeat' split) <;> rfl
      rw [h1]
      simp [Walk.text]
  have hcomp : composed ccc compose s = s := by rw [composed, hfold s _ hs]; simp [Walk.text]
  refine ⟨by rw [nfd_eq, hnd], by rw [nfkd_eq, hnd], by rw [nfc_eq, nc, hnd, hcomp], by rw [nfkc_eq, nc, hnd, hcomp]⟩

/-- **C50.** Normalization does not look past a starter: if the decomposition of the second text begins
with a starter, NFD and NFKD of the concatenation are the concatenation of the forms. -/
theorem c50_concat (s t : List Nat) :
    (∀ c r, nfd t = c :: r → ccc c = 0 → nfd (s ++ t) = nfd s ++ nfd t) ∧
    (∀ c r, nfkd t = c :: r → ccc c = 0 → nfkd (s ++ t) = nfkd s ++ nfkd t) := by
  have key : ∀ k c r, nd ccc (D k) t = c :: r → ccc c = 0 → nd ccc (D k) (s ++ t) = nd ccc (D k) s ++ nd ccc (D k) t := by
    intro k c r h h0
    have h1 : nd ccc (D k) (s ++ t) = order ccc (s.flatMap (D k) ++ nd ccc (D k) t) := by
      rw [nd, List.flatMap_append, nd, order_congr_right]
    rw [h1, h, order_starter h0]
    have h3 : AdjOrd ccc (nd ccc (D k) t) := nd_adjOrd t
    have h2 : order ccc r = r := order_of_adjOrd (adjOrd_tail (h ▸ h3))
    rw [h2]
    rfl
  simp only [nfd_eq, nfkd_eq]
  exact ⟨key false, key true⟩

/-- **C50.** In general the form of a concatenation is determined by the forms of the parts. -/
theorem c50_concat_forms (s t : List Nat) : nfd (s ++ t) = nfd (nfd s ++ nfd t) ∧ nfkd (s ++ t) = nfkd (nfkd s ++ nfkd t) ∧
    nfc (s ++ t) = nfc (nfd s ++ nfd t) ∧ nfkc (s ++ t) = nfkc (nfkd s ++ nfkd t) := by
  have key : ∀ k, nd ccc (D k) (nd ccc (D k) s ++ nd ccc (D k) t) = nd ccc (D k) (s ++ t) := by
    intro k
    have : (nd ccc (D k) s ++ nd ccc (D k) t).flatMap (D k) = nd ccc (D k) s ++ nd ccc (D k) t := by
      rw [List.flatMap_append, flatMap_irr (nd_irr (good k) s), flatMap_irr (nd_irr (good k) t)]
    rw [nd, this, nd, nd, order_congr_left, order_congr_right, nd, List.flatMap_append]
  refine ⟨by simp only [nfd_eq, key], by simp only [nfkd_eq, key], ?_, ?_⟩
  · rw [(c14_nfc _).1, (c14_nfc _).1]
    congr 1
    simp only [nfd_eq, key]
  · rw [(c14_nfc _).2, (c14_nfc _).2]
    congr 1
    simp only [nfkd_eq, key]

/-- Non-vacuity: across the boundary characters may be reordered when the second part begins with a non-starter. -/
example : nfd ([0x61, 0x301] ++ [0x316]) = [0x61, 0x316, 0x301] ∧ nfd [0x62, 0x316] = [0x62, 0x316] ∧ ccc 0x62 = 0 := by
  rw [nfd_lookup, nfd_lookup, combiningClass_eq]; decide +kernel

end Props.Normal
