import Verif.Proofs.IdnaStable
import Verif.Proofs.IdnaAscii
import Verif.Props.Punycode

/-! `to_unicode` and `to_ascii` return on texts of moderate length. -/
namespace Proofs.NormalScalar
open Model Model.UcdNormal Model.Hangul Model.Normal Proofs.DecompGen Proofs.DecompData Proofs.CompData Proofs.NormalAlg
  Proofs.NormalGood Proofs.Hangul Spec.Normal Proofs.CanonOrder

theorem len_chk : allEntries (fun c m => Nat.ble (m.foldr (fun x n => lv false x + 1 + n) 0) (lv false c + 1)) Data.canonicalDecomposition = true := by
  decide +kernel

theorem D_level : ∀ c, isSyllable c = false → (D false c).length ≤ lv false c + 1 := by
  refine level_induction (levelled false) _ (fun c hs h => ?_) (fun c hs hm _ => ?_) (fun c m hs hm ih _ => ?_)
  · rw [hs] at h; cases h
  · rw [D, full_none' (levelled false) hs hm]; simp
  · have hsyl := ((levelled false).down c m hm).2.2.2
    rw [D, full_table (levelled false) hm]
    rw [tableMap, canonicalDecomposition_eq, canonC] at hm
    cases hc : Chunked.lookupCD Data.canonicalDecomposition c with
    | none => rw [hc] at hm; simp at hm
    | some m' =>
      rw [hc] at hm
      cases hm
      have h1 := allEntries_spec len_chk (lookupCD_mem hc)
      rw [Nat.ble_eq] at h1
      refine Nat.le_trans ?_ h1
      clear h1 hc
      induction m with
      | nil => simp
      | cons a m ihm =>
        have h2 := ih a (by simp) (hsyl a (by simp)).1
        have h3 := ihm (fun x hx => ih x (by simp [hx])) (fun x hx => hsyl x (by simp [hx]))
        rw [D] at h2
        simp only [List.flatMap_cons, List.length_append, List.foldr_cons]
        omega

theorem D_length (c : Nat) : (D false c).length ≤ 4 := by
  by_cases hs : isSyllable c = true
  · rw [D, full_syllable hs, decomposeSyllable_def]
    split <;> simp
  · have := D_level c (by simpa using hs)
    have := lv_le false c
    omega

theorem walk_length {ccc : Nat → Nat} {comp : Nat → Nat → Option Nat} : ∀ (s : List Nat) (w : Walk),
    (s.foldl (walkStep ccc comp) w).text.length ≤ w.text.length + s.length := by
  intro s
  induction s with
  | nil => intro w; simp
  | cons a s ih =>
    intro w
    rw [List.foldl_cons]
    refine Nat.le_trans (ih _) ?_
    have h1 : (walkStep ccc comp w a).text.length ≤ w.text.length + 1 := by
      obtain ⟨bef, st, aft⟩ := w
      unfold walkStep
      cases st with
      | none =>
        simp only
        split <;> simp [Walk.text] <;> omega
      | some l =>
        simp only
        split
        · split <;> simp [Walk.text] <;> omega
        · split
          · simp [Walk.text]
          · split <;> simp [Walk.text] <;> omega
    simp only [List.length_cons]
    omega

theorem nfc_length (s : List Nat) : (nfc s).length ≤ 4 * s.length := by
  rw [Props.Normal.nfc_eq, nc, composed]
  refine Nat.le_trans (walk_length _ _) ?_
  simp only [Walk.text, List.append_nil, List.length_nil, Nat.zero_add]
  rw [nd, (order_perm _).length_eq]
  induction s with
  | nil => simp
  | cons a s ih =>
    have := D_length a
    simp only [List.flatMap_cons, List.length_append, List.length_cons]
    omega

end Proofs.NormalScalar

namespace Proofs.Idna
open Model Model.Idna Data Proofs.Punycode Spec.Idna Proofs.IdnaData Proofs.NormalScalar

theorem replacement_facts {c : Nat} {m : Mapping} (tr : Bool) (hc : Spec.IsScalar c) (h : IdnaMapping.mappingOf c = .ok m) :
    (∀ x ∈ replacement tr c m, Spec.IsScalar x) ∧ (replacement tr c m).length ≤ 18 := by
  have h1 : (∀ x ∈ [c], Spec.IsScalar x) ∧ [c].length ≤ 18 := by simpa using hc
  obtain ⟨h2, h3⟩ := stable h
  cases m with
  | Valid => exact h1
  | Disallowed => exact h1
  | DisallowedStd3Valid => exact h1
  | Ignored => simp [replacement]
  | Mapped s => exact ⟨fun x hx => ((h2 s (.inl rfl)).2 x hx).1, (h2 s (.inl rfl)).1⟩
  | DisallowedStd3Mapped s => exact ⟨fun x hx => ((h3 s rfl).2 x hx).1, (h3 s rfl).1⟩
  | Deviation s =>
    simp only [replacement]
    split
    · exact ⟨fun x hx => ((h2 s (.inr rfl)).2 x hx).1, (h2 s (.inr rfl)).1⟩
    · exact h1

theorem exists_status {d : List Nat} (h : ∀ c ∈ d, Spec.IsScalar c) : ∃ ms, List.Forall₂ (fun c m => IdnaMapping.mappingOf c = .ok m) d ms := by
  induction d with
  | nil => exact ⟨[], .nil⟩
  | cons c d ih =>
    obtain ⟨m, hm⟩ := mapping_total (h c (by simp))
    obtain ⟨ms, hms⟩ := ih (fun x hx => h x (by simp [hx]))
    exact ⟨m :: ms, .cons hm hms⟩

theorem mapped_facts {d : List Nat} {ms : List Mapping} (tr : Bool) (h : ∀ c ∈ d, Spec.IsScalar c)
    (hm : List.Forall₂ (fun c m => IdnaMapping.mappingOf c = .ok m) d ms) :
    (∀ x ∈ (List.zipWith (replacement tr) d ms).flatten, Spec.IsScalar x) ∧ (List.zipWith (replacement tr) d ms).flatten.length ≤ 18 * d.length := by
  induction hm with
  | nil => simp
  | cons h1 _ ih =>
    rename_i c m d ms _
    obtain ⟨h2, h3⟩ := ih (fun x hx => h x (by simp [hx]))
    obtain ⟨h4, h5⟩ := replacement_facts tr (h c (by simp)) h1
    simp only [List.zipWith_cons_cons, List.flatten_cons, List.mem_append, List.length_append, List.length_cons]
    refine ⟨?_, by omega⟩
    rintro x (hx | hx)
    · exact h4 x hx
    · exact h2 x hx

theorem mk_mapping (a b c d) : (Deps.mk a b c d).mapping = a := rfl

theorem shipped_mapping : shipped.mapping = IdnaMapping.mappingOf := by unfold shipped; rw [mk_mapping]
theorem shipped_nfc : shipped.nfc = Normal.nfc := by unfold shipped; rfl

theorem anyV6_total (flags : Flags) {l : List Nat} (h : ∀ c ∈ l, Spec.IsScalar c) : ∃ b, anyV6 shipped flags l = .ok b := by
  induction l with
  | nil => exact ⟨false, rfl⟩
  | cons c l ih =>
    obtain ⟨m, hm⟩ := mapping_total (h c (by simp))
    have hm' : shipped.mapping c = .ok m := by rw [shipped_mapping]; exact hm
    rw [anyV6, hm', bind_ok]
    split
    · exact ⟨true, rfl⟩
    · exact ih (fun x hx => h x (by simp [hx]))

theorem validate_total (flags : Flags) {l : List Nat} (h : ∀ c ∈ l, Spec.IsScalar c) (b : Bool) (errors : List Error) :
    ∃ es, validate shipped l b flags errors = .ok es := by
  unfold validate
  cases l with
  | nil => exact ⟨_, rfl⟩
  | cons c l =>
    simp only
    split
    · exact ⟨_, rfl⟩
    · split
      · exact ⟨_, rfl⟩
      · split
        · exact ⟨_, rfl⟩
        · obtain ⟨v, hv⟩ := anyV6_total flags h
          rw [hv, bind_ok]
          split
          · exact ⟨_, rfl⟩
          · split <;> exact ⟨_, rfl⟩

theorem byteLen_le (l : List Nat) : (l.flatMap Utf.encodeUtf8).length ≤ 4 * l.length := by
  induction l with
  | nil => simp
  | cons a s ih =>
    have h1 := (Proofs.Utf.lenUtf8_pos a).2
    rw [← Proofs.Utf.encodeUtf8_length] at h1
    simp only [List.flatMap_cons, List.length_append, List.length_cons]
    omega

/-- what the loops need of a label -/
def Fine (l : List Nat) : Prop := (∀ c ∈ l, Spec.IsScalar c) ∧ l.length < 2 ^ 30

theorem decode_fine (chk : Bool) {l : List Nat} (h : Fine l) : ∃ r, Model.Punycode.decodeToString chk (l.drop 4) = .ok r ∧
    ∀ s, r = some s → ∀ c ∈ s, Spec.IsScalar c := by
  refine Props.Punycode.c23_decode_partial chk (l.drop 4) (fun c hc => h.1 c (List.mem_of_mem_drop hc)) ?_
  have h1 := byteLen_le (l.drop 4)
  have h2 : (l.drop 4).length ≤ l.length := by rw [List.length_drop]; omega
  have := h.2
  omega

theorem bidiLabels_total (chk : Bool) : ∀ (ls : List (List Nat)) (b : Bool), (∀ l ∈ ls, Fine l) → ∃ b', bidiLabels shipped chk ls b = .ok b' := by
  intro ls
  induction ls with
  | nil => intro b _; exact ⟨b, rfl⟩
  | cons l ls ih =>
    intro b h
    have ih' := fun b => ih b (fun x hx => h x (by simp [hx]))
    rw [bidiLabels]
    split
    · obtain ⟨r, hr, _⟩ := decode_fine chk (h l (by simp))
      rw [hr, bind_ok]
      cases r with
      | none => exact ih' _
      | some d => exact ih' _
    · exact ih' _

theorem validateLabels_total (chk : Bool) (flags : Flags) (b : Bool) : ∀ (ls : List (List Nat)) (first : Bool) (v : List Nat) (errors : List Error),
    (∀ l ∈ ls, Fine l) → (∀ c ∈ v, Spec.IsScalar c) →
    ∃ s es, validateLabels shipped chk flags b ls first v errors = .ok (s, es) ∧ ∀ c ∈ s, Spec.IsScalar c := by
  intro ls
  induction ls with
  | nil => intro first v errors _ hv; exact ⟨v, errors, rfl, hv⟩
  | cons l ls ih =>
    intro first v errors h hv
    have ih' := fun v e hv => ih false v e (fun x hx => h x (by simp [hx])) hv
    have hsep : ∀ c ∈ sep first v, Spec.IsScalar c := by
      intro c hc
      unfold sep at hc
      split at hc
      · rw [List.mem_append, List.mem_singleton] at hc
        rcases hc with hc | rfl
        · exact hv c hc
        · unfold Spec.IsScalar; omega
      · exact hv c hc
    have happ : ∀ x : List Nat, (∀ c ∈ x, Spec.IsScalar c) → ∀ c ∈ sep first v ++ x, Spec.IsScalar c := by
      intro x hx c hc
      rw [List.mem_append] at hc
      rcases hc with hc | hc
      · exact hsep c hc
      · exact hx c hc
    rw [validateLabels]
    change ∃ s es, (if hasPrefix l = true then (Model.Punycode.decodeToString chk (l.drop 4) >>= fun o => match o with
        | some decoded => validate shipped decoded b { flags with transitionalProcessing := false } errors >>= fun errors =>
          validateLabels shipped chk flags b ls false (sep first v ++ decoded) errors
        | none => validateLabels shipped chk flags b ls false (sep first v) (errors ++ [.PunycodeError]))
      else validate shipped l b flags errors >>= fun errors => validateLabels shipped chk flags b ls false (sep first v ++ l) errors) = _ ∧ _
    split
    · obtain ⟨r, hr, hr2⟩ := decode_fine chk (h l (by simp))
      rw [hr, bind_ok]
      cases r with
      | none => exact ih' _ _ hsep
      | some d =>
        simp only
        obtain ⟨es, he⟩ := validate_total { flags with transitionalProcessing := false } (hr2 d rfl) b errors
        rw [he, bind_ok]
        exact ih' _ _ (happ _ (hr2 d rfl))
    · obtain ⟨es, he⟩ := validate_total flags (h l (by simp)).1 b errors
      rw [he, bind_ok]
      exact ih' _ _ (happ _ (h l (by simp)).1)

theorem processing_total (chk : Bool) (flags : Flags) {d : List Nat} (h : ∀ c ∈ d, Spec.IsScalar c) (hlen : d.length < 2 ^ 23) :
    ∃ s es, processing shipped chk d flags = .ok (s, es) ∧ ∀ c ∈ s, Spec.IsScalar c := by
  obtain ⟨ms, hms⟩ := exists_status h
  obtain ⟨es, h1, _⟩ := mapChars_total (u := shipped) flags d ms [] [] (by rw [shipped_mapping]; exact hms)
  obtain ⟨h2, h3⟩ := mapped_facts flags.transitionalProcessing h hms
  have h4 := nfc_length (List.zipWith (replacement flags.transitionalProcessing) d ms).flatten
  have h5 := nfc_scalar h2
  unfold processing
  rw [h1, bind_ok]
  simp only [List.nil_append]
  rw [shipped_nfc]
  have hl := splitDot_labels (Normal.nfc (List.zipWith (replacement flags.transitionalProcessing) d ms).flatten)
  have hsub : ∀ (ls : List (List Nat)) (l : List Nat), l ∈ ls → l.length ≤ (join ls).length := by
    intro ls
    induction ls with
    | nil => intro l hl; simp at hl
    | cons a ls ih =>
      intro l hl
      by_cases he : ls = []
      · subst he
        rw [List.mem_singleton] at hl
        subst hl
        exact Nat.le_refl _
      · rw [join_cons a he, List.length_append, List.length_cons]
        rw [List.mem_cons] at hl
        rcases hl with rfl | hl
        · omega
        · have := ih l hl
          omega
  have hfine : ∀ l ∈ splitDot (Normal.nfc (List.zipWith (replacement flags.transitionalProcessing) d ms).flatten), Fine l := by
    intro l hl'
    refine ⟨fun c hc => h5 c ?_, ?_⟩
    · rw [hl.2.2]; exact mem_join hl' hc
    · have := hsub _ l hl'
      rw [← hl.2.2] at this
      omega
  split
  · obtain ⟨b, hb⟩ := bidiLabels_total chk (splitDot (Normal.nfc (List.zipWith (replacement flags.transitionalProcessing) d ms).flatten)) (d.any (isRtlChar shipped)) hfine
    rw [hb, bind_ok]
    exact validateLabels_total chk flags b _ true [] es hfine (by simp)
  · rw [bind_ok]
    exact validateLabels_total chk flags _ _ true [] es hfine (by simp)

end Proofs.Idna
