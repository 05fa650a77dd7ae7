import Verif.Proofs.IdnaTotal

/-! Right-to-left characters through mapping and normalization; lengths through Punycode. -/
namespace Proofs.IdnaData
open Model Model.IdnaMapping Data Proofs.NormalScalar Proofs.UcdSF Proofs.Chunked Proofs.StepFn Model.UcdNormal Model.Normal
  Proofs.DecompData Proofs.DecompGen Proofs.CompData Proofs.NormalAlg Proofs.NormalGood Proofs.Hangul Spec.Normal Proofs.CanonOrder Model.Hangul

def rtlClass : BidiClass → Bool
  | .RightToLeft | .ArabicLetter | .ArabicNumber => true
  | _ => false

def rtlSF : SF Bool := SF.map rtlClass bidiClassSF

/-- the right-to-left characters -/
def rtlB (c : Nat) : Bool := rtlClass (Ucd.bidiClass c)

/-- the ranges of the right-to-left characters -/
def rtlRanges : List (Nat × Nat) :=
  [(1424, 1424), (1470, 1470), (1472, 1472), (1475, 1475), (1478, 1478), (1480, 1541), (1544, 1544), (1547,
   1547), (1549, 1549), (1563, 1610), (1632, 1641), (1643, 1647), (1649, 1749), (1757, 1757), (1765, 1766),
   (1774, 1775), (1786, 1808), (1810, 1839), (1867, 1957), (1969, 2026), (2036, 2037), (2042, 2069), (2074,
   2074), (2084, 2084), (2088, 2088), (2094, 2136), (2140, 2259), (2274, 2274), (8207, 8207), (64285, 64285),
   (64287, 64296), (64298, 64829), (64832, 64975), (65008, 65020), (65022, 65023), (65136, 65278), (67584,
   67870), (67872, 68096), (68100, 68100), (68103, 68107), (68112, 68151), (68155, 68158), (68160, 68324),
   (68327, 68408), (68416, 69631), (124928, 125135), (125143, 125251), (125259, 126703), (126706, 126975)]

def anyC (c : Nat) : List (Nat × Nat) → Bool
  | [] => false
  | r :: l => match Nat.ble r.1 c with
    | false => false
    | true => match Nat.ble c r.2 with
      | true => true
      | false => anyC c l

def rtlC (c : Nat) : Bool := anyC c rtlRanges

theorem rtlB_sf (c : Nat) : rtlB c = rtlSF.eval c := by rw [rtlB, rtlSF, SF.eval_map, bidiClass_sf]

theorem rtlB_ranges (c : Nat) : rtlB c = rtlRanges.any fun r => decide (r.1 ≤ c) && decide (c ≤ r.2) := by
  have h := SF.all₂ (fun a b => a.isSome == b) (rangesSF rtlRanges) rtlSF (by decide +kernel) c
  rw [← rtlB_sf, ← any_sf _ (by decide)] at h
  exact (eq_of_beq h).symm

theorem anyC_eq (c : Nat) : ∀ (l : List (Nat × Nat)), l.Pairwise (fun a b => a.1 ≤ b.1) →
    anyC c l = l.any fun r => decide (r.1 ≤ c) && decide (c ≤ r.2) := by
  intro l
  induction l with
  | nil => intro _; rfl
  | cons r l ih =>
    intro h
    rw [List.pairwise_cons] at h
    rw [anyC, List.any_cons, ← ih h.2]
    by_cases h1 : r.1 ≤ c
    · rw [Nat.ble_eq_true_of_le h1, decide_eq_true h1]
      by_cases h2 : c ≤ r.2
      · rw [Nat.ble_eq_true_of_le h2, decide_eq_true h2]; rfl
      · have h3 : Nat.ble c r.2 = false := by
          cases h3 : Nat.ble c r.2 with
          | false => rfl
          | true => exact absurd (Nat.le_of_ble_eq_true h3) h2
        rw [h3, decide_eq_false h2]; rfl
    · have h3 : Nat.ble r.1 c = false := by
        cases h3 : Nat.ble r.1 c with
        | false => rfl
        | true => exact absurd (Nat.le_of_ble_eq_true h3) h1
      rw [h3, decide_eq_false h1, ih h.2]
      simp only [Bool.false_and, Bool.false_or]
      symm
      rw [List.any_eq_false]
      intro x hx
      have := h.1 x hx
      simp only [Bool.and_eq_true, decide_eq_true_eq]
      omega

theorem rtlB_eq (c : Nat) : rtlB c = rtlC c := by
  rw [rtlB_ranges, rtlC, anyC_eq c _ (by decide)]

theorem rtlB_iff {c : Nat} : rtlB c = true ↔ Spec.Idna.Rtl Ucd.bidiClass c := by
  rw [rtlB, Spec.Idna.Rtl]
  cases Ucd.bidiClass c <;> simp [rtlClass]

def rtlCanonP : Option (List Nat) → Bool → Bool
  | some m, false => m.all (fun x => !rtlC x)
  | some m, true => m.any rtlC
  | none, _ => true

theorem rtl_canon (c : Nat) : rtlCanonP (canonSF.eval c) (rtlSF.eval c) = true :=
  SF.all₂ rtlCanonP _ _ (by decide +kernel) c

/-- characters of class L whose replacement is a Hebrew letter: the alef, bet, gimel and dalet symbols -/
def Alef (c : Nat) : Prop := 0x2135 ≤ c ∧ c ≤ 0x2138

def alefSF : SF Bool := ⟨false, [(0x2135, true), (0x2139, false)]⟩

theorem alefSF_eval (c : Nat) (h : ¬ Alef c) : alefSF.eval c = false := by
  unfold Alef at h
  simp only [alefSF, SF.eval, evalSF]
  split
  · rfl
  · split
    · omega
    · rfl

def rtlMapP : Option Mapping → Bool × Bool → Bool
  | some (.Mapped s), (false, false) => s.all (fun x => !rtlC x)
  | some (.Deviation s), (false, false) => s.all (fun x => !rtlC x)
  | some (.DisallowedStd3Mapped s), (false, false) => s.all (fun x => !rtlC x)
  | _, _ => true

theorem rtl_map (c : Nat) : rtlMapP (mapSF.eval c) ((SF.zipWith Prod.mk rtlSF alefSF).eval c) = true :=
  SF.all₂ rtlMapP _ _ (by decide +kernel) c

/-- apart from four symbols, mapping makes no right-to-left characters -/
theorem replacement_rtl (tr : Bool) {c : Nat} {m : Mapping} (h : mappingOf c = .ok m) (ha : ¬ Alef c) (hr : rtlB c = false) :
    ∀ x ∈ Spec.Idna.replacement tr c m, rtlB x = false := by
  have h1 := rtl_map c
  rw [SF.eval_zipWith, alefSF_eval c ha, ← rtlB_sf, hr, ← mapC_sf, mappingOf_ok.1 h] at h1
  have hc : ∀ x ∈ [c], rtlB x = false := by simpa using hr
  have hs : ∀ {s : List Nat}, s.all (fun x => !rtlC x) = true → ∀ x ∈ s, rtlB x = false := by
    intro s hs x hx
    have := List.all_eq_true.1 hs x hx
    rw [rtlB_eq]
    simpa using this
  cases m with
  | Valid => exact hc
  | Disallowed => exact hc
  | DisallowedStd3Valid => exact hc
  | Ignored => simp [Spec.Idna.replacement]
  | Mapped s => exact hs h1
  | DisallowedStd3Mapped s => exact hs h1
  | Deviation s =>
    simp only [Spec.Idna.replacement]
    split
    · exact hs h1
    · exact hc

theorem D_rtl : ∀ c, rtlB c = false → ∀ x ∈ D false c, rtlB x = false := by
  refine level_induction (levelled false) _ (fun c hs hc => ?_) (fun c hs hm hc => ?_) (fun c m hs hm ih hc => ?_)
  · rw [D, full_syllable hs]
    intro x hx
    have h1 := decomposeSyllable_jamo hs x hx
    rw [rtlB_ranges, List.any_eq_false]
    intro r hr
    have h2 : rtlRanges.all (fun r => decide (r.2 < 0x1100 ∨ 0x11FF < r.1)) = true := by decide
    have h3 := of_decide_eq_true (List.all_eq_true.1 h2 r hr)
    simp only [Bool.and_eq_true, decide_eq_true_eq]
    omega
  · rw [D, full_none' (levelled false) hs hm]
    intro x hx
    rw [List.mem_singleton] at hx
    rw [hx]; exact hc
  · rw [D, full_table (levelled false) hm]
    intro x hx
    obtain ⟨y, hy, hxy⟩ := List.mem_flatMap.1 hx
    refine ih y hy ?_ x hxy
    have h1 := rtl_canon c
    rw [← rtlB_sf, hc, ← canonSF_eq] at h1
    rw [tableMap] at hm
    cases hcd : canonicalDecomposition c with
    | none => rw [hcd] at hm; simp at hm
    | some m' =>
      rw [hcd] at hm h1
      cases hm
      have := List.all_eq_true.1 h1 y hy
      rw [rtlB_eq]
      simpa using this

theorem compose_rtl {a b c : Nat} (ha : rtlB a = false) (hb : rtlB b = false) (h : compose a b = some c) : rtlB c = false := by
  have hhangul : 0xAC00 ≤ c ∧ c ≤ 0xD7A3 → rtlB c = false := by
    intro hc
    rw [rtlB_ranges, List.any_eq_false]
    intro r hr
    have h2 : rtlRanges.all (fun r => decide (r.2 < 0xAC00 ∨ 0xD7A3 < r.1)) = true := by decide
    have h3 := of_decide_eq_true (List.all_eq_true.1 h2 r hr)
    simp only [Bool.and_eq_true, decide_eq_true_eq]
    omega
  rcases compose_cases h with ⟨⟨h1, h2⟩, ⟨h3, h4⟩, hc⟩ | ⟨⟨h3, h4, _⟩, h1, h2, hc⟩ | h
  · exact hhangul (by omega)
  · exact hhangul (by omega)
  · have h1 := rtl_canon c
    rw [← rtlB_sf, ← canonSF_eq, (compC_some h).1] at h1
    cases hr : rtlB c with
    | false => rfl
    | true =>
      rw [hr] at h1
      rw [rtlB_eq] at ha hb
      simp [rtlCanonP, ha, hb] at h1

theorem nfc_rtl {s : List Nat} (h : ∀ c ∈ s, rtlB c = false) : ∀ c ∈ nfc s, rtlB c = false := by
  rw [Props.Normal.nfc_eq, nc, composed]
  refine walk_all (fun a b c ha hb h => compose_rtl ha hb h) _ _ ?_ (by simp [Walk.text])
  intro c hc
  rw [nd, mem_order] at hc
  obtain ⟨y, hy, hxy⟩ := List.mem_flatMap.1 hc
  exact D_rtl y (h y hy) c hxy

/-- the allowed characters are scalar values -/
def allowedP : Option Mapping → Bool
  | some .Valid | some (.Deviation _) | some .DisallowedStd3Valid => true
  | _ => false

theorem allowed_scalar {std3 tr : Bool} {c : Nat} {m : Mapping} (h : mappingOf c = .ok m) (ha : Spec.Idna.Allowed std3 tr m) : Spec.IsScalar c := by
  have h1 := SF.all₂ (fun a b => !allowedP a || b) (drop0 mapSF) scalarSF (by decide +kernel) c
  rw [drop0_eval, ← mapC_sf, mappingOf_ok.1 h] at h1
  have h2 : allowedP (some m) = true := by
    cases m <;> first | rfl | exact absurd ha (by simp [Spec.Idna.Allowed])
  rw [h2] at h1
  have h3 : scalarSF.eval c = true := by simpa using h1
  simp only [scalarSF, SF.eval, evalSF] at h3
  unfold Spec.IsScalar
  split at h3
  · omega
  · split at h3
    · simp at h3
    · split at h3
      · omega
      · simp at h3

end Proofs.IdnaData

namespace Proofs.Idna
open Model Model.Idna Data Proofs.Punycode Spec.Idna

theorem decodeLoop_length {chk : Bool} : ∀ (fuel : Nat) (bytes out : List Nat) (cp bias i : Nat) (s : List Nat),
    Model.Punycode.decodeLoop chk fuel bytes out cp bias i = .ok (some s) → s.length ≤ out.length + fuel := by
  intro fuel
  induction fuel with
  | zero => intro _ _ _ _ _ _ h; simp [Model.Punycode.decodeLoop] at h
  | succ fuel ih =>
    intro bytes out cp bias i s h
    rw [Model.Punycode.decodeLoop] at h
    split at h
    · simp only [Outcome.ok.injEq, Option.some.injEq] at h
      subst h
      omega
    · rw [bind_eq_ok] at h
      obtain ⟨o, _, h⟩ := h
      cases o with
      | none => simp [pure_eq] at h
      | some x =>
        obtain ⟨i', rest⟩ := x
        simp only [bind_eq_ok] at h
        obtain ⟨d, _, np, _, bias', _, q, _, room, hroom, h⟩ := h
        split at h
        · simp [pure_eq] at h
        · simp only [bind_eq_ok] at h
          obtain ⟨cp', hcp, i'', _, h⟩ := h
          split at h
          · simp [pure_eq] at h
          · simp only [bind_eq_ok] at h
            obtain ⟨out', hout, i3, _, h⟩ := h
            have h1 := ih _ _ _ _ _ _ h
            unfold Model.Punycode.insertAt at hout
            split at hout
            · simp only [Outcome.ok.injEq] at hout
              rw [← hout] at h1
              simp only [List.length_append, List.length_cons, List.length_take, List.length_drop] at h1
              omega
            · simp at hout

theorem decode_length {chk : Bool} {p s : List Nat} (h : Model.Punycode.decode chk p = .ok (some s)) : s.length ≤ 5 * p.length + 1 := by
  unfold Model.Punycode.decode at h
  cases hr : Model.Punycode.rsplit p with
  | none =>
    rw [hr] at h
    have h1 := decodeLoop_length _ _ _ _ _ _ _ h
    have h2 := byteLen_le p
    have h1' : s.length ≤ 0 + ((p.flatMap Utf.encodeUtf8).length + 1) := h1
    omega
  | some ab =>
    obtain ⟨a, b⟩ := ab
    rw [hr] at h
    have h1 : s.length ≤ a.length + (((if a.isEmpty then p else b).flatMap Utf.encodeUtf8).length + 1) := decodeLoop_length _ _ _ _ _ _ _ h
    have h3 : p.length = a.length + b.length + 1 := by
      rw [(rsplit_some hr).1]; simp; omega
    split at h1
    · have h2 := byteLen_le p
      omega
    · have h2 := byteLen_le b
      omega

theorem label_length {s l : List Nat} (h : l ∈ splitDot s) : l.length ≤ s.length := by
  have hsub : ∀ (ls : List (List Nat)) (l : List Nat), l ∈ ls → l.length ≤ (join ls).length := by
    intro ls
    induction ls with
    | nil => intro l hl; simp at hl
    | cons a ls ih =>
      intro l hl
      by_cases he : ls = []
      · subst he
        rw [List.mem_singleton] at hl
        subst hl
        exact Nat.le_refl _
      · rw [join_cons a he, List.length_append, List.length_cons]
        rw [List.mem_cons] at hl
        rcases hl with rfl | hl
        · omega
        · have := ih l hl
          omega
  have := hsub _ l h
  rwa [← (splitDot_labels s).2.2] at this

theorem validateLabels_length {u : Deps} {chk : Bool} {flags : Flags} {b : Bool} : ∀ (ls : List (List Nat)) (first : Bool) (v : List Nat) (errors : List Error)
    (s : List Nat) (es : List Error), validateLabels u chk flags b ls first v errors = .ok (s, es) →
    s.length ≤ v.length + 5 * (join ls).length + 2 := by
  have key : ∀ (ls : List (List Nat)) (first : Bool) (v : List Nat) (errors : List Error) (s : List Nat) (es : List Error),
      validateLabels u chk flags b ls first v errors = .ok (s, es) → s.length ≤ v.length + (ls.map (fun l => 5 * l.length + 2)).sum := by
    intro ls
    induction ls with
    | nil =>
      intro first v errors s es h
      simp only [validateLabels, Outcome.ok.injEq, Prod.mk.injEq] at h
      rw [h.1]; simp
    | cons l ls ih =>
      intro first v errors s es h
      have hsep : (sep first v).length ≤ v.length + 1 := by
        unfold sep
        split <;> simp
      rw [List.map_cons, List.sum_cons]
      rw [validateLabels] at h
      change (if hasPrefix l = true then (Model.Punycode.decodeToString chk (l.drop 4) >>= fun o => match o with
          | some decoded => validate u decoded b { flags with transitionalProcessing := false } errors >>= fun errors =>
            validateLabels u chk flags b ls false (sep first v ++ decoded) errors
          | none => validateLabels u chk flags b ls false (sep first v) (errors ++ [.PunycodeError]))
        else validate u l b flags errors >>= fun errors => validateLabels u chk flags b ls false (sep first v ++ l) errors) = _ at h
      split at h
      · rw [bind_eq_ok] at h
        obtain ⟨o, ho, h⟩ := h
        cases o with
        | none => have := ih _ _ _ _ _ h; omega
        | some dec =>
          simp only [bind_eq_ok] at h
          obtain ⟨_, _, h⟩ := h
          have h1 := ih _ _ _ _ _ h
          have h2 := decode_length ho
          rw [List.length_append] at h1
          rw [List.length_drop] at h2
          omega
      · rw [bind_eq_ok] at h
        obtain ⟨_, _, h⟩ := h
        have h1 := ih _ _ _ _ _ h
        rw [List.length_append] at h1
        omega
  have hsum : ∀ ls : List (List Nat), (ls.map (fun l => 5 * l.length + 2)).sum ≤ 5 * (join ls).length + 2 := by
    intro ls
    induction ls with
    | nil => simp [join]
    | cons a ls ih =>
      by_cases he : ls = []
      · subst he; simp [join]
      · rw [join_cons a he, List.length_append, List.length_cons, List.map_cons, List.sum_cons]
        omega
  intro ls first v errors s es h
  have h1 := key ls first v errors s es h
  have h2 := hsum ls
  omega

theorem mk_nfc' (s : List Nat) : (join (splitDot s)).length = s.length := by rw [← (splitDot_labels s).2.2]

theorem processing_length (chk : Bool) (flags : Flags) {d : List Nat} (h : ∀ c ∈ d, Spec.IsScalar c) (hlen : d.length < 2 ^ 23) :
    ∃ s es, processing shipped chk d flags = .ok (s, es) ∧ (∀ c ∈ s, Spec.IsScalar c) ∧ s.length < 2 ^ 32 - 1 := by
  obtain ⟨s, es, h1, h2⟩ := processing_total chk flags h hlen
  refine ⟨s, es, h1, h2, ?_⟩
  obtain ⟨ms, hms⟩ := exists_status h
  obtain ⟨es', h3, _⟩ := mapChars_total (u := shipped) flags d ms [] [] (by rw [shipped_mapping]; exact hms)
  obtain ⟨_, h4⟩ := mapped_facts flags.transitionalProcessing h hms
  have h5 := Proofs.NormalScalar.nfc_length (List.zipWith (replacement flags.transitionalProcessing) d ms).flatten
  unfold processing at h1
  rw [h3, bind_ok] at h1
  simp only [List.nil_append] at h1
  rw [shipped_nfc] at h1
  have key : ∀ b, validateLabels shipped chk flags b (splitDot (Normal.nfc (List.zipWith (replacement flags.transitionalProcessing) d ms).flatten)) true [] es' =
      .ok (s, es) → s.length < 2 ^ 32 - 1 := by
    intro b hb
    have h6 := validateLabels_length _ _ _ _ _ _ hb
    rw [mk_nfc'] at h6
    simp only [List.length_nil, Nat.zero_add] at h6
    omega
  split at h1
  · rw [bind_eq_ok] at h1
    obtain ⟨b, _, h1⟩ := h1
    exact key b h1
  · rw [bind_ok] at h1
    exact key _ h1

end Proofs.Idna
