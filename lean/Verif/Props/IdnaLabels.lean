import Verif.Spec.IdnaLabels
import Verif.Proofs.IdnaLabels
import Verif.Props.IdnaErrors
import Verif.Props.NormalText

/-! # C89: a name is converted label by label

`x ++ c :: y` is the name `x`, a label separator, and the name `y`. -/
namespace Props.IdnaLabels
open Model Model.Idna Model.IdnaMapping Data Spec.Idna Proofs.Idna Proofs.IdnaLabels Props.Idna

theorem composed_inert {cc : Nat → Nat} {comp : Nat → Nat → Option Nat} {x : Nat} (v : List Nat) (h0 : cc x = 0) (h : ∀ d, comp x d = none) :
    Spec.Normal.composed cc comp (x :: v) = x :: Spec.Normal.composed cc comp v := by
  have key : ∀ (v : List Nat) (w w' : Spec.Normal.Walk), ((∃ a, w = ⟨[], some x, a⟩ ∧ w' = ⟨a, none, []⟩) ∨ ∃ b s a, w = ⟨x :: b, some s, a⟩ ∧ w' = ⟨b, some s, a⟩) →
      (v.foldl (Spec.Normal.walkStep cc comp) w).text = x :: (v.foldl (Spec.Normal.walkStep cc comp) w').text := by
    intro v
    induction v with
    | nil => rintro w w' (⟨a, rfl, rfl⟩ | ⟨b, s, a, rfl, rfl⟩) <;> simp [Spec.Normal.Walk.text]
    | cons c v ih =>
      intro w w' hw
      rw [List.foldl_cons, List.foldl_cons]
      apply ih
      rcases hw with ⟨a, rfl, rfl⟩ | ⟨b, s, a, rfl, rfl⟩
      · have h1 : Spec.Normal.walkStep cc comp ⟨[], some x, a⟩ c = if cc c = 0 then ⟨x :: a, some c, []⟩ else ⟨[], some x, a ++ [c]⟩ := by
          unfold Spec.Normal.walkStep
          simp only [h]
          (repeat' split) <;> simp [Spec.Normal.Walk.text]
        have h2 : Spec.Normal.walkStep cc comp ⟨a, none, []⟩ c = if cc c = 0 then ⟨a, some c, []⟩ else ⟨a ++ [c], none, []⟩ := by
          unfold Spec.Normal.walkStep
          (repeat' split) <;> simp_all [Spec.Normal.Walk.text]
        rw [h1, h2]
        by_cases hc : cc c = 0
        · rw [if_pos hc, if_pos hc]; exact .inr ⟨a, c, [], rfl, rfl⟩
        · rw [if_neg hc, if_neg hc]; exact .inl ⟨a ++ [c], rfl, rfl⟩
      · right
        unfold Spec.Normal.walkStep
        simp only
        have hret : ∃ b' s' a', (if cc c = 0 then (⟨(⟨x :: b, some s, a⟩ : Spec.Normal.Walk).text, some c, []⟩ : Spec.Normal.Walk) else ⟨x :: b, some s, a ++ [c]⟩) = ⟨x :: b', some s', a'⟩ ∧
            (if cc c = 0 then (⟨(⟨b, some s, a⟩ : Spec.Normal.Walk).text, some c, []⟩ : Spec.Normal.Walk) else ⟨b, some s, a ++ [c]⟩) = ⟨b', some s', a'⟩ := by
          by_cases hc : cc c = 0
          · rw [if_pos hc, if_pos hc]; exact ⟨_, c, [], rfl, rfl⟩
          · rw [if_neg hc, if_neg hc]; exact ⟨b, s, a ++ [c], rfl, rfl⟩
        split
        · exact hret
        · split
          · rename_i p _; exact ⟨b, p, a, rfl, rfl⟩
          · exact hret
  have hstep : Spec.Normal.walkStep cc comp ⟨[], none, []⟩ x = ⟨[], some x, []⟩ := by
    unfold Spec.Normal.walkStep
    simp [h0, Spec.Normal.Walk.text]
  rw [Spec.Normal.composed, List.foldl_cons, hstep, Spec.Normal.composed]
  exact key v _ _ (.inl ⟨[], rfl, rfl⟩)

theorem compose_dot (d : Nat) : UcdNormal.compose 0x2E d = none := by
  cases h : UcdNormal.compose 0x2E d with
  | none => rfl
  | some c =>
    exfalso
    rcases Proofs.NormalGood.compose_cases h with ⟨h1, _, _⟩ | ⟨h1, _, _, _⟩ | h1
    · have := h1.1; omega
    · have := h1.1; omega
    · have h2 : (Proofs.Chunked.lookupCD Data.canonicalComposition 0x2E).isNone = true := by decide +kernel
      unfold Proofs.DecompData.compC at h1
      cases h3 : Proofs.Chunked.lookupCD Data.canonicalComposition 0x2E with
      | none => rw [h3] at h1; cases h1
      | some l => rw [h3] at h2; cases h2

theorem nfc_stop (a b : List Nat) : Normal.nfc (a ++ 0x2E :: b) = Normal.nfc a ++ 0x2E :: Normal.nfc b := by
  have h1 : Normal.nfc (0x2E :: b) = 0x2E :: Normal.nfc b := by
    have h0 : Ucd.combiningClass 0x2E = 0 := Proofs.DecompData.ccc_zero 0x2E (.inl (by omega))
    have hn : Normal.nfd (0x2E :: b) = 0x2E :: Normal.nfd b := by
      rw [Props.Normal.nfd_eq, Props.Normal.nfd_eq, Proofs.NormalAlg.nd, List.flatMap_cons, Proofs.NormalGood.D_ascii false (by omega), List.singleton_append, Proofs.CanonOrder.order_starter_cons h0]
      rfl
    rw [(Props.Normal.c14_nfc _).1, (Props.Normal.c14_nfc b).1, hn, composed_inert _ h0 compose_dot]
  rw [(Props.NormalText.c50_ascii a b 0x2E (by omega)).2.2.1, h1]

theorem mk_nfc (m : Nat → Outcome Mapping) (n : List Nat → List Nat) (b : Nat → BidiClass) (k : Nat → Bool) : (Deps.mk m n b k).nfc = n := rfl
theorem mk_bidi (m : Nat → Outcome Mapping) (n : List Nat → List Nat) (b : Nat → BidiClass) (k : Nat → Bool) : (Deps.mk m n b k).bidi = b := rfl

theorem nfc_dot (a b : List Nat) : shipped.nfc (a ++ 0x2E :: b) = shipped.nfc a ++ 0x2E :: shipped.nfc b := by
  unfold shipped
  rw [mk_nfc, nfc_stop]

theorem shipped_bidi : shipped.bidi = Ucd.bidiClass := by
  unfold shipped
  rw [mk_bidi]

theorem stop_list : separators.all (fun c =>
    (match depsC.mapping c with | .ok .Valid => c == 0x2E | .ok (.Mapped r) => r == [0x2E] | _ => false) && !isRtlChar depsC c) = true := by decide +kernel

theorem stop {f : Flags} {c : Nat} (hc : c ∈ separators) : Stop shipped f c := by
  rw [shipped_eq]
  have := List.all_eq_true.1 stop_list c hc
  simp only [Bool.and_eq_true, Bool.not_eq_true'] at this
  refine ⟨?_, this.2⟩
  have h := this.1
  split at h
  · rename_i hm
    simp only [beq_iff_eq] at h
    subst h
    exact ⟨_, hm, rfl, rfl⟩
  · rename_i r hm
    simp only [beq_iff_eq] at h
    subst h
    exact ⟨_, hm, rfl, rfl⟩
  · cases h

theorem guess_iff {chk : Bool} {f : Flags} {x : List Nat} {ms : List Mapping} (hms : List.Forall₂ (fun c m => shipped.mapping c = .ok m) x ms) :
    BidiGuess (tables shipped chk) x (splitDot (Norm shipped f x ms)) ↔ TakenForBidi (data chk) f.transitionalProcessing x := by
  rw [← tables_shipped]
  constructor
  · intro h; exact ⟨ms, _, hms, splitDot_labels _, h⟩
  · rintro ⟨ms', parts, h1, h2, h3⟩
    obtain rfl := status_fun h1 hms
    rw [labels_iff.1 h2] at h3
    exact h3

/-- **C89.** If `to_unicode` converts two names, it converts them also with a label separator between them. The text is that of the two with a
full stop between; no error of the two is lost; and the errors are those of the two, in some order, if the program takes both for Bidi names or neither. -/
theorem c89_to_unicode (chk : Bool) (x y : List Nat) (c : Nat) (flags : Flags) (hc : c ∈ separators) (sx sy : List Nat) (ex ey : List Error)
    (hx : toUnicode chk x flags = .ok (sx, ex)) (hy : toUnicode chk y flags = .ok (sy, ey)) :
    ∃ es, toUnicode chk (x ++ c :: y) flags = .ok (sx ++ 0x2E :: sy, es) ∧ (∀ e, (ex ++ ey).count e ≤ es.count e) ∧
      ((TakenForBidi (data chk) false x ↔ TakenForBidi (data chk) false y) → es.Perm (ex ++ ey)) := by
  rw [toUnicode, toUnicodeWith] at hx hy ⊢
  obtain ⟨es, h1, h2, h3⟩ := processing_two nfc_dot (stop hc) hx hy
  refine ⟨es, h1, h2, fun hg => h3 fun ms ms' hm hm' => ?_⟩
  rw [guess_iff hm, guess_iff hm']
  exact hg

theorem not_taken {chk : Bool} {x s : List Nat} {flags : Flags} {es : List Error} (h : toUnicode chk x flags = .ok (s, es))
    (hr : ∀ c ∈ x ++ s, ¬ Rtl Ucd.bidiClass c) (he : Error.PunycodeError ∉ es) : ¬ TakenForBidi (data chk) false x := by
  rw [toUnicode, toUnicodeWith] at h
  obtain ⟨ms, _, _, _, hms, _⟩ := processing_ok h
  intro ht
  have hs := guess_seen h hms ((guess_iff hms).2 ht)
  rw [shipped_bidi] at hs
  rcases hs with ⟨c, hc, h1⟩ | h1 | ⟨c, hc, h1⟩
  · exact hr c (List.mem_append.2 (.inl hc)) h1
  · exact he h1
  · exact hr c (List.mem_append.2 (.inr hc)) h1

theorem guess_of {u : Deps} {chk : Bool} {x : List Nat} {p : List (List Nat)} (h : ∃ c ∈ x, Rtl u.bidi c) : BidiGuess (tables u chk) x p := .inl h

theorem taken {chk : Bool} {x s : List Nat} {flags : Flags} {es : List Error} (h : toUnicode chk x flags = .ok (s, es))
    (hr : ∃ c ∈ x, Rtl Ucd.bidiClass c) : TakenForBidi (data chk) false x := by
  rw [toUnicode, toUnicodeWith] at h
  obtain ⟨ms, _, _, _, hms, _⟩ := processing_ok h
  rw [← shipped_bidi] at hr
  exact (guess_iff (f := { flags with transitionalProcessing := false }) hms).1 (guess_of hr)

/-- **C89.** In particular, if both names have right-to-left characters, or there are none in the names and their conversions and all labels
decode, the name with a separator converts without error exactly when both names do. -/
theorem c89_success (chk : Bool) (x y : List Nat) (c : Nat) (flags : Flags) (hc : c ∈ separators) (sx sy : List Nat) (ex ey : List Error)
    (hx : toUnicode chk x flags = .ok (sx, ex)) (hy : toUnicode chk y flags = .ok (sy, ey))
    (h : ((∃ a ∈ x, Rtl Ucd.bidiClass a) ∧ ∃ a ∈ y, Rtl Ucd.bidiClass a) ∨
      ((∀ a ∈ x ++ sx ++ y ++ sy, ¬ Rtl Ucd.bidiClass a) ∧ Error.PunycodeError ∉ ex ++ ey)) :
    toUnicode chk (x ++ c :: y) flags = .ok (sx ++ 0x2E :: sy, []) ↔ ex = [] ∧ ey = [] := by
  obtain ⟨es, h1, _, h3⟩ := c89_to_unicode chk x y c flags hc sx sy ex ey hx hy
  have hg : TakenForBidi (data chk) false x ↔ TakenForBidi (data chk) false y := by
    rcases h with ⟨a, b⟩ | ⟨a, b⟩
    · exact ⟨fun _ => taken hy b, fun _ => taken hx a⟩
    · rw [List.mem_append, not_or] at b
      exact iff_of_false (not_taken hx (fun c hc => a c (by simp only [List.mem_append] at hc ⊢; tauto)) b.1)
        (not_taken hy (fun c hc => a c (by simp only [List.mem_append] at hc ⊢; tauto)) b.2)
  rw [h1]
  simp only [Outcome.ok.injEq, Prod.mk.injEq, true_and]
  have := h3 hg
  constructor
  · intro he
    rw [he] at this
    simpa using this.symm
  · rintro ⟨rfl, rfl⟩
    simpa using this

/-- The condition is needed: "0a" is a name, and so is "א", but "0a.א" is not, as a label of a Bidi name does not begin with a digit. -/
theorem c89_bidi_false : ¬ ∀ (chk : Bool) (x y : List Nat) (flags : Flags) (sx sy : List Nat), toUnicode chk x flags = .ok (sx, []) →
    toUnicode chk y flags = .ok (sy, []) → toUnicode chk (x ++ 0x2E :: y) flags = .ok (sx ++ 0x2E :: sy, []) := by
  intro h
  have := h true [0x30, 0x61] [0x5D0] f101 [0x30, 0x61] [0x5D0]
  rw [toUnicode, toUnicode, toUnicode, shipped_eq] at this
  revert this
  decide +kernel

theorem errs_eq : errs = errorsOf := by funext r; cases r <;> rfl

/-- **C89.** If `to_ascii` without the check of lengths returns for two names, it returns for the name made of them with a separator between; it
succeeds only if it does for both, with the ASCII forms of the two and a full stop between; and, if the program takes both for Bidi names or neither,
it succeeds if it does for both, and its errors are those of the two in some order. -/
theorem c89_to_ascii (chk : Bool) (x y : List Nat) (c : Nat) (flags : Flags) (hc : c ∈ separators) (hf : flags.verifyDnsLength = false)
    (rx ry : Except (List Error) (List Nat)) (hx : toAscii chk x flags = .ok rx) (hy : toAscii chk y flags = .ok ry) :
    ∃ r, toAscii chk (x ++ c :: y) flags = .ok r ∧ (∀ e, (errorsOf rx ++ errorsOf ry).count e ≤ (errorsOf r).count e) ∧
      (∀ a, r = .ok a → ∃ ax ay, rx = .ok ax ∧ ry = .ok ay ∧ a = ax ++ 0x2E :: ay) ∧
      ((TakenForBidi (data chk) flags.transitionalProcessing x ↔ TakenForBidi (data chk) flags.transitionalProcessing y) →
        (errorsOf r).Perm (errorsOf rx ++ errorsOf ry) ∧ ∀ ax ay, rx = .ok ax → ry = .ok ay → r = .ok (ax ++ 0x2E :: ay)) := by
  rw [toAscii] at hx hy ⊢
  obtain ⟨r, h1, h2, h3, h4⟩ := toAscii_two nfc_dot hf (stop hc) hx hy
  rw [errs_eq] at h2 h4
  refine ⟨r, h1, h2, h3, fun hg => h4 fun ms ms' hm hm' => ?_⟩
  rw [guess_iff hm, guess_iff hm']
  exact hg

theorem verify_iff (chk : Bool) (d : List Nat) (flags : Flags) (r : List Nat) : toAscii chk d flags = .ok (.ok r) ↔
    toAscii chk d { flags with verifyDnsLength := false } = .ok (.ok r) ∧ (flags.verifyDnsLength = true → DnsLength r) := by
  rw [c52_to_ascii, c52_to_ascii]
  constructor
  · rintro ⟨b, m, p, l, h1, h2, o, h3, h4, h5⟩
    exact ⟨⟨b, m, p, l, h1, h2, o, h3, h4, by simp⟩, h5⟩
  · rintro ⟨⟨b, m, p, l, h1, h2, o, h3, h4, _⟩, h5⟩
    exact ⟨b, m, p, l, h1, h2, o, h3, h4, h5⟩

theorem labels_two {a b : List Nat} {la lb : List (List Nat)} (ha : Labels a la) (hb : Labels b lb) : Labels (a ++ 0x2E :: b) (la ++ lb) := by
  rw [labels_iff] at ha hb ⊢
  rw [splitDot_two, ha, hb]

/-- **C89.** With the check of lengths: if `to_ascii` succeeds for both names, the first has no final full stop and both together are not too long,
it succeeds for the name made of them, if the program takes both for Bidi names or neither. -/
theorem c89_lengths (chk : Bool) (x y : List Nat) (c : Nat) (flags : Flags) (hc : c ∈ separators) (ax ay : List Nat)
    (hx : toAscii chk x flags = .ok (.ok ax)) (hy : toAscii chk y flags = .ok (.ok ay)) (hl : ax.length + 1 + ay.length ≤ 253) (hd : ax.getLast? ≠ some 0x2E)
    (hg : TakenForBidi (data chk) flags.transitionalProcessing x ↔ TakenForBidi (data chk) flags.transitionalProcessing y) :
    toAscii chk (x ++ c :: y) flags = .ok (.ok (ax ++ 0x2E :: ay)) := by
  rw [verify_iff] at hx hy ⊢
  constructor
  · obtain ⟨r, h1, _, _, h4⟩ := c89_to_ascii chk x y c { flags with verifyDnsLength := false } hc rfl _ _ hx.1 hy.1
    rw [h1, (h4 hg).2 ax ay rfl rfl]
  · intro hv
    obtain ⟨n, ls, h1, h2, h3, h4⟩ := hx.2 hv
    obtain ⟨n', ls', h1', h2', h3', h4'⟩ := hy.2 hv
    have hn : ax = n := by
      rcases h1 with h | h
      · exact h
      · rw [h] at hd; simp at hd
    subst hn
    refine ⟨ax ++ 0x2E :: n', ls ++ ls', ?_, labels_two h2 h2', ?_, ?_⟩
    · rcases h1' with h | h
      · left; rw [h]
      · right; rw [h]; simp
    · intro l hl
      rcases List.mem_append.1 hl with h | h
      · exact h3 l h
      · exact h3' l h
    · rw [List.length_append, List.length_cons]
      rcases h1' with h | h
      · rw [h] at hl; omega
      · rw [h, List.length_append] at hl; omega

/-- "Bücher。de": the two names, the conditions, and the result -/
example : toUnicode true [0x42, 0xFC] f101 = .ok ([0x62, 0xFC], []) ∧ toUnicode true [0x64, 0x65] f101 = .ok ([0x64, 0x65], []) ∧
    (∀ a ∈ [0x42, 0xFC, 0x62, 0xFC, 0x64, 0x65], depsC.bidi a = .LeftToRight) ∧
    toUnicode true ([0x42, 0xFC] ++ 0x3002 :: [0x64, 0x65]) f101 = .ok ([0x62, 0xFC, 0x2E, 0x64, 0x65], []) ∧
    toAscii true ([0x42, 0xFC] ++ 0x3002 :: [0x64, 0x65]) f101 = .ok (.ok [0x78, 0x6E, 0x2D, 0x2D, 0x62, 0x2D, 0x65, 0x68, 0x61, 0x2E, 0x64, 0x65]) := by
  rw [toUnicode, toUnicode, toUnicode, toAscii, shipped_eq]
  decide +kernel

/-- two names with right-to-left characters -/
example : depsC.bidi 0x5D0 = .RightToLeft ∧ depsC.bidi 0x628 = .ArabicLetter ∧ toUnicode true [0x5D0] f101 = .ok ([0x5D0], []) ∧
    toUnicode true [0x628] f101 = .ok ([0x628], []) ∧ toUnicode true ([0x5D0] ++ 0xFF61 :: [0x628]) f101 = .ok ([0x5D0, 0x2E, 0x628], []) := by
  rw [toUnicode, toUnicode, toUnicode, shipped_eq]
  decide +kernel

/-- The errors are those of the two in another order: the character errors come first. -/
example : toUnicode true [0x2D, 0xE000] f101 = .ok ([0x2D, 0xE000], [.DissallowedCharacter, .ValidityCriteria]) ∧
    toUnicode true ([0x2D, 0xE000] ++ 0x2E :: [0x2D, 0xE000]) f101 =
      .ok ([0x2D, 0xE000, 0x2E, 0x2D, 0xE000], [.DissallowedCharacter, .DissallowedCharacter, .ValidityCriteria, .ValidityCriteria]) := by
  rw [toUnicode, toUnicode, shipped_eq]
  decide +kernel

end Props.IdnaLabels
