import Verif.Proofs.PunycodeInv
import Verif.Spec.Rfc3492

/-! The model's decoder against RFC 3492. -/
namespace Proofs.Punycode
open Model Model.Punycode Spec.Rfc3492

theorem digit_eq (c : Nat) : digitValue c = Spec.Rfc3492.digit c := by
  unfold digitValue Spec.Rfc3492.digit
  split_ifs <;> first | rfl | omega | (congr 1; omega)

theorem threshold_eq (k bias : Nat) : tN k bias = Spec.Rfc3492.threshold k bias := by
  unfold tN Spec.Rfc3492.threshold
  split_ifs <;> omega

theorem scale_eq (delta : Nat) : scale delta = if delta > 455 then ((scale (delta / 35)).1, (scale (delta / 35)).2 + 36) else (delta, 0) := by
  rw [scale]

theorem adaptLoop_scale (fuel : Nat) : ∀ delta k j, delta < fuel → delta ≤ 455 * 35 ^ j → k + 36 * j ≤ 1000 →
    ∀ chk, adaptLoop chk fuel delta k = .ok ((scale delta).1, k + (scale delta).2) := by
  induction fuel with
  | zero => intro delta k j h; omega
  | succ fuel ih =>
    intro delta k j hf hd hk chk
    rw [scale_eq]
    unfold adaptLoop
    by_cases h : delta > 455
    · obtain ⟨j, rfl⟩ : ∃ j', j = j' + 1 := by
        cases j with
        | zero => omega
        | succ j => exact ⟨j, rfl⟩
      rw [if_pos (by simpa [BASE, T_MIN, T_MAX] using h), add32_ok (by simp only [u32Max, BASE]; omega), bind_ok, if_pos h]
      have := ih (delta / 35) (k + 36) j (by omega)
        (by rw [Nat.div_le_iff_le_mul_add_pred (by omega)]; rw [pow_succ] at hd; omega) (by omega) chk
      rw [show delta / (BASE - T_MIN) = delta / 35 from rfl, show k + BASE = k + 36 from rfl, this]
      simp only [Nat.add_assoc, Nat.add_comm 36]
    · rw [if_neg (by simpa [BASE, T_MIN, T_MAX] using h), if_neg h]; rfl

theorem adapt_eq {delta np : Nat} (hd : delta ≤ u32Max) (hn : 1 ≤ np) (ft : Bool) (chk : Bool) :
    Model.Punycode.adapt chk delta np ft = .ok (Spec.Rfc3492.adapt delta np ft) := by
  obtain ⟨b, hb, h⟩ := adapt_ok hd hn ft
  rw [h chk]
  simp only [u32Max] at hd
  have h0 : delta / (if ft then DAMP else 2) ≤ 2147483647 := by
    cases ft <;> simp [DAMP] <;> omega
  have hsp : Spec.Rfc3492.adapt delta np ft =
      (scale (delta / (if ft then DAMP else 2) + delta / (if ft then DAMP else 2) / np)).2 +
      36 * (scale (delta / (if ft then DAMP else 2) + delta / (if ft then DAMP else 2) / np)).1 /
        ((scale (delta / (if ft then DAMP else 2) + delta / (if ft then DAMP else 2) / np)).1 + 38) := by
    cases ft <;> rfl
  rw [hsp]
  have hh := h chk
  unfold Model.Punycode.adapt at hh
  generalize delta / (if ft then DAMP else 2) = d at *
  have h1 : d / np ≤ d := Nat.div_le_self _ _
  obtain ⟨d', k', h2, h3, h4⟩ := adaptLoop_ok (d + d / np + 1) (d + d / np) 0 5 (by omega) (by norm_num; omega) (by omega)
  have h5 := adaptLoop_scale (d + d / np + 1) (d + d / np) 0 5 (by omega) (by norm_num; omega) (by omega) chk
  have h6 := h4 chk
  rw [h5] at h6
  simp only [Outcome.ok.injEq, Prod.mk.injEq, Nat.zero_add] at h6
  obtain ⟨e1, e2⟩ := h6
  rw [e1, e2]
  have : (36 * d') / (d' + 38) ≤ 36 := by
    rw [Nat.div_le_iff_le_mul_add_pred (by omega)]; omega
  simp only at hh
  rw [div32_ok (by omega), bind_ok, add32_ok (by simp only [u32Max]; omega), bind_ok, h4, bind_ok] at hh
  simp only at hh
  rw [mul32_ok (by simp only [u32Max, BASE, T_MIN]; omega), bind_ok, add32_ok (by simp only [u32Max, SKEW]; omega), bind_ok,
    div32_ok (by simp only [SKEW]; omega), bind_ok] at hh
  have e : (BASE - T_MIN + 1) * d' / (d' + SKEW) = (36 * d') / (d' + 38) := rfl
  rw [e, add32_ok (by simp only [u32Max]; omega)] at hh
  exact hh.symm

theorem adapt_le {delta np : Nat} (hd : delta ≤ u32Max) (hn : 1 ≤ np) (ft : Bool) : Spec.Rfc3492.adapt delta np ft ≤ 216 := by
  obtain ⟨b, hb, h⟩ := adapt_ok hd hn ft
  have := (h true).symm.trans (adapt_eq hd hn ft true)
  injection this with this
  omega

theorem decodeInt_number {chk bias} (hb : bias ≤ 216) : ∀ (bytes : List Nat) {i w k j i' rest}, WK j w k → i ≤ u32Max →
    (decodeInt chk bias bytes i w k = .ok (some (i', rest)) ↔
      ∃ used v, bytes = used ++ rest ∧ Number bias k w used v ∧ i' = i + v ∧ i' ≤ u32Max) := by
  intro bytes
  induction bytes with
  | nil =>
    intro i w k j i' rest _ _
    constructor
    · intro h; cases h
    · rintro ⟨used, v, h1, h2, -⟩
      cases h2 <;> simp at h1
  | cons b bytes ih =>
    intro i w k j i' rest hwk hi
    cases hd : digitValue b with
    | none =>
      constructor
      · intro h; unfold decodeInt at h; rw [hd] at h; cases h
      · rintro ⟨used, v, h1, h2, -⟩
        rw [digit_eq] at hd
        cases h2 with
        | last h3 _ => simp at h1; rw [← h1.1, hd] at h3; cases h3
        | more h3 _ _ => simp at h1; rw [← h1.1, hd] at h3; cases h3
    | some d =>
      rw [decodeInt_step hb hwk hi hd]
      have hd' := hd
      rw [digit_eq] at hd'
      constructor
      · intro h
        split_ifs at h with h1 h2 h3
        · cases h
        · simp only [Outcome.ok.injEq, Option.some.injEq, Prod.mk.injEq] at h
          obtain ⟨rfl, rfl⟩ := h
          refine ⟨[b], d * w, rfl, .last hd' (by rw [← threshold_eq]; exact h2), rfl, by omega⟩
        · cases h
        · obtain ⟨used, v, e1, e2, e3, e4⟩ := (ih (hwk.next (bias := bias) (by omega)) (i := i + d * w) (by omega)).mp h
          refine ⟨b :: used, d * w + v, by rw [e1]; rfl, .more hd' (by rw [← threshold_eq]; omega) ?_, by omega, e4⟩
          rw [← threshold_eq]; exact e2
      · rintro ⟨used, v, h1, h2, h3, h4⟩
        cases h2 with
        | @last _ _ c d' e1 e2 =>
          simp only [List.cons_append, List.nil_append, List.cons.injEq] at h1
          obtain ⟨rfl, rfl⟩ := h1
          rw [hd'] at e1
          injection e1 with e1; subst e1
          rw [← threshold_eq] at e2
          rw [if_neg (by omega), if_pos e2, h3]
        | @more _ _ c d' cs v' e1 e2 e3 =>
          simp only [List.cons_append, List.cons.injEq] at h1
          obtain ⟨rfl, rfl⟩ := h1
          rw [hd'] at e1
          injection e1 with e1; subst e1
          rw [← threshold_eq] at e2 e3
          have hw := hwk.cont hb e2 (by omega : d * w ≤ u32Max)
          rw [if_neg (by omega), if_neg (by omega), if_neg (by omega)]
          exact (ih (hwk.next (bias := bias) hw) (i := i + d * w) (by omega)).mpr ⟨cs, v', rfl, e3, by omega, h4⟩

theorem number_ne_nil {bias k w cs v} (h : Number bias k w cs v) : cs ≠ [] := by cases h <;> simp

/-- every character of the text stays in it -/
theorem inserts_mem {lim n i bias out cs s} (h : Inserts lim n i bias out cs s) : ∀ c ∈ out, c ∈ s := by
  induction h with
  | done => exact fun c hc => hc
  | @step n i bias out cs rest v s hn hi hr ih =>
    intro c hc
    apply ih
    rw [← List.take_append_drop ((i + v) % (out.length + 1)) out, List.mem_append] at hc
    rw [List.mem_append, List.mem_cons]
    tauto

theorem decodeLoop_inserts {chk} : ∀ (fuel : Nat) (bytes out : List Nat) (n bias i : Nat), bytes.length < fuel →
    out.length + bytes.length ≤ u32Max → n ≤ u32Max → bias ≤ 216 → i ≤ u32Max → (∀ c ∈ out, Spec.IsScalar c) → ∀ s,
    (decodeLoop chk fuel bytes out n bias i = .ok (some s) ↔
      Inserts u32Max n i bias out bytes s ∧ ∀ c ∈ s, Spec.IsScalar c) := by
  intro fuel
  induction fuel with
  | zero => intro bytes out n bias i h; omega
  | succ fuel ih =>
    intro bytes out n bias i hf hL hn hb hi hs s
    by_cases hne : bytes = []
    · subst hne
      rw [decodeLoop_nil]
      constructor
      · intro h
        simp only [Outcome.ok.injEq, Option.some.injEq] at h
        rw [← h]; exact ⟨.done, hs⟩
      · rintro ⟨h, -⟩
        generalize hx : ([] : List Nat) = x at h
        cases h with
        | done => rfl
        | step hN _ _ =>
          have := number_ne_nil hN
          simp at hx; exact absurd hx.1 this
    · have hpos : 1 ≤ bytes.length := by
        cases bytes with
        | nil => exact absurd rfl hne
        | cons => simp
      have step : ∀ used v rest, bytes = used ++ rest → Number bias 36 1 used v → i + v ≤ u32Max →
          (decodeLoop chk (fuel + 1) bytes out n bias i = .ok (some s) ↔
            Inserts u32Max (n + (i + v) / (out.length + 1)) ((i + v) % (out.length + 1) + 1) (Spec.Rfc3492.adapt v (out.length + 1) (i == 0))
              (out.take ((i + v) % (out.length + 1)) ++ (n + (i + v) / (out.length + 1)) :: out.drop ((i + v) % (out.length + 1))) rest s ∧
              ∀ c ∈ s, Spec.IsScalar c) := by
        intro used v rest e hN hv
        have hI := (decodeInt_number (chk := chk) hb bytes WK.init hi (i' := i + v) (rest := rest)).mpr ⟨used, v, e, hN, rfl, hv⟩
        have hu := number_ne_nil hN
        have hul : 1 ≤ used.length := List.length_pos_iff.mpr hu
        have hlen : bytes.length = used.length + rest.length := by rw [e, List.length_append]
        have hA := adapt_eq (delta := i + v - i) (np := out.length + 1) (by omega) (by omega) (i == 0) chk
        rw [show i + v - i = v by omega] at hA
        rw [decodeLoop_step hne hI (by omega) hv (by omega) hn (by rw [show i + v - i = v by omega]; exact hA)]
        have hm : (i + v) % (out.length + 1) < out.length + 1 := Nat.mod_lt _ (by omega)
        have hmem : ∀ {m k b ds}, Inserts u32Max m k b (out.take ((i + v) % (out.length + 1)) ++ (n + (i + v) / (out.length + 1)) :: out.drop ((i + v) % (out.length + 1))) ds s →
            (n + (i + v) / (out.length + 1)) ∈ s := fun h => inserts_mem h _ (by simp)
        by_cases hov : u32Max < n + (i + v) / (out.length + 1)
        · rw [if_pos hov]
          refine ⟨fun h => (by cases h), ?_⟩
          rintro ⟨h1, h2⟩
          have := h2 _ (hmem h1)
          unfold Spec.IsScalar at this
          simp only [u32Max] at hov
          omega
        · rw [if_neg hov]
          cases hc : Utf.charFromU32 (n + (i + v) / (out.length + 1)) with
          | none =>
            refine ⟨fun h => (by cases h), ?_⟩
            rintro ⟨h1, h2⟩
            rw [charFromU32_some (h2 _ (hmem h1))] at hc
            cases hc
          | some c =>
            obtain ⟨hc1, hc2⟩ := charFromU32_eq hc
            subst hc1
            simp only
            have hlen : (out.take ((i + v) % (out.length + 1)) ++ (n + (i + v) / (out.length + 1)) :: out.drop ((i + v) % (out.length + 1))).length = out.length + 1 := by
              simp; omega
            exact ih rest _ _ _ _ (by omega) (by omega) (by omega) (adapt_le (by omega) (by omega) _) (by omega) (by
                intro x hx
                rw [List.mem_append, List.mem_cons] at hx
                rcases hx with hx | rfl | hx
                · exact hs x (List.mem_of_mem_take hx)
                · exact hc2
                · exact hs x (List.mem_of_mem_drop hx)) s
      constructor
      · intro h
        rcases decodeInt_total (chk := chk) hb bytes WK.init hi with h' | ⟨i', rest, h', -, -, -, -⟩
        · rw [decodeLoop, if_neg (by simpa using hne), h'] at h; cases h
        · obtain ⟨used, v, e1, e2, rfl, e4⟩ := (decodeInt_number (chk := chk) hb bytes WK.init hi).mp h'
          obtain ⟨h1, h2⟩ := (step used v rest e1 e2 e4).mp h
          refine ⟨?_, h2⟩
          rw [e1]
          exact .step e2 e4 h1
      · rintro ⟨h1, h2⟩
        generalize hx : bytes = x at h1
        cases h1 with
        | done => exact absurd hx hne
        | @step _ _ _ _ cs rest v _ hN hv hr => exact (hx ▸ step cs v rest hx hN hv).mpr ⟨hr, h2⟩

/-- the bytes of a text that is not ASCII decode to nothing -/
theorem inserts_ascii {lim n i bias out cs s} (h : Inserts lim n i bias out cs s) : ∀ c ∈ cs, c < 0x80 := by
  have hd : ∀ c d, digit c = some d → c < 0x80 := by
    intro c d h; unfold digit at h; split_ifs at h <;> omega
  have hn : ∀ {k w cs v} {bias : Nat}, Number bias k w cs v → ∀ c ∈ cs, c < 0x80 := by
    intro k w cs v bias h
    induction h with
    | last h _ => intro c hc; rw [List.mem_singleton.mp hc]; exact hd _ _ h
    | more h _ _ ih =>
      intro c hc
      rcases List.mem_cons.mp hc with rfl | hc
      · exact hd _ _ h
      · exact ih c hc
  induction h with
  | done => intro c hc; cases hc
  | step h1 _ _ ih =>
    intro c hc
    rcases List.mem_append.mp hc with hc | hc
    · exact hn h1 c hc
    · exact ih c hc

/-- Short texts do not need large integers. -/
theorem inserts_lim {lim n i bias out cs s} (h : Inserts lim n i bias out cs s) (hs : ∀ c ∈ s, Spec.IsScalar c) (hl : s.length ≤ 3855)
    (hn : 0x80 ≤ n) : out.length ≤ s.length ∧ Inserts u32Max n i bias out cs s := by
  induction h with
  | done => exact ⟨Nat.le_refl _, .done⟩
  | @step n i bias out cs rest v s hN hv hr ih =>
    obtain ⟨h1, h2⟩ := ih hs hl (by have := Nat.zero_le ((i + v) / (out.length + 1)); exact Nat.le_trans hn (Nat.le_add_right _ _))
    have hm : (i + v) % (out.length + 1) < out.length + 1 := Nat.mod_lt _ (by omega)
    have hlen : (out.take ((i + v) % (out.length + 1)) ++ (n + (i + v) / (out.length + 1)) :: out.drop ((i + v) % (out.length + 1))).length = out.length + 1 := by
      simp; omega
    refine ⟨by omega, .step hN ?_ h2⟩
    have hc := hs _ (inserts_mem hr (n + (i + v) / (out.length + 1)) (by simp))
    unfold Spec.IsScalar at hc
    have hdm := Nat.div_add_mod (i + v) (out.length + 1)
    have : (out.length + 1) * ((i + v) / (out.length + 1)) ≤ 3855 * 1113983 := Nat.mul_le_mul (by omega) (by omega)
    simp only [u32Max]
    omega

end Proofs.Punycode
