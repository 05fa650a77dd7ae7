import Verif.Model.Punycode
import Mathlib.Tactic.Ring
import Mathlib.Tactic.IntervalCases
import Mathlib.Tactic.SplitIfs
import Mathlib.Algebra.Order.Ring.Nat
import Mathlib.Tactic.Linarith

namespace Proofs.Punycode
open Model Model.Punycode

/-! ## Arithmetic that does not overflow -/

@[simp] theorem bind_ok {α β : Type} (a : α) (f : α → Outcome β) : (Outcome.ok a >>= f) = f a := rfl
@[simp] theorem bind_panic {α β : Type} (f : α → Outcome β) : ((Outcome.panic : Outcome α) >>= f) = Outcome.panic := rfl
@[simp] theorem pure_eq {α : Type} (a : α) : (pure a : Outcome α) = Outcome.ok a := rfl

theorem add32_ok {chk a b} (h : a + b ≤ u32Max) : add32 chk a b = .ok (a + b) := if_pos h
theorem mul32_ok {chk a b} (h : a * b ≤ u32Max) : mul32 chk a b = .ok (a * b) := if_pos h
theorem sub32_ok {chk a b} (h : b ≤ a) : sub32 chk a b = .ok (a - b) := if_pos h
theorem div32_ok {a b} (h : b ≠ 0) : div32 a b = .ok (a / b) := if_neg h
theorem rem32_ok {a b} (h : b ≠ 0) : rem32 a b = .ok (a % b) := if_neg h

/-- the threshold, without overflow -/
def tN (k bias : Nat) : Nat := if k ≤ bias then 1 else if bias + 26 ≤ k then 26 else k - bias

theorem tN_bounds (k bias : Nat) : 1 ≤ tN k bias ∧ tN k bias ≤ 26 := by
  unfold tN; split_ifs <;> omega

theorem threshold_ok {chk k bias} (hb : bias ≤ 216) : threshold chk k bias = .ok (tN k bias) := by
  unfold threshold tN
  by_cases h1 : k ≤ bias
  · rw [if_pos h1, if_pos h1]; rfl
  · rw [if_neg h1, if_neg h1, add32_ok (by simp only [u32Max, T_MAX]; omega), bind_ok]
    by_cases h2 : bias + 26 ≤ k
    · rw [if_pos h2, if_pos (by simpa [T_MAX] using h2)]; rfl
    · rw [if_neg h2, if_neg (by simpa [T_MAX] using h2)]

theorem adaptLoop_ok (fuel : Nat) : ∀ delta k j, delta < fuel → delta ≤ 455 * 35 ^ j → k + 36 * j ≤ 1000 →
    ∃ d' k', d' ≤ 455 ∧ k' ≤ k + 36 * j ∧ ∀ chk, adaptLoop chk fuel delta k = .ok (d', k') := by
  induction fuel with
  | zero => intro delta k j h; omega
  | succ fuel ih =>
    intro delta k j hf hd hk
    by_cases h : delta > 455
    · obtain ⟨j, rfl⟩ : ∃ j', j = j' + 1 := by
        cases j with
        | zero => omega
        | succ j => exact ⟨j, rfl⟩
      obtain ⟨d', k', h1, h2, h3⟩ := ih (delta / 35) (k + 36) j (by omega)
        (by rw [Nat.div_le_iff_le_mul_add_pred (by omega)]; rw [pow_succ] at hd; omega) (by omega)
      refine ⟨d', k', h1, by omega, fun chk => ?_⟩
      unfold adaptLoop
      rw [if_pos (by simpa [BASE, T_MIN, T_MAX] using h), add32_ok (by simp only [u32Max, BASE]; omega), bind_ok]
      exact h3 chk
    · refine ⟨delta, k, by omega, by omega, fun chk => ?_⟩
      unfold adaptLoop
      rw [if_neg (by simpa [BASE, T_MIN, T_MAX] using h)]

theorem adapt_ok {delta np : Nat} (hd : delta ≤ u32Max) (hn : 1 ≤ np) (ft : Bool) :
    ∃ b, b ≤ 216 ∧ ∀ chk, adapt chk delta np ft = .ok b := by
  simp only [u32Max] at hd
  have h0 : delta / (if ft then DAMP else 2) ≤ 2147483647 := by
    cases ft <;> simp [DAMP] <;> omega
  generalize hg : delta / (if ft then DAMP else 2) = d at h0
  have h1 : d / np ≤ d := Nat.div_le_self _ _
  obtain ⟨d', k', h2, h3, h4⟩ := adaptLoop_ok (d + d / np + 1) (d + d / np) 0 5 (by omega) (by norm_num; omega) (by omega)
  refine ⟨k' + (36 * d') / (d' + 38), ?_, fun chk => ?_⟩
  · have : (36 * d') / (d' + 38) ≤ 36 := by
      rw [Nat.div_le_iff_le_mul_add_pred (by omega)]; omega
    omega
  · have : (36 * d') / (d' + 38) ≤ 36 := by
      rw [Nat.div_le_iff_le_mul_add_pred (by omega)]; omega
    unfold adapt
    rw [hg]
    simp only
    rw [div32_ok (by omega), bind_ok, add32_ok (by simp only [u32Max]; omega), bind_ok, h4, bind_ok]
    simp only
    rw [mul32_ok (by simp only [u32Max, BASE, T_MIN]; omega), bind_ok, add32_ok (by simp only [u32Max, SKEW]; omega), bind_ok,
      div32_ok (by simp only [SKEW]; omega), bind_ok]
    have e : (BASE - T_MIN + 1) * d' / (d' + SKEW) = (36 * d') / (d' + 38) := rfl
    rw [e, add32_ok (by simp only [u32Max]; omega)]

/-! ## Digits -/

/-- the lower-case form of a digit byte -/
def lowerByte (b : Nat) : Nat := if 0x41 ≤ b ∧ b ≤ 0x5A then b + 32 else b

/-- the digits that `encode` writes -/
def IsDigit (b : Nat) : Prop := (0x61 ≤ b ∧ b ≤ 0x7A) ∨ (0x30 ≤ b ∧ b ≤ 0x39)

theorem valueToDigit_ok {v : Nat} (h : v < 36) : ∃ b, valueToDigit v = .ok b ∧ IsDigit b ∧ digitValue b = some v ∧ lowerByte b = b := by
  unfold valueToDigit
  by_cases h1 : v ≤ 25
  · refine ⟨v + 0x61, if_pos h1, Or.inl (by omega), ?_, ?_⟩
    · unfold digitValue
      rw [if_neg (by omega), if_neg (by omega), if_pos (by omega)]; congr 1
    · unfold lowerByte; rw [if_neg (by omega)]
  · refine ⟨v - 26 + 0x30, by rw [if_neg h1, if_pos (by omega)], Or.inr (by omega), ?_, ?_⟩
    · unfold digitValue
      rw [if_pos (by omega)]; congr 1; omega
    · unfold lowerByte; rw [if_neg (by omega)]

theorem digitValue_spec {b v : Nat} (h : digitValue b = some v) : v < 36 ∧ valueToDigit v = .ok (lowerByte b) ∧ b < 0x80 ∧ b ≠ DELIMITER := by
  unfold digitValue at h
  unfold valueToDigit lowerByte DELIMITER
  split_ifs at h with h1 h2 h3 <;> injection h with h <;> subst h
  · refine ⟨by omega, ?_, by omega, by omega⟩
    rw [if_neg (by omega), if_pos (by omega), if_neg (by omega)]; congr 1; omega
  · refine ⟨by omega, ?_, by omega, by omega⟩
    rw [if_pos (by omega), if_pos (by omega)]; congr 1; omega
  · refine ⟨by omega, ?_, by omega, by omega⟩
    rw [if_pos (by omega), if_neg (by omega)]; congr 1; omega

/-! ## Generalized variable-length integers -/

/-- `weight` after `j` digits, and the corresponding `k` -/
structure WK (j w k : Nat) : Prop where
  k_eq : k = 36 * (j + 1)
  lo : 10 ^ j ≤ w
  hi : w ≤ 35 ^ j
  le : w ≤ u32Max

theorem WK.j_le {j w k : Nat} (h : WK j w k) : j ≤ 9 := by
  by_contra hc
  have : 10 ^ 10 ≤ 10 ^ j := Nat.pow_le_pow_right (by omega) (by omega)
  have h1 := h.lo
  have h2 := h.le
  simp only [u32Max] at h2
  omega

theorem WK.pos {j w k : Nat} (h : WK j w k) : 1 ≤ w := Nat.le_trans (Nat.one_le_pow _ _ (by omega)) h.lo

theorem WK.init : WK 0 1 BASE := ⟨rfl, by norm_num, by norm_num, by norm_num [u32Max]⟩

theorem WK.next {j w k bias : Nat} (h : WK j w k) (hw : w * (36 - tN k bias) ≤ u32Max) :
    WK (j + 1) (w * (36 - tN k bias)) (k + 36) := by
  have ht := tN_bounds k bias
  refine ⟨by rw [h.k_eq]; ring, ?_, ?_, hw⟩
  · rw [pow_succ]; exact Nat.mul_le_mul h.lo (by omega)
  · rw [pow_succ]; exact Nat.mul_le_mul h.hi (by omega)

/-- A continued digit never makes the weight overflow unless the integer itself overflows. -/
theorem WK.cont {j w k bias q : Nat} (h : WK j w k) (hb : bias ≤ 216) (hq : tN k bias ≤ q) (hm : q * w ≤ u32Max) :
    w * (36 - tN k bias) ≤ u32Max := by
  by_cases ht : 18 ≤ tN k bias
  · have : w * (36 - tN k bias) ≤ q * w := by
      rw [Nat.mul_comm q w]; exact Nat.mul_le_mul_left _ (by omega)
    omega
  · have hk : k < bias + 18 := by
      unfold tN at ht; split_ifs at ht <;> omega
    have hj : j ≤ 5 := by have := h.k_eq; omega
    have h1 : w ≤ 35 ^ 5 := Nat.le_trans h.hi (Nat.pow_le_pow_right (by omega) hj)
    have h2 := tN_bounds k bias
    have : w * (36 - tN k bias) ≤ 35 ^ 5 * 35 := Nat.mul_le_mul h1 (by omega)
    have h3 : (35 : Nat) ^ 5 * 35 ≤ u32Max := by norm_num [u32Max]
    omega

/-- One step of `decodeInt`, free of overflow. -/
theorem decodeInt_step {chk bias b rest i w k j digit} (hb : bias ≤ 216) (h : WK j w k) (hi : i ≤ u32Max)
    (hd : digitValue b = some digit) :
    decodeInt chk bias (b :: rest) i w k =
      if u32Max < i + digit * w then .ok none
      else if digit < tN k bias then .ok (some (i + digit * w, rest))
      else if u32Max < w * (36 - tN k bias) then .ok none
      else decodeInt chk bias rest (i + digit * w) (w * (36 - tN k bias)) (k + 36) := by
  have hw := h.pos
  have ht := tN_bounds k bias
  have hj := h.j_le
  have hk := h.k_eq
  rw [decodeInt, hd]
  simp only
  rw [sub32_ok hi, bind_ok, div32_ok (by omega), bind_ok]
  have e1 : (digit > (u32Max - i) / w) ↔ u32Max < i + digit * w := by
    rw [gt_iff_lt, Nat.div_lt_iff_lt_mul (by omega)]; omega
  by_cases h1 : u32Max < i + digit * w
  · rw [if_pos (e1.2 h1), if_pos h1]; rfl
  · rw [if_neg (fun x => h1 (e1.1 x)), if_neg h1, mul32_ok (by omega), bind_ok, add32_ok (by omega), bind_ok,
      threshold_ok hb, bind_ok]
    by_cases h2 : digit < tN k bias
    · rw [if_pos h2, if_pos h2]; rfl
    · rw [if_neg h2, if_neg h2, sub32_ok (by simp only [BASE]; omega), bind_ok,
        div32_ok (by simp only [BASE]; omega), bind_ok]
      have e2 : (w > u32Max / (BASE - tN k bias)) ↔ u32Max < w * (36 - tN k bias) := by
        rw [gt_iff_lt, Nat.div_lt_iff_lt_mul (by simp only [BASE]; omega)]; rfl
      by_cases h3 : u32Max < w * (36 - tN k bias)
      · rw [if_pos (e2.2 h3), if_pos h3]; rfl
      · rw [if_neg (fun x => h3 (e2.1 x)), if_neg h3, mul32_ok (by simpa [BASE] using h3), bind_ok,
          add32_ok (by simp only [BASE, u32Max]; omega), bind_ok]
        rfl

/-- `decodeInt` never panics. -/
theorem decodeInt_total {chk bias} (hb : bias ≤ 216) : ∀ (bytes : List Nat) {i w k j}, WK j w k → i ≤ u32Max →
    decodeInt chk bias bytes i w k = .ok none ∨
    ∃ i' rest, decodeInt chk bias bytes i w k = .ok (some (i', rest)) ∧ i ≤ i' ∧ i' ≤ u32Max ∧ rest.length < bytes.length ∧ ∀ b ∈ rest, b ∈ bytes := by
  intro bytes
  induction bytes with
  | nil => intro i w k j _ _; exact Or.inl rfl
  | cons b bytes ih =>
    intro i w k j h hi
    cases hd : digitValue b with
    | none => left; unfold decodeInt; rw [hd]
    | some digit =>
      rw [decodeInt_step hb h hi hd]
      split_ifs with h1 h2 h3
      · exact Or.inl rfl
      · exact Or.inr ⟨_, _, rfl, by omega, by omega, by simp, fun b hb => List.mem_cons_of_mem _ hb⟩
      · exact Or.inl rfl
      · rcases ih (h.next (bias := bias) (by omega)) (i := i + digit * w) (by omega) with h4 | ⟨i', rest, h4, h5, h6, h7, h8⟩
        · exact Or.inl h4
        · exact Or.inr ⟨i', rest, h4, by omega, h6, by simp; omega, fun b hb => List.mem_cons_of_mem _ (h8 b hb)⟩

/-- One step of `encodeInt`, free of overflow. -/
theorem encodeInt_step {chk bias fuel q k} (hb : bias ≤ 216) (hk : k ≤ 1000) (hq : q ≤ u32Max) :
    encodeInt chk bias (fuel + 1) q k =
      if q < tN k bias then (valueToDigit q).map (fun c => [c])
      else (valueToDigit (tN k bias + (q - tN k bias) % (36 - tN k bias))) >>= fun c =>
        encodeInt chk bias fuel ((q - tN k bias) / (36 - tN k bias)) (k + 36) >>= fun cs => .ok (c :: cs) := by
  have ht := tN_bounds k bias
  have hm : (q - tN k bias) % (36 - tN k bias) < 36 - tN k bias := Nat.mod_lt _ (by omega)
  rw [encodeInt, threshold_ok hb, bind_ok]
  by_cases h : q < tN k bias
  · rw [if_pos h, if_pos h]
    cases valueToDigit q <;> rfl
  · have e : BASE - tN k bias = 36 - tN k bias := rfl
    rw [if_neg h, if_neg h, sub32_ok (by simp only [BASE]; omega), bind_ok, e, rem32_ok (by omega), bind_ok,
      add32_ok (by simp only [u32Max]; omega), bind_ok, div32_ok (by omega)]
    cases valueToDigit (tN k bias + (q - tN k bias) % (36 - tN k bias)) with
    | panic => rfl
    | ok c =>
      rw [bind_ok, bind_ok, bind_ok, add32_ok (by simp only [u32Max, BASE]; omega), bind_ok]
      rfl

theorem encodeInt_decodeInt {bias} (hb : bias ≤ 216) : ∀ (fuel : Nat) {q k w j i}, q < fuel → q ≤ u32Max →
    WK j w k → q * 10 ^ j ≤ u32Max → i ≤ u32Max →
    ∃ ds, (∀ chk, encodeInt chk bias fuel q k = .ok ds) ∧ ds ≠ [] ∧ (∀ b ∈ ds, IsDigit b) ∧
      ∀ chk rest, decodeInt chk bias (ds ++ rest) i w k =
        if i + q * w ≤ u32Max then .ok (some (i + q * w, rest)) else .ok none := by
  intro fuel
  induction fuel with
  | zero => intro q k w j i h; omega
  | succ fuel ih =>
    intro q k w j i hf hq h hq10 hi
    have ht := tN_bounds k bias
    have hk := h.k_eq
    have hj := h.j_le
    by_cases hqt : q < tN k bias
    · obtain ⟨b, h1, h2, h3, _⟩ := valueToDigit_ok (v := q) (by omega)
      refine ⟨[b], fun chk => ?_, by simp, by simpa using h2, fun chk rest => ?_⟩
      · rw [encodeInt_step hb (by omega) hq, if_pos hqt, h1]; rfl
      · rw [List.singleton_append, decodeInt_step hb h hi h3]
        by_cases h4 : i + q * w ≤ u32Max
        · rw [if_neg (by omega), if_pos hqt, if_pos h4]
        · rw [if_pos (by omega), if_neg h4]
    · set t := tN k bias with htd
      set v := t + (q - t) % (36 - t) with hv
      set q' := (q - t) / (36 - t) with hq'
      have hm : (q - t) % (36 - t) < 36 - t := Nat.mod_lt _ (by omega)
      obtain ⟨b, h1, h2, h3, _⟩ := valueToDigit_ok (v := v) (by rw [hv]; omega)
      have hsum : v + (36 - t) * q' = q := by
        have := Nat.mod_add_div (q - t) (36 - t)
        rw [← hq'] at this
        omega
      have hq'q : q' * 10 ≤ q - t := by
        have : (36 - t) * q' ≥ 10 * q' := Nat.mul_le_mul_right _ (by omega)
        omega
      have hsum' : i + v * w + q' * (w * (36 - t)) = i + q * w := by
        rw [← hsum]; ring
      -- the remaining digits
      have hq'10 : q' * 10 ^ (j + 1) ≤ u32Max := by
        have : q' * 10 ^ (j + 1) = (q' * 10) * 10 ^ j := by rw [pow_succ]; ring
        rw [this]
        exact Nat.le_trans (Nat.mul_le_mul_right _ (by omega)) hq10
      by_cases hov : u32Max < i + v * w
      · -- the decoder stops here; any continuation will do
        have hWK' : WK (j + 1) (10 ^ (j + 1)) (k + 36) := by
          have hj8 : j ≤ 8 := by
            by_contra hc
            have h9 : j = 9 := by omega
            rw [h9] at hq10
            have : q' = 0 ∨ 1 ≤ q' := by omega
            simp only [u32Max] at hq10
            rw [h9] at h
            have := h.hi
            have h0 := h.le
            have hlo := h.lo
            have hq5 : 1 ≤ q := by omega
            have hqle : q ≤ 4 := by norm_num at hq10; omega
            have : k ≤ bias + 4 := by
              have : t ≤ 4 := by omega
              rw [htd] at this; unfold tN at this; split_ifs at this <;> omega
            omega
          refine ⟨by rw [hk]; ring, Nat.le_refl _, Nat.pow_le_pow_left (by omega) _, ?_⟩
          have : 10 ^ (j + 1) ≤ 10 ^ 9 := Nat.pow_le_pow_right (by omega) (by omega)
          have : (10 : Nat) ^ 9 ≤ u32Max := by norm_num [u32Max]
          omega
        obtain ⟨ds, e1, e2, e3, _⟩ := ih (q := q') (k := k + 36) (w := 10 ^ (j + 1)) (j := j + 1) (i := 0) (by omega) (by omega) hWK' hq'10 (by omega)
        refine ⟨b :: ds, fun chk => ?_, by simp, ?_, fun chk rest => ?_⟩
        · rw [encodeInt_step hb (by omega) hq, if_neg hqt, h1, bind_ok, e1 chk, bind_ok]
        · intro x hx; rcases List.mem_cons.1 hx with rfl | hx
          · exact h2
          · exact e3 x hx
        · rw [List.cons_append, decodeInt_step hb h hi h3, if_pos hov, if_neg (by
            have : v * w ≤ q * w := Nat.mul_le_mul_right _ (by omega)
            omega)]
      · by_cases hwv : u32Max < w * (36 - t)
        · have hbig : u32Max < i + q * w := by
            by_contra hc
            have := h.cont hb (q := q) (by omega) (by omega)
            rw [← htd] at this
            omega
          have hWK' : WK (j + 1) (10 ^ (j + 1)) (k + 36) := by
            have hj8 : j ≤ 8 := by
              by_contra hc
              have h9 : j = 9 := by omega
              rw [h9] at hq10
              simp only [u32Max] at hq10
              have hqle : q ≤ 4 := by norm_num at hq10; omega
              have : k ≤ bias + 4 := by
                have : t ≤ 4 := by omega
                rw [htd] at this; unfold tN at this; split_ifs at this <;> omega
              omega
            refine ⟨by rw [hk]; ring, Nat.le_refl _, Nat.pow_le_pow_left (by omega) _, ?_⟩
            have : 10 ^ (j + 1) ≤ 10 ^ 9 := Nat.pow_le_pow_right (by omega) (by omega)
            have : (10 : Nat) ^ 9 ≤ u32Max := by norm_num [u32Max]
            omega
          obtain ⟨ds, e1, e2, e3, _⟩ := ih (q := q') (k := k + 36) (w := 10 ^ (j + 1)) (j := j + 1) (i := 0) (by omega) (by omega) hWK' hq'10 (by omega)
          refine ⟨b :: ds, fun chk => ?_, by simp, ?_, fun chk rest => ?_⟩
          · rw [encodeInt_step hb (by omega) hq, if_neg hqt, h1, bind_ok, e1 chk, bind_ok]
          · intro x hx; rcases List.mem_cons.1 hx with rfl | hx
            · exact h2
            · exact e3 x hx
          · rw [List.cons_append, decodeInt_step hb h hi h3, if_neg hov, if_neg (by omega), if_pos hwv, if_neg (by omega)]
        · obtain ⟨ds, e1, e2, e3, e4⟩ := ih (q := q') (k := k + 36) (w := w * (36 - t)) (j := j + 1) (i := i + v * w) (by omega) (by omega)
            (h.next (bias := bias) (by rw [← htd]; omega)) hq'10 (by omega)
          refine ⟨b :: ds, fun chk => ?_, by simp, ?_, fun chk rest => ?_⟩
          · rw [encodeInt_step hb (by omega) hq, if_neg hqt, h1, bind_ok, e1 chk, bind_ok]
          · intro x hx; rcases List.mem_cons.1 hx with rfl | hx
            · exact h2
            · exact e3 x hx
          · rw [List.cons_append, decodeInt_step hb h hi h3, if_neg hov, if_neg (by omega), if_neg hwv, e4, hsum']

/-- What `decodeInt` accepts is, up to letter case, what `encodeInt` writes for the integer it returns. -/
theorem decodeInt_encodeInt {chk bias} (hb : bias ≤ 216) : ∀ (bytes : List Nat) {i w k j i' rest}, WK j w k → i ≤ u32Max →
    decodeInt chk bias bytes i w k = .ok (some (i', rest)) →
    ∃ used q, bytes = used ++ rest ∧ used ≠ [] ∧ (∀ b ∈ used, b < 0x80 ∧ b ≠ DELIMITER) ∧ i' = i + q * w ∧ i' ≤ u32Max ∧
      ∀ chk' fuel, q < fuel → encodeInt chk' bias fuel q k = .ok (used.map lowerByte) := by
  intro bytes
  induction bytes with
  | nil => intro i w k j i' rest _ _ h; simp [decodeInt] at h
  | cons b bytes ih =>
    intro i w k j i' rest h hi he
    have ht := tN_bounds k bias
    have hk := h.k_eq
    have hj := h.j_le
    have hw := h.pos
    cases hd : digitValue b with
    | none => unfold decodeInt at he; rw [hd] at he; simp at he
    | some digit =>
      obtain ⟨s1, s2, s3, s4⟩ := digitValue_spec hd
      rw [decodeInt_step hb h hi hd] at he
      split_ifs at he with h1 h2 h3
      · simp at he
      · simp only [Outcome.ok.injEq, Option.some.injEq, Prod.mk.injEq] at he
        obtain ⟨rfl, rfl⟩ := he
        refine ⟨[b], digit, rfl, by simp, by simpa using ⟨s3, s4⟩, rfl, by omega, fun chk' fuel hf => ?_⟩
        obtain ⟨fuel, rfl⟩ : ∃ f, fuel = f + 1 := ⟨fuel - 1, by omega⟩
        rw [encodeInt_step hb (by omega) (by simp only [u32Max]; omega), if_pos h2, s2]; rfl
      · simp at he
      · obtain ⟨used, q, e1, e2, e3, e4, e5, e6⟩ := ih (h.next (bias := bias) (by omega)) (by omega) he
        set t := tN k bias with htd
        have hq : digit * w + q * (w * (36 - t)) = (digit + (36 - t) * q) * w := by ring
        have hqm : (digit + (36 - t) * q) * w ≤ u32Max := by rw [← hq]; omega
        have hqm' : digit + (36 - t) * q ≤ u32Max := Nat.le_trans (Nat.le_mul_of_pos_right _ hw) hqm
        refine ⟨b :: used, digit + (36 - t) * q, by rw [e1]; rfl, by simp, ?_, by rw [e4, ← hq]; omega, e5, fun chk' fuel hf => ?_⟩
        · intro x hx; rcases List.mem_cons.1 hx with rfl | hx
          · exact ⟨s3, s4⟩
          · exact e3 x hx
        · obtain ⟨fuel, rfl⟩ : ∃ f, fuel = f + 1 := ⟨fuel - 1, by omega⟩
          have h5 : ¬ digit + (36 - t) * q < t := by omega
          have h6 : digit + (36 - t) * q - t = (digit - t) + (36 - t) * q := by omega
          have h7 : (digit + (36 - t) * q - t) % (36 - t) = digit - t := by
            rw [h6, Nat.add_mul_mod_self_left, Nat.mod_eq_of_lt (by omega)]
          have h8 : (digit + (36 - t) * q - t) / (36 - t) = q := by
            rw [h6, Nat.add_mul_div_left _ _ (by omega), Nat.div_eq_of_lt (by omega), Nat.zero_add]
          have h9 : q < fuel := by
            have : q ≤ (36 - t) * q := Nat.le_mul_of_pos_left _ (by omega)
            omega
          rw [encodeInt_step hb (by omega) hqm', if_neg h5, ← htd, h7, h8, show t + (digit - t) = digit by omega, s2, bind_ok,
            e6 chk' fuel h9, bind_ok]
          rfl

end Proofs.Punycode
