import Verif.Proofs.PunycodeInt
import Verif.Proofs.Utf
import Verif.Spec.Scalar
import Mathlib.Data.List.Basic

namespace Proofs.Punycode
open Model Model.Punycode

/-! ## The decoder -/

theorem asU32_of_le {n : Nat} (h : n ≤ u32Max) : asU32 n = n := by
  unfold asU32; exact Nat.mod_eq_of_lt (by simp only [u32Max] at h; omega)

theorem charFromU32_some {n : Nat} (h : Spec.IsScalar n) : Utf.charFromU32 n = some n := by
  unfold Utf.charFromU32; unfold Spec.IsScalar at h; rw [if_pos (by omega)]

theorem charFromU32_eq {n c : Nat} (h : Utf.charFromU32 n = some c) : c = n ∧ Spec.IsScalar n := by
  unfold Utf.charFromU32 at h; unfold Spec.IsScalar
  split_ifs at h with h1
  injection h with h
  exact ⟨h.symm, by omega⟩

theorem insertAt_ok {l : List Nat} {i c : Nat} (h : i ≤ l.length) : insertAt l i c = .ok (l.take i ++ c :: l.drop i) := if_pos h

/-- One round of `decodeLoop`, free of overflow. -/
theorem decodeLoop_step {chk f bytes out n bias i i' rest b} (hne : bytes ≠ [])
    (hI : decodeInt chk bias bytes i 1 BASE = .ok (some (i', rest))) (hii : i ≤ i') (hi' : i' ≤ u32Max)
    (hL : out.length + 1 ≤ u32Max) (hn : n ≤ u32Max)
    (hA : adapt chk (i' - i) (out.length + 1) (i == 0) = .ok b) :
    decodeLoop chk (f + 1) bytes out n bias i =
      if u32Max < n + i' / (out.length + 1) then .ok none
      else match Utf.charFromU32 (n + i' / (out.length + 1)) with
        | none => .ok none
        | some c => decodeLoop chk f rest (out.take (i' % (out.length + 1)) ++ c :: out.drop (i' % (out.length + 1)))
            (n + i' / (out.length + 1)) b (i' % (out.length + 1) + 1) := by
  have hm : i' % (out.length + 1) < out.length + 1 := Nat.mod_lt _ (by omega)
  rw [decodeLoop, if_neg (by simpa using hne), hI, bind_ok]
  simp only
  rw [asU32_of_le (by omega), sub32_ok hii, bind_ok, add32_ok hL, bind_ok, hA, bind_ok, div32_ok (by omega), bind_ok,
    sub32_ok hn, bind_ok]
  by_cases h : u32Max < n + i' / (out.length + 1)
  · rw [if_pos (by omega), if_pos h]; rfl
  · rw [if_neg (by omega), if_neg h, add32_ok (by omega), bind_ok, rem32_ok (by omega), bind_ok]
    cases Utf.charFromU32 (n + i' / (out.length + 1)) with
    | none => rfl
    | some c =>
      simp only
      rw [insertAt_ok (by omega), bind_ok, add32_ok (by omega), bind_ok]

theorem decodeLoop_nil {chk f out n bias i} : decodeLoop chk (f + 1) [] out n bias i = .ok (some out) := rfl

/-- The decoder does not panic, and inserts only scalar values. -/
theorem decodeLoop_total {chk} : ∀ (fuel : Nat) (bytes out : List Nat) (n bias i : Nat), bytes.length < fuel →
    out.length + bytes.length ≤ u32Max → n ≤ u32Max → bias ≤ 216 → i ≤ u32Max → (∀ c ∈ out, Spec.IsScalar c) →
    decodeLoop chk fuel bytes out n bias i = .ok none ∨
    ∃ r, decodeLoop chk fuel bytes out n bias i = .ok (some r) ∧ (∀ c ∈ r, Spec.IsScalar c) ∧
      out.Sublist r ∧ r.length ≤ out.length + bytes.length := by
  intro fuel
  induction fuel with
  | zero => intro bytes out n bias i h; omega
  | succ fuel ih =>
    intro bytes out n bias i hf hL hn hb hi hs
    by_cases hne : bytes = []
    · subst hne; exact Or.inr ⟨out, rfl, hs, List.Sublist.refl _, by simp⟩
    · have hpos : 1 ≤ bytes.length := by
        cases bytes with
        | nil => exact absurd rfl hne
        | cons => simp
      rcases decodeInt_total (chk := chk) hb bytes WK.init hi with h | ⟨i', rest, h, h1, h2, h3, _⟩
      · left; rw [decodeLoop, if_neg (by simpa using hne), h]; rfl
      · obtain ⟨b, hb1, hb2⟩ := adapt_ok (delta := i' - i) (np := out.length + 1) (by omega) (by omega) (i == 0)
        rw [decodeLoop_step hne h h1 h2 (by omega) hn (hb2 chk)]
        by_cases hov : u32Max < n + i' / (out.length + 1)
        · left; rw [if_pos hov]
        · rw [if_neg hov]
          cases hc : Utf.charFromU32 (n + i' / (out.length + 1)) with
          | none => exact Or.inl rfl
          | some c =>
            obtain ⟨hc1, hc2⟩ := charFromU32_eq hc
            have hm : i' % (out.length + 1) < out.length + 1 := Nat.mod_lt _ (by omega)
            simp only
            have hlen : (out.take (i' % (out.length + 1)) ++ c :: out.drop (i' % (out.length + 1))).length = out.length + 1 := by
              simp; omega
            rcases ih rest (out.take (i' % (out.length + 1)) ++ c :: out.drop (i' % (out.length + 1)))
              (n + i' / (out.length + 1)) b (i' % (out.length + 1) + 1) (by omega) (by omega) (by omega) hb1 (by omega) (by
                intro x hx
                rw [List.mem_append, List.mem_cons] at hx
                rcases hx with hx | rfl | hx
                · exact hs x (List.mem_of_mem_take hx)
                · rw [hc1]; exact hc2
                · exact hs x (List.mem_of_mem_drop hx)) with hr | ⟨r, hr, hr1, hr2, hr3⟩
            · exact Or.inl hr
            · refine Or.inr ⟨r, hr, hr1, List.Sublist.trans ?_ hr2, by omega⟩
              conv_lhs => rw [← List.take_append_drop (i' % (out.length + 1)) out]
              exact List.Sublist.append (List.Sublist.refl _) (List.sublist_cons_self _ _)

/-! ## Splitting at the last delimiter -/

theorem rsplit_none {s : List Nat} : rsplit s = none ↔ DELIMITER ∉ s := by
  induction s with
  | nil => simp [rsplit]
  | cons c s ih =>
    unfold rsplit
    cases h : rsplit s with
    | none =>
      rw [h] at ih
      have := ih.1 rfl
      simp only
      by_cases hc : c = DELIMITER
      · simp [hc]
      · simp [hc, this, Ne.symm hc]
    | some p =>
      rw [h] at ih
      have : DELIMITER ∈ s := by by_contra hn; exact absurd (ih.2 hn) (by simp)
      simp [this]

theorem rsplit_append (a b : List Nat) (h : DELIMITER ∉ b) : rsplit (a ++ DELIMITER :: b) = some (a, b) := by
  induction a with
  | nil =>
    rw [List.nil_append, rsplit, rsplit_none.2 h]; simp
  | cons c a ih => rw [List.cons_append, rsplit, ih]

theorem rsplit_some {s a b : List Nat} (h : rsplit s = some (a, b)) : s = a ++ DELIMITER :: b ∧ DELIMITER ∉ b := by
  induction s generalizing a with
  | nil => simp [rsplit] at h
  | cons c s ih =>
    unfold rsplit at h
    cases hr : rsplit s with
    | none =>
      rw [hr] at h
      simp only at h
      split_ifs at h with hc
      simp only [Option.some.injEq, Prod.mk.injEq] at h
      obtain ⟨rfl, rfl⟩ := h
      exact ⟨by rw [hc]; rfl, rsplit_none.1 hr⟩
    | some p =>
      obtain ⟨x, y⟩ := p
      rw [hr] at h
      simp only [Option.some.injEq, Prod.mk.injEq] at h
      obtain ⟨rfl, rfl⟩ := h
      obtain ⟨h1, h2⟩ := ih hr
      exact ⟨by rw [h1]; rfl, h2⟩

theorem flatMap_ascii {s : List Nat} (h : ∀ c ∈ s, c < 0x80) : s.flatMap Utf.encodeUtf8 = s := by
  induction s with
  | nil => rfl
  | cons c s ih =>
    rw [List.flatMap_cons, ih (fun x hx => h x (List.mem_cons_of_mem _ hx))]
    unfold Utf.encodeUtf8
    rw [if_pos (h c (List.mem_cons_self ..))]; rfl

/-- If all bytes are ASCII then the text is. -/
theorem ascii_of_bytes {s : List Nat} (h : ∀ b ∈ s.flatMap Utf.encodeUtf8, b < 0x80) : ∀ c ∈ s, c < 0x80 := by
  intro c hc
  by_contra hn
  have : ∃ b ∈ Utf.encodeUtf8 c, 0x80 ≤ b := by
    unfold Utf.encodeUtf8
    rw [if_neg hn]
    split_ifs
    · exact ⟨_, List.mem_cons_self .., by omega⟩
    · exact ⟨_, List.mem_cons_self .., by omega⟩
    · exact ⟨_, List.mem_cons_self .., by omega⟩
  obtain ⟨b, hb, hb2⟩ := this
  have := h b (List.mem_flatMap.2 ⟨c, hc, hb⟩)
  omega

theorem decode_no_delim {chk s} (h : DELIMITER ∉ s) :
    decode chk s = decodeLoop chk ((s.flatMap Utf.encodeUtf8).length + 1) (s.flatMap Utf.encodeUtf8) [] 0x80 72 0 := by
  unfold decode; rw [rsplit_none.2 h]; rfl

theorem decode_delim {chk a b} (ha : a ≠ []) (h : DELIMITER ∉ b) :
    decode chk (a ++ DELIMITER :: b) = decodeLoop chk ((b.flatMap Utf.encodeUtf8).length + 1) (b.flatMap Utf.encodeUtf8) a 0x80 72 0 := by
  unfold decode; rw [rsplit_append a b h]
  cases a with
  | nil => exact absurd rfl ha
  | cons => rfl

theorem decode_lead_delim {chk b} (h : DELIMITER ∉ b) : decode chk (DELIMITER :: b) = .ok none := by
  unfold decode
  rw [show DELIMITER :: b = [] ++ DELIMITER :: b from rfl, rsplit_append [] b h]
  simp only [List.isEmpty_nil, if_true, List.nil_append, List.flatMap_cons]
  have : Utf.encodeUtf8 DELIMITER = [DELIMITER] := rfl
  rw [this, decodeLoop, if_neg (by simp)]
  rfl

end Proofs.Punycode
