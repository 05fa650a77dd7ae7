import Verif.Model.Utf
import Mathlib.Tactic.IntervalCases

namespace Proofs.Utf
open Model.Utf

theorem encodeUtf8_length (c : Nat) : (encodeUtf8 c).length = lenUtf8 c := by
  unfold encodeUtf8 lenUtf8
  split_ifs <;> rfl

theorem lenUtf8_pos (c : Nat) : 1 ≤ lenUtf8 c ∧ lenUtf8 c ≤ 4 := by
  unfold lenUtf8; split_ifs <;> omega

theorem inB_iff (b lo hi : Nat) : inB b lo hi = true ↔ lo ≤ b ∧ b ≤ hi := by simp [inB]

theorem decodeFirst_encode (c : Nat) (h : Spec.IsScalar c) (rest : List Nat) :
    decodeFirst (encodeUtf8 c ++ rest) = some (c, rest) := by
  have hs := h
  simp only [Spec.IsScalar] at hs
  unfold encodeUtf8
  split_ifs with h1 h2 h3
  · simp [decodeFirst, h1]
  · have e1 : ¬ (0xC0 + c / 64 < 0x80) := by omega
    have e2 : inB (0xC0 + c / 64) 0xC2 0xDF = true := by rw [inB_iff]; omega
    have e3 : inB (0x80 + c % 64) 0x80 0xBF = true := by rw [inB_iff]; omega
    simp only [List.cons_append, List.nil_append, decodeFirst, if_neg e1, e2, e3, if_true]
    simp only [Option.some.injEq, Prod.mk.injEq, and_true]; omega
  · have e1 : ¬ (0xE0 + c / 4096 < 0x80) := by omega
    have e2 : inB (0xE0 + c / 4096) 0xC2 0xDF = false := by rw [Bool.eq_false_iff, Ne, inB_iff]; omega
    have e2' : inB (0xE0 + c / 4096) 0xE0 0xEF = true := by rw [inB_iff]; omega
    have e3 : inB (0x80 + c / 64 % 64) (if (0xE0 + c / 4096) == 0xE0 then 0xA0 else 0x80) (if (0xE0 + c / 4096) == 0xED then 0x9F else 0xBF) = true := by
      rw [inB_iff]
      simp only [beq_iff_eq]
      split_ifs <;> omega
    have e4 : inB (0x80 + c % 64) 0x80 0xBF = true := by rw [inB_iff]; omega
    simp only [List.cons_append, List.nil_append, decodeFirst, if_neg e1, e2, e2', e3, e4, if_true, Bool.and_self, Bool.false_eq_true, if_false]
    simp only [Option.some.injEq, Prod.mk.injEq, and_true]; omega
  · have e1 : ¬ (0xF0 + c / 262144 < 0x80) := by omega
    have e2 : inB (0xF0 + c / 262144) 0xC2 0xDF = false := by rw [Bool.eq_false_iff, Ne, inB_iff]; omega
    have e2' : inB (0xF0 + c / 262144) 0xE0 0xEF = false := by rw [Bool.eq_false_iff, Ne, inB_iff]; omega
    have e2'' : inB (0xF0 + c / 262144) 0xF0 0xF4 = true := by rw [inB_iff]; omega
    have e3 : inB (0x80 + c / 4096 % 64) (if (0xF0 + c / 262144) == 0xF0 then 0x90 else 0x80) (if (0xF0 + c / 262144) == 0xF4 then 0x8F else 0xBF) = true := by
      rw [inB_iff]
      simp only [beq_iff_eq]
      split_ifs <;> omega
    have e4 : inB (0x80 + c / 64 % 64) 0x80 0xBF = true := by rw [inB_iff]; omega
    have e5 : inB (0x80 + c % 64) 0x80 0xBF = true := by rw [inB_iff]; omega
    simp only [List.cons_append, List.nil_append, decodeFirst, if_neg e1, e2, e2', e2'', e3, e4, e5, if_true, Bool.and_self, Bool.false_eq_true, if_false]
    simp only [Option.some.injEq, Prod.mk.injEq, and_true]; omega

theorem encodeUtf8_ne_nil (c : Nat) : encodeUtf8 c ≠ [] := by
  intro h
  have := encodeUtf8_length c
  rw [h] at this
  have := lenUtf8_pos c
  simp at *; omega

theorem length_le_flatMap (s : List Nat) : s.length ≤ (s.flatMap encodeUtf8).length := by
  induction s with
  | nil => simp
  | cons c s ih =>
    rw [List.flatMap_cons, List.length_append, encodeUtf8_length, List.length_cons]
    have := lenUtf8_pos c
    omega

theorem decodeUtf8Loop_encode (s : List Nat) (hs : ∀ c ∈ s, Spec.IsScalar c) (fuel : Nat) (hf : s.length ≤ fuel) :
    decodeUtf8Loop fuel (s.flatMap encodeUtf8) = some s := by
  induction s generalizing fuel with
  | nil => cases fuel <;> rfl
  | cons c s ih =>
    obtain ⟨f, rfl⟩ : ∃ f, fuel = f + 1 := ⟨fuel - 1, by simp at hf; omega⟩
    rw [List.flatMap_cons]
    cases he : encodeUtf8 c ++ s.flatMap encodeUtf8 with
    | nil => exact absurd (List.append_eq_nil_iff.1 he).1 (encodeUtf8_ne_nil c)
    | cons b bs =>
      rw [decodeUtf8Loop, ← he, decodeFirst_encode c (hs c (by simp))]
      · simp only
        rw [ih (fun c hc => hs c (by simp [hc])) f (by simp at hf; omega)]
        rfl
      · simp

theorem decodeUtf8_encode (s : List Nat) (hs : ∀ c ∈ s, Spec.IsScalar c) :
    decodeUtf8 (s.flatMap encodeUtf8) = some s :=
  decodeUtf8Loop_encode s hs _ (length_le_flatMap s)

theorem encodeUtf8_byte (c : Nat) (h : Spec.IsScalar c) : ∀ b ∈ encodeUtf8 c, b ≤ 0xFF := by
  simp only [Spec.IsScalar] at h
  unfold encodeUtf8
  intro b hb
  split_ifs at hb <;> simp only [List.mem_cons, List.not_mem_nil, or_false] at hb <;> omega

theorem encodeUtf16_unit (c : Nat) (h : Spec.IsScalar c) : ∀ b ∈ encodeUtf16 c, b ≤ 0xFFFF := by
  simp only [Spec.IsScalar] at h
  unfold encodeUtf16
  intro b hb
  split_ifs at hb <;> simp only [List.mem_cons, List.not_mem_nil, or_false] at hb <;> omega

theorem encodeUtf16_ne_nil (c : Nat) : encodeUtf16 c ≠ [] := by
  unfold encodeUtf16; split_ifs <;> simp

theorem decodeUtf16_encode (s : List Nat) (hs : ∀ c ∈ s, Spec.IsScalar c) :
    decodeUtf16 (s.flatMap encodeUtf16) = some s := by
  induction s with
  | nil => simp [decodeUtf16]
  | cons c s ih =>
    have h := hs c (by simp)
    simp only [Spec.IsScalar] at h
    have ih' := ih (fun c hc => hs c (by simp [hc]))
    rw [List.flatMap_cons]
    generalize s.flatMap encodeUtf16 = r at ih'
    unfold encodeUtf16
    split_ifs with h1
    · rw [List.cons_append, List.nil_append, decodeUtf16.eq_def]
      simp only
      rw [if_pos (by omega), ih']; rfl
    · rw [List.cons_append, List.cons_append, List.nil_append, decodeUtf16.eq_def]
      simp only
      rw [if_neg (by omega), if_neg (by omega)]
      rw [if_neg (by omega), ih']
      simp only [Option.map_some, Option.some.injEq, List.cons.injEq, and_true]
      omega

theorem charFromU32_scalar (c : Nat) : charFromU32 c = if Spec.IsScalar c then some c else none := by
  unfold charFromU32
  by_cases h : Spec.IsScalar c
  · rw [if_pos h, if_pos]
    simp only [Spec.IsScalar] at h; omega
  · rw [if_neg h, if_neg]
    simp only [Spec.IsScalar] at h; omega

end Proofs.Utf
