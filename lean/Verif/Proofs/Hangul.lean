import Verif.Model.Hangul

/-! The Hangul functions with their constants as literals. -/
namespace Proofs.Hangul
open Model.Hangul

theorem composeSyllable_def (l v : Nat) : composeSyllable l v =
  if 0x1100 ≤ l ∧ l < 0x1113 ∧ 0x1161 ≤ v ∧ v < 0x1176 then
    some (0xAC00 + (l - 0x1100) * 588 + (v - 0x1161) * 28)
  else if 0xAC00 ≤ l ∧ l ≤ 0xD788 ∧ 0x11A7 ≤ v ∧ v < 0x11C3 ∧ (l - 0xAC00) % 28 = 0 then
    some (l + (v - 0x11A7))
  else none := rfl

theorem isSyllable_iff (s : Nat) : isSyllable s = true ↔ 0xAC00 ≤ s ∧ s < 0xD7A4 := by
  have h : isSyllable s = (decide (0xAC00 ≤ s) && decide (s < 0xD7A4)) := rfl
  rw [h, Bool.and_eq_true, decide_eq_true_eq, decide_eq_true_eq]

theorem decomposeSyllable_def (s : Nat) : decomposeSyllable s =
  if (s - 0xAC00) % 28 > 0 then
    [0x1100 + (s - 0xAC00) / 588, 0x1161 + (s - 0xAC00) % 588 / 28, 0x11A7 + (s - 0xAC00) % 28]
  else [0x1100 + (s - 0xAC00) / 588, 0x1161 + (s - 0xAC00) % 588 / 28] := rfl

end Proofs.Hangul
