import Verif.Model.Level

/-! # Property C34: level arithmetic -/
namespace Props.Level
open Model.Level

theorem new_def (n : Nat) : new n = if n ≤ 126 then some n else none := rfl
theorem newExplicit_def (n : Nat) : newExplicit n = if n ≤ 125 then some n else none := rfl

/-- **C34.** `new` accepts exactly 0..126, `new_explicit` exactly 0..125, both unchanged. -/
theorem c34_new (n l : Nat) : (new n = some l ↔ n ≤ 126 ∧ l = n) ∧ (newExplicit n = some l ↔ n ≤ 125 ∧ l = n) := by
  rw [new_def, newExplicit_def]
  constructor
  · split <;> simp <;> omega
  · split <;> simp <;> omega

theorem raise_def (l a : Nat) : raise l a =
    match (if l + a ≤ 255 then some (l + a) else none : Option Nat) with
    | some number => if number ≤ 126 then (number, true) else (l, false)
    | none => (l, false) := rfl
theorem raiseExplicit_def (l a : Nat) : raiseExplicit l a =
    match (if l + a ≤ 255 then some (l + a) else none : Option Nat) with
    | some number => if number ≤ 125 then (number, true) else (l, false)
    | none => (l, false) := rfl
theorem lower_def (l a : Nat) : lower l a =
    match (if a ≤ l then some (l - a) else none : Option Nat) with
    | some number => (number, true)
    | none => (l, false) := rfl

/-- **C34.** `raise`, `raise_explicit` and `lower` add or subtract exactly the amount when the result
is in range, and otherwise fail leaving the level as it was. -/
theorem c34_raise_lower (l a : Nat) :
    raise l a = (if l + a ≤ 126 then (l + a, true) else (l, false)) ∧
    raiseExplicit l a = (if l + a ≤ 125 then (l + a, true) else (l, false)) ∧
    lower l a = (if a ≤ l then (l - a, true) else (l, false)) := by
  rw [raise_def, raiseExplicit_def, lower_def]
  refine ⟨?_, ?_, ?_⟩
  · by_cases h : l + a ≤ 255
    · rw [if_pos h]
    · rw [if_neg h, if_neg (by omega)]
  · by_cases h : l + a ≤ 255
    · rw [if_pos h]
    · rw [if_neg h, if_neg (by omega)]
  · by_cases h : a ≤ l
    · rw [if_pos h, if_pos h]
    · rw [if_neg h, if_neg h]

/-- `m` is the least level satisfying `p`. -/
def IsLeast (p : Nat → Prop) (m : Nat) : Prop := p m ∧ ∀ k, p k → m ≤ k

theorem next_values : ∀ l, l < 127 → ((l + 2) &&& 254) = (l + 2) / 2 * 2 ∧ ((l + 1) ||| 1) = (l + 1) / 2 * 2 + 1 ∧
    (l ||| 1) = l / 2 * 2 + 1 := by decide

/-- **C34.** The next explicit LTR level is the least even number above the level, when at most 125. -/
theorem c34_next_ltr (l m : Nat) (hl : l ≤ 126) : newExplicitNextLtr l = some m ↔
    m ≤ 125 ∧ IsLeast (fun k => l < k ∧ k % 2 = 0) m := by
  rw [newExplicitNextLtr, (next_values l (by omega)).1, (c34_new _ m).2, IsLeast]
  constructor
  · rintro ⟨h, rfl⟩
    exact ⟨h, by omega, fun k hk => by omega⟩
  · rintro ⟨h, h1, h2⟩
    have := h2 ((l + 2) / 2 * 2) (by omega)
    omega

/-- **C34.** The next explicit RTL level is the least odd number above the level, when at most 125. -/
theorem c34_next_rtl (l m : Nat) (hl : l ≤ 126) : newExplicitNextRtl l = some m ↔
    m ≤ 125 ∧ IsLeast (fun k => l < k ∧ k % 2 = 1) m := by
  rw [newExplicitNextRtl, (next_values l (by omega)).2.1, (c34_new _ m).2, IsLeast]
  constructor
  · rintro ⟨h, rfl⟩
    exact ⟨h, by omega, fun k hk => by omega⟩
  · rintro ⟨h, h1, h2⟩
    have := h2 ((l + 1) / 2 * 2 + 1) (by omega)
    omega

/-- **C34.** `new_lowest_ge_rtl` is the least odd number at or above the level, when at most 126. -/
theorem c34_lowest_ge_rtl (l m : Nat) (hl : l ≤ 126) : newLowestGeRtl l = some m ↔
    m ≤ 126 ∧ IsLeast (fun k => l ≤ k ∧ k % 2 = 1) m := by
  rw [newLowestGeRtl, (next_values l (by omega)).2.2, (c34_new _ m).1, IsLeast]
  constructor
  · rintro ⟨h, rfl⟩
    exact ⟨h, by omega, fun k hk => by omega⟩
  · rintro ⟨h, h1, h2⟩
    have := h2 (l / 2 * 2 + 1) (by omega)
    omega

/-- **C34.** Starting from any constructed level, no history of operations leaves 0..126. -/
theorem c34_history (n l : Nat) (h : new n = some l ∨ newExplicit n = some l) (ops : List Op) :
    ops.foldl step l ≤ 126 := by
  have h0 : l ≤ 126 := by
    rcases h with h | h
    · have := (c34_new n l).1.1 h; omega
    · have := (c34_new n l).2.1 h; omega
  clear h
  induction ops generalizing l with
  | nil => exact h0
  | cons op ops ih =>
    apply ih
    cases op with
    | raise a =>
      simp only [step, (c34_raise_lower l a).1]
      split <;> simp only <;> omega
    | raiseExplicit a =>
      simp only [step, (c34_raise_lower l a).2.1]
      split <;> simp only <;> omega
    | lower a =>
      simp only [step, (c34_raise_lower l a).2.2]
      split <;> simp only <;> omega
    | nextLtr =>
      simp only [step]
      cases hm : newExplicitNextLtr l with
      | none => simpa using h0
      | some m => have := (c34_next_ltr l m h0).1 hm; simp only [Option.getD_some]; omega
    | nextRtl =>
      simp only [step]
      cases hm : newExplicitNextRtl l with
      | none => simpa using h0
      | some m => have := (c34_next_rtl l m h0).1 hm; simp only [Option.getD_some]; omega
    | lowestGeRtl =>
      simp only [step]
      cases hm : newLowestGeRtl l with
      | none => simpa using h0
      | some m => have := (c34_lowest_ge_rtl l m h0).1 hm; simp only [Option.getD_some]; omega

/-- **C34.** A level is LTR or RTL by parity, and its class says so. -/
theorem c34_parity (l : Nat) : (isRtl l = true ↔ l % 2 = 1) ∧ (isLtr l = !isRtl l) ∧
    (bidiClass l = .RightToLeft ↔ l % 2 = 1) ∧ (bidiClass l = .LeftToRight ↔ l % 2 = 0) := by
  rcases Nat.mod_two_eq_zero_or_one l with h | h <;> simp [isRtl, isLtr, bidiClass, h]

/-- **C34.** `has_rtl` holds of a slice exactly when one of its levels is odd. -/
theorem c34_has_rtl (levels : List Nat) : hasRtl levels = true ↔ ∃ l ∈ levels, l % 2 = 1 := by
  simp [hasRtl, (c34_parity _).1]

/-- **C34.** `Level::vec` gives the numbers back unchanged when all are at most 126, and otherwise panics. -/
theorem c34_vec (ns : List Nat) : vec ns = if ∀ n ∈ ns, n ≤ 126 then .ok ns else .panic := by
  induction ns with
  | nil => rfl
  | cons n ns ih =>
    rw [vec, ofU8, new_def]
    by_cases h : n ≤ 126
    · rw [if_pos h]; simp only [ih]
      by_cases h2 : ∀ n ∈ ns, n ≤ 126
      · rw [if_pos h2, if_pos (by simpa using ⟨h, h2⟩)]
      · rw [if_neg h2, if_neg (fun h3 => h2 fun x hx => h3 x (by simp [hx]))]
    · rw [if_neg h, if_neg (fun h3 => h (h3 n (by simp)))]

/-- Non-vacuity: the limits are reached, and operations fail at them. -/
example : newExplicitNextRtl 123 = some 125 ∧ newExplicitNextRtl 125 = none ∧ newExplicitNextLtr 124 = none ∧
    raise 125 1 = (126, true) ∧ raise 126 1 = (126, false) ∧ raise 10 250 = (10, false) ∧
    [Op.nextRtl, .raise 3, .raise 200, .lowestGeRtl].foldl step 0 = 5 ∧ hasRtl [0, 2, 3] = true ∧ hasRtl [0, 2] = false ∧
    vec [0, 126] = .ok [0, 126] ∧ vec [0, 127] = .panic := by decide

end Props.Level
