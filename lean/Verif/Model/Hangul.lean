/-! # Model of `unic/ucd/hangul/src/hangul.rs` -/
namespace Model.Hangul

/-- unic/ucd/hangul/src/hangul.rs L19 -/
abbrev S_BASE : Nat := 0xAC00
/-- unic/ucd/hangul/src/hangul.rs L20 -/
abbrev L_BASE : Nat := 0x1100
/-- unic/ucd/hangul/src/hangul.rs L21 -/
abbrev V_BASE : Nat := 0x1161
/-- unic/ucd/hangul/src/hangul.rs L22 -/
abbrev T_BASE : Nat := 0x11A7
/-- unic/ucd/hangul/src/hangul.rs L23 -/
abbrev L_COUNT : Nat := 19
/-- unic/ucd/hangul/src/hangul.rs L24 -/
abbrev V_COUNT : Nat := 21
/-- unic/ucd/hangul/src/hangul.rs L25 -/
abbrev T_COUNT : Nat := 28
/-- unic/ucd/hangul/src/hangul.rs L26 (`V_COUNT * T_COUNT`) -/
abbrev N_COUNT : Nat := 588
/-- unic/ucd/hangul/src/hangul.rs L27 (`L_COUNT * N_COUNT`) -/
abbrev S_COUNT : Nat := 11172

/-- unic/ucd/hangul/src/hangul.rs L30-33 (`is_syllable`) -/
def isSyllable (ch : Nat) : Bool := decide (ch ≥ S_BASE) && decide (ch < S_BASE + S_COUNT)

/-- unic/ucd/hangul/src/hangul.rs L39-57 (`decompose_syllable`): the characters passed to the
callback, in order. The u32 subtraction `syllable - S_BASE` is natural subtraction; the function is
only meaningful for syllables (the callers test `is_syllable`), where it does not underflow. -/
def decomposeSyllable (syllable : Nat) : List Nat :=
  let si := syllable - S_BASE
  let li := si / N_COUNT
  let vi := (si % N_COUNT) / T_COUNT
  let ti := si % T_COUNT
  if ti > 0 then [L_BASE + li, V_BASE + vi, T_BASE + ti] else [L_BASE + li, V_BASE + vi]

/-- unic/ucd/hangul/src/hangul.rs L62-83 (`compose_syllable`) -/
def composeSyllable (l v : Nat) : Option Nat :=
  if L_BASE ≤ l ∧ l < L_BASE + L_COUNT ∧ V_BASE ≤ v ∧ v < V_BASE + V_COUNT then
    some (S_BASE + (l - L_BASE) * N_COUNT + (v - V_BASE) * T_COUNT)
  else if S_BASE ≤ l ∧ l ≤ S_BASE + S_COUNT - T_COUNT ∧ T_BASE ≤ v ∧ v < T_BASE + T_COUNT ∧
      (l - S_BASE) % T_COUNT = 0 then
    some (l + (v - T_BASE))
  else none

end Model.Hangul
