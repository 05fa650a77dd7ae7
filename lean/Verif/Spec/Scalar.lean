/-!
# Specification: Unicode scalar values

Independent of the code.  A Unicode scalar value is a code point `0 .. 0x10FFFF` that is not a
surrogate `0xD800 .. 0xDFFF`.  A Rust `char` is exactly such a value.
-/
namespace Spec

/-- Unicode scalar values (The Unicode Standard, D76). -/
def IsScalar (c : Nat) : Prop := c < 0x110000 ∧ ¬ (0xD800 ≤ c ∧ c ≤ 0xDFFF)

instance (c : Nat) : Decidable (IsScalar c) := by unfold IsScalar; infer_instance

/-- All scalar values `c` with `lo ≤ c ≤ hi`, ascending. -/
def scalarsBetween (lo hi : Nat) : List Nat :=
  (List.range' lo (hi + 1 - lo)).filter (fun c => decide (IsScalar c))

end Spec
