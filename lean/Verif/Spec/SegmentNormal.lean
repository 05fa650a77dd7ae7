import Verif.Data.Enums

/-! # Specification: texts for which segmentation and canonical equivalence agree -/
namespace Spec.Segment
open Data

/-- Between an emoji base and an emoji modifier that follows it through marks only, every mark is Extend: none of them is a
spacing mark. -/
def NoSpacing (k : List GraphemeClusterBreak) : Prop :=
  ∀ p b ms m q, k = p ++ b :: ms ++ m :: q → (b = .EBase ∨ b = .EBaseGAZ) → (∀ x ∈ ms, x = .Extend ∨ x = .SpacingMark) →
    m = .EModifier → ∀ x ∈ ms, x = .Extend

end Spec.Segment
