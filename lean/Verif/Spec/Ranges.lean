/-! # Membership in a few ranges written out -/
namespace Spec

/-- `c` lies in one of the closed ranges of `l`. -/
def inRanges (l : List (Nat × Nat)) (c : Nat) : Bool := l.any fun r => decide (r.1 ≤ c) && decide (c ≤ r.2)

end Spec
