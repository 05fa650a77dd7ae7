import Verif.Model.CharRange

/-! # The schedules of the parallel iterator of `unic/char/range/src/par_iter.rs` -/
namespace Model.CharRange
namespace CharRange

/-- How rayon divides an indexed producer among tasks: a task runs its part from left to right, or splits it at
an index and has both parts run, in any order or at once. Not code of the crate; it stands for the schedules of
`drive` and `with_producer`, par_iter.rs L29-47, which hand the calls on to rayon's `Map<range::Iter<u32>, _>`. -/
inductive Schedule where
  | run
  | split (index : Nat) (left right : Schedule)

/-- unic/char/range/src/par_iter.rs L43-47 (`with_producer`): what an order-preserving consumer gets from the compact range
`a..a + n` under a schedule. `rayon::range::IterProducer::split_at` gives `a..a + index` and `a + index..a + n`; it asserts `index ≤ n`
and here the index is cut to that. The results of the two parts are joined in the order of the parts. -/
def parRun : Schedule → (a n : Nat) → List Nat
  | .run, a, n => (List.range' a n).map parMap
  | .split k l r, a, n => parRun l a (min k n) ++ parRun r (a + min k n) (n - min k n)

/-- unic/char/range/src/par_iter.rs L66-81 (`into_par_iter`) driven by rayon with a schedule. -/
def parCollect (t : Schedule) (r : CharRange) : List Nat :=
  parRun t r.compactRange.1 (r.compactRange.2 - r.compactRange.1)

/-- unic/char/range/src/par_iter.rs L39-41 (`len`): the length of the compact range. -/
def parLen (r : CharRange) : Nat := r.compactRange.2 - r.compactRange.1

end CharRange
end Model.CharRange
