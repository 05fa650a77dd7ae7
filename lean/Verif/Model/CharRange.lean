/-!
# Model of `unic/char/range`

A `char` is a `Nat` (theorems assume it is a Unicode scalar value).
-/
namespace Model.CharRange

/-- `char::MAX`. -/
def charMax : Nat := 0x10FFFF
/-- unic/char/range/src/step.rs L13 -/
def BEFORE_SURROGATE : Nat := 0xD7FF
/-- unic/char/range/src/step.rs L14 -/
def AFTER_SURROGATE : Nat := 0xE000

/-- unic/char/range/src/step.rs L23-29 (`forward`); the `unsafe` conversion is modelled by its value. -/
def forward (ch : Nat) : Nat :=
  if ch = BEFORE_SURROGATE then AFTER_SURROGATE else ch + 1

/-- unic/char/range/src/step.rs L39-45 (`backward`). -/
def backward (ch : Nat) : Nat :=
  if ch = AFTER_SURROGATE then BEFORE_SURROGATE else ch - 1

/-- unic/char/range/src/range.rs L38-44 (`CharRange`) -/
structure CharRange where
  low : Nat
  high : Nat
deriving DecidableEq, Repr

/-- unic/char/range/src/iter.rs L20-31 (`CharIter`) -/
structure CharIter where
  low : Nat
  high : Nat
deriving DecidableEq, Repr

namespace CharIter

/-- unic/char/range/src/iter.rs L33-40 (`From<CharRange> for CharIter`) -/
def ofRange (r : CharRange) : CharIter := ⟨r.low, r.high⟩

/-- unic/char/range/src/iter.rs L42-49 (`From<CharIter> for CharRange`) -/
def toRange (it : CharIter) : CharRange := ⟨it.low, it.high⟩

/-- unic/char/range/src/iter.rs L57-63 (`step_forward`) -/
def stepForward (it : CharIter) : CharIter :=
  if it.low = charMax then { it with high := 0 } else { it with low := forward it.low }

/-- unic/char/range/src/iter.rs L70-76 (`step_backward`) -/
def stepBackward (it : CharIter) : CharIter :=
  if it.high = 0 then { it with low := charMax } else { it with high := backward it.high }

/-- unic/char/range/src/iter.rs L80-82 (`is_finished`) -/
def isFinished (it : CharIter) : Bool := decide (it.low > it.high)

/-- unic/char/range/src/iter.rs L88-97 (`Iterator::next`): result and state afterwards. -/
def next (it : CharIter) : Option Nat × CharIter :=
  if it.isFinished then (none, it) else (some it.low, it.stepForward)

/-- unic/char/range/src/iter.rs L122-131 (`DoubleEndedIterator::next_back`) -/
def nextBack (it : CharIter) : Option Nat × CharIter :=
  if it.isFinished then (none, it) else (some it.high, it.stepBackward)

/-- unic/char/range/src/iter.rs L134-146 (`ExactSizeIterator::len`).
`SURROGATE_RANGE` (L15) is `0xD800..0xE000`; lengths of `ops::Range<u32>` are `end - start`. -/
def len (it : CharIter) : Nat :=
  if it.isFinished then 0
  else
    let start := it.low
    let stop := it.high + 1
    if start ≤ 0xD800 ∧ 0xE000 ≤ stop then (stop - start) - (0xE000 - 0xD800)
    else stop - start

/-- unic/char/range/src/iter.rs L99-102 (`size_hint`) -/
def sizeHint (it : CharIter) : Nat × Option Nat := (it.len, some it.len)

/-- unic/char/range/src/iter.rs L104-110 (`last`) -/
def last (it : CharIter) : Option Nat := if it.isFinished then none else some it.high

/-- unic/char/range/src/iter.rs L112-114 (`max`) -/
def max (it : CharIter) : Option Nat := it.last

/-- unic/char/range/src/iter.rs L116-118 (`min`) -/
def min (it : CharIter) : Option Nat := it.next.1

end CharIter

namespace CharRange

/-- unic/char/range/src/range.rs L213-215 (`iter`) -/
def iter (r : CharRange) : CharIter := CharIter.ofRange r

/-- unic/char/range/src/range.rs L61-66 (`closed`); also `chars!(a..=b)`, macros.rs L35-40 -/
def closed (start stop : Nat) : CharRange := ⟨start, stop⟩

/-- unic/char/range/src/range.rs L79-83 (`open_right`); also `chars!(a..b)`, macros.rs L32-34 -/
def openRight (start stop : Nat) : CharRange :=
  (closed start stop).iter.nextBack.2.toRange

/-- unic/char/range/src/range.rs L96-100 (`open_left`) -/
def openLeft (start stop : Nat) : CharRange :=
  (closed start stop).iter.next.2.toRange

/-- unic/char/range/src/range.rs L113-118 (`open`) -/
def opened (start stop : Nat) : CharRange :=
  (closed start stop).iter.next.2.nextBack.2.toRange

/-- `std::collections::Bound<char>` -/
inductive Bound where
  | included (c : Nat)
  | excluded (c : Nat)
  | unbounded
deriving DecidableEq, Repr

/-- unic/char/range/src/range.rs L122-140 (`bound`); the `unreachable!()` arm is `none`. -/
def bound (start stop : Bound) : Option CharRange :=
  let start := if start = .unbounded then .included 0 else start
  let stop := if stop = .unbounded then .included charMax else stop
  match start, stop with
  | .included s, .included t => some (closed s t)
  | .excluded s, .excluded t => some (opened s t)
  | .included s, .excluded t => some (openRight s t)
  | .excluded s, .included t => some (openLeft s t)
  | .unbounded, _ => none
  | _, .unbounded => none

/-- unic/char/range/src/range.rs L143-145 (`all`); also `chars!(..)` -/
def all : CharRange := closed 0 charMax

/-- unic/char/range/src/range.rs L161-163 (`assigned_normal_planes`) -/
def assignedNormalPlanes : CharRange := closed 0 0x2FFFF

/-- unic/char/range/src/range.rs L180-182 (`contains`) -/
def contains (r : CharRange) (ch : Nat) : Bool := decide (r.low ≤ ch) && decide (ch ≤ r.high)

/-- unic/char/range/src/range.rs L208-210 (`is_empty`) -/
def isEmpty (r : CharRange) : Bool := decide (r.low > r.high)

/-- unic/char/range/src/range.rs L190-200 (`cmp_char`); the failed `assert!` is `none`. -/
def cmpChar (r : CharRange) (ch : Nat) : Option Ordering :=
  if r.isEmpty then none
  else if r.high < ch then some .lt
  else if r.low > ch then some .gt
  else some .eq

/-- unic/char/range/src/range.rs L203-205 (`len`) -/
def len (r : CharRange) : Nat := r.iter.len

/-- unic/char/range/src/range.rs L227-231 (`PartialEq::eq`) -/
def eq (a b : CharRange) : Bool :=
  (a.isEmpty && b.isEmpty) || (decide (a.low = b.low) && decide (a.high = b.high))

/-- unic/char/range/src/par_iter.rs L20-21 (`SKIP_LENGTH`) -/
def SKIP_LENGTH : Nat := AFTER_SURROGATE - BEFORE_SURROGATE - 1

/-- unic/char/range/src/par_iter.rs L52-60 (`compact_range`), as a pair `start..end`. -/
def compactRange (r : CharRange) : Nat × Nat :=
  let low := r.low
  let high := r.high + 1
  (low, if r.high ≥ AFTER_SURROGATE then high - SKIP_LENGTH else high)

/-- unic/char/range/src/par_iter.rs L68-80: the closure mapped over the compact range. -/
def parMap (c : Nat) : Nat := if c > BEFORE_SURROGATE then c + SKIP_LENGTH else c

/-- unic/char/range/src/par_iter.rs L67-81 (`into_par_iter`).  Rayon's indexed parallel iterator over
a `Range<u32>` is modelled by the sequence it is contracted to produce. -/
def parIter (r : CharRange) : List Nat :=
  let (a, b) := r.compactRange
  (List.range' a (b - a)).map parMap

end CharRange

/-- Which end of the iterator a call takes from. -/
inductive Dir where
  | front
  | back
deriving DecidableEq, Repr

/-- Run a history of calls; returns values obtained from the front (in order), values obtained
from the back (in order), and the final state.  `None` results contribute nothing. -/
def runHistory : List Dir → CharIter → List Nat × List Nat × CharIter
  | [], it => ([], [], it)
  | .front :: ds, it =>
    let r := it.next
    let rest := runHistory ds r.2
    (r.1.toList ++ rest.1, rest.2.1, rest.2.2)
  | .back :: ds, it =>
    let r := it.nextBack
    let rest := runHistory ds r.2
    (rest.1, r.1.toList ++ rest.2.1, rest.2.2)

/-- `Iterator::collect`: call `next` until it returns `None` (with enough fuel to cover the code space). -/
def collectAux : Nat → CharIter → List Nat
  | 0, _ => []
  | fuel + 1, it =>
    match it.next with
    | (none, _) => []
    | (some c, it') => c :: collectAux fuel it'

/-- Forward collection of an iterator.  The fuel `0x110000` always reaches `None` (proved). -/
def collect (it : CharIter) : List Nat := collectAux 0x110000 it

end Model.CharRange
