import Verif.Data.Enums
import Verif.Model.Tables

/-! # Model of `unic/bidi/src/level.rs`

A `Level` wraps a `u8`; it is a natural number here, and `u8` arithmetic is written out
(`checked_add` fails above 255).  `Err(OutOfRangeNumber)` is `none`. -/
namespace Model.Level
open Data

/-- unic/bidi/src/level.rs L43-45 (`MAX_EXPLICIT_DEPTH`) -/
abbrev MAX_EXPLICIT_DEPTH : Nat := 125
/-- unic/bidi/src/level.rs L47 (`MAX_IMPLICIT_DEPTH`) -/
abbrev MAX_IMPLICIT_DEPTH : Nat := 126

/-- unic/bidi/src/level.rs L38, L59-61 -/
def ltr : Nat := 0
/-- unic/bidi/src/level.rs L41, L65-67 -/
def rtl : Nat := 1

/-- unic/bidi/src/level.rs L83-89 (`new`) -/
def new (number : Nat) : Option Nat := if number ≤ MAX_IMPLICIT_DEPTH then some number else none
/-- unic/bidi/src/level.rs L93-99 (`new_explicit`) -/
def newExplicit (number : Nat) : Option Nat := if number ≤ MAX_EXPLICIT_DEPTH then some number else none

/-- unic/bidi/src/level.rs L111-113 -/
def isLtr (l : Nat) : Bool := l % 2 == 0
/-- unic/bidi/src/level.rs L117-119 -/
def isRtl (l : Nat) : Bool := l % 2 == 1

/-- `u8::checked_add` (std) -/
def checkedAdd (a b : Nat) : Option Nat := if a + b ≤ 255 then some (a + b) else none
/-- `u8::checked_sub` (std) -/
def checkedSub (a b : Nat) : Option Nat := if b ≤ a then some (a - b) else none

/-- unic/bidi/src/level.rs L125-137 (`raise`): the level afterwards and whether it succeeded. -/
def raise (l amount : Nat) : Nat × Bool :=
  match checkedAdd l amount with
  | some number => if number ≤ MAX_IMPLICIT_DEPTH then (number, true) else (l, false)
  | none => (l, false)
/-- unic/bidi/src/level.rs L141-153 (`raise_explicit`) -/
def raiseExplicit (l amount : Nat) : Nat × Bool :=
  match checkedAdd l amount with
  | some number => if number ≤ MAX_EXPLICIT_DEPTH then (number, true) else (l, false)
  | none => (l, false)
/-- unic/bidi/src/level.rs L157-165 (`lower`) -/
def lower (l amount : Nat) : Nat × Bool :=
  match checkedSub l amount with
  | some number => (number, true)
  | none => (l, false)

/-- unic/bidi/src/level.rs L171-173 (`new_explicit_next_ltr`): `(self.0 + 2) & !1` on `u8`
(no overflow for levels up to 126). -/
def newExplicitNextLtr (l : Nat) : Option Nat := newExplicit ((l + 2) &&& 254)
/-- unic/bidi/src/level.rs L177-179 (`new_explicit_next_rtl`) -/
def newExplicitNextRtl (l : Nat) : Option Nat := newExplicit ((l + 1) ||| 1)
/-- unic/bidi/src/level.rs L184-186 (`new_lowest_ge_rtl`) -/
def newLowestGeRtl (l : Nat) : Option Nat := new (l ||| 1)

/-- unic/bidi/src/level.rs L190-196 (`bidi_class`) -/
def bidiClass (l : Nat) : BidiClass := if isRtl l then .RightToLeft else .LeftToRight

/-- unic/bidi/src/level.rs L214-216 (`has_rtl`) -/
def hasRtl (levels : List Nat) : Bool := levels.any isRtl

/-- unic/bidi/src/level.rs L227-233 (`From<u8>`); the failing `expect` panics. -/
def ofU8 (number : Nat) : Outcome Nat :=
  match new number with
  | some l => .ok l
  | none => .panic
/-- unic/bidi/src/level.rs L199-201 (`vec`) -/
def vec : List Nat → Outcome (List Nat)
  | [] => .ok []
  | n :: ns => match ofU8 n with
    | .panic => .panic
    | .ok l => match vec ns with
      | .ok ls => .ok (l :: ls)
      | .panic => .panic

/-- The public operations on a level, for histories. -/
inductive Op where
  | raise (amount : Nat)
  | raiseExplicit (amount : Nat)
  | lower (amount : Nat)
  | nextLtr
  | nextRtl
  | lowestGeRtl

/-- One operation; the constructors returning a new level replace it on success. -/
def step (l : Nat) : Op → Nat
  | .raise a => (raise l a).1
  | .raiseExplicit a => (raiseExplicit l a).1
  | .lower a => (lower l a).1
  | .nextLtr => (newExplicitNextLtr l).getD l
  | .nextRtl => (newExplicitNextRtl l).getD l
  | .lowestGeRtl => (newLowestGeRtl l).getD l

end Model.Level
