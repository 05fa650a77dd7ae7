import Verif.Model.CharRange

/-! # Model of `unic/char/property/src/tables.rs` -/
namespace Model

/-- Result of a computation that may panic. -/
inductive Outcome (α : Type) where
  | ok (a : α)
  | panic
deriving DecidableEq, Repr

namespace Outcome
def map {α β : Type} (f : α → β) : Outcome α → Outcome β
  | .ok a => .ok (f a)
  | .panic => .panic
end Outcome

open Model.CharRange (CharRange)

/-- unic/char/property/src/tables.rs L18-24 (`CharDataTable`); a static slice is a list. -/
inductive CharDataTable (V : Type) where
  | direct (t : List (Nat × V))
  | range (t : List (CharRange × V))

/-- The loop of `core::slice::binary_search_by` (std): `left`, `right` and the remaining `size`;
`f` is the comparator applied to an element (`none` = the comparator panics).
`Ok idx` is `some idx`, `Err _` is `none` (the callers only use `Ok`).
Fuel: the loop strictly shrinks `right - left`, `fuel ≥ right - left` always suffices (proved). -/
def searchLoop {E : Type} (l : List E) (f : E → Option Ordering) :
    (fuel left right : Nat) → Outcome (Option Nat)
  | 0, _, _ => .ok none
  | fuel + 1, left, right =>
    if left < right then
      let mid := left + (right - left) / 2
      match l[mid]? with
      | none => .panic
      | some e =>
        match f e with
        | none => .panic
        | some .lt => searchLoop l f fuel (mid + 1) right
        | some .gt => searchLoop l f fuel left mid
        | some .eq => .ok (some mid)
    else .ok none

/-- `<[T]>::binary_search_by(f).ok()` -/
def binarySearchBy {E : Type} (l : List E) (f : E → Option Ordering) : Outcome (Option Nat) :=
  searchLoop l f (l.length + 1) 0 l.length

namespace CharDataTable

/-- The comparator of `binary_search_by_key(&needle, |&(k, _)| k)` -/
def cmpKey {V : Type} (needle : Nat) (e : Nat × V) : Option Ordering := some (compare e.1 needle)

/-- The comparator `|&(range, _)| range.cmp_char(needle)` -/
def cmpRange {V : Type} (needle : Nat) (e : CharRange × V) : Option Ordering := e.1.cmpChar needle

/-- unic/char/property/src/tables.rs L34-43 (`contains`) -/
def contains {V : Type} (t : CharDataTable V) (needle : Nat) : Outcome Bool :=
  match t with
  | .direct t => (binarySearchBy t (cmpKey needle)).map Option.isSome
  | .range t => (binarySearchBy t (cmpRange needle)).map Option.isSome

/-- `table[idx].1` after a successful search; an out-of-range index panics. -/
def pick {E V : Type} (l : List E) (val : E → V) : Outcome (Option Nat) → Outcome (Option V)
  | .panic => .panic
  | .ok none => .ok none
  | .ok (some i) =>
    match l[i]? with
    | some e => .ok (some (val e))
    | none => .panic

/-- unic/char/property/src/tables.rs L48-59 (`find`) -/
def find {V : Type} (t : CharDataTable V) (needle : Nat) : Outcome (Option V) :=
  match t with
  | .direct t => pick t (·.2) (binarySearchBy t (cmpKey needle))
  | .range t => pick t (·.2) (binarySearchBy t (cmpRange needle))

/-- unic/char/property/src/tables.rs L62-70 (`find_with_range`) -/
def findWithRange {V : Type} (t : CharDataTable V) (needle : Nat) : Outcome (Option (CharRange × V)) :=
  match t with
  | .direct _ => .ok none
  | .range t => pick t id (binarySearchBy t (cmpRange needle))

/-- unic/char/property/src/tables.rs L75-77 (`find_or_default`), the default passed explicitly. -/
def findOrDefault {V : Type} (t : CharDataTable V) (dflt : V) (needle : Nat) : Outcome V :=
  (t.find needle).map (fun o => o.getD dflt)

/-- unic/char/property/src/tables.rs L82, L87-109 (`CharDataTableIter::next`): the state is the index. -/
def iterNext {V : Type} (t : CharDataTable V) (idx : Nat) : Option ((CharRange × V) × Nat) :=
  match t with
  | .direct arr =>
    if idx ≥ arr.length then none
    else match arr[idx]? with
      | some (ch, v) => some ((⟨ch, ch⟩, v), idx + 1)
      | none => none
  | .range arr =>
    if idx ≥ arr.length then none
    else match arr[idx]? with
      | some e => some (e, idx + 1)
      | none => none

/-- Run the iterator from index `idx` until it returns `None` (at most `fuel` items). -/
def iterCollect {V : Type} (t : CharDataTable V) : (fuel idx : Nat) → List (CharRange × V)
  | 0, _ => []
  | fuel + 1, idx =>
    match t.iterNext idx with
    | none => []
    | some (e, idx') => e :: iterCollect t fuel idx'

def size {V : Type} : CharDataTable V → Nat
  | .direct t => t.length
  | .range t => t.length

/-- unic/char/property/src/tables.rs L114-116 (`iter`), collected. -/
def iter {V : Type} (t : CharDataTable V) : List (CharRange × V) := t.iterCollect (t.size + 1) 0

/-- A shipped `CharDataTable::Range` from its generated chunks. -/
def ofRange {V : Type} (chunks : List (List (Nat × Nat × V))) : CharDataTable V :=
  .range (chunks.flatten.map fun e => (⟨e.1, e.2.1⟩, e.2.2))

/-- A shipped `CharDataTable::Direct` from its generated chunks. -/
def ofDirect {V : Type} (chunks : List (List (Nat × V))) : CharDataTable V :=
  .direct chunks.flatten

/-- Value of `find` where it does not panic (C09 shows the shipped tables never panic). -/
def findVal {V : Type} (t : CharDataTable V) (needle : Nat) : Option V :=
  match t.find needle with
  | .ok o => o
  | .panic => none

/-- Value of `contains` where it does not panic. -/
def containsVal {V : Type} (t : CharDataTable V) (needle : Nat) : Bool :=
  match t.contains needle with
  | .ok b => b
  | .panic => false

end CharDataTable
end Model
