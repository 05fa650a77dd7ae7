import Verif.Model.UcdNormal

/-! # Model of `unic/normal/src` : the normalization iterators

The underlying `char` iterator is a list of the characters still to come (`str::Chars`, which is
fused).  Both iterators are parametric in the decomposition of one character, the combining class
and the pairwise composition; the last section instantiates them with the shipped data. -/
namespace Model.Normal
open Model.UcdNormal

/-- The results of the first `n` calls of an iterator's `next`. -/
def calls {σ : Type} (next : σ → Option Nat × σ) : (n : Nat) → σ → List (Option Nat)
  | 0, _ => []
  | n + 1, st => (next st).1 :: calls next n (next st).2

/-- A buffer entry: character and combining class. -/
abbrev Entry := Nat × Nat

/-- unic/normal/src/decompose.rs L22-29: the inner loop `for j in 1..n` of `canonical_sort`, carrying
the entry at index `j - 1`; returns the buffer and `swapped`. -/
def bubblePass : Nat → List Entry → List Entry × Bool
  | n + 2, a :: b :: r =>
    if a.2 ≠ 0 ∧ b.2 ≠ 0 ∧ a.2 > b.2 then
      let (r', _) := bubblePass (n + 1) (a :: r)
      (b :: r', true)
    else
      let (r', swapped) := bubblePass (n + 1) (b :: r)
      (a :: r', swapped)
  | _, l => (l, false)

/-- unic/normal/src/decompose.rs L20-33: the outer loop, with `n = len - i`. -/
def sortLoop : Nat → List Entry → List Entry
  | 0, l => l
  | n + 1, l =>
    let (l', swapped) := bubblePass (n + 1) l
    if swapped then sortLoop n l' else l'

/-- unic/normal/src/decompose.rs L18-34 (`canonical_sort`) -/
def canonicalSort (l : List Entry) : List Entry := sortLoop l.length l

/-- unic/normal/src/decompose.rs L43-49 (`Decompositions`) -/
structure Decompositions where
  rest : List Nat
  buffer : List Entry
  sorted : Bool
deriving Repr

/-- unic/normal/src/decompose.rs L51-69 (`new_canonical`, `new_compatible`) -/
def Decompositions.new (s : List Nat) : Decompositions := ⟨s, [], false⟩

section
variable (ccc : Nat → Nat) (dec : Nat → List Nat)

/-- unic/normal/src/decompose.rs L96-103 (`callback`): buffer and `sorted` after one emitted character. -/
def callback (st : List Entry × Bool) (d : Nat) : List Entry × Bool :=
  let st := if ccc d = 0 ∧ st.2 = false then (canonicalSort st.1, true) else st
  (st.1 ++ [(d, ccc d)], st.2)

/-- unic/normal/src/decompose.rs L92-112: read characters until `sorted` becomes true. -/
def fill : List Nat → List Entry → List Nat × List Entry × Bool
  | [], buffer => ([], buffer, false)
  | ch :: rest, buffer =>
    let st := (dec ch).foldl (callback ccc) (buffer, false)
    if st.2 then (rest, st) else fill rest st.1

/-- unic/normal/src/decompose.rs L91-131: the part of `next` after the buffer's front was inspected,
with `sorted` false. -/
def refill (st : Decompositions) : Option Nat × Decompositions :=
  let (rest, buffer, sorted) := fill ccc dec st.rest st.buffer
  let buffer := if sorted then buffer else canonicalSort buffer
  match buffer with
  | [] => (none, ⟨rest, [], true⟩)
  | (c, k) :: buffer => (some c, ⟨rest, buffer, decide (k ≠ 0)⟩)

/-- unic/normal/src/decompose.rs L75-132 (`next`) -/
def Decompositions.next (st : Decompositions) : Option Nat × Decompositions :=
  match st.buffer with
  | (c, k) :: buffer =>
    if k = 0 then (some c, { st with buffer := buffer, sorted := false })
    else if st.sorted then (some c, { st with buffer := buffer })
    else refill ccc dec st
  | [] => refill ccc dec st

/-- Number of characters still to be produced; bounds the loops below. -/
def Decompositions.size (st : Decompositions) : Nat := st.buffer.length + (st.rest.flatMap dec).length

/-- Call `next` until it returns `None` (at most `fuel` times), collecting the results. -/
def Decompositions.take : Nat → Decompositions → List Nat
  | 0, _ => []
  | fuel + 1, st => match st.next ccc dec with
    | (none, _) => []
    | (some c, st') => c :: Decompositions.take fuel st'

/-- `collect()` on the iterator -/
def Decompositions.collect (st : Decompositions) : List Nat := st.take ccc dec (st.size dec + 1)

variable (comp : Nat → Nat → Option Nat)

/-- unic/normal/src/recompose.rs L20-24 (`RecompositionState`) -/
inductive RState where
  | Composing | Purging | Finished
deriving DecidableEq, Repr

/-- unic/normal/src/recompose.rs L28-34 (`Recompositions`) -/
structure Recompositions where
  iter : Decompositions
  state : RState
  buffer : List Nat
  composee : Option Nat
  lastCcc : Option Nat
deriving Repr

/-- unic/normal/src/recompose.rs L36-56 -/
def Recompositions.new (s : List Nat) : Recompositions := ⟨.new s, .Composing, [], none, none⟩

/-- unic/normal/src/recompose.rs L68-122: the `for` loop of the `Composing` arm. `some` is a `return`
from `next`; `none` is falling through to the end of the loop body (the source is exhausted, with
L120-122 still to be done). At most `fuel` characters are read. -/
def composing : Nat → Recompositions → Option (Option Nat) × Recompositions
  | 0, st => (none, st)
  | fuel + 1, st =>
    match st.iter.next ccc dec with
    | (none, iter) => (none, { st with iter := iter })
    | (some ch, iter) =>
      let st := { st with iter := iter }
      match st.composee with
      | none =>
        if ccc ch ≠ 0 then (some (some ch), st)
        else composing fuel { st with composee := some ch }
      | some k =>
        match st.lastCcc with
        | none =>
          match comp k ch with
          | some r => composing fuel { st with composee := some r }
          | none =>
            if ccc ch = 0 then (some (some k), { st with composee := some ch })
            else composing fuel { st with buffer := st.buffer ++ [ch], lastCcc := some (ccc ch) }
        | some last =>
          if last ≥ ccc ch then
            if ccc ch = 0 then
              (some (some k), { st with composee := some ch, lastCcc := none, state := .Purging })
            else composing fuel { st with buffer := st.buffer ++ [ch], lastCcc := some (ccc ch) }
          else
            match comp k ch with
            | some r => composing fuel { st with composee := some r }
            | none => composing fuel { st with buffer := st.buffer ++ [ch], lastCcc := some (ccc ch) }

/-- unic/normal/src/recompose.rs L129-132: the `Finished` arm. -/
def finished (st : Recompositions) : Option Nat × Recompositions :=
  match st.buffer with
  | [] => (st.composee, { st with composee := none })
  | c :: buffer => (some c, { st with buffer := buffer })

/-- unic/normal/src/recompose.rs L67-124: the `Composing` arm, then (when nothing was returned) the
`Finished` arm. -/
def composingArm (st : Recompositions) : Option Nat × Recompositions :=
  match composing ccc dec comp (st.iter.size dec + 1) st with
  | (some r, st) => (r, st)
  | (none, st) =>
    let st := { st with state := .Finished }
    match st.composee with
    | some k => (some k, { st with composee := none })
    | none => finished st

/-- unic/normal/src/recompose.rs L61-135 (`next`) -/
def Recompositions.next (st : Recompositions) : Option Nat × Recompositions :=
  match st.state with
  | .Composing => composingArm ccc dec comp st
  | .Purging =>
    match st.buffer with
    | [] => composingArm ccc dec comp { st with state := .Composing }
    | c :: buffer => (some c, { st with buffer := buffer })
  | .Finished => finished st

/-- Number of characters the iterator can still produce. -/
def Recompositions.size (st : Recompositions) : Nat :=
  st.iter.size dec + st.buffer.length + (if st.composee.isSome then 1 else 0)

def Recompositions.take : Nat → Recompositions → List Nat
  | 0, _ => []
  | fuel + 1, st => match st.next ccc dec comp with
    | (none, _) => []
    | (some c, st') => c :: Recompositions.take fuel st'

/-- `collect()` on the iterator -/
def Recompositions.collect (st : Recompositions) : List Nat := st.take ccc dec comp (st.size dec + 1)
end

/-- unic/normal/src/lib.rs L74-76 (`nfd`), collected -/
def nfd (s : List Nat) : List Nat := (Decompositions.new s).collect Ucd.combiningClass decomposeCanonical
/-- unic/normal/src/lib.rs L79-81 (`nfkd`), collected -/
def nfkd (s : List Nat) : List Nat := (Decompositions.new s).collect Ucd.combiningClass decomposeCompatible
/-- unic/normal/src/lib.rs L84-86 (`nfc`), collected -/
def nfc (s : List Nat) : List Nat := (Recompositions.new s).collect Ucd.combiningClass decomposeCanonical compose
/-- unic/normal/src/lib.rs L89-91 (`nfkc`), collected -/
def nfkc (s : List Nat) : List Nat := (Recompositions.new s).collect Ucd.combiningClass decomposeCompatible compose

end Model.Normal
