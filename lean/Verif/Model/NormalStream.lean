import Verif.Model.Normal
import Verif.Model.Grapheme

/-! # Model of the rest of the interface of the iterators in `unic/normal/src` -/
namespace Model.Normal

/-- The state of an iterator after `n` calls of `next`. -/
def after {σ : Type} (next : σ → Option Nat × σ) : (n : Nat) → σ → σ
  | 0, st => st
  | n + 1, st => after next n (next st).2

/-- `Chars::size_hint` (std): a character has one to four bytes. -/
def charsSizeHint (s : List Nat) : Nat × Option Nat := ((Grapheme.blen s + 3) / 4, some (Grapheme.blen s))

/-- unic/normal/src/decompose.rs L134-137 (`size_hint`) -/
def Decompositions.sizeHint (st : Decompositions) : Nat × Option Nat := ((charsSizeHint st.rest).1, none)

/-- unic/normal/src/decompose.rs L140-147 (`Display`): a clone is run to its end -/
def Decompositions.display (ccc : Nat → Nat) (dec : Nat → List Nat) (st : Decompositions) : List Nat := st.collect ccc dec

/-- unic/normal/src/recompose.rs L138-145 (`Display`); the default `size_hint` of iterators, `(0, None)`, is not overridden -/
def Recompositions.display (ccc : Nat → Nat) (dec : Nat → List Nat) (comp : Nat → Nat → Option Nat) (st : Recompositions) : List Nat :=
  st.collect ccc dec comp

end Model.Normal
