import Verif.Model.Ucd
import Verif.Model.Hangul
import Verif.Data.Canonical
import Verif.Data.Compat

/-! # Model of `unic/ucd/normal/src` : composition and decomposition of characters -/
namespace Model.UcdNormal
open Model Model.Hangul Data

/-- unic/ucd/normal/src/composition.rs L19-20: each first character has its own table. -/
def compositionTable : CharDataTable (CharDataTable Nat) :=
  .direct (Data.canonicalComposition.flatten.map fun e => (e.1, .direct e.2))
/-- unic/ucd/normal/src/composition.rs L22-23 -/
def canonicalTable : CharDataTable (List Nat) := .ofDirect Data.canonicalDecomposition
/-- unic/ucd/normal/src/composition.rs L25-27 -/
def compatibilityTable : CharDataTable (DecompositionType × List Nat) := .ofDirect Data.compatibilityDecomposition

/-- unic/ucd/normal/src/composition.rs L31-33 (`canonical_composition`) -/
def canonicalComposition (c : Nat) : Option (CharDataTable Nat) := compositionTable.findVal c
/-- unic/ucd/normal/src/composition.rs L36-38 (`canonical_decomposition`) -/
def canonicalDecomposition (c : Nat) : Option (List Nat) := canonicalTable.findVal c
/-- unic/ucd/normal/src/composition.rs L41-45 (`compatibility_decomposition`) -/
def compatibilityDecomposition (c : Nat) : Option (List Nat) := (compatibilityTable.findVal c).map (·.2)

/-- unic/ucd/normal/src/decomposition.rs L39-79 (`d`), for given mapping functions: the characters
passed to the callback in order, or `none` when `fuel` recursive levels do not suffice. -/
def dWith (canonical compatibility : Nat → Option (List Nat)) : (fuel : Nat) → (k : Bool) → (ch : Nat) → Option (List Nat)
  | 0, _, _ => none
  | fuel + 1, k, ch =>
    if ch ≤ 0x7f then some [ch]
    else if isSyllable ch then some (decomposeSyllable ch)
    else match canonical ch with
      | some canon => (canon.mapM (dWith canonical compatibility fuel k)).map List.flatten
      | none =>
        if !k then some [ch]
        else match compatibility ch with
          | some compat => (compat.mapM (dWith canonical compatibility fuel k)).map List.flatten
          | none => some [ch]

/-- unic/ucd/normal/src/decomposition.rs L39-79 (`d`) with the shipped tables.  The Rust recursion has
no bound; `Props.Normal.c12_terminates` shows that four levels always suffice, for any larger fuel
equally. -/
def d : (fuel : Nat) → (k : Bool) → (ch : Nat) → Option (List Nat) :=
  dWith canonicalDecomposition compatibilityDecomposition

/-- Fuel used for the total functions below (more than needed). -/
def FUEL : Nat := 8

/-- unic/ucd/normal/src/decomposition.rs L21-26 (`decompose_canonical`): the emitted characters. -/
def decomposeCanonical (ch : Nat) : List Nat := (d FUEL false ch).getD []
/-- unic/ucd/normal/src/decomposition.rs L31-36 (`decompose_compatible`): the emitted characters. -/
def decomposeCompatible (ch : Nat) : List Nat := (d FUEL true ch).getD []

/-- unic/ucd/normal/src/lib.rs L69-71 (`compose`) -/
def compose (a b : Nat) : Option Nat :=
  match composeSyllable a b with
  | some r => some r
  | none => (canonicalComposition a).bind fun table => table.findVal b

/-- unic/ucd/normal/src/decomposition_type.rs L164-172 (`DecompositionType::of`) -/
def decompositionType (ch : Nat) : Option DecompositionType :=
  if isSyllable ch || (canonicalDecomposition ch).isSome then some .Canonical
  else (compatibilityTable.findVal ch).map (·.1)

end Model.UcdNormal
