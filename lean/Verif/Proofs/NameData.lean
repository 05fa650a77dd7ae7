import Verif.Data.NameTree
import Verif.Model.Name
import Verif.Model.Ucd
import Verif.Proofs.Chunked
import Verif.Proofs.UcdSF

/-! Checks of the whole table of names, by kernel evaluation. -/
namespace Proofs.Name
open Spec Model Model.Name Data Proofs.StepFn Proofs.UcdSF

theorem names_asc : ascFrom 0 (directEntries Data.names.flatten) = true := by decide +kernel

/-- every name ends with a space -/
theorem names_end : Data.names.all (fun ch => ch.all fun e => Nat.beq (e.2 % 256) 0x20) = true := by decide +kernel

/-- search in the tree -/
def treeGet : NameTree → Nat → Nat
  | .leaf c, _ => c
  | .node k l r, h => cond (Nat.blt h k) (treeGet l h) (treeGet r h)

theorem names_tree : Data.names.all (fun ch => ch.all fun e => Nat.beq (treeGet nameTree (e.2 % 0xFFFFFFFFA9)) e.1) = true := by decide +kernel

/-- characters of the table that `Name::of` does not look up there -/
def shadowed (c : Nat) : Bool := inRange 0x1B170 0x1B2FB c || inRange 0xF900 0xFA6D c || inRange 0xFA70 0xFAD9 c || inRange 0x2F800 0x2FA1D c

/-- drop bytes until at most `16` are left, eight at a time -/
def topFast : Nat → Nat → Nat
  | 0, n => n
  | fuel + 1, n => cond (Nat.blt n 0x10000000000000000000000000000000000) n (topFast fuel (n / 0x10000000000000000))

/-- drop bytes until at most nine are left -/
def topSlow : Nat → Nat → Nat
  | 0, n => n
  | fuel + 1, n => cond (Nat.blt n 0x1000000000000000000) n (topSlow fuel (n / 256))

/-- the first nine bytes of `n` -/
def top (n : Nat) : Nat := topSlow 8 (topFast 12 n)

/-- nine bytes that do not start any of the prefixes of derived names -/
def notPrefix (r : Nat) : Bool :=
  Nat.blt r 0x1000000000000000000 && !Nat.beq r 0x48414E47554C205359 && !Nat.beq r 0x434A4B20554E494649 && !Nat.beq r 0x54414E475554204944 &&
    !Nat.beq r 0x4E5553485520434841 && !Nat.beq r 0x434A4B20434F4D5041

/-- no prefix of the derived names starts this name -/
def noPrefix (n : Nat) : Bool := Nat.blt n 0x10000000000000000 || notPrefix (top n)

theorem names_prefix : Data.names.all (fun ch => ch.all fun e => shadowed e.1 || noPrefix e.2) = true := by decide +kernel

/-- the intervals of consecutive characters of a chunk, the current one from `lo` to `hi` -/
def chunkRuns : List (Nat × Nat) → Nat → Nat → List (Nat × Nat × Unit)
  | [], lo, hi => [(lo, hi, ())]
  | (c, _) :: r, lo, hi => if c = hi + 1 then chunkRuns r lo c else (lo, hi, ()) :: chunkRuns r c c

/-- the intervals of a chunk -/
def chunkRunsOf : List (Nat × Nat) → List (Nat × Nat × Unit)
  | [] => []
  | (c, _) :: r => chunkRuns r c c

/-- the characters of the table as intervals -/
def nameRuns : List (Nat × Nat × Unit) := (Data.names.map chunkRunsOf).flatten

/-- the characters whose names are derived, and those of the table -/
def derived : List (Nat × Nat × Unit) :=
  [(0x3400, 0x4DB5, ()), (0x4E00, 0x9FEA, ()), (0xAC00, 0xD7A3, ()), (0xF900, 0xFA6D, ()), (0xFA70, 0xFAD9, ()), (0x17000, 0x187EC, ()), (0x1B170, 0x1B2FB, ()),
   (0x20000, 0x2A6D6, ()), (0x2A700, 0x2B734, ()), (0x2B740, 0x2B81D, ()), (0x2B820, 0x2CEA1, ()), (0x2CEB0, 0x2EBE0, ()), (0x2F800, 0x2FA1D, ())]

theorem nameRuns_asc : ascFrom 0 nameRuns = true := by decide +kernel
theorem derived_asc : ascFrom 0 derived = true := by decide

/-- named characters are those of a category other than Cc, Cn, Co and Cs -/
def namedOk (g : GeneralCategory) (a b : Option Unit) : Bool :=
  (a.isSome || b.isSome) == match g with
    | .Control | .Unassigned | .PrivateUse | .Surrogate => false
    | _ => true

theorem names_category : (SF.zipWith (fun x y => namedOk x.1 x.2 y) (SF.zipWith Prod.mk generalCategorySF (SF.ofEntries nameRuns))
    (SF.ofEntries derived)).all id = true := by decide +kernel

end Proofs.Name
