/-! # Specification: Unicode normalization (The Unicode Standard, section 3.11)

Independent of the code; parametric in the combining class `ccc`, the full decomposition `dec` of a
character and the primary composite `comp` of a pair. -/
namespace Spec.Normal

/-- D108, D109: one step of canonical reordering exchanges a reorderable pair. -/
inductive Reorder (ccc : Nat → Nat) : List Nat → List Nat → Prop
  | swap (x y : List Nat) (a b : Nat) (h : ccc a > ccc b) (hb : ccc b > 0) :
      Reorder ccc (x ++ a :: b :: y) (x ++ b :: a :: y)

/-- Any number of steps. -/
inductive Reorders (ccc : Nat → Nat) : List Nat → List Nat → Prop
  | refl (s) : Reorders ccc s s
  | step {s t u} : Reorder ccc s t → Reorders ccc t u → Reorders ccc s u

/-- No reorderable pair is left. -/
def Ordered (ccc : Nat → Nat) (s : List Nat) : Prop := ∀ t, ¬ Reorder ccc s t

/-- D109, Canonical Ordering Algorithm: the ordered list reached by reordering. -/
def IsCanonicalOrdering (ccc : Nat → Nat) (s t : List Nat) : Prop := Reorders ccc s t ∧ Ordered ccc t

/-- D117, Canonical Composition Algorithm, as it walks over the characters: the text before the last
starter, the last starter, and the characters retained after it. -/
structure Walk where
  before : List Nat
  starter : Option Nat
  after : List Nat

/-- The text so far. -/
def Walk.text (w : Walk) : List Nat := w.before ++ (match w.starter with | some l => [l] | none => []) ++ w.after

/-- D115: `c` is blocked from the last starter by the retained characters in between. -/
def blocked (ccc : Nat → Nat) (after : List Nat) (c : Nat) : Bool :=
  after.any fun b => ccc b = 0 || ccc b ≥ ccc c

/-- D117, one character: merge it into the last starter if it is not blocked and there is a primary
composite, otherwise retain it (a starter becomes the last starter). -/
def walkStep (ccc : Nat → Nat) (comp : Nat → Nat → Option Nat) (w : Walk) (c : Nat) : Walk :=
  let retained : Walk := if ccc c = 0 then ⟨w.text, some c, []⟩ else
    match w.starter with
    | some _ => { w with after := w.after ++ [c] }
    | none => { w with before := w.before ++ [c] }
  match w.starter with
  | none => retained
  | some l => if blocked ccc w.after c then retained else
    match comp l c with
    | some p => { w with starter := some p }
    | none => retained

/-- D117: the canonical composition of a canonically ordered decomposition. -/
def composed (ccc : Nat → Nat) (comp : Nat → Nat → Option Nat) (s : List Nat) : List Nat :=
  (s.foldl (walkStep ccc comp) ⟨[], none, []⟩).text

/-- The decomposition mapping of every character: Hangul syllables by arithmetic (section 3.12: LVT to
LV and T, LV to L and V), other characters by table. -/
def mappingWith (table : Nat → Option (List Nat)) (c : Nat) : Option (List Nat) :=
  if 0xAC00 ≤ c ∧ c ≤ 0xD7A3 then
    let i := c - 0xAC00
    some (if i % 28 = 0 then [0x1100 + i / 588, 0x1161 + i % 588 / 28] else [c - i % 28, 0x11A7 + i % 28])
  else table c

mutual
/-- D68/D65: full decomposition by applying mappings recursively. A character without mapping
decomposes to itself. -/
inductive FullDecomp (mapping : Nat → Option (List Nat)) : Nat → List Nat → Prop
  | leaf {c} : mapping c = none → FullDecomp mapping c [c]
  | node {c m out} : mapping c = some m → FullDecomps mapping m out → FullDecomp mapping c out
/-- The same, for each character of a list. -/
inductive FullDecomps (mapping : Nat → Option (List Nat)) : List Nat → List Nat → Prop
  | nil : FullDecomps mapping [] []
  | cons {c cs a b} : FullDecomp mapping c a → FullDecomps mapping cs b → FullDecomps mapping (c :: cs) (a ++ b)
end

/-- CompositionExclusions.txt: the characters that are never composed although they have a
two-character canonical mapping that starts with a starter, as ranges. -/
def exclusionRanges : List (Nat × Nat) :=
  [(0x958, 0x95F), (0x9DC, 0x9DC), (0x9DD, 0x9DD), (0x9DF, 0x9DF), (0xA33, 0xA33), (0xA36, 0xA36),
   (0xA59, 0xA5B), (0xA5E, 0xA5E), (0xB5C, 0xB5C), (0xB5D, 0xB5D), (0xF43, 0xF43), (0xF4D, 0xF4D),
   (0xF52, 0xF52), (0xF57, 0xF57), (0xF5C, 0xF5C), (0xF69, 0xF69), (0xF76, 0xF76), (0xF78, 0xF78),
   (0xF93, 0xF93), (0xF9D, 0xF9D), (0xFA2, 0xFA2), (0xFA7, 0xFA7), (0xFAC, 0xFAC), (0xFB9, 0xFB9),
   (0x2ADC, 0x2ADC), (0xFB1D, 0xFB1D), (0xFB1F, 0xFB1F), (0xFB2A, 0xFB36), (0xFB38, 0xFB3C),
   (0xFB3E, 0xFB3E), (0xFB40, 0xFB40), (0xFB41, 0xFB41), (0xFB43, 0xFB43), (0xFB44, 0xFB44),
   (0xFB46, 0xFB4E), (0x1D15E, 0x1D164), (0x1D1BB, 0x1D1C0)]

/-- D110-D112: full composition exclusion of a character with canonical mapping `[a, b]`: listed, or a
non-starter decomposition. -/
def Excluded (ccc : Nat → Nat) (c a : Nat) : Prop :=
  (∃ r ∈ exclusionRanges, r.1 ≤ c ∧ c ≤ r.2) ∨ ccc c ≠ 0 ∨ ccc a ≠ 0

/-- Canonical equivalence (D70) as a congruence: generated by replacing a character by its canonical
mapping and by canonical reordering. -/
inductive Equivalent (ccc : Nat → Nat) (mapping : Nat → Option (List Nat)) : List Nat → List Nat → Prop
  | refl (s) : Equivalent ccc mapping s s
  | symm {s t} : Equivalent ccc mapping s t → Equivalent ccc mapping t s
  | trans {s t u} : Equivalent ccc mapping s t → Equivalent ccc mapping t u → Equivalent ccc mapping s u
  | expand (x y : List Nat) (c : Nat) (m : List Nat) (h : mapping c = some m) :
      Equivalent ccc mapping (x ++ c :: y) (x ++ m ++ y)
  | reorder {s t} : Reorder ccc s t → Equivalent ccc mapping s t

end Spec.Normal
