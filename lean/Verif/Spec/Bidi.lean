import Verif.Data.Enums

/-! # Specification: Unicode Standard Annex #9 (Unicode Bidirectional Algorithm)

Written from the rules of the annex, over one Bidi_Class per character. -/
namespace Spec.Bidi
open Data

/-- strong types -/
def isStrong : BidiClass → Bool
  | .LeftToRight | .RightToLeft | .ArabicLetter => true
  | _ => false

/-- BD8: isolate initiators -/
def isInitiator : BidiClass → Bool
  | .LeftToRightIsolate | .RightToLeftIsolate | .FirstStrongIsolate => true
  | _ => false

/-- P1: `ps` are the paragraphs of the text: they are not empty, make up the text, and every separator ends one; a paragraph that is not
the last ends with a separator. -/
def IsParagraphs (cls : Nat → BidiClass) (text : List Nat) (ps : List (List Nat)) : Prop :=
  ps.flatten = text ∧ (∀ p ∈ ps, p ≠ [] ∧ ∀ c ∈ p.dropLast, cls c ≠ .ParagraphSeparator) ∧
    ∀ p ∈ ps.dropLast, ∃ c, p.getLast? = some c ∧ cls c = .ParagraphSeparator

/-- P2: the first strong character outside isolates, in a text that begins inside `d` of them -/
def firstStrong : (d : Nat) → List BidiClass → Option BidiClass
  | _, [] => none
  | d, c :: cs =>
    if isInitiator c then firstStrong (d + 1) cs
    else if c = .PopDirectionalIsolate then firstStrong (d - 1) cs
    else if isStrong c ∧ d = 0 then some c
    else firstStrong d cs

/-- P3: the level told by the first strong character -/
def levelOfStrong : Option BidiClass → Nat
  | some .RightToLeft => 1
  | some .ArabicLetter => 1
  | _ => 0

/-- P2, P3: the paragraph level -/
def paragraphLevel (cs : List BidiClass) : Nat := levelOfStrong (firstStrong 0 cs)

/-- X5c: the first strong character between an FSI and its matching PDI (or the end of the paragraph), outside the isolates
nested in it; the list is what follows, at a depth of `d` nested isolates. -/
def isolateStrong : (d : Nat) → List BidiClass → Option BidiClass
  | _, [] => none
  | d, c :: cs =>
    if isInitiator c then isolateStrong (d + 1) cs
    else if c = .PopDirectionalIsolate then (if d = 0 then none else isolateStrong (d - 1) cs)
    else if c = .ParagraphSeparator then none
    else if isStrong c ∧ d = 0 then some c
    else isolateStrong d cs

/-- X5c: an FSI stands for RLI or LRI if a strong character tells, and stays FSI (to be treated as LRI) if none does. -/
def resolveFsi (c : BidiClass) (rest : List BidiClass) : BidiClass :=
  if c = .FirstStrongIsolate then
    match isolateStrong 0 rest with
    | some .LeftToRight => .LeftToRightIsolate
    | some _ => .RightToLeftIsolate
    | none => .FirstStrongIsolate
  else c

/-- the classes of the characters with X5c applied -/
def initialClasses : List BidiClass → List BidiClass
  | [] => []
  | c :: cs => resolveFsi c cs :: initialClasses cs

/-! ## X1-X8 -/

/-- an entry of the directional status stack -/
structure Entry where
  level : Nat
  override : Option BidiClass
  isolate : Bool
deriving DecidableEq, Repr

/-- the state of X1: the stack has its last entry first -/
structure X where
  stack : List Entry
  overflowIsolates : Nat
  overflowEmbeddings : Nat
  validIsolates : Nat
deriving DecidableEq, Repr

/-- BD2, `max_depth` -/
def maxDepth : Nat := 125

/-- X1: the state at the start of a paragraph -/
def X.init (paraLevel : Nat) : X := ⟨[⟨paraLevel, none, false⟩], 0, 0, 0⟩

/-- the last entry of the stack; the stack is never empty (`Props.Bidi.c30_stack`) -/
def X.last (s : X) : Entry := s.stack.headD ⟨0, none, false⟩

/-- the least odd level greater than `l` -/
def nextOdd (l : Nat) : Nat := if l % 2 = 0 then l + 1 else l + 2
/-- the least even level greater than `l` -/
def nextEven (l : Nat) : Nat := if l % 2 = 0 then l + 2 else l + 1

/-- X2-X5: an embedding or override initiator with the given new level -/
def X.embed (s : X) (new : Nat) (override : Option BidiClass) : X :=
  if new ≤ maxDepth ∧ s.overflowIsolates = 0 ∧ s.overflowEmbeddings = 0 then { s with stack := ⟨new, override, false⟩ :: s.stack }
  else if s.overflowIsolates = 0 then { s with overflowEmbeddings := s.overflowEmbeddings + 1 }
  else s

/-- X5a-X5c: an isolate initiator with the given new level -/
def X.isolate (s : X) (new : Nat) : X :=
  if new ≤ maxDepth ∧ s.overflowIsolates = 0 ∧ s.overflowEmbeddings = 0 then
    { s with stack := ⟨new, none, true⟩ :: s.stack, validIsolates := s.validIsolates + 1 }
  else { s with overflowIsolates := s.overflowIsolates + 1 }

/-- X6a: PDI -/
def X.popIsolate (s : X) : X :=
  if 0 < s.overflowIsolates then { s with overflowIsolates := s.overflowIsolates - 1 }
  else if s.validIsolates = 0 then s
  else
    { s with
      overflowEmbeddings := 0
      stack := (s.stack.dropWhile (fun e => !e.isolate)).tail
      validIsolates := s.validIsolates - 1 }

/-- X7: PDF -/
def X.popEmbedding (s : X) : X :=
  if 0 < s.overflowIsolates then s
  else if 0 < s.overflowEmbeddings then { s with overflowEmbeddings := s.overflowEmbeddings - 1 }
  else if s.last.isolate = false ∧ 2 ≤ s.stack.length then { s with stack := s.stack.tail }
  else s

/-- X5a-X6a: the level and the class (after overrides) of a character -/
def X.assign (s : X) (c : BidiClass) : Nat × BidiClass := (s.last.level, s.last.override.getD c)

/-- X2-X8 for one character: the new state, and the level and class of the character; `none` for the characters removed by X9 -/
def X.step (paraLevel : Nat) (s : X) (c : BidiClass) : X × Option (Nat × BidiClass) :=
  match c with
  | .RightToLeftEmbedding => (s.embed (nextOdd s.last.level) none, none)
  | .LeftToRightEmbedding => (s.embed (nextEven s.last.level) none, none)
  | .RightToLeftOverride => (s.embed (nextOdd s.last.level) (some .RightToLeft), none)
  | .LeftToRightOverride => (s.embed (nextEven s.last.level) (some .LeftToRight), none)
  | .RightToLeftIsolate => (s.isolate (nextOdd s.last.level), some (s.assign c))
  | .LeftToRightIsolate => (s.isolate (nextEven s.last.level), some (s.assign c))
  | .FirstStrongIsolate => (s.isolate (nextEven s.last.level), some (s.assign c))
  | .PopDirectionalIsolate => (s.popIsolate, some (s.popIsolate.assign c))
  | .PopDirectionalFormat => (s.popEmbedding, none)
  | .ParagraphSeparator => (X.init paraLevel, some (paraLevel, c))
  | .BoundaryNeutral => (s, none)
  | _ => (s, some (s.assign c))

/-- X1-X8 for the characters from a state on -/
def X.run (paraLevel : Nat) : (s : X) → List BidiClass → List (Option (Nat × BidiClass))
  | _, [] => []
  | s, c :: cs => (s.step paraLevel c).2 :: X.run paraLevel (s.step paraLevel c).1 cs

/-- X1-X8: level and class of every character of a paragraph, after X5c, that is not removed by X9 -/
def explicit (paraLevel : Nat) (cs : List BidiClass) : List (Option (Nat × BidiClass)) := X.run paraLevel (X.init paraLevel) cs

/-! ## L1 -/

/-- removed by X9 -/
def isRemoved : BidiClass → Bool
  | .RightToLeftEmbedding | .LeftToRightEmbedding | .RightToLeftOverride | .LeftToRightOverride | .PopDirectionalFormat | .BoundaryNeutral => true
  | _ => false

/-- L1.1, L1.2: segment and paragraph separators -/
def isSeparator : BidiClass → Bool
  | .SegmentSeparator | .ParagraphSeparator => true
  | _ => false

/-- L1.3, L1.4: whitespace and isolate formatting characters -/
def isBlank : BidiClass → Bool
  | .WhiteSpace | .FirstStrongIsolate | .LeftToRightIsolate | .RightToLeftIsolate | .PopDirectionalIsolate => true
  | _ => false

/-- what follows is a sequence of blanks up to a separator or the end of the line -/
def blankUpTo : List BidiClass → Bool
  | [] => true
  | c :: cs => if isRemoved c then blankUpTo cs else isSeparator c || (isBlank c && blankUpTo cs)

/-- L1: the character `k` of a line with the original classes `cs`, not removed by X9, is reset to the paragraph level -/
def l1Resets (cs : List BidiClass) (k : Nat) : Bool :=
  match cs.drop k with
  | [] => false
  | c :: rest => isSeparator c || (isBlank c && blankUpTo rest)

/-! ## L2 -/

/-- reverse every maximal sequence of items at level `m` or higher; `acc` is the sequence being collected, reversed -/
def reverseFrom {α : Type} (level : α → Nat) (m : Nat) : (acc : List α) → List α → List α
  | acc, [] => acc
  | acc, x :: xs => if m ≤ level x then reverseFrom level m (x :: acc) xs else acc ++ x :: reverseFrom level m [] xs

/-- reverse for `n` levels, from level `m + n - 1` down to level `m` -/
def reverseDown {α : Type} (level : α → Nat) (m : Nat) : (n : Nat) → List α → List α
  | 0, xs => xs
  | n + 1, xs => reverseDown level m n (reverseFrom level (m + n) [] xs)

/-- the highest level of the line -/
def highest {α : Type} (level : α → Nat) (xs : List α) : Nat := xs.foldr (fun x h => max (level x) h) 0

/-- L2: from the highest level down to the lowest odd level found on the line, reverse any sequence of characters at that level or higher. -/
def l2 {α : Type} (level : α → Nat) (xs : List α) : List α :=
  match (xs.map level).filter (fun l => l % 2 = 1) with
  | [] => xs
  | l :: ls => reverseDown level (ls.foldr min l) (highest level xs + 1 - ls.foldr min l) xs

end Spec.Bidi
