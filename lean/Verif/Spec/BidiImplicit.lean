import Verif.Spec.Bidi

/-! # Specification: UAX #9, isolating run sequences (BD9, BD13, X9, X10) and the rules W1-W7, N1, N2, I1, I2

Every rule is a separate pass, as in the annex. N0 (paired brackets) is not part of this specification. -/
namespace Spec.Bidi
open Data

/-! ## X9, BD9, BD13, X10 -/

/-- a character that X9 does not remove: its index in the paragraph, its explicit level, its class after overrides, and its class before -/
structure Kept where
  pos : Nat
  level : Nat
  cls : BidiClass
  orig : BidiClass
deriving DecidableEq, Repr

/-- the characters of a paragraph from index `k` on, with the results of rules X1-X8; those without a result are removed (X9) -/
def keepFrom : (k : Nat) → List BidiClass → List (Option (Nat × BidiClass)) → List Kept
  | k, c :: cs, some (l, d) :: xs => ⟨k, l, d, c⟩ :: keepFrom (k + 1) cs xs
  | k, _ :: cs, none :: xs => keepFrom (k + 1) cs xs
  | _, _, _ => []

/-- X9: the characters of a paragraph that stay -/
def afterX9 (paraLevel : Nat) (cs : List BidiClass) : List Kept := keepFrom 0 cs (explicit paraLevel cs)

/-- BD9: the distance to the matching PDI; the counter starts with one, goes up at every isolate initiator and down at every PDI, and the PDI
that makes it zero is the matching one. -/
def matchingPdi : (counter : Nat) → List BidiClass → Option Nat
  | _, [] => none
  | d, c :: cs =>
    if isInitiator c then (matchingPdi (d + 1) cs).map (· + 1)
    else if c = .PopDirectionalIsolate then if d = 1 then some 0 else (matchingPdi (d - 1) cs).map (· + 1)
    else (matchingPdi d cs).map (· + 1)

/-- BD9: the character `i` is an isolate initiator and `j` is its matching PDI -/
def Matches (us : List Kept) (i j : Nat) : Prop :=
  ∃ u, us[i]? = some u ∧ isInitiator u.orig = true ∧ ∃ m, matchingPdi 1 ((us.drop (i + 1)).map Kept.orig) = some m ∧ j = i + 1 + m

/-- the level of the character `i` -/
def levelOf (us : List Kept) (i : Nat) : Option Nat := (us[i]?).map Kept.level

/-- BD7: the character `i` is the last of its level run -/
def EndsRun (us : List Kept) (i : Nat) : Prop := levelOf us i ≠ levelOf us (i + 1)
/-- BD7: the character `j` is the first of its level run -/
def StartsRun (us : List Kept) (j : Nat) : Prop := j = 0 ∨ levelOf us (j - 1) ≠ levelOf us j

/-- BD13: `j` follows `i` in an isolating run sequence: in the same level run, or from an isolate initiator that ends a run to its matching PDI
that starts one. -/
def Follows (us : List Kept) (i j : Nat) : Prop :=
  (j = i + 1 ∧ levelOf us i = levelOf us j) ∨ (EndsRun us i ∧ Matches us i j ∧ StartsRun us j)

/-- BD13: `s` are the characters of an isolating run sequence -/
def IsSequence (us : List Kept) (s : List Nat) : Prop :=
  s ≠ [] ∧ (∀ i ∈ s, i < us.length) ∧ (∀ (k : Nat) i j, s[k]? = some i → s[k + 1]? = some j → Follows us i j) ∧ (∀ i j, s.head? = some j → i < us.length → ¬ Follows us i j) ∧
    ∀ i j, s.getLast? = some i → j < us.length → ¬ Follows us i j

/-- the direction of a level -/
def levelDir (l : Nat) : BidiClass := if l % 2 = 0 then .LeftToRight else .RightToLeft

/-- X10: the direction at the start of a sequence whose first character is `i` -/
def sosOf (paraLevel : Nat) (us : List Kept) (i : Nat) : BidiClass :=
  levelDir (max ((levelOf us i).getD paraLevel) (if i = 0 then paraLevel else (levelOf us (i - 1)).getD paraLevel))

/-- X10: the direction at the end of a sequence whose last character is `i` -/
def eosOf (paraLevel : Nat) (us : List Kept) (i : Nat) : BidiClass :=
  levelDir (max ((levelOf us i).getD paraLevel)
    (if (us[i]?).any (fun u => isInitiator u.orig) then paraLevel else (levelOf us (i + 1)).getD paraLevel))

/-! ## W1-W7 -/

/-- W1: a nonspacing mark takes the class of the character before it, or of `sos`; after isolate initiators and PDI it becomes ON. -/
def w1Class (prev c : BidiClass) : BidiClass :=
  if c = .NonspacingMark then if isInitiator prev || prev == .PopDirectionalIsolate then .OtherNeutral else prev else c
def w1 : (prev : BidiClass) → List BidiClass → List BidiClass
  | _, [] => []
  | prev, c :: cs => w1Class prev c :: w1 (w1Class prev c) cs

/-- the last strong class after a character -/
def lastStrong (last c : BidiClass) : BidiClass := if isStrong c then c else last

/-- W2: a European number whose last strong class is AL becomes an Arabic number. -/
def w2Class (last c : BidiClass) : BidiClass := if c = .EuropeanNumber ∧ last = .ArabicLetter then .ArabicNumber else c
def w2 : (last : BidiClass) → List BidiClass → List BidiClass
  | _, [] => []
  | last, c :: cs => w2Class last c :: w2 (lastStrong last c) cs

/-- W3: AL becomes R. -/
def w3Class (c : BidiClass) : BidiClass := if c = .ArabicLetter then .RightToLeft else c
def w3 (cs : List BidiClass) : List BidiClass := cs.map w3Class

/-- W4: a single European separator between two European numbers becomes one; a single common separator between two numbers of the same type
becomes that type. -/
def w4Class (prev c : BidiClass) (next : Option BidiClass) : BidiClass :=
  if (c = .EuropeanSeparator ∨ c = .CommonSeparator) ∧ prev = .EuropeanNumber ∧ next = some .EuropeanNumber then .EuropeanNumber
  else if c = .CommonSeparator ∧ prev = .ArabicNumber ∧ next = some .ArabicNumber then .ArabicNumber
  else c
def w4 : (prev : BidiClass) → List BidiClass → List BidiClass
  | _, [] => []
  | prev, c :: cs => w4Class prev c cs.head? :: w4 c cs

/-- W5: a sequence of European terminators next to a European number becomes European numbers. What follows is terminators and then a number: -/
def beforeNumber : List BidiClass → Bool
  | .EuropeanNumber :: _ => true
  | .EuropeanTerminator :: cs => beforeNumber cs
  | _ => false
/-- `after`: what precedes is a number, perhaps with terminators after it -/
def w5 : (after : Bool) → List BidiClass → List BidiClass
  | _, [] => []
  | after, .EuropeanTerminator :: cs => (if after || beforeNumber cs then .EuropeanNumber else .EuropeanTerminator) :: w5 after cs
  | _, c :: cs => c :: w5 (c == .EuropeanNumber) cs

/-- W6: separators and terminators that are left become ON. -/
def w6Class : BidiClass → BidiClass
  | .EuropeanSeparator | .EuropeanTerminator | .CommonSeparator => .OtherNeutral
  | c => c
def w6 (cs : List BidiClass) : List BidiClass := cs.map w6Class

/-- W7: a European number whose last strong class is L becomes L. -/
def w7Class (last c : BidiClass) : BidiClass := if c = .EuropeanNumber ∧ last = .LeftToRight then .LeftToRight else c
def w7 : (last : BidiClass) → List BidiClass → List BidiClass
  | _, [] => []
  | last, c :: cs => w7Class last c :: w7 (lastStrong last c) cs

/-- W1-W5 in their order, before the terminators and separators that are left become neutral -/
def numbers (sos : BidiClass) (cs : List BidiClass) : List BidiClass := w5 false (w4 sos (w3 (w2 sos (w1 sos cs))))

/-! ## N1, N2 -/

/-- neutrals and isolate formatting characters -/
def isNeutral : BidiClass → Bool
  | .ParagraphSeparator | .SegmentSeparator | .WhiteSpace | .OtherNeutral | .FirstStrongIsolate | .LeftToRightIsolate
  | .RightToLeftIsolate | .PopDirectionalIsolate => true
  | _ => false

/-- N1: numbers count as R -/
def direction : BidiClass → BidiClass
  | .EuropeanNumber | .ArabicNumber => .RightToLeft
  | c => c

/-- the direction of the first character that is not neutral -/
def directionAfter (eos : BidiClass) : List BidiClass → BidiClass
  | [] => eos
  | c :: cs => if isNeutral c then directionAfter eos cs else direction c

/-- N1, N2: a sequence of neutrals takes the direction of the text around it if both sides agree, and the embedding direction otherwise. -/
def n12 (e eos : BidiClass) : (before : BidiClass) → List BidiClass → List BidiClass
  | _, [] => []
  | before, c :: cs =>
    if isNeutral c then (if before = directionAfter eos cs then before else e) :: n12 e eos before cs
    else c :: n12 e eos (direction c) cs

/-- the final classes of a sequence -/
def resolve (sos eos e : BidiClass) (cs : List BidiClass) : List BidiClass := n12 e eos sos (w7 sos (w6 (numbers sos cs)))

/-! ## I1, I2 -/

/-- the final level of a character with the explicit level `l` -/
def implicitLevel (l : Nat) (c : BidiClass) : Nat :=
  if l % 2 = 0 then
    match c with
    | .RightToLeft => l + 1
    | .ArabicNumber | .EuropeanNumber => l + 2
    | _ => l
  else
    match c with
    | .LeftToRight | .ArabicNumber | .EuropeanNumber => l + 1
    | _ => l

/-! ## the characters of a sequence -/

/-- the class of the character `i` after the explicit rules -/
def classOf (us : List Kept) (i : Nat) : BidiClass := ((us[i]?).map Kept.cls).getD .OtherNeutral
/-- the index of the character `i` in the paragraph -/
def posOf (us : List Kept) (i : Nat) : Nat := ((us[i]?).map Kept.pos).getD 0

/-- ES, CS, ET: the classes that W4 and W5 change -/
def isSeparatorOrTerminator : BidiClass → Bool
  | .EuropeanSeparator | .CommonSeparator | .EuropeanTerminator => true
  | _ => false

/-- L, R, AL, EN, AN -/
def isLetterOrNumber : BidiClass → Bool
  | .LeftToRight | .RightToLeft | .ArabicLetter | .EuropeanNumber | .ArabicNumber => true
  | _ => false

/-- what stands before the place `i` is a European number, perhaps with terminators after it -/
def AfterNumber (cs : List BidiClass) (i : Nat) : Prop :=
  ∃ k, k < i ∧ cs[k]? = some .EuropeanNumber ∧ ∀ j, k < j → j < i → cs[j]? = some .EuropeanTerminator

/-- Sequences `cs` in which one pass over the characters does what the passes W1-W5 do; `bytes i` is the number of bytes of the character `i`. -/
structure OnePass (sos : BidiClass) (bytes : Nat → Nat) (cs : List BidiClass) : Prop where
  /-- a number that W2 changes is not next to a terminator -/
  number : ∀ i : Nat, (w1 sos cs)[i]? = some .EuropeanNumber → (w2 sos (w1 sos cs))[i]? = some .ArabicNumber →
    ∀ j, (j + 1 = i ∨ j = i + 1) → (w1 sos cs)[j]? ≠ some .EuropeanTerminator
  /-- W4 changes the same separators of one byte whether or not W2 comes before it -/
  separator : ∀ (i : Nat) c, cs[i]? = some c → (c = .EuropeanSeparator ∨ c = .CommonSeparator) → bytes i = 1 →
    ((w4 sos (w3 (w2 sos (w1 sos cs))))[i]? = some c ↔ (w4 sos (w3 (w1 sos cs)))[i]? = some c)
  /-- a mark follows a terminator only if a number and terminators precede both -/
  mark : ∀ i : Nat, (w1 sos cs)[i]? = some .EuropeanTerminator → cs[i + 1]? = some .NonspacingMark →
    AfterNumber (w4 sos (w3 (w2 sos (w1 sos cs)))) i
  /-- no terminator after a number is followed by a separator of one byte and a European number -/
  terminator : ∀ i : Nat, (w1 sos cs)[i]? = some .EuropeanTerminator → AfterNumber (w4 sos (w3 (w2 sos (w1 sos cs)))) i →
    ((w1 sos cs)[i + 1]? = some .EuropeanSeparator ∨ (w1 sos cs)[i + 1]? = some .CommonSeparator) → bytes (i + 1) = 1 →
    cs[i + 2]? ≠ some .EuropeanNumber
  /-- W4 changes no separator of two or more bytes -/
  wide : ∀ (i : Nat) c, cs[i]? = some c → (c = .EuropeanSeparator ∨ c = .CommonSeparator) → bytes i ≠ 1 →
    (w4 sos (w3 (w2 sos (w1 sos cs))))[i]? = some c

end Spec.Bidi
