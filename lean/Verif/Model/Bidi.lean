import Verif.Model.BidiClass
import Verif.Model.Level
import Verif.Model.Grapheme

/-! # Model of `unic/bidi/src/bidi_info.rs`, `explicit.rs`, `prepare.rs` and `implicit.rs`

A `&str` is the list of its characters, offsets are byte offsets, and the vectors `original_classes`, `levels` and
`processing_classes` are lists with one entry per byte, as in the program. A `Level` is its number. Indexing out of range,
slicing a text off a character boundary, failing assertions and `unwrap` or `expect` of nothing are panics. The property lookup
`BidiClass::of` is the parameter `cls`; the program uses `Ucd.bidiClass`. `usize` arithmetic does not overflow for texts in memory;
the `u32` counters of `explicit.rs` would overflow only in a text with `2 ^ 32` isolate initiators, which is not modelled. -/
namespace Model.Bidi
open Model Data Model.Grapheme

abbrev BC := BidiClass

/-- `v[i]` (std) -/
def at' {α : Type} (l : List α) (i : Nat) : Outcome α :=
  match l[i]? with
  | some a => .ok a
  | none => .panic

/-- `v[i] = a` (std) -/
def put {α : Type} (l : List α) (i : Nat) (a : α) : Outcome (List α) := if i < l.length then .ok (l.set i a) else .panic

/-- `for j in js { v[j] = a }` -/
def putAll {α : Type} : (l : List α) → (js : List Nat) → (a : α) → Outcome (List α)
  | l, [], _ => .ok l
  | l, j :: js, a => do putAll (← put l j a) js a

/-- `&v[a..b]` (std) -/
def sub {α : Type} (l : List α) (a b : Nat) : Outcome (List α) := if a ≤ b ∧ b ≤ l.length then .ok ((l.drop a).take (b - a)) else .panic

/-- a range of byte offsets (`Range<usize>`, `LevelRun`) -/
structure Run where
  start : Nat
  stop : Nat
deriving DecidableEq, Repr

/-- bidi_info.rs L32-42 (`ParagraphInfo`) -/
structure Para where
  range : Run
  level : Nat
deriving DecidableEq, Repr

/-! ## bidi_info.rs, `InitialInfo::new` -/

/-- the local variables of `InitialInfo::new`, bidi_info.rs L69-76; the isolate stack has its top first -/
structure Init where
  classes : List BC
  stack : List Nat
  paras : List Para
  start : Nat
  level : Option Nat
deriving DecidableEq, Repr

/-- bidi_info.rs L82-98: a paragraph separator -/
def Init.separator (dflt : Option Nat) (st : Init) (i len : Nat) : Init :=
  { st with
    paras := st.paras ++ [⟨⟨st.start, i + len⟩, st.level.getD Level.ltr⟩]
    start := i + len
    level := dflt
    stack := [] }

/-- bidi_info.rs L99-120: a strong character; `format_chars::FSI.len_utf8()` is 3 -/
def Init.strong (st : Init) (class_ : BC) : Outcome Init :=
  match st.stack with
  | start :: _ => do
    if (← at' st.classes start) = .FirstStrongIsolate then
      let classes ← putAll st.classes [start, start + 1, start + 2] (if class_ = .LeftToRight then .LeftToRightIsolate else .RightToLeftIsolate)
      return { st with classes := classes }
    else return st
  | [] => .ok (if st.level.isNone then { st with level := some (if class_ ≠ .LeftToRight then Level.rtl else Level.ltr) } else st)

/-- bidi_info.rs L79-128: the body of the loop -/
def Init.step (cls : Nat → BC) (dflt : Option Nat) (st : Init) (i c : Nat) : Outcome Init :=
  let st := { st with classes := st.classes ++ List.replicate (Utf.lenUtf8 c) (cls c) }
  match cls c with
  | .ParagraphSeparator => .ok (st.separator dflt i (Utf.lenUtf8 c))
  | .LeftToRight => st.strong .LeftToRight
  | .RightToLeft => st.strong .RightToLeft
  | .ArabicLetter => st.strong .ArabicLetter
  | .RightToLeftIsolate | .LeftToRightIsolate | .FirstStrongIsolate => .ok { st with stack := i :: st.stack }
  | .PopDirectionalIsolate => .ok { st with stack := st.stack.tail }
  | _ => .ok st

/-- bidi_info.rs L78-129: the loop over `char_indices`, from the character at offset `i` on -/
def Init.loop (cls : Nat → BC) (dflt : Option Nat) : (text : List Nat) → (i : Nat) → Init → Outcome Init
  | [], _, st => .ok st
  | c :: text, i, st => do Init.loop cls dflt text (i + Utf.lenUtf8 c) (← st.step cls dflt i c)

/-- bidi_info.rs L68-143 (`InitialInfo::new`): the classes and the paragraphs -/
def initialInfo (cls : Nat → BC) (text : List Nat) (dflt : Option Nat) : Outcome (List BC × List Para) := do
  let st ← Init.loop cls dflt text 0 ⟨[], [], [], 0, dflt⟩
  let paras := if st.start < blen text then st.paras ++ [⟨⟨st.start, blen text⟩, st.level.getD Level.ltr⟩] else st.paras
  if st.classes.length ≠ blen text then .panic
  else return (st.classes, paras)

/-! ## explicit.rs -/

/-- explicit.rs L167-172 (`OverrideStatus`) -/
inductive Override where
  | Neutral | RTL | LTR | Isolate
deriving DecidableEq, Repr

/-- explicit.rs L161-164 (`Status`) -/
structure Status where
  level : Nat
  status : Override
deriving DecidableEq, Repr

/-- the local variables of `compute`, explicit.rs L35-40; the stack has its top first -/
structure Explicit where
  stack : List Status
  overflowIsolates : Nat
  overflowEmbeddings : Nat
  validIsolates : Nat
deriving DecidableEq, Repr

/-- explicit.rs L52-56, L113-117, L144-148: an override replaces the class -/
def Override.apply : Override → BC → BC
  | .RTL, _ => .RightToLeft
  | .LTR, _ => .LeftToRight
  | _, pc => pc

/-- explicit.rs L49: `RLI | LRI | FSI` -/
def isIsolate : BC → Bool
  | .RightToLeftIsolate | .LeftToRightIsolate | .FirstStrongIsolate => true
  | _ => false

/-- explicit.rs L71-76 -/
def statusOf : BC → Override
  | .RightToLeftOverride => .RTL
  | .LeftToRightOverride => .LTR
  | .RightToLeftIsolate | .LeftToRightIsolate | .FirstStrongIsolate => .Isolate
  | _ => .Neutral

/-- explicit.rs L59-63 -/
def nextLevel (class_ : BC) (last : Nat) : Option Nat :=
  if BidiClass.isRtl class_ then Level.newExplicitNextRtl last else Level.newExplicitNextLtr last

/-- explicit.rs L45-90 (`RLE | LRE | RLO | LRO | RLI | LRI | FSI`): the new state, and the level and class of the character -/
def Explicit.opener (st : Explicit) (class_ : BC) (lv : Nat) (pc : BC) : Outcome (Explicit × Nat × BC) :=
  match st.stack with
  | [] => .panic
  | last :: _ =>
    let lv := if isIsolate class_ then last.level else lv
    let pc := if isIsolate class_ then last.status.apply pc else pc
    match nextLevel class_ last.level with
    | some new =>
      if st.overflowIsolates = 0 ∧ st.overflowEmbeddings = 0 then
        let st := { st with stack := ⟨new, statusOf class_⟩ :: st.stack }
        if isIsolate class_ then .ok ({ st with validIsolates := st.validIsolates + 1 }, lv, pc)
        else .ok (st, new, pc)
      else if isIsolate class_ then .ok ({ st with overflowIsolates := st.overflowIsolates + 1 }, lv, pc)
      else if st.overflowIsolates = 0 then .ok ({ st with overflowEmbeddings := st.overflowEmbeddings + 1 }, lv, pc)
      else .ok (st, lv, pc)
    | none =>
      if isIsolate class_ then .ok ({ st with overflowIsolates := st.overflowIsolates + 1 }, lv, pc)
      else if st.overflowIsolates = 0 then .ok ({ st with overflowEmbeddings := st.overflowEmbeddings + 1 }, lv, pc)
      else .ok (st, lv, pc)

/-- explicit.rs L98-108: pop everything up to and including the last isolate status -/
def popIsolate : List Status → List Status
  | [] => []
  | s :: rest => if s.status = .Isolate then rest else popIsolate rest

/-- explicit.rs L94-110: the state after PDI -/
def Explicit.popped (st : Explicit) : Explicit :=
  if st.overflowIsolates > 0 then { st with overflowIsolates := st.overflowIsolates - 1 }
  else if st.validIsolates > 0 then
    { st with overflowEmbeddings := 0, stack := popIsolate st.stack, validIsolates := st.validIsolates - 1 }
  else st

/-- explicit.rs L111-117, L142-148: the character takes the level and the override of the last entry -/
def Explicit.plain (st : Explicit) (pc : BC) : Outcome (Explicit × Nat × BC) :=
  match st.stack with
  | [] => .panic
  | last :: _ => .ok (st, last.level, last.status.apply pc)

/-- explicit.rs L129-134: a PDF outside all overflow -/
def Explicit.pdf (st : Explicit) (pc : BC) : Outcome (Explicit × Nat × BC) :=
  match st.stack with
  | [] => .panic
  | last :: rest =>
    let st := if last.status ≠ .Isolate ∧ st.stack.length ≥ 2 then { st with stack := rest } else st
    match st.stack with
    | [] => .panic
    | last :: _ => .ok (st, last.level, pc)

/-- explicit.rs L43-150 (`match original_classes[i]`): the new state, and level and class of the character; `none` for the two
`continue` of L122-128, after which the entries of the character stay as they are -/
def Explicit.step (st : Explicit) (class_ : BC) (lv : Nat) (pc : BC) : Outcome (Explicit × Option (Nat × BC)) :=
  match class_ with
  | .RightToLeftEmbedding | .LeftToRightEmbedding | .RightToLeftOverride | .LeftToRightOverride
  | .RightToLeftIsolate | .LeftToRightIsolate | .FirstStrongIsolate => do
    let (st, v) ← st.opener class_ lv pc
    return (st, some v)
  | .PopDirectionalIsolate => do
    let (st, v) ← st.popped.plain pc
    return (st, some v)
  | .PopDirectionalFormat =>
    if st.overflowIsolates > 0 then .ok (st, none)
    else if st.overflowEmbeddings > 0 then .ok ({ st with overflowEmbeddings := st.overflowEmbeddings - 1 }, none)
    else do
      let (st, v) ← st.pdf pc
      return (st, some v)
  | .ParagraphSeparator | .BoundaryNeutral => .ok (st, some (lv, pc))
  | _ => do
    let (st, v) ← st.plain pc
    return (st, some v)

/-- explicit.rs L153-156: the entries of a character of `len` bytes -/
def entries (len : Nat) (levels : List Nat) (pcs : List BC) : Option (Nat × BC) → List Nat × List BC
  | some (lv, pc) => (List.replicate len lv, List.replicate len pc)
  | none => (levels.take len, pcs.take len)

/-- explicit.rs L42-157: the loop over `char_indices`. The arrays are walked along with the text: the lists are what is left of them from
the current character on, and the result are the lists with the entries written. -/
def Explicit.loop : (text : List Nat) → (classes : List BC) → (levels : List Nat) → (pcs : List BC) → Explicit →
    Outcome (List Nat × List BC)
  | [], _, levels, pcs, _ => .ok (levels, pcs)
  | c :: text, classes, levels, pcs, st => do
    let (st, v) ← st.step (← at' classes 0) (← at' levels 0) (← at' pcs 0)
    if Utf.lenUtf8 c ≤ levels.length ∧ Utf.lenUtf8 c ≤ pcs.length then
      let (l, p) ← Explicit.loop text (classes.drop (Utf.lenUtf8 c)) (levels.drop (Utf.lenUtf8 c)) (pcs.drop (Utf.lenUtf8 c)) st
      let e := entries (Utf.lenUtf8 c) levels pcs v
      return (e.1 ++ l, e.2 ++ p)
    else .panic

/-- explicit.rs L25-158 (`compute`): the levels and processing classes written -/
def compute (text : List Nat) (paraLevel : Nat) (classes : List BC) (levels : List Nat) (pcs : List BC) : Outcome (List Nat × List BC) :=
  if blen text ≠ classes.length then .panic
  else Explicit.loop text classes levels pcs ⟨[⟨paraLevel, .Neutral⟩], 0, 0, 0⟩

/-! ## prepare.rs -/

/-- prepare.rs L168-170 (`removed_by_x9`); `not_removed_by_x9` is its negation -/
def removed : BC → Bool
  | .RightToLeftEmbedding | .LeftToRightEmbedding | .RightToLeftOverride | .LeftToRightOverride | .PopDirectionalFormat
  | .BoundaryNeutral => true
  | _ => false

/-- prepare.rs L150-160: the loop of `level_runs` from index `i` on; the lists are the rest of the arrays -/
def levelRunsLoop : (classes : List BC) → (levels : List Nat) → (i cur start : Nat) → List Run
  | c :: cs, l :: ls, i, cur, start =>
    if !removed c ∧ l ≠ cur then ⟨start, i⟩ :: levelRunsLoop cs ls (i + 1) l i else levelRunsLoop cs ls (i + 1) cur start
  | _, _, i, _, start => [⟨start, i⟩]

/-- prepare.rs L142-163 (`level_runs`) -/
def levelRuns (levels : List Nat) (classes : List BC) : Outcome (List Run) :=
  if levels.length ≠ classes.length then .panic
  else match levels with
    | [] => .ok []
    | l :: ls => .ok (levelRunsLoop classes.tail ls 1 l 0)

/-- prepare.rs L67-73: the sequence a run continues, and the rest of the stack -/
def resume (startClass : BC) (stack : List (List Run)) : List Run × List (List Run) :=
  match stack with
  | seq :: rest => if startClass = .PopDirectionalIsolate ∧ stack.length > 1 then (seq, rest) else ([], stack)
  | [] => ([], [])

/-- prepare.rs L59-86: the loop over the runs; the stack has its top first -/
def seqLoop (classes : List BC) : (runs : List Run) → (stack seqs : List (List Run)) → Outcome (List (List Run))
  | [], stack, seqs => .ok (seqs ++ stack.filter (fun s => !s.isEmpty))
  | run :: runs, stack, seqs =>
    if run.stop ≤ run.start ∨ stack = [] then .panic
    else do
      let startClass ← at' classes run.start
      let endClass ← at' classes (run.stop - 1)
      let (seq, stack) := resume startClass stack
      if isIsolate endClass then seqLoop classes runs ((seq ++ [run]) :: stack) seqs
      else seqLoop classes runs stack (seqs ++ [seq ++ [run]])

/-- prepare.rs L31-35 (`IsolatingRunSequence`) -/
structure IsoSeq where
  runs : List Run
  sos : BC
  eos : BC
deriving DecidableEq, Repr

/-- `Iterator::rposition` (std) -/
def rposition {α : Type} (p : α → Bool) (l : List α) : Option Nat := (l.reverse.findIdx? p).map (fun k => l.length - 1 - k)

/-- prepare.rs L109-115: the level of the last character before the sequence that is not removed -/
def predLevel (paraLevel : Nat) (classes : List BC) (levels : List Nat) (start : Nat) : Outcome Nat := do
  match rposition (fun c => !removed c) (← sub classes 0 start) with
  | some idx => at' levels idx
  | none => return paraLevel

/-- prepare.rs L118-128: the level of the next character after the sequence that is not removed -/
def succLevel (paraLevel : Nat) (classes : List BC) (levels : List Nat) (stop : Nat) : Outcome Nat := do
  if isIsolate (← at' classes (stop - 1)) then return paraLevel
  else match (← sub classes stop classes.length).findIdx? (fun c => !removed c) with
    | some idx => at' levels (stop + idx)
    | none => return paraLevel

/-- prepare.rs L92-135: `sos` and `eos` of a sequence -/
def withBounds (paraLevel : Nat) (classes : List BC) (levels : List Nat) (seq : List Run) : Outcome IsoSeq :=
  match seq.head?, seq.getLast? with
  | some first, some last => do
    let seqLevel ← at' levels first.start
    let pred ← predLevel paraLevel classes levels first.start
    let succ ← succLevel paraLevel classes levels last.stop
    return ⟨seq, Level.bidiClass (max seqLevel pred), Level.bidiClass (max seqLevel succ)⟩
  | _, _ => .panic

/-- `iter().map(f).collect()` with a function that may panic -/
def mapOutcome {α β : Type} (f : α → Outcome β) : List α → Outcome (List β)
  | [] => .ok []
  | a :: as => do
    let b ← f a
    let bs ← mapOutcome f as
    return b :: bs

/-- prepare.rs L44-137 (`isolating_run_sequences`) -/
def isolatingRunSequences (paraLevel : Nat) (classes : List BC) (levels : List Nat) : Outcome (List IsoSeq) := do
  let runs ← levelRuns levels classes
  let seqs ← seqLoop classes runs [[]] []
  mapOutcome (withBounds paraLevel classes levels) seqs

/-! ## implicit.rs -/

/-- the indices of a sequence: `runs.iter().flat_map(Clone::clone)` -/
def indices (runs : List Run) : List Nat := runs.flatMap (fun r => List.range' r.start (r.stop - r.start))

/-- the local variables of the first loop of `resolve_weak`, implicit.rs L34-36 -/
structure Weak where
  pcs : List BC
  prev : BC
  lastStrongIsAl : Bool
  etRun : List Nat
deriving DecidableEq, Repr

/-- implicit.rs L52-55 (W1) -/
def nsmClass (prev : BC) : BC :=
  if isIsolate prev ∨ prev = .PopDirectionalIsolate then .OtherNeutral else prev

/-- implicit.rs L74-78: the class of the next index that is not removed -/
def nextClass (pcs : List BC) (eos : BC) : List Nat → Outcome BC
  | [] => .ok eos
  | j :: js => do
    let c ← at' pcs j
    if removed c then nextClass pcs eos js else return c

/-- implicit.rs L79-83 (W4) -/
def separatorClass (prev this next : BC) : BC :=
  match prev, this, next with
  | .EuropeanNumber, .EuropeanSeparator, .EuropeanNumber => .EuropeanNumber
  | .EuropeanNumber, .CommonSeparator, .EuropeanNumber => .EuropeanNumber
  | .ArabicNumber, .CommonSeparator, .ArabicNumber => .ArabicNumber
  | _, _, _ => .OtherNeutral

/-- implicit.rs L49-97 (`match processing_classes[i]`); `none` is the `continue` of L94 -/
def Weak.classify (eos : BC) (st : Weak) (i : Nat) (rest : List Nat) : Outcome (Option Weak) := do
  match ← at' st.pcs i with
  | .NonspacingMark => return some { st with pcs := ← put st.pcs i (nsmClass st.prev) }
  | .EuropeanNumber =>
    if st.lastStrongIsAl then return some { st with pcs := ← put st.pcs i .ArabicNumber }
    else return some { st with pcs := ← putAll st.pcs st.etRun .EuropeanNumber, etRun := [] }
  | .ArabicLetter => return some { st with pcs := ← put st.pcs i .RightToLeft }
  | .EuropeanSeparator => do
    let next ← nextClass st.pcs eos rest
    return some { st with pcs := ← put st.pcs i (separatorClass st.prev .EuropeanSeparator next) }
  | .CommonSeparator => do
    let next ← nextClass st.pcs eos rest
    return some { st with pcs := ← put st.pcs i (separatorClass st.prev .CommonSeparator next) }
  | .EuropeanTerminator =>
    if st.prev = .EuropeanNumber then return some { st with pcs := ← put st.pcs i .EuropeanNumber }
    else return some { st with etRun := st.etRun ++ [i] }
  | c => return if removed c then none else some st

/-- implicit.rs L99-115: the end of the body of the loop -/
def Weak.finish (st : Weak) (i : Nat) : Outcome Weak := do
  let prev ← at' st.pcs i
  let al := match prev with
    | .LeftToRight | .RightToLeft => false
    | .ArabicLetter => true
    | _ => st.lastStrongIsAl
  if prev ≠ .EuropeanTerminator then
    return { pcs := ← putAll st.pcs st.etRun .OtherNeutral, prev := prev, lastStrongIsAl := al, etRun := [] }
  else return { st with prev := prev, lastStrongIsAl := al }

/-- implicit.rs L48-116: the first loop of `resolve_weak` -/
def Weak.loop (eos : BC) : List Nat → Weak → Outcome Weak
  | [], st => .ok st
  | i :: rest, st => do
    match ← st.classify eos i rest with
    | none => Weak.loop eos rest st
    | some st => Weak.loop eos rest (← st.finish i)

/-- implicit.rs L118-135 (W7) -/
def w7Loop : List Nat → (lastStrongIsL : Bool) → (pcs : List BC) → Outcome (List BC)
  | [], _, pcs => .ok pcs
  | i :: rest, l, pcs => do
    match ← at' pcs i with
    | .EuropeanNumber => if l then w7Loop rest l (← put pcs i .LeftToRight) else w7Loop rest l pcs
    | .LeftToRight => w7Loop rest true pcs
    | .RightToLeft | .ArabicLetter => w7Loop rest false pcs
    | _ => w7Loop rest l pcs

/-- implicit.rs L25-136 (`resolve_weak`) -/
def resolveWeak (seq : IsoSeq) (pcs : List BC) : Outcome (List BC) := do
  let st ← Weak.loop seq.eos (indices seq.runs) ⟨pcs, seq.sos, false, []⟩
  w7Loop (indices seq.runs) (seq.sos == .LeftToRight) st.pcs

/-- implicit.rs L236-238 (`is_NI`) -/
def isNI : BC → Bool
  | .ParagraphSeparator | .SegmentSeparator | .WhiteSpace | .OtherNeutral | .FirstStrongIsolate | .LeftToRightIsolate
  | .RightToLeftIsolate | .PopDirectionalIsolate => true
  | _ => false

/-- implicit.rs L185-197 (N1, N2): the numbers count as R -/
def neutralClass (prev next e : BC) : BC :=
  match prev, next with
  | .LeftToRight, .LeftToRight => .LeftToRight
  | .RightToLeft, .RightToLeft => .RightToLeft
  | .RightToLeft, .ArabicNumber => .RightToLeft
  | .RightToLeft, .EuropeanNumber => .RightToLeft
  | .ArabicNumber, .RightToLeft => .RightToLeft
  | .ArabicNumber, .ArabicNumber => .RightToLeft
  | .ArabicNumber, .EuropeanNumber => .RightToLeft
  | .EuropeanNumber, .RightToLeft => .RightToLeft
  | .EuropeanNumber, .ArabicNumber => .RightToLeft
  | .EuropeanNumber, .EuropeanNumber => .RightToLeft
  | _, _ => e

/-- implicit.rs L150-204: the loop of `resolve_neutral` and the loop inside it, which share the iterator and so are one recursion over the
indices that are left; `run` is the run of neutrals being collected, `none` outside the inner loop -/
def neutralLoop (e eos : BC) : List Nat → (prev : BC) → (run : Option (List Nat)) → (pcs : List BC) → Outcome (List BC)
  | [], _, none, pcs => .ok pcs
  | [], prev, some run, pcs => putAll pcs run (neutralClass prev eos e)
  | i :: rest, prev, none, pcs => do
    let c ← at' pcs i
    if isNI c then neutralLoop e eos rest prev (some [i]) pcs else neutralLoop e eos rest c none pcs
  | i :: rest, prev, some run, pcs => do
    let c ← at' pcs i
    if removed c then neutralLoop e eos rest prev (some run) pcs
    else if isNI c then neutralLoop e eos rest prev (some (run ++ [i])) pcs
    else do
      let pcs ← putAll pcs run (neutralClass prev c e)
      neutralLoop e eos rest (← at' pcs i) none pcs

/-- implicit.rs L141-205 (`resolve_neutral`) -/
def resolveNeutral (seq : IsoSeq) (levels : List Nat) (pcs : List BC) : Outcome (List BC) :=
  match seq.runs with
  | [] => .panic
  | run :: _ => do
    let e := Level.bidiClass (← at' levels run.start)
    neutralLoop e seq.eos (indices seq.runs) seq.sos none pcs

/-- implicit.rs L219-225 (I1, I2): the level of one entry -/
def implicitLevel (c : BC) (l : Nat) : Outcome Nat :=
  let amount := match Level.isRtl l, c with
    | true, .LeftToRight => 1
    | false, .RightToLeft => 1
    | true, .EuropeanNumber => 1
    | true, .ArabicNumber => 1
    | false, .ArabicNumber => 2
    | false, .EuropeanNumber => 2
    | _, _ => 0
  if amount = 0 then .ok l
  else if (Level.raise l amount).2 then .ok (Level.raise l amount).1 else .panic

/-- implicit.rs L212-230 (`resolve_levels`); the maximum it returns is not used -/
def resolveLevels : (pcs : List BC) → (levels : List Nat) → Outcome (List Nat)
  | [], [] => .ok []
  | c :: cs, l :: ls => do
    let l ← implicitLevel c l
    let ls ← resolveLevels cs ls
    return l :: ls
  | _, _ => .panic

/-! ## bidi_info.rs, `BidiInfo` -/

/-- bidi_info.rs L226-236 (`assign_levels_to_removed_chars`); `prev` is the level of the entry before, or the paragraph level -/
def assignRemoved : (classes : List BC) → (levels : List Nat) → (prev : Nat) → Outcome (List Nat)
  | _, [], _ => .ok []
  | [], _ :: _, _ => .panic
  | c :: cs, l :: ls, prev => do
    let l := if removed c then prev else l
    return l :: (← assignRemoved cs ls l)

/-- bidi_info.rs L205-208: the two passes over every sequence -/
def resolveSeqs (levels : List Nat) : List IsoSeq → (pcs : List BC) → Outcome (List BC)
  | [], pcs => .ok pcs
  | seq :: seqs, pcs => do
    let pcs ← resolveWeak seq pcs
    let pcs ← resolveNeutral seq levels pcs
    resolveSeqs levels seqs pcs

/-- bidi_info.rs L188-211: one paragraph; the slices of `original_classes`, and of `levels` and `processing_classes`, which hold the
paragraph level and the original classes -/
def paragraphLevels (text : List Nat) (classes : List BC) (para : Para) : Outcome (List Nat) := do
  let text ← slice text para.range.start para.range.stop
  let classes ← sub classes para.range.start para.range.stop
  let (levels, pcs) ← compute text para.level classes (List.replicate (para.range.stop - para.range.start) para.level) classes
  let seqs ← isolatingRunSequences para.level classes levels
  let pcs ← resolveSeqs levels seqs pcs
  let levels ← resolveLevels pcs levels
  assignRemoved classes levels para.level

/-- bidi_info.rs L187-212: the loop over the paragraphs. `levels` is resized to `new_len` and then sliced with the range of the paragraph, so
the paragraph has to begin where the levels so far end. -/
def paragraphsLoop (text : List Nat) (classes : List BC) : List Para → (levels : List Nat) → Outcome (List Nat)
  | [], levels => .ok levels
  | para :: paras, levels =>
    if para.range.start = levels.length then do
      let ls ← paragraphLevels text classes para
      paragraphsLoop text classes paras (levels ++ ls)
    else .panic

/-- bidi_info.rs L153-168 (`BidiInfo`) -/
structure BidiInfo where
  text : List Nat
  classes : List BC
  levels : List Nat
  paras : List Para
deriving DecidableEq, Repr

/-- bidi_info.rs L177-220 (`BidiInfo::new`) -/
def BidiInfo.new (cls : Nat → BC) (text : List Nat) (dflt : Option Nat) : Outcome BidiInfo := do
  let (classes, paras) ← initialInfo cls text dflt
  let levels ← paragraphsLoop text classes paras []
  return ⟨text, classes, levels, paras⟩

/-- `for j in from..to { levels[j] = level }` -/
def putRange (levels : List Nat) (from_ to : Nat) (level : Nat) : Outcome (List Nat) := putAll levels (List.range' from_ (to - from_)) level

/-- the local variables of the loop of rule L1 in `visual_runs`, bidi_info.rs L295-296 -/
structure L1 where
  resetFrom : Option Nat
  resetTo : Option Nat
  levels : List Nat
deriving DecidableEq, Repr

/-- bidi_info.rs L298-318: the `match`; `i` is the offset of the character in the line -/
def L1.classify (st : L1) (i len : Nat) : BC → Outcome L1
  | .RightToLeftEmbedding | .LeftToRightEmbedding | .RightToLeftOverride | .LeftToRightOverride | .PopDirectionalFormat
  | .BoundaryNeutral => .ok st
  | .ParagraphSeparator | .SegmentSeparator =>
    if st.resetTo ≠ none then .panic
    else .ok { st with resetTo := some (i + len), resetFrom := some (st.resetFrom.getD i) }
  | .WhiteSpace | .FirstStrongIsolate | .LeftToRightIsolate | .RightToLeftIsolate | .PopDirectionalIsolate =>
    .ok { st with resetFrom := some (st.resetFrom.getD i) }
  | _ => .ok { st with resetFrom := none }

/-- bidi_info.rs L319-325 -/
def L1.reset (st : L1) (level : Nat) : Outcome L1 :=
  match st.resetFrom, st.resetTo with
  | some from_, some to => do return ⟨none, none, ← putRange st.levels from_ to level⟩
  | _, _ => .ok st

/-- bidi_info.rs L297-326: the loop over the characters of the line. The class of the character at offset `i` of the line is read at index
`i` of the classes of the whole text, as in the program. -/
def L1.loop (classes : List BC) (level : Nat) : (line : List Nat) → (i : Nat) → L1 → Outcome L1
  | [], _, st => .ok st
  | c :: line, i, st => do
    let st ← st.classify i (Utf.lenUtf8 c) (← at' classes i)
    L1.loop classes level line (i + Utf.lenUtf8 c) (← st.reset level)

/-- bidi_info.rs L290-331: the levels after rule L1 -/
def lineLevels (info : BidiInfo) (para : Para) (line : List Nat) : Outcome (List Nat) := do
  let st ← L1.loop info.classes para.level line 0 ⟨some 0, none, info.levels⟩
  match st.resetFrom with
  | some from_ => putRange st.levels from_ (blen line) para.level
  | none => return st.levels

/-- the local variables of the loop of bidi_info.rs L340-351 -/
structure RunScan where
  runs : List Run
  start : Nat
  level : Nat
  minLevel : Nat
  maxLevel : Nat
deriving DecidableEq, Repr

/-- bidi_info.rs L340-351: the loop over the indices `i` -/
def RunScan.loop (levels : List Nat) : List Nat → RunScan → Outcome RunScan
  | [], st => .ok st
  | i :: is, st => do
    let new ← at' levels i
    if new ≠ st.level then
      RunScan.loop levels is ⟨st.runs ++ [⟨st.start, i⟩], i, new, min new st.minLevel, max new st.maxLevel⟩
    else RunScan.loop levels is st

/-- bidi_info.rs L364-384: reverse the maximal sequences of runs whose level is at least `max`; `acc` is the sequence being collected,
reversed -/
def reverseSeqs (levels : List Nat) (max : Nat) : List Run → (acc : List Run) → Outcome (List Run)
  | [], acc => .ok acc
  | r :: rs, acc => do
    if (← at' levels r.start) < max then return acc ++ r :: (← reverseSeqs levels max rs [])
    else reverseSeqs levels max rs (r :: acc)

/-- bidi_info.rs L362-388: the loop of rule L2 -/
def l2Loop (levels : List Nat) (minLevel : Nat) : (maxLevel : Nat) → List Run → Outcome (List Run)
  | 0, runs => if minLevel ≤ 0 then .panic else .ok runs
  | m + 1, runs => if minLevel ≤ m + 1 then do l2Loop levels minLevel m (← reverseSeqs levels (m + 1) runs []) else .ok runs

/-- bidi_info.rs L282-391 (`visual_runs`) -/
def visualRuns (info : BidiInfo) (para : Para) (line : Run) : Outcome (List Nat × List Run) := do
  if line.start ≤ info.levels.length ∧ line.stop ≤ info.levels.length then
    let lineStr ← slice info.text line.start line.stop
    let levels ← lineLevels info para lineStr
    let level ← at' levels line.start
    let st ← RunScan.loop levels (List.range' (line.start + 1) (line.stop - (line.start + 1))) ⟨[], line.start, level, level, level⟩
    let runs := st.runs ++ [⟨st.start, line.stop⟩]
    match Level.newLowestGeRtl st.minLevel with
    | none => .panic
    | some minLevel => do
      let runs ← l2Loop info.levels minLevel st.maxLevel runs
      return (levels, runs)
  else .panic

/-- bidi_info.rs L240-243 (`reordered_levels`) -/
def reorderedLevels (info : BidiInfo) (para : Para) (line : Run) : Outcome (List Nat) := do
  let (levels, _) ← visualRuns info para line
  return levels

/-- `text.char_indices()` (std): the byte offsets of the characters -/
def charIndices : (text : List Nat) → (i : Nat) → List Nat
  | [], _ => []
  | c :: text, i => i :: charIndices text (i + Utf.lenUtf8 c)

/-- bidi_info.rs L247-254 (`reordered_levels_per_char`) -/
def reorderedLevelsPerChar (info : BidiInfo) (para : Para) (line : Run) : Outcome (List Nat) := do
  let levels ← reorderedLevels info para line
  mapOutcome (at' levels) (charIndices info.text 0)

/-- bidi_info.rs L267-271: the characters of one run in display order -/
def runText (info : BidiInfo) (levels : List Nat) (run : Run) : Outcome (List Nat) := do
  if Level.isRtl (← at' levels run.start) then return (← slice info.text run.start run.stop).reverse
  else slice info.text run.start run.stop

/-- bidi_info.rs L261: all runs are left-to-right -/
def allLtr (levels : List Nat) : List Run → Outcome Bool
  | [] => .ok true
  | r :: rs => do if Level.isLtr (← at' levels r.start) then allLtr levels rs else return false

/-- bidi_info.rs L257-274 (`reorder_line`) -/
def reorderLine (info : BidiInfo) (para : Para) (line : Run) : Outcome (List Nat) := do
  let (levels, runs) ← visualRuns info para line
  if ← allLtr levels runs then slice info.text line.start line.stop
  else return (← mapOutcome (runText info levels) runs).flatten

/-- bidi_info.rs L397-399 (`has_rtl`) -/
def hasRtl (info : BidiInfo) : Bool := Level.hasRtl info.levels

end Model.Bidi
