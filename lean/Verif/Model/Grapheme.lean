import Verif.Model.Punycode
import Verif.Model.Ucd
import Verif.Model.Utf

/-! # Model of `unic/segment/src/grapheme.rs`

A `&str` is the list of its characters; offsets are byte offsets into its UTF-8 encoding, as in the program.
The property lookup `GCB::of` is the parameter `gcb`; the program uses `Ucd.graphemeClusterBreak`.
`usize` arithmetic does not overflow for lengths of strings in memory; `self.offset - chunk_start` with a
cursor before the chunk is a panic (with overflow checks; without them the wrapped index makes the slicing that
follows panic). -/
namespace Model.Grapheme
open Model Data

abbrev GCB := GraphemeClusterBreak

/-- `str::len` (std), in bytes -/
def blen (s : List Nat) : Nat := (s.map Utf.lenUtf8).sum

/-- `&s[i..]` (std): panics unless `i` is a character boundary. -/
def sliceFrom : (s : List Nat) → (i : Nat) → Outcome (List Nat)
  | s, 0 => .ok s
  | [], _ + 1 => .panic
  | c :: s, i + 1 => if Utf.lenUtf8 c ≤ i + 1 then sliceFrom s (i + 1 - Utf.lenUtf8 c) else .panic

/-- `&s[..i]` (std): panics unless `i` is a character boundary. -/
def sliceTo : (s : List Nat) → (i : Nat) → Outcome (List Nat)
  | _, 0 => .ok []
  | [], _ + 1 => .panic
  | c :: s, i + 1 => if Utf.lenUtf8 c ≤ i + 1 then do return c :: (← sliceTo s (i + 1 - Utf.lenUtf8 c)) else .panic

/-- L177-193 (`GraphemeState`) -/
inductive State where
  | Unknown | NotBreak | Break | Regional | Emoji
deriving DecidableEq, Repr

/-- L195-228 (`GraphemeCursor`) -/
structure Cursor where
  offset : Nat
  len : Nat
  isExtended : Bool
  state : State
  catBefore : Option GCB
  catAfter : Option GCB
  preContextOffset : Option Nat
  risCount : Option Nat
  resuming : Bool
deriving DecidableEq, Repr

/-- L230-252 (`GraphemeIncomplete`) -/
inductive Incomplete where
  | PreContext (offset : Nat) | PrevChunk | NextChunk | InvalidOffset
deriving DecidableEq, Repr

/-- L254-271 (`PairResult`) -/
inductive PairResult where
  | NotBreak | Break | Extended | Regional | Emoji
deriving DecidableEq, Repr

/-- L273-322 (`check_pair`) -/
def checkPair : (before after : GCB) → PairResult
  | .CR, .LF => .NotBreak
  | .Control, _ => .Break
  | .CR, _ => .Break
  | .LF, _ => .Break
  | _, .Control => .Break
  | _, .CR => .Break
  | _, .LF => .Break
  | .L, .L => .NotBreak
  | .L, .V => .NotBreak
  | .L, .LV => .NotBreak
  | .L, .LVT => .NotBreak
  | .LV, .V => .NotBreak
  | .LV, .T => .NotBreak
  | .V, .V => .NotBreak
  | .V, .T => .NotBreak
  | .LVT, .T => .NotBreak
  | .T, .T => .NotBreak
  | _, .Extend => .NotBreak
  | _, .ZWJ => .NotBreak
  | _, .SpacingMark => .Extended
  | .Prepend, _ => .Extended
  | .EBase, .EModifier => .NotBreak
  | .EBaseGAZ, .EModifier => .NotBreak
  | .Extend, .EModifier => .Emoji
  | .ZWJ, .GlueAfterZwj => .NotBreak
  | .ZWJ, .EBaseGAZ => .NotBreak
  | .RegionalIndicator, .RegionalIndicator => .Regional
  | _, _ => .Break

/-- L336-353 (`GraphemeCursor::new`), L366-383 (`new_legacy`) -/
def Cursor.new (isExtended : Bool) (offset len : Nat) : Cursor where
  offset := offset
  len := len
  state := if offset = 0 ∨ offset = len then .Break else .Unknown
  isExtended := isExtended
  catBefore := none
  catAfter := none
  preContextOffset := none
  risCount := none
  resuming := false

/-- L396-409 (`set_cursor`) -/
def Cursor.setCursor (c : Cursor) (offset : Nat) : Cursor :=
  if offset ≠ c.offset then
    { c with
      offset := offset
      state := if offset = 0 ∨ offset = c.len then .Break else .Unknown
      catBefore := none
      catAfter := none
      risCount := none }
  else c

/-- L424-426 (`cur_cursor`) -/
def Cursor.curCursor (c : Cursor) : Nat := c.offset

/-- L469-475 (`decide`); `decision` (L477-480) is inlined where it is called -/
def Cursor.decide (c : Cursor) (isBreak : Bool) : Cursor := { c with state := if isBreak then .Break else .NotBreak }

/-- L482-492 (`is_boundary_result`) -/
def Cursor.isBoundaryResult (c : Cursor) : Outcome (Except Incomplete Bool) :=
  if c.state = .Break then .ok (.ok true)
  else if c.state = .NotBreak then .ok (.ok false)
  else match c.preContextOffset with
    | some o => .ok (.error (.PreContext o))
    | none => .panic

/-- L494-510 (`handle_regional`); `rev` is the rest of `chunk.chars().rev()`, `risCount` the local variable. -/
def Cursor.handleRegionalLoop (gcb : Nat → GCB) (c : Cursor) (chunkStart : Nat) : (rev : List Nat) → (risCount : Nat) → Cursor
  | [], risCount =>
    let c := { c with risCount := some risCount }
    if chunkStart = 0 then c.decide (risCount % 2 == 0) else { c with preContextOffset := some chunkStart }
  | ch :: rev, risCount =>
    if gcb ch ≠ .RegionalIndicator then { c with risCount := some risCount }.decide (risCount % 2 == 0)
    else c.handleRegionalLoop gcb chunkStart rev (risCount + 1)

/-- L494-510 (`handle_regional`) -/
def Cursor.handleRegional (gcb : Nat → GCB) (c : Cursor) (chunk : List Nat) (chunkStart : Nat) : Cursor :=
  c.handleRegionalLoop gcb chunkStart chunk.reverse (c.risCount.getD 0)

/-- L512-531 (`handle_emoji`); `rev` is the rest of `chunk.chars().rev()`. -/
def Cursor.handleEmojiLoop (gcb : Nat → GCB) (c : Cursor) (chunkStart : Nat) : (rev : List Nat) → Cursor
  | [] => if chunkStart = 0 then c.decide true else { c with preContextOffset := some chunkStart }
  | ch :: rev =>
    match gcb ch with
    | .Extend => c.handleEmojiLoop gcb chunkStart rev
    | .EBase | .EBaseGAZ => c.decide false
    | _ => c.decide true

/-- L512-531 (`handle_emoji`) -/
def Cursor.handleEmoji (gcb : Nat → GCB) (c : Cursor) (chunk : List Nat) (chunkStart : Nat) : Cursor :=
  c.handleEmojiLoop gcb chunkStart chunk.reverse

/-- L452-467 (`provide_context`) -/
def Cursor.provideContext (gcb : Nat → GCB) (c : Cursor) (chunk : List Nat) (chunkStart : Nat) : Outcome Cursor :=
  match c.preContextOffset with
  | none => .panic
  | some o =>
    if chunkStart + blen chunk ≠ o then .panic
    else
      let c := { c with preContextOffset := none }
      let rest : Outcome Cursor :=
        match c.state with
        | .Regional => .ok (c.handleRegional gcb chunk chunkStart)
        | .Emoji => .ok (c.handleEmoji gcb chunk chunkStart)
        | _ => .panic
      if c.isExtended = true ∧ chunkStart + blen chunk = c.offset then
        match chunk.getLast? with
        | none => .panic
        | some ch => if gcb ch = .Prepend then .ok (c.decide false) else rest
      else rest

/-- L580-583: the class of the character after the cursor, cached or looked up in the chunk -/
def Cursor.afterCat (gcb : Nat → GCB) (c : Cursor) (chunk : List Nat) (offsetInChunk : Nat) : Outcome GCB :=
  match c.catAfter with
  | some cat => .ok cat
  | none =>
    match sliceFrom chunk offsetInChunk with
    | .ok (ch :: _) => .ok (gcb ch)
    | _ => .panic

/-- L596-599: the class of the character before the cursor, cached or looked up in the chunk -/
def Cursor.beforeCat (gcb : Nat → GCB) (c : Cursor) (chunk : List Nat) (offsetInChunk : Nat) : Outcome GCB :=
  match c.catBefore with
  | some cat => .ok cat
  | none =>
    match sliceTo chunk offsetInChunk with
    | .ok s => match s.getLast? with
      | some ch => .ok (gcb ch)
      | none => .panic
    | .panic => .panic

/-- L584-595: with the cursor at the start of the chunk, the new state and whether pre-context is needed -/
def Cursor.atChunkStart (c : Cursor) (after : GCB) : State × Bool :=
  match after with
  | .RegionalIndicator => (.Regional, true)
  | .EModifier => (.Emoji, true)
  | _ => (c.state, c.catBefore.isNone)

/-- L600-618: decide from the pair of classes around the cursor -/
def Cursor.decidePair (gcb : Nat → GCB) (c : Cursor) (chunk : List Nat) (chunkStart offsetInChunk : Nat) (before after : GCB) :
    Outcome (Cursor × Except Incomplete Bool) :=
  match checkPair before after with
  | .NotBreak => .ok (c.decide false, .ok false)
  | .Break => .ok (c.decide true, .ok true)
  | .Extended => .ok (c.decide (!c.isExtended), .ok (!c.isExtended))
  | .Regional =>
    match c.risCount with
    | some n => .ok (c.decide (n % 2 == 0), .ok (n % 2 == 0))
    | none => do
      let c := c.handleRegional gcb (← sliceTo chunk offsetInChunk) chunkStart
      return (c, ← c.isBoundaryResult)
  | .Emoji => do
    let c := c.handleEmoji gcb (← sliceTo chunk offsetInChunk) chunkStart
    return (c, ← c.isBoundaryResult)

/-- L596-618: the part of `is_boundary` after the class after the cursor is known and no pre-context is needed -/
def Cursor.isBoundaryInside (gcb : Nat → GCB) (c : Cursor) (chunk : List Nat) (chunkStart : Nat) (after : GCB) :
    Outcome (Cursor × Except Incomplete Bool) := do
  let before ← c.beforeCat gcb chunk (c.offset - chunkStart)
  { c with catBefore := some before }.decidePair gcb chunk chunkStart (c.offset - chunkStart) before after

/-- L560-619 (`is_boundary`) -/
def Cursor.isBoundary (gcb : Nat → GCB) (c : Cursor) (chunk : List Nat) (chunkStart : Nat) :
    Outcome (Cursor × Except Incomplete Bool) :=
  if c.state = .Break then .ok (c, .ok true)
  else if c.state = .NotBreak then .ok (c, .ok false)
  else if (c.offset < chunkStart ∨ c.offset ≥ chunkStart + blen chunk) ∧
      (c.offset > chunkStart + blen chunk ∨ c.catAfter = none) then .ok (c, .error .InvalidOffset)
  else match c.preContextOffset with
  | some o => .ok (c, .error (.PreContext o))
  | none =>
    if c.offset < chunkStart then .panic
    else do
      let after ← c.afterCat gcb chunk (c.offset - chunkStart)
      let c := { c with catAfter := some after }
      if c.offset = chunkStart then
        let (state, needPreContext) := c.atChunkStart after
        let c := { c with state := state }
        if needPreContext then
          .ok ({ c with preContextOffset := some chunkStart }, .error (.PreContext chunkStart))
        else c.isBoundaryInside gcb chunk chunkStart after
      else c.isBoundaryInside gcb chunk chunkStart after

/-- L663-696, one step of the loop body when not resuming: the cursor moves over `ch`. -/
def Cursor.advance (gcb : Nat → GCB) (c : Cursor) (ch : Nat) : Cursor :=
  let before := c.catAfter.getD (gcb ch)
  { c with
    offset := c.offset + Utf.lenUtf8 ch
    state := .Unknown
    catBefore := some before
    catAfter := none
    risCount := if before = .RegionalIndicator then c.risCount.map (· + 1) else some 0 }

/-- L663-696, the loop of `next_boundary` when not resuming; `iter` is what the iterator has left after `ch`. -/
def Cursor.nextLoop (gcb : Nat → GCB) (chunk : List Nat) (chunkStart : Nat) : (iter : List Nat) → (ch : Nat) → Cursor →
    Outcome (Cursor × Except Incomplete (Option Nat))
  | [], ch, c =>
    let c := c.advance gcb ch
    if c.offset = c.len then do
      match ← ({ c.decide true with resuming := true }).isBoundary gcb chunk chunkStart with
      | (c, .error e) => return (c, .error e)
      | (c, .ok true) => return ({ c with resuming := false }, .ok (some c.offset))
      | (_, .ok false) => .panic -- not reached: the state has just been set to `Break`
    else .ok ({ c with resuming := true }, .error .NextChunk)
  | next :: iter, ch, c => do
    let c := c.advance gcb ch
    match ← ({ c with catAfter := some (gcb next), resuming := true }).isBoundary gcb chunk chunkStart with
    | (c, .error e) => return (c, .error e)
    | (c, .ok true) => return ({ c with resuming := false }, .ok (some c.offset))
    | (c, .ok false) => ({ c with resuming := false }).nextLoop gcb chunk chunkStart iter next

/-- L653-697 (`next_boundary`) -/
def Cursor.nextBoundary (gcb : Nat → GCB) (c : Cursor) (chunk : List Nat) (chunkStart : Nat) :
    Outcome (Cursor × Except Incomplete (Option Nat)) :=
  if c.offset = c.len then .ok (c, .ok none)
  else if c.offset < chunkStart then .panic
  else do
    match ← sliceFrom chunk (c.offset - chunkStart) with
    | [] => .panic
    | ch :: iter =>
      if c.resuming then
        match ← ({ c with catAfter := some (c.catAfter.getD (gcb ch)) }).isBoundary gcb chunk chunkStart with
        | (c, .error e) => return (c, .error e)
        | (c, .ok true) => return ({ c with resuming := false }, .ok (some c.offset))
        | (c, .ok false) => ({ c with resuming := false }).nextLoop gcb chunk chunkStart iter ch
      else c.nextLoop gcb chunk chunkStart iter ch

/-- L742-776, one step of the loop body when not resuming: the cursor moves back over `ch`. -/
def Cursor.retreat (c : Cursor) (ch : Nat) : Cursor :=
  { c with
    offset := c.offset - Utf.lenUtf8 ch
    catAfter := c.catBefore
    catBefore := none
    state := .Unknown
    risCount := match c.risCount with
      | some n => if n > 0 then some (n - 1) else none
      | none => none }

/-- L742-776, the loop of `prev_boundary` when not resuming; `iter` is what the reversed iterator has left after `ch`. -/
def Cursor.prevLoop (gcb : Nat → GCB) (chunk : List Nat) (chunkStart : Nat) : (iter : List Nat) → (ch : Nat) → Cursor →
    Outcome (Cursor × Except Incomplete (Option Nat))
  | [], ch, c =>
    if c.offset = chunkStart then .ok ({ c with resuming := true }, .error .PrevChunk)
    else
      let c := c.retreat ch
      if c.offset = 0 then do
        match ← ({ c.decide true with resuming := true }).isBoundary gcb chunk chunkStart with
        | (c, .error e) => return (c, .error e)
        | (c, .ok true) => return ({ c with resuming := false }, .ok (some c.offset))
        | (_, .ok false) => .panic -- not reached: the state has just been set to `Break`
      else .ok ({ c with resuming := true }, .error .PrevChunk)
  | prev :: iter, ch, c =>
    if c.offset = chunkStart then .ok ({ c with resuming := true }, .error .PrevChunk)
    else do
      let c := c.retreat ch
      match ← ({ c with catBefore := some (gcb prev), resuming := true }).isBoundary gcb chunk chunkStart with
      | (c, .error e) => return (c, .error e)
      | (c, .ok true) => return ({ c with resuming := false }, .ok (some c.offset))
      | (c, .ok false) => ({ c with resuming := false }).prevLoop gcb chunk chunkStart iter prev

/-- L732-777 (`prev_boundary`) -/
def Cursor.prevBoundary (gcb : Nat → GCB) (c : Cursor) (chunk : List Nat) (chunkStart : Nat) :
    Outcome (Cursor × Except Incomplete (Option Nat)) :=
  if c.offset = 0 then .ok (c, .ok none)
  else if c.offset < chunkStart then .panic
  else do
    match (← sliceTo chunk (c.offset - chunkStart)).reverse with
    | [] => .panic
    | ch :: iter =>
      if c.resuming then
        if c.offset = chunkStart then return ({ c with resuming := true }, .error .PrevChunk)
        match ← ({ c with catBefore := some (gcb ch) }).isBoundary gcb chunk chunkStart with
        | (c, .error e) => return (c, .error e)
        | (c, .ok true) => return ({ c with resuming := false }, .ok (some c.offset))
        | (c, .ok false) => ({ c with resuming := false }).prevLoop gcb chunk chunkStart iter ch
      else c.prevLoop gcb chunk chunkStart iter ch

/-- L94-98 (`Graphemes`) -/
structure Graphemes where
  string : List Nat
  cursor : Cursor
  cursorBack : Cursor
deriving DecidableEq, Repr

/-- L103-110 (`Graphemes::new`), L114-121 (`new_legacy`) -/
def Graphemes.new (isExtended : Bool) (s : List Nat) : Graphemes :=
  ⟨s, .new isExtended 0 (blen s), .new isExtended (blen s) (blen s)⟩

/-- `&s[i..j]` (std) -/
def slice (s : List Nat) (i j : Nat) : Outcome (List Nat) := do
  if j < i then .panic else sliceTo (← sliceFrom s i) (j - i)

/-- L136-138 (`as_str`) -/
def Graphemes.asStr (g : Graphemes) : Outcome (List Nat) := slice g.string g.cursor.curCursor g.cursorBack.curCursor

/-- L145-148 (`size_hint`) -/
def Graphemes.sizeHint (g : Graphemes) : Outcome (Nat × Nat) :=
  if g.cursorBack.curCursor < g.cursor.curCursor then .panic
  else
    let slen := g.cursorBack.curCursor - g.cursor.curCursor
    .ok (min slen 1, slen)

/-- L151-158 (`next`) -/
def Graphemes.next (gcb : Nat → GCB) (g : Graphemes) : Outcome (Graphemes × Option (List Nat)) :=
  if g.cursor.curCursor = g.cursorBack.curCursor then .ok (g, none)
  else do
    match ← g.cursor.nextBoundary gcb g.string 0 with
    | (c, .ok (some next)) => return ({ g with cursor := c }, some (← slice g.string g.cursor.curCursor next))
    | _ => .panic

/-- L163-174 (`next_back`) -/
def Graphemes.nextBack (gcb : Nat → GCB) (g : Graphemes) : Outcome (Graphemes × Option (List Nat)) :=
  if g.cursorBack.curCursor = g.cursor.curCursor then .ok (g, none)
  else do
    match ← g.cursorBack.prevBoundary gcb g.string 0 with
    | (c, .ok (some prev)) => return ({ g with cursorBack := c }, some (← slice g.string prev g.cursorBack.curCursor))
    | _ => .panic

/-- L24-46, L70-74 (`GraphemeIndices`): the pieces with their byte offsets, the offset of the front (back) cursor before
(after) the call. In the program the offset is the difference of two pointers into the same string. -/
def Graphemes.nextIndexed (gcb : Nat → GCB) (g : Graphemes) : Outcome (Graphemes × Option (Nat × List Nat)) := do
  let (g', r) ← g.next gcb
  return (g', r.map fun s => (g.cursor.curCursor, s))

/-- L84-88 (`GraphemeIndices::next_back`) -/
def Graphemes.nextBackIndexed (gcb : Nat → GCB) (g : Graphemes) : Outcome (Graphemes × Option (Nat × List Nat)) := do
  let (g', r) ← g.nextBack gcb
  return (g', r.map fun s => (g'.cursorBack.curCursor, s))

end Model.Grapheme
