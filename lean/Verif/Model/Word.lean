import Verif.Model.Grapheme

/-! # Model of `unic/segment/src/word.rs`

As in `Model.Grapheme`: a `&str` is the list of its characters, offsets are byte offsets, slicing off a character
boundary and `unwrap` of `None` are panics. The property lookup `WB::of` is the parameter `wb`; the program uses
`Ucd.wordBreak`. -/
namespace Model.Word
open Model Data Model.Grapheme

abbrev WB := WordBreak

/-- L143-152 (`FormatExtendType`) -/
inductive FE where
  | AcceptAny | AcceptNone | RequireLetter | RequireHLetter | AcceptQLetter | RequireNumeric
deriving DecidableEq, Repr

/-- L154-159 (`RegionalState`) -/
inductive RegionalState where
  | Half | Full | Unknown
deriving DecidableEq, Repr

/-- L128-141 (`WordBoundsState`) -/
inductive State where
  | Start | Letter | HLetter | Numeric | Katakana | ExtendNumLet
  | Regional (r : RegionalState)
  | FormatExtend (t : FE)
  | Zwj | Emoji
deriving DecidableEq, Repr

/-- L58-65 (`WordBounds`) -/
structure WordBounds where
  string : List Nat
  cat : Option WB
  catb : Option WB
deriving DecidableEq, Repr

/-- L632-640 (`WordBounds::new`) -/
def WordBounds.new (s : List Nat) : WordBounds := { string := s, cat := none, catb := none }

/-- `s.chars().next().unwrap()` (std) -/
def firstChar : List Nat → Outcome Nat
  | [] => .panic
  | c :: _ => .ok c

/-- `s.chars().next_back().unwrap()` (std) -/
def lastChar (s : List Nat) : Outcome Nat := firstChar s.reverse

/-- L660-669 (`get_next_cat`) -/
def getNextCat (wb : Nat → WB) (s : List Nat) (idx : Nat) : Outcome (Option WB) := do
  let nidx := idx + Utf.lenUtf8 (← firstChar (← sliceFrom s idx))
  if nidx < blen s then
    let nch ← firstChar (← sliceFrom s nidx)
    return some (wb nch)
  else return none

/-- L671-679 (`get_prev_cat`) -/
def getPrevCat (wb : Nat → WB) (s : List Nat) (idx : Nat) : Outcome (Option WB) := do
  if idx > 0 then
    let nch ← lastChar (← sliceTo s idx)
    return some (wb nch)
  else return none

/-- The classes skipped by rule WB4. -/
def isIgn : WB → Bool
  | .Extend => true
  | .Format => true
  | .ZWJ => true
  | _ => false

/-- The local variables of `next`, L180-190, and the cache `self.cat`. `prev_zwj` is computed where it is used. -/
structure Fwd where
  takeCurr : Bool
  takeCat : Bool
  idx : Nat
  saveidx : Nat
  state : State
  cat : WB
  savecat : WB
  selfCat : Option WB
deriving DecidableEq, Repr

/-- how one pass through the body of a `for` loop ends -/
inductive Flow (α : Type) where
  | cont (v : α) | brk (v : α)
deriving DecidableEq, Repr

/-- `take_curr = false; break` -/
def Fwd.leave (v : Fwd) : Flow Fwd := .brk { v with takeCurr := false }
/-- the loop goes on in another state -/
def Fwd.goto (v : Fwd) (st : State) : Flow Fwd := .cont { v with state := st }
/-- `savecat = cat; saveidx = idx;` and on in another state -/
def Fwd.save (v : Fwd) (t : FE) : Flow Fwd :=
  .cont { v with savecat := v.cat, saveidx := v.idx, state := .FormatExtend t }

/-- L244-250 (`Start if cat == WB::CR`) -/
def fwdCR (v : Fwd) : Option WB → Flow Fwd
  | some .LF => .brk { v with idx := v.idx + 1 }
  | _ => .brk v

/-- L261-271 (`Start`, other classes): the class of the next character decides -/
def fwdOther (v : Fwd) : Option WB → Flow Fwd
  | some ncat =>
    if ncat = .Format ∨ ncat = .Extend ∨ ncat = .ZWJ then
      .cont { v with state := .FormatExtend .AcceptNone, selfCat := some ncat }
    else .brk v
  | none => .brk v

/-- L243-375 (`state = match state { … }`); `v.cat` and `v.idx` are those of the current character -/
def fwdMatch (wb : Nat → WB) (s : List Nat) (v : Fwd) : Outcome (Flow Fwd) :=
  match v.state with
  | .Start =>
    match v.cat with
    | .CR => do return fwdCR v (← getNextCat wb s v.idx)
    | .ALetter => .ok (v.goto .Letter)
    | .HebrewLetter => .ok (v.goto .HLetter)
    | .Numeric => .ok (v.goto .Numeric)
    | .Katakana => .ok (v.goto .Katakana)
    | .ExtendNumLet => .ok (v.goto .ExtendNumLet)
    | .RegionalIndicator => .ok (v.goto (.Regional .Half))
    | .LF | .Newline => .ok (.brk v)
    | .ZWJ => .ok (v.goto .Zwj)
    | .EBase | .EBaseGAZ => .ok (v.goto .Emoji)
    | _ => do return fwdOther v (← getNextCat wb s v.idx)
  | .Zwj => .ok v.leave
  | .Letter =>
    match v.cat with
    | .ALetter => .ok (v.goto .Letter)
    | .HebrewLetter => .ok (v.goto .HLetter)
    | .Numeric => .ok (v.goto .Numeric)
    | .ExtendNumLet => .ok (v.goto .ExtendNumLet)
    | .MidLetter | .MidNumLet | .SingleQuote => .ok (v.save .RequireLetter)
    | _ => .ok v.leave
  | .HLetter =>
    match v.cat with
    | .ALetter => .ok (v.goto .Letter)
    | .HebrewLetter => .ok (v.goto .HLetter)
    | .Numeric => .ok (v.goto .Numeric)
    | .ExtendNumLet => .ok (v.goto .ExtendNumLet)
    | .DoubleQuote => .ok (v.save .RequireHLetter)
    | .SingleQuote => .ok (v.goto (.FormatExtend .AcceptQLetter))
    | .MidLetter | .MidNumLet => .ok (v.save .RequireLetter)
    | _ => .ok v.leave
  | .Numeric =>
    match v.cat with
    | .Numeric => .ok (v.goto .Numeric)
    | .ALetter => .ok (v.goto .Letter)
    | .HebrewLetter => .ok (v.goto .HLetter)
    | .ExtendNumLet => .ok (v.goto .ExtendNumLet)
    | .MidNum | .MidNumLet | .SingleQuote => .ok (v.save .RequireNumeric)
    | _ => .ok v.leave
  | .Katakana =>
    match v.cat with
    | .Katakana => .ok (v.goto .Katakana)
    | .ExtendNumLet => .ok (v.goto .ExtendNumLet)
    | _ => .ok v.leave
  | .ExtendNumLet =>
    match v.cat with
    | .ExtendNumLet => .ok (v.goto .ExtendNumLet)
    | .ALetter => .ok (v.goto .Letter)
    | .HebrewLetter => .ok (v.goto .HLetter)
    | .Numeric => .ok (v.goto .Numeric)
    | .Katakana => .ok (v.goto .Katakana)
    | _ => .ok v.leave
  | .Regional .Full => .ok v.leave
  | .Regional .Half =>
    match v.cat with
    | .RegionalIndicator => .ok (v.goto (.Regional .Full))
    | _ => .ok v.leave
  | .Regional .Unknown => .panic -- unreachable!()
  | .Emoji =>
    match v.cat with
    | .EModifier => .ok (v.goto .Emoji)
    | _ => .ok v.leave
  | .FormatExtend .RequireNumeric =>
    match v.cat with
    | .Numeric => .ok (v.goto .Numeric)
    | _ => .ok (.brk v)
  | .FormatExtend .RequireLetter =>
    match v.cat with
    | .ALetter => .ok (v.goto .Letter)
    | .HebrewLetter => .ok (v.goto .HLetter)
    | _ => .ok (.brk v)
  | .FormatExtend .AcceptQLetter =>
    match v.cat with
    | .ALetter => .ok (v.goto .Letter)
    | .HebrewLetter => .ok (v.goto .HLetter)
    | _ => .ok (.brk { v with takeCurr := false, takeCat := false })
  | .FormatExtend .RequireHLetter =>
    match v.cat with
    | .HebrewLetter => .ok (v.goto .HLetter)
    | _ => .ok (.brk v)
  | .FormatExtend .AcceptNone => .ok (.brk { v with takeCurr := false, takeCat := false })
  | .FormatExtend .AcceptAny => .ok (.brk v)

/-- L191-242: the body of the loop up to the `match`; `prevZwj` is `prev_zwj` of L193 -/
def fwdBody (wb : Nat → WB) (s : List Nat) (prevZwj : Bool) (v : Fwd) : Outcome (Flow Fwd) :=
  if v.state ≠ .Start ∧ isIgn v.cat = true then .ok (.cont v)
  else if prevZwj = true ∧ v.cat = .GlueAfterZwj then .ok (.cont v)
  else if prevZwj = true ∧ v.cat = .EBaseGAZ then .ok (v.goto .Emoji)
  else fwdMatch wb s v

/-- L191-376: the loop over `char_indices`, from the character at offset `curr` on -/
def fwdLoop (wb : Nat → WB) (s : List Nat) : (rest : List Nat) → (curr : Nat) → Fwd → Outcome Fwd
  | [], _, v => .ok v
  | ch :: rest, curr, v => do
    match ← fwdBody wb s (decide (v.cat = .ZWJ))
      { v with idx := curr, cat := v.selfCat.getD (wb ch), selfCat := none, takeCat := true } with
    | .brk v => return v
    | .cont v => fwdLoop wb s rest (curr + Utf.lenUtf8 ch) v

/-- L378-385: back up if something was required and not found -/
def fwdRewind (v : Fwd) : Fwd :=
  match v.state with
  | .FormatExtend .RequireLetter | .FormatExtend .RequireHLetter | .FormatExtend .RequireNumeric =>
    { v with idx := v.saveidx, cat := v.savecat, takeCurr := false }
  | _ => v

/-- L387-394: the end of the piece and the new cache -/
def fwdFinish (s : List Nat) (v : Fwd) : Outcome (Nat × Option WB) := do
  if v.takeCurr then
    let ch ← firstChar (← sliceFrom s v.idx)
    return (v.idx + Utf.lenUtf8 ch, none)
  else if v.takeCat then return (v.idx, some v.cat)
  else return (v.idx, none)

/-- L180-190: the initial values of the local variables of `next` -/
def Fwd.init (cat : Option WB) : Fwd :=
  { takeCurr := true, takeCat := true, idx := 0, saveidx := 0, state := .Start, cat := .Other, savecat := .Other, selfCat := cat }

/-- L170-399 (`next`) -/
def WordBounds.next (wb : Nat → WB) (b : WordBounds) : Outcome (WordBounds × Option (List Nat)) :=
  if b.string = [] then .ok (b, none)
  else do
    let v ← fwdLoop wb b.string b.string 0 (Fwd.init b.cat)
    let (idx, cat) ← fwdFinish b.string (fwdRewind v)
    let ret ← sliceTo b.string idx
    let string ← sliceFrom b.string idx
    return ({ b with string := string, cat := cat }, some ret)

/-- The local variables of `next_back`, L412-420, and the cache `self.catb`. -/
structure Bwd where
  takeCurr : Bool
  takeCat : Bool
  idx : Nat
  previdx : Nat
  saveidx : Nat
  state : State
  savestate : State
  cat : WB
  selfCatb : Option WB
deriving DecidableEq, Repr

/-- `take_curr = false; break` -/
def Bwd.leave (v : Bwd) : Flow Bwd := .brk { v with takeCurr := false }
/-- the loop goes on in another state -/
def Bwd.goto (v : Bwd) (st : State) : Flow Bwd := .cont { v with state := st }
/-- `saveidx = previdx;` and on in another state -/
def Bwd.save (v : Bwd) (t : FE) : Flow Bwd := .cont { v with saveidx := v.previdx, state := .FormatExtend t }

/-- L480-485: a line feed at the end takes the carriage return before it -/
def bwdLF (v : Bwd) : Option WB → Flow Bwd
  | some .CR => .brk { v with idx := v.idx - 1 }
  | _ => .brk v

/-- L463-492 (`Start | FormatExtend(AcceptAny)`) -/
def bwdStart (wb : Nat → WB) (s : List Nat) (v : Bwd) : Outcome (Flow Bwd) :=
  match v.cat with
  | .ALetter => .ok (v.goto .Letter)
  | .HebrewLetter => .ok (v.goto .HLetter)
  | .Numeric => .ok (v.goto .Numeric)
  | .Katakana => .ok (v.goto .Katakana)
  | .ExtendNumLet => .ok (v.goto .ExtendNumLet)
  | .RegionalIndicator => .ok (v.goto (.Regional .Unknown))
  | .GlueAfterZwj | .EBaseGAZ => .ok (v.goto .Zwj)
  | .Extend | .Format | .ZWJ => .ok (v.goto (.FormatExtend .AcceptAny))
  | .SingleQuote => .ok (.cont { v with saveidx := v.idx, state := .FormatExtend .AcceptQLetter })
  | .EModifier => .ok (v.goto .Emoji)
  | .LF => if v.state = .Start then do return bwdLF v (← getPrevCat wb s v.idx) else .ok v.leave
  | .CR | .Newline => if v.state = .Start then .ok (.brk v) else .ok v.leave
  | _ => .ok (.brk v)

/-- L556-562: the number of regional indicators before `previdx`, WB4 characters skipped -/
def riBefore (wb : Nat → WB) (s : List Nat) (previdx : Nat) : Outcome Nat := do
  let left ← sliceTo s previdx
  return (((left.reverse.map wb).filter (fun c => !(c == .ZWJ || c == .Extend || c == .Format))).takeWhile
    (fun c => c == .RegionalIndicator)).length

/-- L552-580 (`Regional(mut regional_state)`) -/
def bwdRegional (wb : Nat → WB) (s : List Nat) (v : Bwd) (r : RegionalState) : Outcome (Flow Bwd) :=
  match v.cat with
  | .RegionalIndicator =>
    match r with
    | .Unknown => do
      let count ← riBefore wb s v.previdx
      return if count % 2 = 0 then v.leave else v.goto (.Regional .Full)
    | .Full => .ok v.leave
    | .Half => .ok (v.goto (.Regional .Full))
  | _ => .ok v.leave

/-- L462-597 (`state = match state { … }`) -/
def bwdMatch (wb : Nat → WB) (s : List Nat) (v : Bwd) : Outcome (Flow Bwd) :=
  match v.state with
  | .Start => bwdStart wb s v
  | .FormatExtend .AcceptAny => bwdStart wb s v
  | .Zwj =>
    match v.cat with
    | .ZWJ => .ok (v.goto (.FormatExtend .AcceptAny))
    | _ => .ok v.leave
  | .Letter =>
    match v.cat with
    | .ALetter => .ok (v.goto .Letter)
    | .HebrewLetter => .ok (v.goto .HLetter)
    | .Numeric => .ok (v.goto .Numeric)
    | .ExtendNumLet => .ok (v.goto .ExtendNumLet)
    | .MidLetter | .MidNumLet | .SingleQuote => .ok (v.save .RequireLetter)
    | _ => .ok v.leave
  | .HLetter =>
    match v.cat with
    | .ALetter => .ok (v.goto .Letter)
    | .HebrewLetter => .ok (v.goto .HLetter)
    | .Numeric => .ok (v.goto .Numeric)
    | .ExtendNumLet => .ok (v.goto .ExtendNumLet)
    | .DoubleQuote => .ok (v.save .RequireHLetter)
    | .MidLetter | .MidNumLet | .SingleQuote => .ok (v.save .RequireLetter)
    | _ => .ok v.leave
  | .Numeric =>
    match v.cat with
    | .Numeric => .ok (v.goto .Numeric)
    | .ALetter => .ok (v.goto .Letter)
    | .HebrewLetter => .ok (v.goto .HLetter)
    | .ExtendNumLet => .ok (v.goto .ExtendNumLet)
    | .MidNum | .MidNumLet | .SingleQuote => .ok (v.save .RequireNumeric)
    | _ => .ok v.leave
  | .Katakana =>
    match v.cat with
    | .Katakana => .ok (v.goto .Katakana)
    | .ExtendNumLet => .ok (v.goto .ExtendNumLet)
    | _ => .ok v.leave
  | .ExtendNumLet =>
    match v.cat with
    | .ExtendNumLet => .ok (v.goto .ExtendNumLet)
    | .ALetter => .ok (v.goto .Letter)
    | .HebrewLetter => .ok (v.goto .HLetter)
    | .Numeric => .ok (v.goto .Numeric)
    | .Katakana => .ok (v.goto .Katakana)
    | _ => .ok v.leave
  | .Regional r => bwdRegional wb s v r
  | .Emoji =>
    match v.cat with
    | .EBase | .EBaseGAZ => .ok (v.goto .Zwj)
    | _ => .ok v.leave
  | .FormatExtend .RequireNumeric =>
    match v.cat with
    | .Numeric => .ok (v.goto .Numeric)
    | _ => .ok (.brk v)
  | .FormatExtend .RequireLetter =>
    match v.cat with
    | .ALetter => .ok (v.goto .Letter)
    | .HebrewLetter => .ok (v.goto .HLetter)
    | _ => .ok (.brk v)
  | .FormatExtend .AcceptQLetter =>
    match v.cat with
    | .HebrewLetter => .ok (v.goto .HLetter)
    | _ => .ok (.brk v)
  | .FormatExtend .RequireHLetter =>
    match v.cat with
    | .HebrewLetter => .ok (v.goto .HLetter)
    | _ => .ok (.brk v)
  | .FormatExtend .AcceptNone => .ok (.brk v)

/-- L442-445: the state is neither `Start` nor `FormatExtend(_)` -/
def State.folds : State → Bool
  | .Start => false
  | .FormatExtend _ => false
  | _ => true

/-- L439: Extend, Format, or ZWJ that rule WB3c does not claim -/
def bwdIgn (v : Bwd) : Bool :=
  v.cat == .Extend || v.cat == .Format || (v.cat == .ZWJ && v.state != .Zwj)

/-- L446-448 -/
def Bwd.fold (v : Bwd) : Bwd :=
  if v.state.folds then { v with saveidx := v.previdx, savestate := v.state, state := .FormatExtend .AcceptNone } else v

/-- L456-458 -/
def Bwd.restore (v : Bwd) : Bwd := { v with state := v.savestate, previdx := v.saveidx, takeCat := false }

/-- L439-597: the body of the loop after the class has been fetched -/
def bwdBody (wb : Nat → WB) (s : List Nat) (v : Bwd) : Outcome (Flow Bwd) :=
  if bwdIgn v = true then
    if v.fold.state ≠ .Start then .ok (.cont v.fold) else bwdMatch wb s v.fold
  else if v.state = .FormatExtend .AcceptNone then bwdMatch wb s v.restore
  else bwdMatch wb s v

/-- L422-598: the loop over `char_indices().rev()`; `rest` are the characters still to come, last first, and
`curr` is the offset of the end of the first of them -/
def bwdLoop (wb : Nat → WB) (s : List Nat) : (rest : List Nat) → (curr : Nat) → Bwd → Outcome Bwd
  | [], _, v => .ok v
  | ch :: rest, curr, v => do
    match ← bwdBody wb s
      { v with previdx := v.idx, idx := curr - Utf.lenUtf8 ch, cat := v.selfCatb.getD (wb ch), selfCatb := none, takeCat := true } with
    | .brk v => return v
    | .cont v => bwdLoop wb s rest (curr - Utf.lenUtf8 ch) v

/-- L600-612: backtrack -/
def bwdRewind (v : Bwd) : Bwd :=
  match v.state with
  | .FormatExtend .RequireLetter | .FormatExtend .RequireHLetter | .FormatExtend .RequireNumeric
  | .FormatExtend .AcceptNone | .FormatExtend .AcceptQLetter =>
    { v with previdx := v.saveidx, takeCat := false, takeCurr := false }
  | _ => v

/-- L614-623 -/
def bwdFinish (v : Bwd) : Nat × Option WB :=
  if v.takeCurr then (v.idx, none)
  else if v.takeCat then (v.previdx, some v.cat)
  else (v.previdx, none)

/-- L412-420: the initial values of the local variables of `next_back`, `idx` being the offset of the last character -/
def Bwd.init (idx : Nat) (catb : Option WB) : Bwd :=
  { takeCurr := true, takeCat := true, idx := idx, previdx := idx, saveidx := idx, state := .Start, savestate := .Start,
    cat := .Other, selfCatb := catb }

/-- L403-628 (`next_back`) -/
def WordBounds.nextBack (wb : Nat → WB) (b : WordBounds) : Outcome (WordBounds × Option (List Nat)) :=
  if b.string = [] then .ok (b, none)
  else do
    let ch ← lastChar b.string
    let v ← bwdLoop wb b.string b.string.reverse (blen b.string) (Bwd.init (blen b.string - Utf.lenUtf8 ch) b.catb)
    let (idx, catb) := bwdFinish (bwdRewind v)
    let ret ← sliceFrom b.string idx
    let string ← sliceTo b.string idx
    return ({ b with string := string, catb := catb }, some ret)

/-- L164-168 (`size_hint`) -/
def WordBounds.sizeHint (b : WordBounds) : Nat × Option Nat := (min (blen b.string) 1, some (blen b.string))

/-- L656-658 (`as_str`) -/
def WordBounds.asStr (b : WordBounds) : List Nat := b.string

/-- L27-30 (`Words`): `std::iter::Filter` over `WordBounds` -/
structure Words where
  inner : WordBounds
deriving DecidableEq, Repr

/-- L51-55 (`Words::new`); the filter is passed to `next` and `nextBack` instead of being stored -/
def Words.new (s : List Nat) : Words := { inner := .new s }

/-- `Filter::next` and `Filter::next_back` (std): call `step` until it returns `None` or an item that passes. `fuel`
bounds the number of calls; every call that returns an item shortens the text. -/
def filterLoop (step : WordBounds → Outcome (WordBounds × Option (List Nat))) (keep : List Nat → Bool) :
    Nat → WordBounds → Outcome (WordBounds × Option (List Nat))
  | 0, b => .ok (b, none)
  | fuel + 1, b => do
    let (b, r) ← step b
    match r with
    | none => return (b, none)
    | some p => if keep p then return (b, some p) else filterLoop step keep fuel b

/-- L36-38 (`Words::next`) -/
def Words.next (wb : Nat → WB) (keep : List Nat → Bool) (w : Words) : Outcome (Words × Option (List Nat)) := do
  let (b, r) ← filterLoop (WordBounds.next wb) keep (w.inner.string.length + 1) w.inner
  return ({ inner := b }, r)

/-- L43-45 (`Words::next_back`) -/
def Words.nextBack (wb : Nat → WB) (keep : List Nat → Bool) (w : Words) : Outcome (Words × Option (List Nat)) := do
  let (b, r) ← filterLoop (WordBounds.nextBack wb) keep (w.inner.string.length + 1) w.inner
  return ({ inner := b }, r)

/-- L67-72 (`WordBoundIndices`): `start_offset` is the address of the text; an address is the number of bytes of the
text before it, so `frontOffset` is the address of the string `iter` has left -/
structure WordBoundIndices where
  frontOffset : Nat
  iter : WordBounds
deriving DecidableEq, Repr

/-- L77-82 (`WordBoundIndices::new`) -/
def WordBoundIndices.new (s : List Nat) : WordBoundIndices := { frontOffset := 0, iter := .new s }

/-- L107-111 (`next`): the piece starts where the string left did, which now starts after it -/
def WordBoundIndices.next (wb : Nat → WB) (w : WordBoundIndices) : Outcome (WordBoundIndices × Option (Nat × List Nat)) := do
  let (it, r) ← w.iter.next wb
  match r with
  | none => return ({ w with iter := it }, none)
  | some p => return ({ frontOffset := w.frontOffset + blen p, iter := it }, some (w.frontOffset, p))

/-- L121-125 (`next_back`): the piece starts where the string left now ends -/
def WordBoundIndices.nextBack (wb : Nat → WB) (w : WordBoundIndices) : Outcome (WordBoundIndices × Option (Nat × List Nat)) := do
  let (it, r) ← w.iter.nextBack wb
  match r with
  | none => return ({ w with iter := it }, none)
  | some p => return ({ w with iter := it }, some (w.frontOffset + blen it.string, p))

end Model.Word
