import Verif.Model.Grapheme

/-! # A client of `GraphemeCursor` that has the text in chunks

Follows the documentation of `GraphemeIncomplete` (grapheme.rs L230-252), `provide_context` (L428-451), `is_boundary`
(L537-551), `next_boundary` (L621-652) and `prev_boundary` (L699-731). -/
namespace Model.Grapheme
open Model

/-- Make a query (`is_boundary` or `next_boundary`) and, as long as it asks for pre-context, provide the preceding chunk and
make the query again (L234-237, L539-542). `ctx` are the chunks before the current one, nearest first. -/
def ask {α : Type} (gcb : Nat → GCB) (query : Cursor → Outcome (Cursor × Except Incomplete α)) :
    (ctx : List (List Nat)) → Cursor → Outcome (Cursor × Except Incomplete α)
  | [], c => query c
  | p :: ctx, c => do
    match ← query c with
    | (c, .error (.PreContext n)) => ask gcb query ctx (← c.provideContext gcb p (n - blen p))
    | (c, r) => return (c, r)

/-- a cursor and the chunks of the text: those before the current one (nearest first), the current one, those after it -/
structure Reader where
  cursor : Cursor
  before : List (List Nat)
  chunk : List Nat
  after : List (List Nat)
deriving DecidableEq, Repr

/-- byte offset of the current chunk -/
def Reader.start (r : Reader) : Nat := blen r.before.reverse.flatten

/-- `next_boundary` over chunks: context requests are answered, and at the end of a chunk the next one is supplied
(L244-248, L624-627). -/
def nextChunked (gcb : Nat → GCB) : (after : List (List Nat)) → (before : List (List Nat)) → (chunk : List Nat) → Cursor →
    Outcome (Reader × Except Incomplete (Option Nat))
  | [], before, chunk, c => do
    let (c, r) ← ask gcb (·.nextBoundary gcb chunk (blen before.reverse.flatten)) before c
    return (⟨c, before, chunk, []⟩, r)
  | d :: after, before, chunk, c => do
    match ← ask gcb (·.nextBoundary gcb chunk (blen before.reverse.flatten)) before c with
    | (c, .error .NextChunk) => nextChunked gcb after (chunk :: before) d c
    | (c, r) => return (⟨c, before, chunk, d :: after⟩, r)

/-- one call on a reader -/
def Reader.next (gcb : Nat → GCB) (r : Reader) : Outcome (Reader × Except Incomplete (Option Nat)) :=
  nextChunked gcb r.after r.before r.chunk r.cursor

/-- `n` calls -/
def Reader.run (gcb : Nat → GCB) : Nat → Reader → Outcome (List (Except Incomplete (Option Nat)))
  | 0, _ => .ok []
  | n + 1, r => do
    let (r, x) ← r.next gcb
    return x :: (← r.run gcb n)

/-- `prev_boundary` over chunks: context requests are answered, and at the start of a chunk the previous one is supplied
(L238-243, L702-705). -/
def prevChunked (gcb : Nat → GCB) : (before : List (List Nat)) → (chunk : List Nat) → (after : List (List Nat)) → Cursor →
    Outcome (Reader × Except Incomplete (Option Nat))
  | [], chunk, after, c => do
    let (c, r) ← ask gcb (·.prevBoundary gcb chunk 0) [] c
    return (⟨c, [], chunk, after⟩, r)
  | d :: before, chunk, after, c => do
    match ← ask gcb (·.prevBoundary gcb chunk (blen (d :: before).reverse.flatten)) (d :: before) c with
    | (c, .error .PrevChunk) => prevChunked gcb before d (chunk :: after) c
    | (c, r) => return (⟨c, d :: before, chunk, after⟩, r)

/-- one backward call on a reader -/
def Reader.prev (gcb : Nat → GCB) (r : Reader) : Outcome (Reader × Except Incomplete (Option Nat)) :=
  prevChunked gcb r.before r.chunk r.after r.cursor

/-- `n` backward calls -/
def Reader.runBack (gcb : Nat → GCB) : Nat → Reader → Outcome (List (Except Incomplete (Option Nat)))
  | 0, _ => .ok []
  | n + 1, r => do
    let (r, x) ← r.prev gcb
    return x :: (← r.runBack gcb n)

end Model.Grapheme
