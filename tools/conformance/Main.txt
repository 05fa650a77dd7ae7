import Verif.Model.Grapheme
import Verif.Model.Word
import Verif.Model.Normal
import Verif.Model.Idna
import Verif.Model.Bidi

/-! Runs the model on the test data of the repository (tools/conformance.py). -/
open Model

def parse (s : String) : List Nat := (s.splitOn ",").filterMap (·.toNat?)
def pieces (s : String) : List (List Nat) := (s.splitOn "|").map parse

partial def drain {S α : Type} (step : S → Outcome (S × Option α)) (s : S) (acc : List α := []) : Option (List α) :=
  match step s with
  | .panic => none
  | .ok (_, none) => some acc.reverse
  | .ok (s, some x) => drain step s (x :: acc)

def starts (ps : List (List Nat)) : List Nat := (ps.foldl (fun (acc : List Nat × Nat) p => (acc.2 :: acc.1, acc.2 + Grapheme.blen p)) ([], 0)).1.reverse

def grapheme (ext : Bool) (t : List Nat) (ps : List (List Nat)) : Bool :=
  drain (·.next Ucd.graphemeClusterBreak) (Grapheme.Graphemes.new ext t) == some ps &&
  drain (·.nextBack Ucd.graphemeClusterBreak) (Grapheme.Graphemes.new ext t) == some ps.reverse

def word (t : List Nat) (ps : List (List Nat)) : Bool :=
  drain (·.next Ucd.wordBreak) (Word.WordBounds.new t) == some ps &&
  drain (·.nextBack Ucd.wordBreak) (Word.WordBounds.new t) == some ps.reverse &&
  (drain (·.next Ucd.wordBreak) (Word.WordBoundIndices.new t)).map (·.map Prod.fst) == some (starts ps) &&
  (drain (·.nextBack Ucd.wordBreak) (Word.WordBoundIndices.new t)).map (·.map Prod.fst) == some (starts ps).reverse

def normal : List (List Nat) → Bool
  | [s1, s2, s3, s4, s5] =>
    let all (f : List Nat → List Nat) (a b c d e : List Nat) := f s1 == a && f s2 == b && f s3 == c && f s4 == d && f s5 == e
    all Normal.nfc s2 s2 s2 s4 s4 && all Normal.nfd s3 s3 s3 s5 s5 && all Normal.nfkc s4 s4 s4 s4 s4 && all Normal.nfkd s5 s5 s5 s5 s5
  | _ => false

def idna (v : Nat) (t : List Nat) (r : Option (List Nat)) : Bool :=
  [true, false].all fun chk => match Idna.toAscii chk t ⟨false, true, v == 1⟩ with
    | .ok (.ok x) => some x == r
    | .ok (.error _) => r == none
    | .panic => false

/-- the paragraph levels are tested by the levels of the bytes -/
def bidi (d : Nat) (t levels : List Nat) : Bool :=
  match Bidi.BidiInfo.new Ucd.bidiClass t (if d = 2 then none else some d) with
  | .ok i => i.levels == levels
  | .panic => false

def reorder (t : List Nat) (ps : List (List Nat)) : Bool :=
  match Bidi.BidiInfo.new Ucd.bidiClass t none with
  | .ok i => i.paras.map (fun p => match Bidi.reorderLine i p p.range with | .ok l => l | .panic => []) == ps
  | .panic => false

def check (line : String) : Bool :=
  match line.splitOn ";" with
  | ["G", t, ps, qs] => grapheme true (parse t) (pieces ps) && grapheme false (parse t) (pieces qs)
  | ["W", t, ps] => word (parse t) (pieces ps)
  | ["N", t] => normal (pieces t)
  | ["I", v, t, "err"] => idna v.toNat! (parse t) none
  | ["I", v, t, r] => idna v.toNat! (parse t) (some (parse r))
  | ["B", d, t, l] => bidi d.toNat! (parse t) (parse l)
  | ["R", t, ps] => reorder (parse t) (pieces ps)
  | ["C", "G", c, k] => toString (repr (Ucd.graphemeClusterBreak c.toNat!)) == k
  | ["C", "W", c, k] => toString (repr (Ucd.wordBreak c.toNat!)) == k
  | _ => false

def main (args : List String) : IO UInt32 := do
  let lines := (← IO.FS.lines args[0]!).toList
  let mut bad := 0
  for l in lines do
    unless check l do
      bad := bad + 1
      IO.println s!"FAILS {l}"
  IO.println s!"{lines.length} cases, {bad} failures"
  return (if bad = 0 then 0 else 1)
