import Verif.Model.GenWriter
import Verif.Model.GenUcdWriter

/-! # Model of the producers of test data, `gen/src/source/ucd/test`, `gen/src/writer/{normal/normal_tests,segment/segment_tests,ucd/segment_tests}.rs`

As in `Model.GenSource`, a text is the list of its characters, and the classes `\w` and `\s` of the crate `regex` beyond ASCII are the parameters `w` and `sp`.
`str` of `Model.Gen` writes the literals of the source. -/
namespace Model.GenTests
open Model Model.Regex Model.Gen Model.Utf Model.GenSource Model.GenUcdWriter

/-! ## `NormalizationTest.txt` -/

/-- gen/src/source/ucd/test/normalization_test.rs L43-53 (`REGEX`) -/
def normRe : Re :=
  .seq .bol (cat [.cap 1 hexListRe, chr 59, .cap 2 hexListRe, chr 59, .cap 3 hexListRe, chr 59, .cap 4 hexListRe, chr 59, .cap 5 hexListRe, chr 59, chr 32, chr 35])

/-- gen/src/source/ucd/test/normalization_test.rs L30-36 (`NormalizationTest`) -/
structure NormTest where
  source : List Nat
  nfc : List Nat
  nfd : List Nat
  nfkc : List Nat
  nfkd : List Nat

/-- gen/src/source/ucd/test/normalization_test.rs L61-66 and the four like it: `capture[i].split_whitespace().map(…).map(…).collect()` -/
def normColumn (c : Caps) (i : Nat) : Outcome (List Nat) := do
  mapAll (fun s => (hexU32 s).bind fun u => unwrap (charFromU32 u)) (splitWhitespace (← group c i))

/-- gen/src/source/ucd/test/normalization_test.rs L60-91: the body of the loop -/
def normStep (c : Caps) : Outcome NormTest := do
  let source ← normColumn c 1
  let nfc ← normColumn c 2
  let nfd ← normColumn c 3
  let nfkc ← normColumn c 4
  let nfkd ← normColumn c 5
  return ⟨source, nfc, nfd, nfkc, nfkd⟩

/-- gen/src/source/ucd/test/normalization_test.rs L41-97 (`from_str`) -/
def normFromStr (s : List Nat) : Outcome (List NormTest) := mapAll normStep (capturesIter normRe s)

/-- gen/src/writer/normal/normal_tests.rs L24-51: what the body of the loop appends -/
def normRow (t : NormTest) : List Nat :=
  str "    (\"" ++ t.source.flatMap escapeUnicode ++ str "\", \"" ++ t.nfc.flatMap escapeUnicode ++ str "\", \"" ++ t.nfd.flatMap escapeUnicode ++ str "\", \"" ++
    t.nfkc.flatMap escapeUnicode ++ str "\", \"" ++ t.nfkd.flatMap escapeUnicode ++ str "\"),\n"

/-- gen/src/writer/normal/normal_tests.rs L22-55 (`emit_conformance_tests_data`) -/
def normTests (file : List Nat) : Outcome (List Nat) := do
  let tests ← normFromStr file
  return tests.foldl (fun contents t => contents ++ normRow t) (str "&[\n") ++ str "]"

/-! ## `GraphemeBreakTest.txt` and `WordBreakTest.txt`: the two parsers are the same text -/

/-- gen/src/source/ucd/test/{grapheme,word}_break_test.rs L54-64 (`LINE_RE`); 247 is the division sign -/
def lineRe (w sp : Nat → Bool) : Re :=
  .seq .bol (cat [.star (.cls (uspace sp)), chr 247, plus (.cls (uspace sp)), .cap 1 (cat [.cls (uword w), .star dot, .cls (uword w)]), plus (.cls (uspace sp)), chr 247,
    .star (.cls (uspace sp)), chr 35, .star (.cls (uspace sp)), chr 247, plus (.cls (uspace sp)), lit "[0.2]", .cap 2 (.star dot), .star (.cls (uspace sp)), .eol])

/-- `[ \w\s<>\(\) -]` -/
def nameClass (w sp : Nat → Bool) (c : Nat) : Bool := uword w c || uspace sp c || c == 60 || c == 62 || c == 40 || c == 41 || c == 45

/-- gen/src/source/ucd/test/{grapheme,word}_break_test.rs L65-73 (`COMMENT_RE`); 215 is the multiplication sign -/
def commentRe (w sp : Nat → Bool) : Re :=
  cat [plus (.cls (uspace sp)), plus (.cls (nameClass w sp)), plus (.cls (uspace sp)), chr 40, .cap 1 (plus (.cls (uword w))), chr 41, plus (.cls (uspace sp)),
    .cap 2 (.cls fun c => c == 247 || c == 215), plus (.cls (uspace sp)), chr 91, .cap 3 (plus (.cls fun c => c != 93)), chr 93]

/-- gen/src/source/ucd/test/{grapheme,word}_break_test.rs L41-47 (`GraphemeBreakTest`, `WordBreakTest`) -/
structure BreakTest where
  chars : List Nat
  charGcbs : List (List Nat)
  breaks : List Bool
  rules : List (List Nat)

/-- `Itertools::step(2)` -/
def step2 {α : Type} : List α → List α
  | [] => []
  | [a] => [a]
  | a :: _ :: r => a :: step2 r

/-- `Itertools::step(3)` -/
def step3 {α : Type} : List α → List α
  | [] => []
  | [a] => [a]
  | [a, _] => [a]
  | a :: _ :: _ :: r => a :: step3 r

/-- gen/src/source/ucd/test/{grapheme,word}_break_test.rs L101-105: the token between two code points -/
def breakToken (s : List Nat) : Outcome Bool := if s = [247] then .ok true else if s = [215] then .ok false else .panic

/-- gen/src/source/ucd/test/{grapheme,word}_break_test.rs L109-117: `comment_items_flattened` -/
def commentItems (w sp : Nat → Bool) (s : List Nat) : Outcome (List (List Nat)) := do
  let l ← mapAll (fun c => do
    let a ← group c 1
    let b ← group c 2
    let d ← group c 3
    return [a, b, d]) (capturesIter (commentRe w sp) s)
  return l.flatten

/-- `assert_eq!` and slices out of bounds panic -/
def require {α : Type} (p : Prop) [Decidable p] (x : Outcome α) : Outcome α := if p then x else .panic

/-- gen/src/source/ucd/test/{grapheme,word}_break_test.rs L78-142: the closure of `filter_map`; `trim` of a part without white space is left out -/
def breakStep (w sp : Nat → Bool) (c : Caps) : Outcome (Option BreakTest) := do
  let sourceItems := splitWhitespace (← group c 1)
  let codepoints ← mapAll hexU32 (step2 sourceItems)
  let chars := codepoints.filterMap charFromU32
  if codepoints.length ≠ chars.length then return none else
    require (chars.length * 2 = sourceItems.length + 1) do
      let breaks ← mapAll breakToken (step2 (sourceItems.drop 1))
      require (breaks.length = chars.length - 1) do
        let flattened ← commentItems w sp (← group c 2)
        require (2 ≤ flattened.length) do
          let items := flattened.take (flattened.length - 2)
          require (items.length = chars.length * 3 - 2) do
            let charGcbs := step3 items
            require (charGcbs.length = chars.length) do
              let rules := step3 (items.drop 2)
              require (rules.length = chars.length - 1) (.ok (some ⟨chars, charGcbs, breaks, rules⟩))

/-- gen/src/source/ucd/test/{grapheme,word}_break_test.rs L52-146 (`from_str`) -/
def breakTestsFromStr (w sp : Nat → Bool) (s : List Nat) : Outcome (List BreakTest) := do
  let l ← mapAll (breakStep w sp) (capturesIter (lineRe w sp) s)
  return l.filterMap id

/-- gen/src/writer/segment/segment_tests.rs L23-34 (`str_escape`, `chars_escape`) -/
def charsEscape (cs : List Nat) : List Nat := str "\"" ++ cs.flatMap escapeUnicode ++ str "\""

/-- gen/src/writer/segment/segment_tests.rs L36-39 (`legacy_should_break`) -/
def legacyShouldBreak (rule : List Nat) : Bool := rule == str "9.1" || rule == str "9.2"

/-- gen/src/writer/segment/segment_tests.rs L61-67, L75-81, L114-120: the loop over `breaks`; `cut` is the condition. The result is `contents` and `cluster`. -/
def clusterLoop (chars : List Nat) (cut : Nat → Bool → Outcome Bool) : List Bool → Nat → List Nat → List Nat → Outcome (List Nat × List Nat)
  | [], _, contents, cluster => .ok (contents, cluster)
  | brk :: r, i, contents, cluster => do
    let b ← cut i brk
    let c ← unwrap chars[i + 1]?
    if b then clusterLoop chars cut r (i + 1) (contents ++ (charsEscape cluster ++ str ", ")) [c]
    else clusterLoop chars cut r (i + 1) contents (cluster ++ [c])

/-- gen/src/writer/segment/segment_tests.rs L60-68, L74-82, L113-121 without what surrounds the list: the clusters with `, ` between them -/
def clusters (chars : List Nat) (breaks : List Bool) (cut : Nat → Bool → Outcome Bool) : Outcome (List Nat) := do
  let c0 ← unwrap chars[0]?
  let (contents, cluster) ← clusterLoop chars cut breaks 0 [] [c0]
  return contents ++ charsEscape cluster

/-- gen/src/writer/segment/segment_tests.rs L76: `brk || legacy_should_break(&rules[i])` -/
def legacyCut (rules : List (List Nat)) (i : Nat) (brk : Bool) : Outcome Bool := if brk then .ok true else (unwrap rules[i]?).map legacyShouldBreak

/-- gen/src/writer/segment/segment_tests.rs L71-85: the legacy grapheme clusters -/
def legacyText (t : BreakTest) : Outcome (List Nat) :=
  if t.rules.any legacyShouldBreak then (clusters t.chars t.breaks (legacyCut t.rules)).map fun l => str "Some(&[" ++ l ++ str "])" else .ok (str "None")

/-- gen/src/writer/segment/segment_tests.rs L44-88: what the body of the loop appends -/
def graphemeRow (t : BreakTest) : Outcome (List Nat) := do
  let extended ← clusters t.chars t.breaks fun _ b => .ok b
  let legacy ← legacyText t
  return str "    (" ++ charsEscape t.chars ++ str ", " ++ str "&[" ++ extended ++ str "], " ++ legacy ++ str "),\n"

/-- gen/src/writer/segment/segment_tests.rs L41-93 (`emit_grapheme_cluster_break_test_data`) -/
def graphemeTests (w sp : Nat → Bool) (file : List Nat) : Outcome (List Nat) := do
  let tests ← breakTestsFromStr w sp file
  let rows ← mapAll graphemeRow tests
  return str "&[\n" ++ rows.flatten ++ str "]"

/-- gen/src/writer/segment/segment_tests.rs L98-125: what the body of the loop appends -/
def wordRow (t : BreakTest) : Outcome (List Nat) := do
  let words ← clusters t.chars t.breaks fun _ b => .ok b
  return str "    (" ++ charsEscape t.chars ++ str ", " ++ str "&[" ++ words ++ str "]" ++ str "),\n"

/-- gen/src/writer/segment/segment_tests.rs L95-130 (`emit_word_break_test_data`) -/
def wordTests (w sp : Nat → Bool) (file : List Nat) : Outcome (List Nat) := do
  let tests ← breakTestsFromStr w sp file
  let rows ← mapAll wordRow tests
  return str "&[\n" ++ rows.flatten ++ str "]"

/-- gen/src/writer/ucd/segment_tests.rs L35-42, L62-69: the loop over the characters of a test -/
def valueLoop (gcbs : List (List Nat)) : List Nat → Nat → List (Nat × List Nat) → Outcome (List (Nat × List Nat))
  | [], _, m => .ok m
  | ch :: r, i, m => do
    let gcb ← unwrap gcbs[i]?
    match find ch m with
    | some v => if v = gcb then valueLoop gcbs r (i + 1) m else .panic
    | none => valueLoop gcbs r (i + 1) (put ch gcb m)

/-- gen/src/writer/ucd/segment_tests.rs L25-50 (`emit_grapheme_cluster_break_test_data`) and L52-77 (`emit_word_break_test_data`), which differ in the file they read -/
def valueTests (w sp : Nat → Bool) (file : List Nat) : Outcome (List Nat) := do
  let tests ← breakTestsFromStr w sp file
  let m ← foldOutcome (fun m t => valueLoop t.charGcbs t.chars 0 m) [] tests
  return toDirectCharTable (fun v => v) m

end Model.GenTests
