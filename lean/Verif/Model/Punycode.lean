import Verif.Model.Tables
import Verif.Model.Utf

/-! # unic/idna/punycode/src/lib.rs

A `u32` is a natural number. Every arithmetic operation that is not already guarded by the program
goes through `add32`/`mul32`, which panic on overflow when the build has overflow checks
(`chk = true`, a debug build) and wrap when it has not (`chk = false`, a release build).
`usize as u32` truncates. Division by zero and an out-of-range insertion panic in both builds. -/
namespace Model.Punycode
open Model (Outcome)

/-- sequencing of computations that may panic -/
def _root_.Model.Outcome.bind {α β : Type} (x : Outcome α) (f : α → Outcome β) : Outcome β :=
  match x with
  | .ok a => f a
  | .panic => .panic

instance : Monad Outcome where
  pure := Outcome.ok
  bind := Outcome.bind

/-- `u32::MAX` -/
def u32Max : Nat := 0xFFFFFFFF

/-- `a + b` on `u32` -/
def add32 (chk : Bool) (a b : Nat) : Outcome Nat :=
  if a + b ≤ u32Max then .ok (a + b) else if chk then .panic else .ok ((a + b) % 2 ^ 32)

/-- `a * b` on `u32` -/
def mul32 (chk : Bool) (a b : Nat) : Outcome Nat :=
  if a * b ≤ u32Max then .ok (a * b) else if chk then .panic else .ok ((a * b) % 2 ^ 32)

/-- `a - b` on `u32` -/
def sub32 (chk : Bool) (a b : Nat) : Outcome Nat :=
  if b ≤ a then .ok (a - b) else if chk then .panic else .ok (a + 2 ^ 32 - b)

/-- `a / b` -/
def div32 (a b : Nat) : Outcome Nat := if b = 0 then .panic else .ok (a / b)

/-- `a % b` -/
def rem32 (a b : Nat) : Outcome Nat := if b = 0 then .panic else .ok (a % b)

/-- `n as u32` for `n : usize` -/
def asU32 (n : Nat) : Nat := n % 2 ^ 32

/-- L38 -/
def BASE : Nat := 36
/-- L39 -/
def T_MIN : Nat := 1
/-- L40 -/
def T_MAX : Nat := 26
/-- L41 -/
def SKEW : Nat := 38
/-- L42 -/
def DAMP : Nat := 700
/-- L43 -/
def INITIAL_BIAS : Nat := 72
/-- L44 -/
def INITIAL_N : Nat := 0x80
/-- L45, `'-'` -/
def DELIMITER : Nat := 0x2D

/-- L52-55, the loop of `adapt`. Fuel: `delta` strictly decreases. -/
def adaptLoop (chk : Bool) : (fuel delta k : Nat) → Outcome (Nat × Nat)
  | 0, _, _ => .panic
  | fuel + 1, delta, k =>
    if delta > ((BASE - T_MIN) * T_MAX) / 2 then do
      let k ← add32 chk k BASE
      adaptLoop chk fuel (delta / (BASE - T_MIN)) k
    else .ok (delta, k)

/-- L48-57 (`adapt`) -/
def adapt (chk : Bool) (delta numPoints : Nat) (firstTime : Bool) : Outcome Nat := do
  let delta := delta / (if firstTime then DAMP else 2)
  let q ← div32 delta numPoints
  let delta ← add32 chk delta q
  let (delta, k) ← adaptLoop chk (delta + 1) delta 0
  let num ← mul32 chk (BASE - T_MIN + 1) delta
  let den ← add32 chk delta SKEW
  let frac ← div32 num den
  add32 chk k frac

/-- L112-118 and L205-211: the threshold `t` -/
def threshold (chk : Bool) (k bias : Nat) : Outcome Nat :=
  if k ≤ bias then .ok T_MIN
  else do
    let lim ← add32 chk bias T_MAX
    if k ≥ lim then .ok T_MAX else .ok (k - bias)

/-- L102-107: the value of a digit byte -/
def digitValue (byte : Nat) : Option Nat :=
  if 0x30 ≤ byte ∧ byte ≤ 0x39 then some (byte - 0x30 + 26)
  else if 0x41 ≤ byte ∧ byte ≤ 0x5A then some (byte - 0x41)
  else if 0x61 ≤ byte ∧ byte ≤ 0x7A then some (byte - 0x61)
  else none

/-- L101-131: the inner loop of `decode`, which reads one generalized variable-length integer; returns the
new `i` and the unread bytes. The list begins with the current `byte`; the empty list is the exit of L127. -/
def decodeInt (chk : Bool) (bias : Nat) : (bytes : List Nat) → (i weight k : Nat) → Outcome (Option (Nat × List Nat))
  | [], _, _, _ => .ok none
  | byte :: rest, i, weight, k =>
    match digitValue byte with
    | none => .ok none
    | some digit => do
      let room ← sub32 chk u32Max i
      let room ← div32 room weight
      if digit > room then return none
      let dw ← mul32 chk digit weight
      let i ← add32 chk i dw
      let t ← threshold chk k bias
      if digit < t then return some (i, rest)
      let m ← sub32 chk BASE t
      let lim ← div32 u32Max m
      if weight > lim then return none
      let weight ← mul32 chk weight m
      let k ← add32 chk k BASE
      decodeInt chk bias rest i weight k

/-- `Vec::insert` (std): panics if the index is greater than the length -/
def insertAt (l : List Nat) (i c : Nat) : Outcome (List Nat) :=
  if i ≤ l.length then .ok (l.take i ++ c :: l.drop i) else .panic

/-- L91-147: the outer loop of `decode`. Fuel: every round reads at least one byte. -/
def decodeLoop (chk : Bool) : (fuel : Nat) → (bytes : List Nat) → (output : List Nat) → (codePoint bias i : Nat) →
    Outcome (Option (List Nat))
  | 0, _, _, _, _, _ => .panic
  | fuel + 1, bytes, output, codePoint, bias, previousI =>
    if bytes.isEmpty then .ok (some output)
    else do
      match ← decodeInt chk bias bytes previousI 1 BASE with
      | none => return none
      | some (i, rest) =>
        let length := asU32 output.length
        let d ← sub32 chk i previousI
        let np ← add32 chk length 1
        let bias ← adapt chk d np (previousI == 0)
        let q ← div32 i np
        let room ← sub32 chk u32Max codePoint
        if q > room then return none
        let codePoint ← add32 chk codePoint q
        let i ← rem32 i np
        match Utf.charFromU32 codePoint with
        | none => return none
        | some c =>
          let output ← insertAt output i c
          let i ← add32 chk i 1
          decodeLoop chk fuel rest output codePoint bias i

/-- `str::rfind(DELIMITER)` (std): the text before and after the last delimiter -/
def rsplit : List Nat → Option (List Nat × List Nat)
  | [] => none
  | c :: s =>
    match rsplit s with
    | some (a, b) => some (c :: a, b)
    | none => if c = DELIMITER then some ([], s) else none

/-- L73-149 (`decode`); `input.bytes()` is the UTF-8 encoding. -/
def decode (chk : Bool) (input : List Nat) : Outcome (Option (List Nat)) :=
  let (output, input) :=
    match rsplit input with
    | none => ([], input)
    | some (before, after) => (before, if before.isEmpty then input else after)
  let bytes := input.flatMap Utf.encodeUtf8
  decodeLoop chk (bytes.length + 1) bytes output INITIAL_N INITIAL_BIAS 0

/-- L236-242 (`value_to_digit`) -/
def valueToDigit (value : Nat) : Outcome Nat :=
  if value ≤ 25 then .ok (value + 0x61)
  else if value ≤ 35 then .ok (value - 26 + 0x30)
  else .panic

/-- L202-223: writes `q` as a generalized variable-length integer. Fuel: `q` strictly decreases. -/
def encodeInt (chk : Bool) (bias : Nat) : (fuel q k : Nat) → Outcome (List Nat)
  | 0, _, _ => .panic
  | fuel + 1, q, k => do
    let t ← threshold chk k bias
    if q < t then
      let c ← valueToDigit q
      return [c]
    let m ← sub32 chk BASE t
    let r ← rem32 (q - t) m
    let value ← add32 chk t r
    let c ← valueToDigit value
    let q ← div32 (q - t) m
    let k ← add32 chk k BASE
    let cs ← encodeInt chk bias fuel q k
    return c :: cs

/-- the variables of `encode` that the `for` loop updates, and what it pushed to `output` -/
structure EncState where
  delta : Nat
  bias : Nat
  processed : Nat
  out : List Nat
deriving Repr, DecidableEq

/-- L195-228: the `for` loop over the input -/
def encodeScan (chk : Bool) (basicLength codePoint : Nat) : List Nat → EncState → Outcome (Option EncState)
  | [], st => .ok (some st)
  | c :: cs, st => do
    let delta ← if c < codePoint then add32 chk st.delta 1 else .ok st.delta
    if c < codePoint ∧ delta = 0 then return none
    if c = codePoint then
      let digits ← encodeInt chk st.bias (delta + 1) delta BASE
      let np ← add32 chk st.processed 1
      let bias ← adapt chk delta np (st.processed == basicLength)
      let processed ← add32 chk st.processed 1
      encodeScan chk basicLength codePoint cs ⟨0, bias, processed, st.out ++ digits⟩
    else encodeScan chk basicLength codePoint cs { st with delta := delta }

/-- `Iterator::min` (std) of the values that are at least `codePoint` -/
def minFrom (codePoint : Nat) (input : List Nat) : Option Nat := (input.filter (fun c => codePoint ≤ c)).min?

/-- L179-231: the outer loop of `encode`. Fuel: every round but the last processes a character. -/
def encodeLoop (chk : Bool) (input : List Nat) (basicLength inputLength : Nat) :
    (fuel codePoint : Nat) → EncState → Outcome (Option (List Nat))
  | 0, _, _ => .panic
  | fuel + 1, codePoint, st =>
    if st.processed < inputLength then
      match minFrom codePoint input with
      | none => .panic
      | some m => do
        let dist ← sub32 chk m codePoint
        let room ← sub32 chk u32Max st.delta
        let np ← add32 chk st.processed 1
        let lim ← div32 room np
        if dist > lim then return none
        let step ← mul32 chk dist np
        let delta ← add32 chk st.delta step
        match ← encodeScan chk basicLength m input { st with delta := delta } with
        | none => return none
        | some st =>
          let delta ← add32 chk st.delta 1
          let codePoint ← add32 chk m 1
          encodeLoop chk input basicLength inputLength fuel codePoint { st with delta := delta }
    else .ok (some st.out)

/-- L164-233 (`encode`) -/
def encode (chk : Bool) (input : List Nat) : Outcome (Option (List Nat)) :=
  let basic := input.filter (fun c => c < 0x80)
  let basicLength := asU32 basic.length
  let output := if basicLength > 0 then basic ++ [DELIMITER] else basic
  encodeLoop chk input basicLength (asU32 input.length) (input.length + 1) INITIAL_N
    ⟨0, INITIAL_BIAS, basicLength, output⟩

/-- L63-65 (`decode_to_string`); a `String` is the list of its characters. -/
def decodeToString (chk : Bool) (input : List Nat) : Outcome (Option (List Nat)) := decode chk input

/-- L155-157 (`encode_str`) -/
def encodeStr (chk : Bool) (input : List Nat) : Outcome (Option (List Nat)) := encode chk input

end Model.Punycode
