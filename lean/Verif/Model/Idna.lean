import Verif.Model.IdnaMapping
import Verif.Model.Punycode
import Verif.Model.Normal
import Verif.Model.Ucd

/-! # Model of `unic/idna/src/process.rs`

A `String` or `&str` is the list of its characters. The `&mut String` and `&mut Vec<Error>` arguments
are passed in and returned. `chk` tells whether the build has overflow checks (see `Model.Punycode`).
The character data used by the program come as a record, so that the same functions can be evaluated with
kernel-friendly lookups in examples; `shipped` is the record of the accessors the program calls. -/
namespace Model.Idna
open Model Data

/-- What `process.rs` uses of the other crates: L12-17. -/
structure Deps where
  /-- `Mapping::of` -/
  mapping : Nat → Outcome Mapping
  /-- `nfc()`, collected -/
  nfc : List Nat → List Nat
  /-- `BidiClass::of` -/
  bidi : Nat → BidiClass
  /-- `is_combining_mark` -/
  mark : Nat → Bool

/-- The accessors of the other crates. -/
def shipped : Deps := ⟨IdnaMapping.mappingOf, Normal.nfc, Ucd.bidiClass, Ucd.isCombiningMark⟩

/-- L280-296 (`Flags`) -/
structure Flags where
  useStd3AsciiRules : Bool
  transitionalProcessing : Bool
  verifyDnsLength : Bool
deriving DecidableEq, Repr

/-- L301-309 (`Error`) -/
inductive Error where
  | PunycodeError
  | ValidityCriteria
  | DissallowedByStd3AsciiRules
  | DissallowedMappedInStd3
  | DissallowedCharacter
  | TooLongForDns
  | TooShortForDns
deriving DecidableEq, Repr

/-- L20 (`PUNYCODE_PREFIX`), "xn--" -/
def PUNYCODE_PREFIX : List Nat := [0x78, 0x6E, 0x2D, 0x2D]

/-- `str::split('.')` (std): the pieces between the full stops, always at least one. -/
def splitDot : List Nat → List (List Nat)
  | [] => [[]]
  | c :: s =>
    if c = 0x2E then [] :: splitDot s
    else match splitDot s with
      | [] => [[c]]
      | l :: ls => (c :: l) :: ls

/-- `str::len` (std), in bytes -/
def byteLen (s : List Nat) : Nat := (s.flatMap Utf.encodeUtf8).length

/-- L22-51 (`map_char`) -/
def mapChar (u : Deps) (flags : Flags) (c : Nat) (output : List Nat) (errors : List Error) :
    Outcome (List Nat × List Error) := do
  match ← u.mapping c with
  | .Valid => return (output ++ [c], errors)
  | .Ignored => return (output, errors)
  | .Mapped slice => return (output ++ slice, errors)
  | .Deviation slice =>
    if flags.transitionalProcessing then return (output ++ slice, errors) else return (output ++ [c], errors)
  | .Disallowed => return (output ++ [c], errors ++ [.DissallowedCharacter])
  | .DisallowedStd3Valid =>
    return (output ++ [c], if flags.useStd3AsciiRules then errors ++ [.DissallowedByStd3AsciiRules] else errors)
  | .DisallowedStd3Mapped slice =>
    return (output ++ slice, if flags.useStd3AsciiRules then errors ++ [.DissallowedMappedInStd3] else errors)

/-- L219-221, the loop over the characters of the domain -/
def mapChars (u : Deps) (flags : Flags) : (domain output : List Nat) → List Error → Outcome (List Nat × List Error)
  | [], output, errors => .ok (output, errors)
  | c :: cs, output, errors => do
    let (output, errors) ← mapChar u flags c output errors
    mapChars u flags cs output errors

/-- L81-93 and L125-138: skips trailing characters of class NSM; the argument is the reversed label and the
result what the iterator has left, starting with the character found. -/
def skipNsm (u : Deps) : List Nat → List Nat
  | [] => []
  | c :: cs => if u.bidi c = .NonspacingMark then skipNsm u cs else c :: cs

/-- L75 -/
def ltrAllowed : BidiClass → Bool
  | .LeftToRight | .EuropeanNumber | .EuropeanSeparator | .CommonSeparator | .EuropeanTerminator | .OtherNeutral
  | .BoundaryNeutral | .NonspacingMark => true
  | _ => false

/-- L119 -/
def rtlAllowed : BidiClass → Bool
  | .RightToLeft | .ArabicLetter | .ArabicNumber | .EuropeanNumber | .EuropeanSeparator | .CommonSeparator
  | .EuropeanTerminator | .OtherNeutral | .BoundaryNeutral | .NonspacingMark => true
  | _ => false

/-- L108-122, the loop of rule 2; `none` is the early `return false`. -/
def rtlScan (u : Deps) : List Nat → (foundEn foundAn : Bool) → Option (Bool × Bool)
  | [], foundEn, foundAn => some (foundEn, foundAn)
  | c :: cs, foundEn, foundAn =>
    let cls := u.bidi c
    let foundEn := if cls = .EuropeanNumber then true else foundEn
    let foundAn := if cls = .ArabicNumber then true else foundAn
    if rtlAllowed cls then rtlScan u cs foundEn foundAn else none

/-- L54-159 (`passes_bidi`) -/
def passesBidi (u : Deps) (label : List Nat) (isBidiDomain : Bool) : Bool :=
  if !isBidiDomain then true
  else match label with
  | [] => true
  | c :: chars =>
    match u.bidi c with
    | .LeftToRight =>
      if !chars.all (fun c => ltrAllowed (u.bidi c)) then false
      else match skipNsm u label.reverse with
        | c :: _ => decide (u.bidi c = .LeftToRight ∨ u.bidi c = .EuropeanNumber)
        | [] => true
    | .RightToLeft | .ArabicLetter =>
      match rtlScan u chars false false with
      | none => false
      | some (foundEn, foundAn) =>
        match skipNsm u label.reverse with
        | c :: _ =>
          if u.bidi c = .RightToLeft ∨ u.bidi c = .ArabicLetter ∨ u.bidi c = .EuropeanNumber ∨ u.bidi c = .ArabicNumber then
            !(foundAn && foundEn)
          else false
        | [] => false
    | _ => false

/-- L194-199: the test of V6 on one character -/
def v6 (flags : Flags) : Mapping → Bool
  | .Valid => false
  | .Deviation _ => flags.transitionalProcessing
  | .DisallowedStd3Valid => flags.useStd3AsciiRules
  | _ => true

/-- `Iterator::any` (std) with V6 -/
def anyV6 (u : Deps) (flags : Flags) : List Nat → Outcome Bool
  | [] => .ok false
  | c :: cs => do
    if v6 flags (← u.mapping c) then return true else anyV6 u flags cs

/-- `str::starts_with('-')` (std) -/
def startsWithHyphen (s : List Nat) : Bool := s.head? == some 0x2D
/-- `str::ends_with('-')` (std) -/
def endsWithHyphen (s : List Nat) : Bool := s.getLast? == some 0x2D

/-- L163-212 (`validate`) -/
def validate (u : Deps) (label : List Nat) (isBidiDomain : Bool) (flags : Flags) (errors : List Error) :
    Outcome (List Error) :=
  match label with
  | [] => .ok errors
  | first :: _ =>
    if u.nfc label ≠ label then .ok (errors ++ [.ValidityCriteria])
    else if startsWithHyphen label || endsWithHyphen label then .ok (errors ++ [.ValidityCriteria])
    else if u.mark first then .ok (errors ++ [.ValidityCriteria])
    else do
      if ← anyV6 u flags label then return errors ++ [.ValidityCriteria]
      else if !passesBidi u label isBidiDomain then return errors ++ [.ValidityCriteria]
      else return errors

/-- L230 and L239: a character of class R, AL or AN -/
def isRtlChar (u : Deps) (c : Nat) : Bool :=
  decide (u.bidi c = .RightToLeft ∨ u.bidi c = .ArabicLetter ∨ u.bidi c = .ArabicNumber)

/-- `str::starts_with(PUNYCODE_PREFIX)` (std) -/
def hasPrefix (label : List Nat) : Bool := PUNYCODE_PREFIX.isPrefixOf label

/-- L231-248: the loop that looks for right-to-left characters in Punycode labels -/
def bidiLabels (u : Deps) (chk : Bool) : List (List Nat) → (isBidi : Bool) → Outcome Bool
  | [], isBidi => .ok isBidi
  | label :: rest, isBidi =>
    if hasPrefix label then do
      match ← Punycode.decodeToString chk (label.drop 4) with
      | some decoded => bidiLabels u chk rest (if decoded.any (isRtlChar u) then true else isBidi)
      | none => bidiLabels u chk rest true
    else bidiLabels u chk rest isBidi

/-- L251-274: the loop that validates the labels -/
def validateLabels (u : Deps) (chk : Bool) (flags : Flags) (isBidi : Bool) : List (List Nat) → (first : Bool) →
    (validated : List Nat) → List Error → Outcome (List Nat × List Error)
  | [], _, validated, errors => .ok (validated, errors)
  | label :: rest, first, validated, errors => do
    let validated := if !first then validated ++ [0x2E] else validated
    if hasPrefix label then
      match ← Punycode.decodeToString chk (label.drop 4) with
      | some decoded =>
        let errors ← validate u decoded isBidi { flags with transitionalProcessing := false } errors
        validateLabels u chk flags isBidi rest false (validated ++ decoded) errors
      | none => validateLabels u chk flags isBidi rest false validated (errors ++ [.PunycodeError])
    else
      let errors ← validate u label isBidi flags errors
      validateLabels u chk flags isBidi rest false (validated ++ label) errors

/-- L215-276 (`processing`); the initial `errors` is empty in both callers. -/
def processing (u : Deps) (chk : Bool) (domain : List Nat) (flags : Flags) : Outcome (List Nat × List Error) := do
  let (mapped, errors) ← mapChars u flags domain [] []
  let normalized := u.nfc mapped
  let isBidi := domain.any (isRtlChar u)
  let isBidi ← if !isBidi then bidiLabels u chk (splitDot normalized) isBidi else .ok isBidi
  validateLabels u chk flags isBidi (splitDot normalized) true [] errors

/-- L323-340: the loop of `to_ascii` -/
def asciiLabels (chk : Bool) : List (List Nat) → (first : Bool) → (result : List Nat) → List Error →
    Outcome (List Nat × List Error)
  | [], _, result, errors => .ok (result, errors)
  | label :: rest, first, result, errors => do
    let result := if !first then result ++ [0x2E] else result
    if label.all (· < 0x80) then asciiLabels chk rest false (result ++ label) errors
    else
      match ← Punycode.encodeStr chk label with
      | some x => asciiLabels chk rest false (result ++ PUNYCODE_PREFIX ++ x) errors
      | none => asciiLabels chk rest false result (errors ++ [.PunycodeError])

/-- L343-347: the result without a final full stop -/
def withoutRoot (result : List Nat) : List Nat := if result.getLast? = some 0x2E then result.dropLast else result

/-- L342-353: the length checks -/
def dnsErrors (result : List Nat) (errors : List Error) : List Error :=
  let domain := withoutRoot result
  let errors := if domain.isEmpty || (splitDot domain).any (fun l => l.isEmpty) then errors ++ [.TooShortForDns] else errors
  if decide (byteLen domain > 253) || (splitDot domain).any (fun l => decide (byteLen l > 63)) then
    errors ++ [.TooLongForDns] else errors

/-- L319-359 (`to_ascii`) -/
def toAsciiWith (u : Deps) (chk : Bool) (domain : List Nat) (flags : Flags) :
    Outcome (Except (List Error) (List Nat)) := do
  let (unicode, errors) ← processing u chk domain flags
  let (result, errors) ← asciiLabels chk (splitDot unicode) true [] errors
  let errors := if flags.verifyDnsLength then dnsErrors result errors else errors
  if errors.isEmpty then return .ok result else return .error errors

/-- L364-374 (`to_unicode`); the list of errors is empty for `Ok(())`. -/
def toUnicodeWith (u : Deps) (chk : Bool) (domain : List Nat) (flags : Flags) : Outcome (List Nat × List Error) :=
  processing u chk domain { flags with transitionalProcessing := false }

/-- L319-359 (`to_ascii`) with the accessors of the other crates -/
def toAscii (chk : Bool) (domain : List Nat) (flags : Flags) : Outcome (Except (List Error) (List Nat)) :=
  toAsciiWith shipped chk domain flags
/-- L364-374 (`to_unicode`) with the accessors of the other crates -/
def toUnicode (chk : Bool) (domain : List Nat) (flags : Flags) : Outcome (List Nat × List Error) :=
  toUnicodeWith shipped chk domain flags

end Model.Idna
