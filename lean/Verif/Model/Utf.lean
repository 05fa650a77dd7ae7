import Verif.Spec.Scalar

/-! # UTF-8 and UTF-16 coding (std)

The code under study calls `char::encode_utf8`, `char::len_utf8`, `String::from_utf8`,
`char::encode_utf16` and `char::decode_utf16`; these are modelled after their documentation
(The Unicode Standard, tables 3-5 to 3-7). Bytes and code units are natural numbers. -/
namespace Model.Utf

/-- `char::len_utf8` (std) -/
def lenUtf8 (c : Nat) : Nat := if c < 0x80 then 1 else if c < 0x800 then 2 else if c < 0x10000 then 3 else 4

/-- `char::encode_utf8` (std) -/
def encodeUtf8 (c : Nat) : List Nat :=
  if c < 0x80 then [c]
  else if c < 0x800 then [0xC0 + c / 64, 0x80 + c % 64]
  else if c < 0x10000 then [0xE0 + c / 4096, 0x80 + c / 64 % 64, 0x80 + c % 64]
  else [0xF0 + c / 262144, 0x80 + c / 4096 % 64, 0x80 + c / 64 % 64, 0x80 + c % 64]

/-- a continuation byte within the given bounds -/
def inB (b lo hi : Nat) : Bool := decide (lo ≤ b) && decide (b ≤ hi)

/-- The first character of a byte sequence, following the table of well-formed sequences
(The Unicode Standard, table 3-7) used by `String::from_utf8` (std). -/
def decodeFirst : List Nat → Option (Nat × List Nat)
  | [] => none
  | b0 :: rest =>
    if b0 < 0x80 then some (b0, rest)
    else if inB b0 0xC2 0xDF then
      match rest with
      | b1 :: rest => if inB b1 0x80 0xBF then some ((b0 - 0xC0) * 64 + (b1 - 0x80), rest) else none
      | _ => none
    else if inB b0 0xE0 0xEF then
      match rest with
      | b1 :: b2 :: rest =>
        if inB b1 (if b0 == 0xE0 then 0xA0 else 0x80) (if b0 == 0xED then 0x9F else 0xBF) && inB b2 0x80 0xBF then
          some ((b0 - 0xE0) * 4096 + (b1 - 0x80) * 64 + (b2 - 0x80), rest)
        else none
      | _ => none
    else if inB b0 0xF0 0xF4 then
      match rest with
      | b1 :: b2 :: b3 :: rest =>
        if inB b1 (if b0 == 0xF0 then 0x90 else 0x80) (if b0 == 0xF4 then 0x8F else 0xBF) && inB b2 0x80 0xBF && inB b3 0x80 0xBF then
          some ((b0 - 0xF0) * 262144 + (b1 - 0x80) * 4096 + (b2 - 0x80) * 64 + (b3 - 0x80), rest)
        else none
      | _ => none
    else none

def decodeUtf8Loop : Nat → List Nat → Option (List Nat)
  | _, [] => some []
  | 0, _ => none
  | fuel + 1, bs =>
    match decodeFirst bs with
    | some (c, rest) => (decodeUtf8Loop fuel rest).map (c :: ·)
    | none => none
/-- `String::from_utf8` (std): the characters, or `none` for ill-formed input. Every step consumes a
byte, so the number of bytes bounds the number of steps. -/
def decodeUtf8 (bs : List Nat) : Option (List Nat) := decodeUtf8Loop bs.length bs

/-- `char::encode_utf16` (std) -/
def encodeUtf16 (c : Nat) : List Nat :=
  if c < 0x10000 then [c] else [0xD800 + (c - 0x10000) / 1024, 0xDC00 + (c - 0x10000) % 1024]

/-- `char::decode_utf16` (std), collected, failing on the first unpaired surrogate. -/
def decodeUtf16 : List Nat → Option (List Nat)
  | [] => some []
  | u :: rest =>
    if u < 0xD800 ∨ 0xDFFF < u then (decodeUtf16 rest).map (u :: ·)
    else if 0xDC00 ≤ u then none
    else match rest with
      | [] => none
      | v :: rest =>
        if v < 0xDC00 ∨ 0xDFFF < v then none
        else (decodeUtf16 rest).map (((u - 0xD800) * 1024 + (v - 0xDC00) + 0x10000) :: ·)

/-- `char::from_u32` (std) -/
def charFromU32 (n : Nat) : Option Nat := if (n < 0xD800 ∨ 0xDFFF < n) ∧ n ≤ 0x10FFFF then some n else none

end Model.Utf
