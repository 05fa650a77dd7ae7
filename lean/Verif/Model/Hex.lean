/-! # Hexadecimal printing and parsing (std `{:0wX}` and `from_str_radix(_, 16)`) -/
namespace Model.Hex

/-- an upper-case hexadecimal digit as a character -/
def digitChar (d : Nat) : Nat := if d < 10 then 48 + d else 55 + d

/-- Digits of `n`, most significant first, at least one. -/
def digits : Nat → Nat → List Nat
  | 0, n => [digitChar (n % 16)]
  | fuel + 1, n => if n < 16 then [digitChar n] else digits fuel (n / 16) ++ [digitChar (n % 16)]

/-- `{:0wX}` (std): upper-case hexadecimal, padded with zeros to width `w`. -/
def fmt (w n : Nat) : List Nat :=
  let ds := digits n n
  List.replicate (w - ds.length) 48 ++ ds

/-- `char::to_digit(16)` (std) -/
def toDigit (c : Nat) : Option Nat :=
  if 48 ≤ c ∧ c ≤ 57 then some (c - 48)
  else if 65 ≤ c ∧ c ≤ 70 then some (c - 55)
  else if 97 ≤ c ∧ c ≤ 102 then some (c - 87)
  else none

/-- the digit loop of `from_str_radix`, with its overflow checks -/
def parseLoop (max : Nat) : Nat → List Nat → Option Nat
  | acc, [] => some acc
  | acc, c :: cs =>
    match toDigit c with
    | none => none
    | some d => if acc * 16 + d ≤ max then parseLoop max (acc * 16 + d) cs else none

/-- `uN::from_str_radix(s, 16)` (std) for the unsigned type with the given maximum:
an optional `+`, then at least one digit. -/
def fromStrRadix16 (max : Nat) (s : List Nat) : Option Nat :=
  match s with
  | [] => none
  | c :: cs => if c = 43 then (if cs = [] then none else parseLoop max 0 cs) else parseLoop max 0 s

end Model.Hex
