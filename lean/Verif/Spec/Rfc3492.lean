import Verif.Spec.Punycode

/-! # Specification: RFC 3492, decoding

Written from the text of the RFC (sections 3.3, 5, 6.1 and 6.2), over unbounded integers. -/
namespace Spec.Rfc3492

/-- section 5: the digits a–z (in either case) stand for 0–25, the digits 0–9 for 26–35 -/
def digit (c : Nat) : Option Nat :=
  if 0x61 ≤ c ∧ c ≤ 0x7A then some (c - 0x61)
  else if 0x41 ≤ c ∧ c ≤ 0x5A then some (c - 0x41)
  else if 0x30 ≤ c ∧ c ≤ 0x39 then some (26 + (c - 0x30))
  else none

/-- section 6.2 with section 5: the threshold at position `k` is `k - bias` clamped to tmin = 1 … tmax = 26 -/
def threshold (k bias : Nat) : Nat := max 1 (min 26 (k - bias))

/-- section 6.1, the loop: while `delta > ((base - tmin) * tmax) div 2` divide by `base - tmin` and count `base` -/
def scale (delta : Nat) : Nat × Nat :=
  if delta > (35 * 26) / 2 then ((scale (delta / 35)).1, (scale (delta / 35)).2 + 36) else (delta, 0)
termination_by delta
decreasing_by all_goals omega

/-- section 6.1: bias adaptation; damp = 700, skew = 38 -/
def adapt (delta numPoints : Nat) (firstTime : Bool) : Nat :=
  let delta := if firstTime then delta / 700 else delta / 2
  let delta := delta + delta / numPoints
  (scale delta).2 + (36 * (scale delta).1) / ((scale delta).1 + 38)

/-- section 3.3: the characters are a generalized variable-length integer of value `v`, the first of them at position `k`
with weight `w` -/
inductive Number (bias : Nat) : (k w : Nat) → List Nat → (v : Nat) → Prop
  | last {k w c d} : digit c = some d → d < threshold k bias → Number bias k w [c] (d * w)
  | more {k w c d cs v} : digit c = some d → threshold k bias ≤ d →
      Number bias (k + 36) (w * (36 - threshold k bias)) cs v → Number bias k w (c :: cs) (d * w + v)

/-- section 6.2, the main loop: from the state `n`, `i`, `bias` and the text `out`, the characters insert what makes the text
`s`. `lim` is the largest integer the decoder can hold. -/
inductive Inserts (lim : Nat) : (n i bias : Nat) → (out : List Nat) → List Nat → (s : List Nat) → Prop
  | done {n i bias out} : Inserts lim n i bias out [] out
  | step {n i bias out cs rest v s} : Number bias 36 1 cs v → i + v ≤ lim →
      Inserts lim (n + (i + v) / (out.length + 1)) ((i + v) % (out.length + 1) + 1) (adapt v (out.length + 1) (i == 0))
        (out.take ((i + v) % (out.length + 1)) ++ (n + (i + v) / (out.length + 1)) :: out.drop ((i + v) % (out.length + 1))) rest s →
      Inserts lim n i bias out (cs ++ rest) s

/-- section 6.2: `p` decodes to `s`: initial_n = 128, initial_bias = 72. -/
def Decodes (lim : Nat) (p s : List Nat) : Prop :=
  ∃ basic digits, Spec.Punycode.Parts p basic digits ∧ (∀ c ∈ basic, c < 0x80) ∧ Inserts lim 128 0 72 basic digits s

end Spec.Rfc3492
