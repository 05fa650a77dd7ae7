import Verif.Proofs.NormalStream
import Verif.Props.Normal
import Verif.Props.NormalText

/-! # Property C84: normalizing as one reads -/
namespace Props.NormalStream
open Model Model.UcdNormal Model.Normal Proofs.NormalStream Proofs.NormalIter Proofs.NormalGood Proofs.DecompGen Proofs.DecompData

/-- The combining class of a character. -/
local notation "cls" => Ucd.combiningClass

/-- `decompose_canonical` or `decompose_compatible` -/
def decomposition : Bool → Nat → List Nat
  | false => decomposeCanonical
  | true => decomposeCompatible

/-- `nfd` or `nfkd`, collected -/
def decomposed : Bool → List Nat → List Nat
  | false => nfd
  | true => nfkd

/-- `nfc` or `nfkc`, collected -/
def composedForm : Bool → List Nat → List Nat
  | false => nfc
  | true => nfkc

/-- The iterator `nfd()` or `nfkd()` over `s` after `n` calls of `next` -/
def decomposedAfter (k : Bool) (n : Nat) (s : List Nat) : Decompositions := after (Decompositions.next cls (decomposition k)) n (.new s)

/-- The iterator `nfc()` or `nfkc()` over `s` after `n` calls of `next` -/
def composedAfter (k : Bool) (n : Nat) (s : List Nat) : Recompositions := after (Recompositions.next cls (decomposition k) compose) n (.new s)

/-- The first `n` results of `nfd()` or `nfkd()` over `s` -/
def decomposedCalls (k : Bool) (n : Nat) (s : List Nat) : List (Option Nat) := calls (Decompositions.next cls (decomposition k)) n (.new s)

/-- The first `n` results of `nfc()` or `nfkc()` over `s` -/
def composedCalls (k : Bool) (n : Nat) (s : List Nat) : List (Option Nat) := calls (Recompositions.next cls (decomposition k) compose) n (.new s)

theorem decomposed_out (k : Bool) (s : List Nat) : decomposed k s = out cls (decomposition k) (.new s) := by
  rw [out_new]
  cases k
  · exact collect_new (ccc := cls) (dec := decomposeCanonical) s
  · exact collect_new (ccc := cls) (dec := decomposeCompatible) s

theorem composed_out (k : Bool) (s : List Nat) : composedForm k s = remaining cls (decomposition k) compose (.new s) := by
  have h : ∀ dec : Nat → List Nat, (Recompositions.new s).collect cls dec compose = remaining cls dec compose (.new s) := by
    intro dec
    have h := remaining_length (ccc := cls) (dec := dec) (comp := compose) (Recompositions.new s)
    rw [Recompositions.collect, rtake_eq _ _ (rinv_new s) (by omega)]
  cases k
  · exact h decomposeCanonical
  · exact h decomposeCompatible

theorem decomposition_ne (k : Bool) (c : Nat) : decomposition k c ≠ [] := by
  cases k
  · exact (Normal.c12_fixed_point c).2.1
  · exact (Normal.c12_fixed_point c).2.2.2

theorem hint_le (s : List Nat) : (charsSizeHint s).1 ≤ s.length := by
  have h : Grapheme.blen s ≤ 4 * s.length := by
    unfold Grapheme.blen
    induction s with
    | nil => simp
    | cons c s ih =>
      have : Utf.lenUtf8 c ≤ 4 := by unfold Utf.lenUtf8; split <;> (try split) <;> (try split) <;> omega
      simp only [List.map_cons, List.sum_cons, List.length_cons]
      omega
  simp only [charsSizeHint]
  omega

theorem flatMap_ne_length {f : Nat → List Nat} (h : ∀ c, f c ≠ []) (s : List Nat) : s.length ≤ (s.flatMap f).length := by
  induction s with
  | nil => simp
  | cons c s ih =>
    have := List.length_pos_iff.2 (h c)
    simp only [List.length_cons, List.flatMap_cons, List.length_append]
    omega

/-- **C84.** After any number of calls, the lower bound given by `size_hint` of `nfd()` and `nfkd()` is at most the number of characters still to
come, and no upper bound is given. -/
theorem c84_size_hint (k : Bool) (s : List Nat) (n : Nat) :
    (decomposedAfter k n s).sizeHint.1 ≤ ((decomposed k s).drop n).length ∧ (decomposedAfter k n s).sizeHint.2 = none := by
  refine ⟨?_, rfl⟩
  obtain ⟨-, h⟩ := after_ok (next_ok (ccc := cls) (dec := decomposition k)) n (.new s) (inv_new s)
  rw [decomposed_out, ← h, out_length]
  have h1 := hint_le (decomposedAfter k n s).rest
  have h2 := flatMap_ne_length (decomposition_ne k) (decomposedAfter k n s).rest
  simp only [Decompositions.sizeHint, Decompositions.size, decomposedAfter] at *
  omega

/-- **C84.** Displaying an iterator at any time writes the characters still to come. -/
theorem c84_display (k : Bool) (s : List Nat) (n : Nat) :
    (decomposedAfter k n s).display cls (decomposition k) = (decomposed k s).drop n ∧
    (composedAfter k n s).display cls (decomposition k) compose = (composedForm k s).drop n := by
  constructor
  · obtain ⟨hi, h⟩ := after_ok (next_ok (ccc := cls) (dec := decomposition k)) n (.new s) (inv_new s)
    rw [decomposed_out, ← h]
    exact take_eq _ _ hi (by rw [out_length]; exact Nat.lt_succ_self _)
  · obtain ⟨hi, h⟩ := after_ok (rnext_ok (ccc := cls) (dec := decomposition k) (comp := compose)) n (.new s) (rinv_new s)
    rw [composed_out, ← h]
    exact rtake_eq _ _ hi (Nat.lt_succ_of_le (remaining_length _))

/-- **C84.** `nfd()` and `nfkd()` read their source in order and not far ahead: a call reads at most one character whose decomposition has a
starter in it. (Not that a call reads only if it has to: `nfkd()` does not have that property.) As long as the source is not used up, the results so far do not depend on what has not been read. -/
theorem c84_decomposed_reads (k : Bool) (s : List Nat) (n : Nat) : ∃ read, s = read ++ (decomposedAfter k n s).rest ∧
    (read.filter fun c => (decomposition k c).any (cls · == 0)).length ≤ n ∧
    ((decomposedAfter k n s).rest ≠ [] → ∀ t, decomposedCalls k n (read ++ t) = decomposedCalls k n s) := by
  obtain ⟨p, h1, h2⟩ := decompositions_lazy (ccc := cls) (dec := decomposition k) n (.new s)
  obtain ⟨q, g1, g2⟩ := after_reads (ccc := cls) (dec := decomposition k) n (.new s)
  obtain rfl : q = p := List.append_cancel_right (g1.symm.trans h1)
  exact ⟨q, h1, g2, fun hne t => (h2 hne t).1⟩

/-- **C84.** `nfc()` and `nfkc()` read their source in order; as long as it is not used up, the results so far do not depend on what has not been read. -/
theorem c84_composed_reads (k : Bool) (s : List Nat) (n : Nat) : ∃ read, s = read ++ (composedAfter k n s).iter.rest ∧
    ((composedAfter k n s).iter.rest ≠ [] → ∀ t, composedCalls k n (read ++ t) = composedCalls k n s) := by
  obtain ⟨p, h1, h2⟩ := recompositions_lazy (ccc := cls) (dec := decomposition k) (comp := compose) n (.new s)
  exact ⟨p, h1, fun hne t => (h2 hne t).1⟩

/-- **C84.** What `nfc()` and `nfkc()` keep back after `n` calls: they have taken the first `m` characters of the decomposed text, and of the
composition of these all is returned except for one starter at most and the marks about it. Before the end of the source they have read as much
of it as `nfd()` and `nfkd()` do for `m` characters. -/
theorem c84_composed_held (k : Bool) (s : List Nat) (n : Nat) : ∃ m kept,
    composedForm k ((decomposed k s).take m) = (composedForm k s).take n ++ kept ∧
    (kept.filter (cls · == 0)).length ≤ 1 ∧
    (m < (decomposed k s).length → (composedAfter k n s).iter.rest = (decomposedAfter k m s).rest) := by
  obtain ⟨m, kept, h1, h2, h3⟩ := held (ccc := cls) (dec := decomposition k) (comp := compose) n s
  have hform : ∀ t, composedForm k t = W cls compose none [] (decomposed k t) := fun t => by rw [composed_out, decomposed_out]; rfl
  have hparts : decomposed k ((decomposed k s).take m) = (decomposed k s).take m := by
    have := Props.NormalText.c79_parts s [] ((decomposed k s).take m) ((decomposed k s).drop m)
    rw [List.nil_append, List.take_append_drop] at this
    cases k
    · exact this.1 rfl
    · exact this.2.1 rfl
  have hd : Proofs.CanonOrder.order cls (s.flatMap (decomposition k)) = decomposed k s := by rw [decomposed_out, out_new]
  rw [hd] at h1 h3
  refine ⟨m, kept, ?_, h2, fun h => ?_⟩
  · rw [hform, hparts, hform, h1]
  · show Decompositions.rest (Recompositions.iter (after _ n _)) = _
    rw [h3 h]
    rfl

theorem decomposition_lookup : decomposition false = Props.Normal.decC false := funext fun c => by
  rw [decomposition, decomposeCanonical, Props.Normal.d_lookup, Props.Normal.decC, FUEL]

theorem compose_lookup : compose = Props.Normal.composeC := funext fun a => funext fun b => by
  rw [Proofs.CompData.compose_eq, Props.Normal.composeC]; cases Hangul.composeSyllable a b <;> rfl

/-- "é", a mark below, "a", "b": the first call of `nfd()` reads the "é" only, the second one reads on to the "a", which no mark passes. The marks
come out in canonical order. The lower bound counts the unread characters only. -/
example : (decomposedAfter false 1 [0xE9, 0x316, 0x61, 0x62]).rest = [0x316, 0x61, 0x62] ∧
    (decomposedAfter false 2 [0xE9, 0x316, 0x61, 0x62]).rest = [0x62] ∧
    decomposedCalls false 3 [0xE9, 0x316, 0x61, 0x62] = [some 0x65, some 0x316, some 0x301] ∧
    (decomposedAfter false 2 [0xE9, 0x316, 0x61, 0x62]).sizeHint = (1, none) := by
  rw [decomposedAfter, decomposedAfter, decomposedCalls, decomposition_lookup, funext combiningClass_eq]; decide +kernel

/-- The first call of `nfc()` returns the composed "é" and keeps the mark below and the "a"; the "b" is not read. -/
example : composedCalls false 1 [0x65, 0x301, 0x316, 0x61, 0x62] = [some 0xE9] ∧
    (composedAfter false 1 [0x65, 0x301, 0x316, 0x61, 0x62]).buffer = [0x316] ∧
    (composedAfter false 1 [0x65, 0x301, 0x316, 0x61, 0x62]).composee = some 0x61 ∧
    (composedAfter false 1 [0x65, 0x301, 0x316, 0x61, 0x62]).iter.rest = [0x62] := by
  rw [composedAfter, composedCalls, decomposition_lookup, compose_lookup, funext combiningClass_eq]; decide +kernel

end Props.NormalStream
