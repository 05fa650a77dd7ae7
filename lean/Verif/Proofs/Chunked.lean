import Verif.Proofs.StepFn

/-! Lookup in a chunked table, cheap enough for the kernel to evaluate thousands of times. -/
namespace Proofs.Chunked
open Spec Model Proofs.StepFn

/-- Does the first entry of the chunk start at or before `c`? -/
def startsBy {V : Type} : List (Nat × Nat × V) → Nat → Bool
  | [], _ => false
  | (lo, _, _) :: _, c => decide (lo ≤ c)

/-- Chunk-wise lookup: skip a chunk when the next one already starts at or before `c`. -/
def lookupC {V : Type} : List (List (Nat × Nat × V)) → Nat → Option V
  | [], _ => none
  | [a], c => lookup a c
  | a :: b :: r, c => if startsBy b c then lookupC (b :: r) c else
      match lookup a c with
      | some v => some v
      | none => lookupC (b :: r) c

theorem lookup_append {V : Type} : ∀ (l l' : List (Nat × Nat × V)) (c : Nat),
    lookup (l ++ l') c = match lookup l c with | some v => some v | none => lookup l' c
  | [], l', c => rfl
  | (lo, hi, v) :: r, l', c => by
    simp only [List.cons_append, lookup]
    split
    · rfl
    · exact lookup_append r l' c

theorem lookupC_eq {V : Type} : ∀ (ch : List (List (Nat × Nat × V))) (c : Nat),
    ch.flatten.Pairwise (fun e e' => e.2.1 < e'.1) → lookupC ch c = lookup ch.flatten c
  | [], _, _ => rfl
  | [a], c, _ => by simp [lookupC]
  | a :: b :: r, c, h => by
    simp only [List.flatten_cons] at h
    have ih := lookupC_eq (b :: r) c (List.pairwise_append.1 h).2.1
    simp only [lookupC]
    rw [List.flatten_cons, lookup_append, ← ih]
    split
    · next hs =>
      rw [lookup_none a c]
      intro e he hc
      cases b with
      | nil => simp [startsBy] at hs
      | cons x b' =>
        obtain ⟨lo, hi, v⟩ := x
        simp only [startsBy, decide_eq_true_eq] at hs
        have := (List.pairwise_append.1 h).2.2 e he (lo, hi, v) (by simp)
        simp only [Covers] at hc
        simp only at this
        omega
    · rfl

/-- Direct chunks as entry chunks. -/
def directChunks {V : Type} (ch : List (List (Nat × V))) : List (List (Nat × Nat × V)) :=
  ch.map directEntries

/-- Lookup in one direct chunk. -/
def lookupD {V : Type} : List (Nat × V) → Nat → Option V
  | [], _ => none
  | (k, v) :: r, c => if k = c then some v else lookupD r c

def startsByD {V : Type} : List (Nat × V) → Nat → Bool
  | [], _ => false
  | (lo, _) :: _, c => decide (lo ≤ c)

def lookupCD {V : Type} : List (List (Nat × V)) → Nat → Option V
  | [], _ => none
  | [a], c => lookupD a c
  | a :: b :: r, c => if startsByD b c then lookupCD (b :: r) c else
      match lookupD a c with
      | some v => some v
      | none => lookupCD (b :: r) c

theorem lookupD_eq {V : Type} : ∀ (l : List (Nat × V)) (c : Nat), lookupD l c = lookup (directEntries l) c
  | [], _ => rfl
  | (k, v) :: r, c => by
    have := lookupD_eq r c
    simp only [directEntries] at this
    simp only [lookupD, directEntries, List.map_cons, lookup, this]
    by_cases h : k = c
    · rw [if_pos h, if_pos (by omega)]
    · rw [if_neg h, if_neg (by omega)]

theorem lookupCD_eq {V : Type} : ∀ (ch : List (List (Nat × V))) (c : Nat),
    lookupCD ch c = lookupC (directChunks ch) c
  | [], _ => rfl
  | [a], c => by simp [lookupCD, directChunks, lookupC, lookupD_eq]
  | a :: b :: r, c => by
    have ih := lookupCD_eq (b :: r) c
    simp only [directChunks, List.map_cons] at ih
    simp only [lookupCD, directChunks, List.map_cons, lookupC, ih, lookupD_eq]
    congr 1
    cases b <;> simp [startsByD, directEntries, startsBy]

theorem directEntries_flatten {V : Type} (ch : List (List (Nat × V))) :
    directEntries ch.flatten = (directChunks ch).flatten := by
  simp only [directEntries, List.map_flatten, directChunks]
  rfl

theorem findVal_ofDirect {V : Type} (ch : List (List (Nat × V)))
    (h : ascFrom 0 (entries (CharDataTable.ofDirect ch)) = true) (c : Nat) :
    (CharDataTable.ofDirect ch).findVal c = lookupCD ch c := by
  rw [findVal_eq_lookup _ (wellFormed_of_asc _ h), lookupCD_eq, lookupC_eq]
  · rw [entries_ofDirect, directEntries_flatten]
  · have := (ascFrom_spec _ 0 h).2.2
    rwa [entries_ofDirect, directEntries_flatten] at this

theorem findVal_ofRange {V : Type} (ch : List (List (Nat × Nat × V)))
    (h : ascFrom 0 (entries (CharDataTable.ofRange ch)) = true) (c : Nat) :
    (CharDataTable.ofRange ch).findVal c = lookupC ch c := by
  rw [findVal_eq_lookup _ (wellFormed_of_asc _ h), lookupC_eq, entries_ofRange]
  have := (ascFrom_spec _ 0 h).2.2
  rwa [entries_ofRange] at this

end Proofs.Chunked
