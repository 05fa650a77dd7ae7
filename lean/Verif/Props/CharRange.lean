import Verif.Spec.Scalar
import Verif.Model.CharRange
import Verif.Proofs.ListSorted

/-!
# Properties C01–C06: character ranges and their iterators

Specification vocabulary: `Spec.IsScalar`, `Spec.scalarsBetween` (all scalar values of a closed
interval, ascending).  A range or iterator whose two fields are scalar values is `Valid`; that is
what the Rust type `char` guarantees.
-/
namespace Props.CharRange
open Spec Model.CharRange Proofs

/-- Both fields are `char`s. -/
def Valid (it : CharIter) : Prop := IsScalar it.low ∧ IsScalar it.high
def ValidR (r : CharRange) : Prop := IsScalar r.low ∧ IsScalar r.high

/-! ## Lemmas -/

theorem contains_iff (r : CharRange) (c : Nat) : r.contains c = true ↔ r.low ≤ c ∧ c ≤ r.high := by
  simp [CharRange.contains]
theorem forward_def (c : Nat) : forward c = if c = 0xD7FF then 0xE000 else c + 1 := rfl
theorem backward_def (c : Nat) : backward c = if c = 0xE000 then 0xD7FF else c - 1 := rfl
theorem parMap_def (c : Nat) : CharRange.parMap c = if c > 0xD7FF then c + 0x800 else c := rfl
theorem compactRange_def (r : CharRange) : r.compactRange =
    (r.low, if r.high ≥ 0xE000 then r.high + 1 - 0x800 else r.high + 1) := rfl
theorem stepForward_def (it : CharIter) : it.stepForward =
    if it.low = 0x10FFFF then { it with high := 0 } else { it with low := forward it.low } := rfl
theorem stepBackward_def (it : CharIter) : it.stepBackward =
    if it.high = 0 then { it with low := 0x10FFFF } else { it with high := backward it.high } := rfl

theorem mem_scalarsBetween {lo hi x : Nat} :
    x ∈ scalarsBetween lo hi ↔ lo ≤ x ∧ x ≤ hi ∧ IsScalar x := by
  simp only [scalarsBetween, List.mem_filter, List.mem_range'_1, decide_eq_true_eq]
  constructor
  · rintro ⟨⟨h1, h2⟩, h3⟩; exact ⟨h1, by omega, h3⟩
  · rintro ⟨h1, h2, h3⟩; exact ⟨⟨h1, by omega⟩, h3⟩

theorem sorted_scalarsBetween (lo hi : Nat) : (scalarsBetween lo hi).Pairwise (· < ·) :=
  List.Pairwise.filter _ (pairwise_range' _ _)

theorem scalarsBetween_empty {lo hi : Nat} (h : hi < lo) : scalarsBetween lo hi = [] := by
  apply List.eq_nil_iff_forall_not_mem.2
  intro x hx
  have := mem_scalarsBetween.1 hx
  omega

theorem scalarsBetween_front {lo hi : Nat} (hl : IsScalar lo) (h : lo ≤ hi) :
    scalarsBetween lo hi = lo :: scalarsBetween (forward lo) hi := by
  apply sorted_ext (sorted_scalarsBetween _ _)
  · refine List.pairwise_cons.2 ⟨fun x hx => ?_, sorted_scalarsBetween _ _⟩
    have := mem_scalarsBetween.1 hx
    rw [forward_def] at this
    split at this <;> omega
  · intro x
    simp only [List.mem_cons, mem_scalarsBetween, forward_def, IsScalar] at *
    split <;> omega

theorem scalarsBetween_back {lo hi : Nat} (hh : IsScalar hi) (h : lo ≤ hi) (h0 : hi ≠ 0) :
    scalarsBetween lo hi = scalarsBetween lo (backward hi) ++ [hi] := by
  apply sorted_ext (sorted_scalarsBetween _ _)
  · refine List.pairwise_append.2 ⟨sorted_scalarsBetween _ _, by simp, fun x hx y hy => ?_⟩
    have h1 := mem_scalarsBetween.1 hx
    have : y = hi := by simpa using hy
    subst this
    rw [backward_def] at h1
    split at h1 <;> omega
  · intro x
    simp only [List.mem_append, List.mem_singleton, mem_scalarsBetween, backward_def, IsScalar] at *
    split <;> omega

/-- What an iterator still has to produce. -/
def remaining (it : CharIter) : List Nat := scalarsBetween it.low it.high

theorem valid_next {it : CharIter} (hv : Valid it) : Valid it.next.2 := by
  unfold CharIter.next
  split
  · exact hv
  · simp only [stepForward_def]
    split
    · exact ⟨hv.1, by simp [IsScalar]⟩
    · refine ⟨?_, hv.2⟩
      have := hv.1
      simp only [IsScalar, forward_def] at *
      split <;> omega

theorem valid_nextBack {it : CharIter} (hv : Valid it) : Valid it.nextBack.2 := by
  unfold CharIter.nextBack
  split
  · exact hv
  · simp only [stepBackward_def]
    split
    · exact ⟨by simp [IsScalar], hv.2⟩
    · refine ⟨hv.1, ?_⟩
      have := hv.2
      simp only [IsScalar, backward_def] at *
      split <;> omega

theorem remaining_next {it : CharIter} (hv : Valid it) :
    remaining it = it.next.1.toList ++ remaining it.next.2 ∧
      (it.next.1 = none → remaining it = []) := by
  unfold CharIter.next CharIter.isFinished
  split
  · rename_i h
    simp only [decide_eq_true_eq] at h
    simp [remaining, scalarsBetween_empty h]
  · rename_i h
    simp only [decide_eq_true_eq, Nat.not_lt] at h
    refine ⟨?_, by simp⟩
    simp only [stepForward_def, Option.toList_some, List.singleton_append]
    split
    · rename_i hm
      simp only [remaining]
      rw [scalarsBetween_front hv.1 h]
      have h1 := hv.2.1
      rw [scalarsBetween_empty (lo := forward it.low), scalarsBetween_empty (lo := it.low)]
      · omega
      · simp [hm, forward_def]; omega
    · simp only [remaining]; exact scalarsBetween_front hv.1 h

theorem remaining_nextBack {it : CharIter} (hv : Valid it) :
    remaining it = remaining it.nextBack.2 ++ it.nextBack.1.toList ∧
      (it.nextBack.1 = none → remaining it = []) := by
  unfold CharIter.nextBack CharIter.isFinished
  split
  · rename_i h
    simp only [decide_eq_true_eq] at h
    simp [remaining, scalarsBetween_empty h]
  · rename_i h
    simp only [decide_eq_true_eq, Nat.not_lt] at h
    refine ⟨?_, by simp⟩
    simp only [stepBackward_def, Option.toList_some]
    split
    · rename_i hm
      simp only [remaining]
      have h1 : it.low = 0 := by omega
      rw [hm, h1, scalarsBetween_empty (lo := 1114111) (hi := 0) (by omega)]
      decide
    · rename_i h0; simp only [remaining]; exact scalarsBetween_back hv.2 h h0

theorem mem_remaining_next {it : CharIter} (hv : Valid it) {c : Nat} :
    c ∈ remaining it.next.2 ↔ c ∈ remaining it ∧ c ≠ it.low := by
  have h := remaining_next hv
  have hs := sorted_scalarsBetween it.low it.high
  change (remaining it).Pairwise (· < ·) at hs
  unfold CharIter.next at *
  by_cases hf : it.isFinished = true
  · simp only [hf, ↓reduceIte, forall_const] at h ⊢
    simp [h.2]
  · simp only [hf, Bool.false_eq_true, ↓reduceIte, Option.toList_some, List.singleton_append] at h ⊢
    rw [h.1] at hs ⊢
    have := (List.pairwise_cons.1 hs).1 c
    simp only [List.mem_cons]
    constructor
    · intro hc; have := this hc; exact ⟨.inr hc, by omega⟩
    · rintro ⟨h1 | h1, h2⟩
      · exact absurd h1 h2
      · exact h1

theorem mem_remaining_nextBack {it : CharIter} (hv : Valid it) {c : Nat} :
    c ∈ remaining it.nextBack.2 ↔ c ∈ remaining it ∧ c ≠ it.high := by
  have h := remaining_nextBack hv
  have hs := sorted_scalarsBetween it.low it.high
  change (remaining it).Pairwise (· < ·) at hs
  unfold CharIter.nextBack at *
  by_cases hf : it.isFinished = true
  · simp only [hf, ↓reduceIte, forall_const] at h ⊢
    simp [h.2]
  · simp only [hf, Bool.false_eq_true, ↓reduceIte, Option.toList_some] at h ⊢
    rw [h.1] at hs ⊢
    have := (List.pairwise_append.1 hs).2.2 c
    simp only [List.mem_append, List.mem_singleton]
    constructor
    · intro hc; have := this hc it.high (by simp); exact ⟨.inl hc, by omega⟩
    · rintro ⟨h1 | h1, h2⟩
      · exact h1
      · exact absurd h1 h2

/-! ## C01 -/

theorem collectAux_eq : ∀ (fuel : Nat) (it : CharIter), Valid it → (remaining it).length < fuel →
    collectAux fuel it = remaining it
  | 0, _, _, h => absurd h (by omega)
  | fuel + 1, it, hv, h => by
    have hr := remaining_next hv
    have hv' := valid_next hv
    unfold collectAux
    rcases hn : it.next with ⟨o, it'⟩
    rw [hn] at hr hv'
    cases o with
    | none => simpa using (hr.2 rfl).symm
    | some c =>
      simp only [Option.toList_some, List.singleton_append] at hr
      rw [hr.1] at h ⊢
      simp only [List.length_cons] at h
      simp only
      rw [collectAux_eq fuel it' hv' (by omega)]

theorem length_remaining_lt {it : CharIter} : (remaining it).length < 0x110000 := by
  have hnd : (remaining it).Nodup := (sorted_scalarsBetween it.low it.high).imp (by intros; omega)
  have hsub : remaining it ⊆ (List.range 0x110000).erase 0xD800 := by
    intro x hx
    have hx' := (mem_scalarsBetween.1 hx).2.2
    simp only [IsScalar] at hx'
    rw [List.mem_erase_of_ne (by omega)]
    exact List.mem_range.2 hx'.1
  have := List.Nodup.length_le_of_subset hnd hsub
  have h2 : ((List.range 0x110000).erase 0xD800).length = 0x110000 - 1 := by
    rw [List.length_erase_of_mem (List.mem_range.2 (by decide)), List.length_range]
  omega

/-- **C01.** Iterating a range produces exactly the scalar values between its ends, ascending,
each once.  (`scalarsBetween` is the specification; the second and third parts spell out what it
means, independently of it.) -/
theorem c01_iteration_exact (r : CharRange) (hv : ValidR r) :
    collect r.iter = scalarsBetween r.low r.high ∧
    (collect r.iter).Pairwise (· < ·) ∧
    (∀ c, c ∈ collect r.iter ↔ IsScalar c ∧ r.low ≤ c ∧ c ≤ r.high) := by
  have h : collect r.iter = scalarsBetween r.low r.high :=
    collectAux_eq _ (r.iter) hv length_remaining_lt
  refine ⟨h, h ▸ sorted_scalarsBetween _ _, fun c => ?_⟩
  rw [h, mem_scalarsBetween]
  exact ⟨fun ⟨a, b, c⟩ => ⟨c, a, b⟩, fun ⟨a, b, c⟩ => ⟨b, c, a⟩⟩

/-- Non-vacuity: a valid range across the surrogate gap, with its iteration. -/
example : ValidR ⟨0xD7FE, 0xE001⟩ ∧ collect (CharRange.iter ⟨0xD7FE, 0xE001⟩) =
    [0xD7FE, 0xD7FF, 0xE000, 0xE001] := by
  refine ⟨by simp [ValidR, IsScalar], ?_⟩
  rw [(c01_iteration_exact ⟨0xD7FE, 0xE001⟩ (by simp [ValidR, IsScalar])).1]
  apply sorted_ext (sorted_scalarsBetween _ _) (by decide)
  intro x
  simp only [mem_scalarsBetween, IsScalar, List.mem_cons, List.not_mem_nil, or_false]
  omega

/-! ## C02 -/

theorem valid_runHistory : ∀ (ds : List Dir) (it : CharIter), Valid it → Valid (runHistory ds it).2.2
  | [], _, h => h
  | .front :: ds, _, h => valid_runHistory ds _ (valid_next h)
  | .back :: ds, _, h => valid_runHistory ds _ (valid_nextBack h)

/-- **C02.** For every history of `next`/`next_back` calls, the values obtained from the front,
followed by what remains, followed by the reversed values obtained from the back, are the full
ascending sequence of the range: nothing is lost, repeated or reordered. -/
theorem c02_double_ended : ∀ (ds : List Dir) (it : CharIter), Valid it →
    (runHistory ds it).1 ++ scalarsBetween (runHistory ds it).2.2.low (runHistory ds it).2.2.high
      ++ (runHistory ds it).2.1.reverse = scalarsBetween it.low it.high
  | [], it, _ => by simp [runHistory]
  | .front :: ds, it, hv => by
    have ih := c02_double_ended ds it.next.2 (valid_next hv)
    have hr := (remaining_next hv).1
    simp only [remaining] at hr
    simp only [runHistory, List.append_assoc] at ih ⊢
    rw [ih, hr]
  | .back :: ds, it, hv => by
    have ih := c02_double_ended ds it.nextBack.2 (valid_nextBack hv)
    have hr := (remaining_nextBack hv).1
    simp only [remaining] at hr
    simp only [runHistory, List.reverse_append] at ih ⊢
    rw [hr, ← ih]
    have : it.nextBack.1.toList.reverse = it.nextBack.1.toList := by
      cases it.nextBack.1 <;> simp
    simp [this, List.append_assoc]

/-- **C02 (fused).** Once either end has returned `None`, the state no longer changes and both ends
return `None` forever. -/
theorem c02_fused (ds : List Dir) (it : CharIter) (h : it.next.1 = none ∨ it.nextBack.1 = none) :
    runHistory ds it = ([], [], it) := by
  have hf : it.isFinished = true := by
    rcases h with h | h
    · unfold CharIter.next at h; split at h <;> simp_all
    · unfold CharIter.nextBack at h; split at h <;> simp_all
  have hn : it.next = (none, it) := by simp [CharIter.next, hf]
  have hb : it.nextBack = (none, it) := by simp [CharIter.nextBack, hf]
  induction ds with
  | nil => rfl
  | cons d ds ih =>
    cases d <;> simp [runHistory, hn, hb, ih]

/-- **C02 (progress).** `next` (and `next_back`) return a value exactly while something remains. -/
theorem c02_progress (it : CharIter) (hv : Valid it) :
    (it.next.1 = (scalarsBetween it.low it.high).head?) ∧
    (it.nextBack.1 = (scalarsBetween it.low it.high).getLast?) := by
  constructor
  · have h := remaining_next hv
    simp only [remaining] at h
    cases hn : it.next.1 with
    | none => rw [h.2 hn]; rfl
    | some c => rw [h.1, hn]; rfl
  · have h := remaining_nextBack hv
    simp only [remaining] at h
    cases hn : it.nextBack.1 with
    | none => rw [h.2 hn]; rfl
    | some c => rw [h.1, hn]; simp

example : Valid ⟨0xD7FF, 0x10FFFF⟩ ∧
    (runHistory [.front, .back, .front, .back] ⟨0xD7FF, 0xE001⟩) =
      ([0xD7FF, 0xE000], [0xE001], ⟨0xE001, 0xE000⟩) := by
  refine ⟨by simp [Valid, IsScalar], by decide⟩

/-! ## C03 -/

theorem length_scalarsBetween {lo hi : Nat} (hl : IsScalar lo) (hh : IsScalar hi) :
    (scalarsBetween lo hi).length = CharIter.len ⟨lo, hi⟩ := by
  unfold CharIter.len CharIter.isFinished
  by_cases h : lo > hi
  · simp [h, scalarsBetween_empty h]
  · simp only [h, decide_false]
    by_cases hg : lo ≤ 0xD800 ∧ 0xE000 ≤ hi + 1
    · rw [if_neg (by simp)]
      simp only [hg]
      have : scalarsBetween lo hi =
          List.range' lo (0xD800 - lo) ++ List.range' 0xE000 (hi + 1 - 0xE000) := by
        apply sorted_ext (sorted_scalarsBetween _ _)
        · refine List.pairwise_append.2 ⟨pairwise_range' _ _, pairwise_range' _ _, ?_⟩
          intro a ha b hb
          rw [List.mem_range'_1] at ha hb
          omega
        · intro x
          simp only [mem_scalarsBetween, List.mem_append, List.mem_range'_1, IsScalar] at *
          omega
      rw [this]
      simp only [List.length_append, List.length_range']
      simp only [IsScalar] at *
      simp only [and_self, ↓reduceIte]
      omega
    · have : scalarsBetween lo hi = List.range' lo (hi + 1 - lo) := by
        apply sorted_ext (sorted_scalarsBetween _ _) (pairwise_range' _ _)
        intro x
        simp only [mem_scalarsBetween, List.mem_range'_1, IsScalar] at *
        omega
      rw [this, List.length_range']
      rw [if_neg (by simp), if_neg hg]

/-- **C03.** After any history of calls, `len()`/`size_hint()` are exactly the number of characters
not yet produced, and `last`/`max`/`min` are the last, greatest and least of them. -/
theorem c03_exact_size (ds : List Dir) (r : CharRange) (hv : ValidR r) :
    let it := (runHistory ds r.iter).2.2
    let front := (runHistory ds r.iter).1
    let back := (runHistory ds r.iter).2.1
    front.length + it.len + back.length = (scalarsBetween r.low r.high).length ∧
    it.len = (scalarsBetween it.low it.high).length ∧
    it.sizeHint = (it.len, some it.len) ∧
    it.last = (scalarsBetween it.low it.high).getLast? ∧
    it.max = (scalarsBetween it.low it.high).getLast? ∧
    it.min = (scalarsBetween it.low it.high).head? := by
  intro it front back
  have hvi : Valid it := valid_runHistory ds r.iter hv
  have h2 := c02_double_ended ds r.iter hv
  have hlen : it.len = (scalarsBetween it.low it.high).length :=
    (length_scalarsBetween hvi.1 hvi.2).symm
  have hp := c02_progress it hvi
  have hlast : it.last = (scalarsBetween it.low it.high).getLast? := by
    rw [← hp.2]
    unfold CharIter.last CharIter.nextBack
    split <;> rfl
  refine ⟨?_, hlen, rfl, hlast, hlast, hp.1⟩
  have := congrArg List.length h2
  simp only [List.length_append, List.length_reverse] at this
  show front.length + it.len + back.length = _
  rw [hlen]
  exact this

/-- **C03 (range length).** `CharRange::len` is the number of characters in the range. -/
theorem c03_range_len (r : CharRange) (hv : ValidR r) :
    r.len = (collect r.iter).length := by
  rw [(c01_iteration_exact r hv).1, length_scalarsBetween hv.1 hv.2]; rfl

example : CharRange.len CharRange.all = 0x110000 - 0x800 := by decide

/-! ## C04 -/

/-- The interval `bound` is asked to denote. -/
def InLower (c : Nat) : CharRange.Bound → Prop
  | .included s => s ≤ c
  | .excluded s => s < c
  | .unbounded => True
def InUpper (c : Nat) : CharRange.Bound → Prop
  | .included s => c ≤ s
  | .excluded s => c < s
  | .unbounded => True
def BoundValid : CharRange.Bound → Prop
  | .included s => IsScalar s
  | .excluded s => IsScalar s
  | .unbounded => True

theorem validR_closed {a b : Nat} (ha : IsScalar a) (hb : IsScalar b) :
    ValidR (CharRange.closed a b) := ⟨ha, hb⟩

/-- **C04.** Each constructor denotes the mathematical interval: a scalar value is contained in the
range exactly when it lies in the interval, and every constructed range is again a range of
scalar values. -/
theorem c04_constructors (a b c : Nat) (ha : IsScalar a) (hb : IsScalar b) (hc : IsScalar c) :
    ((CharRange.closed a b).contains c = true ↔ a ≤ c ∧ c ≤ b) ∧
    ((CharRange.openRight a b).contains c = true ↔ a ≤ c ∧ c < b) ∧
    ((CharRange.openLeft a b).contains c = true ↔ a < c ∧ c ≤ b) ∧
    ((CharRange.opened a b).contains c = true ↔ a < c ∧ c < b) ∧
    (CharRange.all.contains c = true) ∧
    (CharRange.assignedNormalPlanes.contains c = true ↔ c ≤ 0x2FFFF) ∧
    ValidR (CharRange.openRight a b) ∧ ValidR (CharRange.openLeft a b) ∧
    ValidR (CharRange.opened a b) := by
  have hcl : Valid (CharRange.closed a b).iter := ⟨ha, hb⟩
  have key : ∀ it : CharIter, (it.toRange.contains c = true ↔ c ∈ remaining it) := by
    intro it
    simp only [contains_iff, remaining, mem_scalarsBetween]
    exact ⟨fun ⟨x, y⟩ => ⟨x, y, hc⟩, fun ⟨x, y, _⟩ => ⟨x, y⟩⟩
  have hfr := mem_remaining_next (it := (CharRange.closed a b).iter) hcl (c := c)
  have hbk := mem_remaining_nextBack (it := (CharRange.closed a b).iter) hcl (c := c)
  have hop := mem_remaining_nextBack (valid_next hcl) (c := c)
  have hlo : (CharRange.closed a b).iter.low = a := rfl
  have hhi : (CharRange.closed a b).iter.high = b := rfl
  have hrem : c ∈ remaining (CharRange.closed a b).iter ↔ a ≤ c ∧ c ≤ b := by
    simp only [remaining, mem_scalarsBetween, hlo, hhi]
    exact ⟨fun ⟨x, y, _⟩ => ⟨x, y⟩, fun ⟨x, y⟩ => ⟨x, y, hc⟩⟩
  refine ⟨?_, ?_, ?_, ?_, ?_, ?_, ?_, ?_, ?_⟩
  · simp [contains_iff, CharRange.closed]
  · rw [CharRange.openRight, key, hbk, hrem, hhi]; omega
  · rw [CharRange.openLeft, key, hfr, hrem, hlo]; omega
  · rw [CharRange.opened, key, hop, hfr, hrem, hlo]
    by_cases hfin : (CharRange.closed a b).iter.isFinished = true
    · have : a > b := by simpa [CharIter.isFinished, hlo, hhi] using hfin
      omega
    · have hn : (CharRange.closed a b).iter.next.2.high = if a = 0x10FFFF then 0 else b := by
        simp only [CharIter.next, hfin, stepForward_def, hlo]
        simp only [Bool.false_eq_true, ↓reduceIte]
        split <;> simp [hhi]
      rw [hn]
      have := hc.1
      have := hb.1
      split <;> omega
  · have := hc.1
    simp only [CharRange.all, CharRange.closed, contains_iff, charMax]
    omega
  · simp [CharRange.assignedNormalPlanes, CharRange.closed, contains_iff]
  · exact valid_nextBack hcl
  · exact valid_next hcl
  · exact valid_nextBack (valid_next hcl)

/-- **C04 (`bound`).** `bound` never reaches its `unreachable!()` arm and denotes the interval of
its two bounds. -/
theorem c04_bound (s t : CharRange.Bound) (hs : BoundValid s) (ht : BoundValid t) :
    ∃ r, CharRange.bound s t = some r ∧
      ∀ c, IsScalar c → (r.contains c = true ↔ InLower c s ∧ InUpper c t) := by
  have h0 : IsScalar 0 := by simp [IsScalar]
  have hm : IsScalar charMax := by simp [IsScalar, charMax]
  have hmax : ∀ c, IsScalar c → c ≤ charMax := by intro c hc; simp only [IsScalar, charMax] at *; omega
  cases s with
  | included a => cases t with
    | included b => exact ⟨_, rfl, fun c hc => (c04_constructors a b c hs ht hc).1⟩
    | excluded b => exact ⟨_, rfl, fun c hc => (c04_constructors a b c hs ht hc).2.1⟩
    | unbounded => exact ⟨_, rfl, fun c hc => by
        rw [(c04_constructors a charMax c hs hm hc).1]; simp [InLower, InUpper, hmax c hc]⟩
  | excluded a => cases t with
    | included b => exact ⟨_, rfl, fun c hc => (c04_constructors a b c hs ht hc).2.2.1⟩
    | excluded b => exact ⟨_, rfl, fun c hc => (c04_constructors a b c hs ht hc).2.2.2.1⟩
    | unbounded => exact ⟨_, rfl, fun c hc => by
        rw [(c04_constructors a charMax c hs hm hc).2.2.1]; simp [InLower, InUpper, hmax c hc]⟩
  | unbounded => cases t with
    | included b => exact ⟨_, rfl, fun c hc => by
        rw [(c04_constructors 0 b c h0 ht hc).1]; simp [InLower, InUpper]⟩
    | excluded b => exact ⟨_, rfl, fun c hc => by
        rw [(c04_constructors 0 b c h0 ht hc).2.1]; simp [InLower, InUpper]⟩
    | unbounded => exact ⟨_, rfl, fun c hc => by
        rw [(c04_constructors 0 charMax c h0 hm hc).1]; simp [InLower, InUpper, hmax c hc]⟩

/-- **C04 (membership).** `contains` agrees with membership in the iteration. -/
theorem c04_contains_iff_iterated (r : CharRange) (hv : ValidR r) (c : Nat) (hc : IsScalar c) :
    r.contains c = true ↔ c ∈ collect r.iter := by
  rw [(c01_iteration_exact r hv).2.2 c]
  simp [CharRange.contains, hc]

example : IsScalar 0x61 ∧ IsScalar 0xE000 ∧ CharRange.opened 0xD7FE 0xE001 = ⟨0xD7FF, 0xE000⟩ := by
  refine ⟨by simp [IsScalar], by simp [IsScalar], by decide⟩

/-! ## C05 -/

/-- **C05 (equality).** Two ranges are `==` exactly when they contain the same characters. -/
theorem c05_eq_iff_same_contents (r s : CharRange) (hr : ValidR r) (hs : ValidR s) :
    CharRange.eq r s = true ↔ ∀ c, IsScalar c → (r.contains c = s.contains c) := by
  obtain ⟨a, b⟩ := r
  obtain ⟨a', b'⟩ := s
  obtain ⟨h1, h2⟩ := hr
  obtain ⟨h3, h4⟩ := hs
  simp only at h1 h2 h3 h4
  simp only [CharRange.eq, CharRange.isEmpty, Bool.or_eq_true, Bool.and_eq_true, decide_eq_true_eq]
  constructor
  · intro h c hc
    rw [Bool.eq_iff_iff]
    simp only [CharRange.contains, Bool.and_eq_true, decide_eq_true_eq]
    omega
  · intro h
    have e1 := h a h1
    have e2 := h b h2
    have e3 := h a' h3
    have e4 := h b' h4
    rw [Bool.eq_iff_iff] at e1 e2 e3 e4
    simp only [CharRange.contains, Bool.and_eq_true, decide_eq_true_eq] at e1 e2 e3 e4
    omega

/-- **C05 (comparison).** On a non-empty range `cmp_char` never panics and is positional. -/
theorem c05_cmp_char (r : CharRange) (c : Nat) (hne : r.contains r.low = true) :
    ∃ o, r.cmpChar c = some o ∧
      (o = .eq ↔ r.contains c = true) ∧
      (o = .gt ↔ ∀ x, r.contains x = true → c < x) ∧
      (o = .lt ↔ ∀ x, r.contains x = true → x < c) := by
  simp only [CharRange.contains, Bool.and_eq_true, decide_eq_true_eq, Nat.le_refl, true_and] at hne ⊢
  simp only [CharRange.cmpChar, CharRange.isEmpty, gt_iff_lt, decide_eq_true_eq]
  rw [if_neg (by omega)]
  have hl : r.low ≤ r.low ∧ r.low ≤ r.high := ⟨Nat.le_refl _, hne⟩
  have hh : r.low ≤ r.high ∧ r.high ≤ r.high := ⟨hne, Nat.le_refl _⟩
  by_cases h1 : r.high < c
  · refine ⟨_, by rw [if_pos h1], ?_, ?_, ?_⟩
    · simp; omega
    · simp only [reduceCtorEq, false_iff]
      intro h; have := h _ hl; omega
    · simp only [true_iff]; intro x hx; omega
  · by_cases h2 : c < r.low
    · refine ⟨_, by rw [if_neg h1, if_pos h2], ?_, ?_, ?_⟩
      · simp; omega
      · simp only [true_iff]; intro x hx; omega
      · simp only [reduceCtorEq, false_iff]
        intro h; have := h _ hl; omega
    · refine ⟨_, by rw [if_neg h1, if_neg h2], ?_, ?_, ?_⟩
      · simp; omega
      · simp only [reduceCtorEq, false_iff]
        intro h; have := h _ hl; omega
      · simp only [reduceCtorEq, false_iff]
        intro h; have := h _ hh; omega

/-- The empty range is the only one on which `cmp_char` panics. -/
theorem c05_cmp_char_panics_iff (r : CharRange) (c : Nat) :
    r.cmpChar c = none ↔ r.isEmpty = true := by
  unfold CharRange.cmpChar
  split
  · simp_all
  · simp_all; split
    · simp
    · split <;> simp

example : CharRange.eq ⟨0x7A, 0x61⟩ ⟨5, 3⟩ = true ∧ CharRange.eq ⟨1, 3⟩ ⟨1, 4⟩ = false := by decide
example : (⟨0x61, 0x67⟩ : CharRange).contains 0x61 = true := by decide

/-! ## C06 -/

/-- **C06 (partial).** The parallel iterator produces the sequential sequence for every range that
starts at or below U+D7FF. Missing: ranges with `low ≥ U+E000`, where the claim is false unless the range is empty
(`c06_par_iter_false`, `Props.ParIter.c06_exact`). -/
theorem c06_par_iter_partial (r : CharRange) (hv : ValidR r) (h : r.low ≤ 0xD7FF) :
    r.parIter = collect r.iter := by
  rw [(c01_iteration_exact r hv).1]
  have hl := hv.1
  have hh := hv.2
  unfold CharRange.parIter
  simp only [compactRange_def]
  apply sorted_ext _ (sorted_scalarsBetween _ _)
  · intro x
    simp only [List.mem_map, List.mem_range'_1, mem_scalarsBetween, parMap_def, IsScalar] at *
    constructor
    · rintro ⟨c, hc, rfl⟩
      split at hc <;> split <;> omega
    · intro hx
      by_cases hx' : x ≤ 0xD7FF
      · exact ⟨x, by split <;> omega, by split <;> omega⟩
      · exact ⟨x - 0x800, by split <;> omega, by split <;> omega⟩
  · rw [List.pairwise_map]
    refine (pairwise_range' _ _).imp ?_
    intro a b hab
    simp only [parMap_def]
    split <;> split <;> omega

/-- **C06 (negation of the full claim).** `chars!('\u{E000}'..='\u{E100}')` iterates over 257
characters sequentially but its parallel iterator yields nothing. -/
theorem c06_par_iter_false :
    ¬ ∀ r : CharRange, ValidR r → r.parIter = collect r.iter := by
  intro h
  have h1 := h ⟨0xE000, 0xE100⟩ (by simp [ValidR, IsScalar])
  have h2 : CharRange.parIter ⟨0xE000, 0xE100⟩ = [] := by decide
  have h3 := (c01_iteration_exact ⟨0xE000, 0xE100⟩ (by simp [ValidR, IsScalar])).2.2 0xE000
  rw [← h1, h2] at h3
  simp [IsScalar] at h3

/-- Exactly how the parallel iterator deviates: above the gap it starts 2048 code points late. -/
theorem c06_par_iter_above_gap (r : CharRange) (hv : ValidR r) (h : 0xE000 ≤ r.low) (hne : r.low ≤ r.high) :
    r.parIter = scalarsBetween (r.low + 0x800) r.high := by
  have hl := hv.1
  have hh := hv.2
  unfold CharRange.parIter
  simp only [compactRange_def]
  apply sorted_ext _ (sorted_scalarsBetween _ _)
  · intro x
    simp only [List.mem_map, List.mem_range'_1, mem_scalarsBetween, parMap_def, IsScalar] at *
    constructor
    · rintro ⟨c, hc, rfl⟩
      split at hc <;> split <;> omega
    · intro hx
      exact ⟨x - 0x800, by split <;> omega, by split <;> omega⟩
  · rw [List.pairwise_map]
    refine (pairwise_range' _ _).imp ?_
    intro a b hab
    simp only [parMap_def]
    split <;> split <;> omega

example : ValidR ⟨0x61, 0x10FFFF⟩ ∧ (⟨0x61, 0x10FFFF⟩ : CharRange).low ≤ 0xD7FF := by
  simp [ValidR, IsScalar]

end Props.CharRange
