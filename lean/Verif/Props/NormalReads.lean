import Verif.Proofs.NormalReads
import Verif.Props.NormalStream

/-! # Property C84: how far `nfd()` reads -/
namespace Props.NormalReads
open Model Model.UcdNormal Model.Normal Proofs.NormalReads Proofs.NormalStream Proofs.NormalIter Proofs.NormalGood Proofs.DecompGen Proofs.DecompData
open Props.NormalStream

/-- The combining class of a character. -/
local notation "cls" => Ucd.combiningClass

/-- what is checked of each canonical mapping: one character, or two of which the second is a mark or both expand to starters only -/
def tidy (m : List Nat) : Bool :=
  match m with
  | [_] => true
  | [a, b] => !Nat.beq (cccC b) 0 || (lv false b == 0 && Nat.beq (cccC a) 0 &&
      (match canonC a with | none => true | some m' => m'.all fun x => Nat.beq (cccC x) 0 && lv false x == 0))
  | _ => false

theorem tidy_table : Proofs.DecompData.allEntries (fun _ m => tidy m) Data.canonicalDecomposition = true := by decide +kernel

/-- starters, then marks -/
def Tidy (l : List Nat) : Prop := ∃ starters marks, l = starters ++ marks ∧ (∀ d ∈ starters, cls d = 0) ∧ (∀ d ∈ marks, cls d ≠ 0)

local notation "dc" => full canonicalDecomposition compatibilityDecomposition false

theorem full_level {x : Nat} (hs : Hangul.isSyllable x = false) (h : lv false x = 0) : dc x = [x] :=
  full_none' (levelled false) hs ((levelled false).zero x h)

theorem tableMap_canon {c : Nat} {m : List Nat} (hm : canonC c = some m) :
    tableMap canonicalDecomposition compatibilityDecomposition false c = some m := by
  rw [tableMap, canonicalDecomposition_eq, hm]

theorem canon_tableMap {c : Nat} {m : List Nat} (hm : tableMap canonicalDecomposition compatibilityDecomposition false c = some m) :
    canonC c = some m := by
  rw [tableMap, canonicalDecomposition_eq] at hm
  cases h : canonC c with
  | none => rw [h] at hm; simp at hm
  | some m' => rw [h] at hm; exact hm

theorem full_starters {a : Nat} (hs : Hangul.isSyllable a = false) (h0 : cccC a = 0)
    (h : (match canonC a with | none => true | some m' => m'.all fun x => Nat.beq (cccC x) 0 && lv false x == 0) = true) :
    ∀ d ∈ dc a, cls d = 0 := by
  cases hc : canonC a with
  | none =>
    have : tableMap canonicalDecomposition compatibilityDecomposition false a = none := by
      rw [tableMap, canonicalDecomposition_eq, hc]; simp
    rw [full_none' (levelled false) hs this]
    intro d hd
    rw [List.mem_singleton.1 hd, combiningClass_eq, h0]
  | some m =>
    rw [hc] at h
    simp only [List.all_eq_true, Bool.and_eq_true, Nat.beq_eq, beq_iff_eq] at h
    have hm := tableMap_canon hc
    rw [full_table (levelled false) hm]
    intro d hd
    obtain ⟨y, hy, hd⟩ := List.mem_flatMap.1 hd
    rw [full_level ((levelled false).down a m hm |>.2.2.2 y hy).1 (h y hy).2, List.mem_singleton] at hd
    rw [hd, combiningClass_eq, (h y hy).1]

theorem full_tidy : ∀ c, Tidy (dc c) := by
  refine level_induction (levelled false) _ (fun c hs => ?_) (fun c hs hm => ?_) (fun c m hs hm ih => ?_)
  · refine ⟨dc c, [], by simp, fun d hd => ?_, by simp⟩
    rw [full_syllable hs] at hd
    have := decomposeSyllable_jamo hs d hd
    exact ccc_zero d (.inr (.inl ⟨this.1, this.2.1⟩))
  · rw [full_none' (levelled false) hs hm]
    by_cases h0 : cls c = 0
    · exact ⟨[c], [], by simp, by simpa using h0, by simp⟩
    · exact ⟨[], [c], by simp, by simp, by simpa using h0⟩
  · have hd := ((levelled false).down c m hm).2.2.2
    have ht := allEntries_spec tidy_table (lookupCD_mem (canon_tableMap hm))
    rw [full_table (levelled false) hm]
    unfold tidy at ht
    split at ht
    · rename_i x
      simpa using ih x (by simp)
    · rename_i a b
      simp only [Bool.or_eq_true, Bool.not_eq_true', Bool.and_eq_true, Nat.beq_eq, beq_iff_eq] at ht
      simp only [List.flatMap_cons, List.flatMap_nil, List.append_nil]
      rcases ht with ht | ⟨⟨t1, t2⟩, t3⟩
      · have hb : cls b ≠ 0 := by
          rw [combiningClass_eq]
          intro h
          rw [h] at ht
          simp at ht
        obtain ⟨x, y, h1, h2, h3⟩ := ih a (by simp)
        refine ⟨x, y ++ dc b, by rw [h1, List.append_assoc], h2, fun d hd => ?_⟩
        rcases List.mem_append.1 hd with hd | hd
        · exact h3 d hd
        · rw [full_ccc (levelled false) cls (fun c hs => ccc_zero c (.inr (.inr (by have := (Proofs.Hangul.isSyllable_iff c).1 hs; omega))))
            (fun c m h => ccc_uniform false c m h) b hb d hd]
          exact hb
      · obtain ⟨x, y, h1, h2, h3⟩ := ih b (by simp)
        refine ⟨dc a ++ x, y, by rw [h1, List.append_assoc], fun d hd' => ?_, h3⟩
        rcases List.mem_append.1 hd' with hd' | hd'
        · exact full_starters (hd a (by simp)).1 t2 t3 d hd'
        · exact h2 d hd'
    · simp at ht

/-- **C84.** The canonical decomposition of any character is starters followed by marks (either may be missing): no starter comes after a mark. -/
theorem c84_decomposition_shape (c : Nat) : ∃ starters marks, decomposeCanonical c = starters ++ marks ∧
    (∀ d ∈ starters, cls d = 0) ∧ (∀ d ∈ marks, cls d ≠ 0) := by
  rw [decomposeCanonical_eq]
  exact full_tidy c

theorem calls_eq (k : Bool) (n : Nat) (s : List Nat) : (decomposedCalls k n s).filterMap id = (decomposed k s).take n := by
  rw [decomposedCalls, calls_ok next_ok n _ (inv_new s), ← decomposed_out]
  exact filterMap_calls _ _

/-- **C84.** `nfd()` reads no further than it has to: of the characters whose decomposition has a starter in it, it has read at most one more than
the starters it has returned. (So it reads on only when it holds no starter, and then up to the next one. `nfkd()` does not have this property.) -/
theorem c84_nfd_reads (s : List Nat) (n : Nat) : ∃ read, s = read ++ (decomposedAfter false n s).rest ∧
    (read.filter fun c => (decomposeCanonical c).any (cls · == 0)).length ≤ (((nfd s).take n).filter (cls · == 0)).length + 1 := by
  obtain ⟨p, h1, h2⟩ := reads_le (ccc := cls) (dec := decomposeCanonical) c84_decomposition_shape n s
  refine ⟨p, h1, ?_⟩
  have h3 := calls_eq false n s
  rw [gaveAll] at h2
  rw [show (calls (Decompositions.next cls decomposeCanonical) n (.new s)).filterMap id = (nfd s).take n from h3] at h2
  exact h2

/-- Two marks, "a", "b", "c": the first call reads both marks and the "a"; the second returns the other mark and reads nothing. -/
example : (decomposedAfter false 1 [0x301, 0x316, 0x61, 0x62, 0x63]).rest = [0x62, 0x63] ∧
    (decomposedAfter false 2 [0x301, 0x316, 0x61, 0x62, 0x63]).rest = [0x62, 0x63] ∧
    (decomposedAfter false 3 [0x301, 0x316, 0x61, 0x62, 0x63]).rest = [0x62, 0x63] ∧
    (decomposedAfter false 4 [0x301, 0x316, 0x61, 0x62, 0x63]).rest = [0x63] ∧
    decomposedCalls false 4 [0x301, 0x316, 0x61, 0x62, 0x63] = [some 0x316, some 0x301, some 0x61, some 0x62] := by
  unfold decomposedAfter decomposedCalls
  rw [decomposition_lookup, funext combiningClass_eq]; decide +kernel

/-- The compatibility decomposition of U+3300 is アハ゜ート: a starter after a mark. `nfkd()` reads the "a" while it
still holds ー and ト. -/
example : decomposedCalls true 3 [0x3300, 0x61, 0x62] = [some 0x30A2, some 0x30CF, some 0x309A] ∧
    (decomposedAfter true 3 [0x3300, 0x61, 0x62]).rest = [0x62] := by
  have h : decomposition true = Props.Normal.decC true := funext fun c => by
    rw [decomposition, decomposeCompatible, Props.Normal.d_lookup, Props.Normal.decC, FUEL]
  unfold decomposedAfter decomposedCalls
  rw [h, funext combiningClass_eq]; decide +kernel

end Props.NormalReads
