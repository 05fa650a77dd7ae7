import Verif.Proofs.UcdTables
import Verif.Proofs.Chunked
import Verif.Proofs.Hangul
import Verif.Proofs.UcdSF
import Verif.Proofs.DecompGen
import Verif.Model.UcdNormal
import Verif.Data.NormMasks

/-! Facts about the shipped decomposition and composition data, by kernel evaluation over all entries. -/
namespace Proofs.DecompData
open Model Model.UcdNormal Model.Hangul Proofs.Chunked Proofs.UcdTables Proofs.StepFn Proofs.UcdSF Proofs.DecompGen Proofs.Tables Proofs.Hangul

def canonC (c : Nat) : Option (List Nat) := lookupCD Data.canonicalDecomposition c
def compatC (c : Nat) : Option (List Nat) := (lookupCD Data.compatibilityDecomposition c).map (·.2)
def cccC (c : Nat) : Nat := (lookupC Data.canonicalCombiningClass c).getD 0
def compC (a b : Nat) : Option Nat := (lookupCD Data.canonicalComposition a).bind fun l => lookupD l b

theorem canonicalDecomposition_eq (c : Nat) : canonicalDecomposition c = canonC c := by
  unfold canonicalDecomposition canonicalTable canonC
  rw [findVal_ofDirect _ canonicalTable_asc]
theorem compatibilityDecomposition_eq (c : Nat) : compatibilityDecomposition c = compatC c := by
  unfold compatibilityDecomposition compatibilityTable compatC
  rw [findVal_ofDirect _ compatibilityTable_asc]
theorem combiningClass_eq (c : Nat) : Ucd.combiningClass c = cccC c := by
  unfold Ucd.combiningClass Ucd.combiningClassTable cccC
  rw [findVal_ofRange _ combiningClassTable_asc]

theorem lookupD_mem {V : Type} {l : List (Nat × V)} {c : Nat} {v : V} (h : lookupD l c = some v) : (c, v) ∈ l := by
  induction l with
  | nil => simp [lookupD] at h
  | cons e l ih =>
    obtain ⟨k, w⟩ := e
    rw [lookupD] at h
    split at h
    · rename_i hk
      simp only [Option.some.injEq] at h
      subst hk h
      simp
    · simp [ih h]

theorem lookupCD_mem {V : Type} : ∀ {ch : List (List (Nat × V))} {c : Nat} {v : V}, lookupCD ch c = some v → (c, v) ∈ ch.flatten
  | [], _, _, h => by simp [lookupCD] at h
  | [a], c, v, h => by
    rw [lookupCD] at h
    simpa using lookupD_mem h
  | a :: b :: r, c, v, h => by
    rw [lookupCD] at h
    rw [List.flatten_cons]
    split at h
    · exact List.mem_append_right _ (lookupCD_mem h)
    · cases hl : lookupD a c with
      | some w =>
        rw [hl] at h
        simp only [Option.some.injEq] at h
        subst h
        exact List.mem_append_left _ (lookupD_mem hl)
      | none =>
        rw [hl] at h
        exact List.mem_append_right _ (lookupCD_mem h)

/-- a check over all entries of a chunked table -/
def allEntries {V : Type} (p : Nat → V → Bool) (ch : List (List (Nat × V))) : Bool := ch.all fun l => l.all fun e => p e.1 e.2

theorem allEntries_spec {V : Type} {p : Nat → V → Bool} {ch : List (List (Nat × V))} (h : allEntries p ch = true)
    {c : Nat} {v : V} (hm : (c, v) ∈ ch.flatten) : p c v = true := by
  obtain ⟨l, hl, hc⟩ := List.mem_flatten.1 hm
  exact List.all_eq_true.1 (List.all_eq_true.1 h l hl) _ hc

/-- bit `c` of a two-part mask -/
def bit (lo hi c : Nat) : Bool :=
  if c < 0x10000 then Nat.beq ((lo >>> c) % 2) 1 else Nat.beq ((hi >>> (c - 0x10000)) % 2) 1

/-- depth of the decomposition of a character -/
def lv : Bool → Nat → Nat
  | false, c =>
    if !bit Data.canonMaskAllLo Data.canonMaskAllHi c then 0
    else if bit Data.canonMask1Lo Data.canonMask1Hi c then 1
    else if bit Data.canonMask2Lo Data.canonMask2Hi c then 2 else 3
  | true, c =>
    if !bit Data.compatMaskAllLo Data.compatMaskAllHi c then 0
    else if bit Data.compatMask1Lo Data.compatMask1Hi c then 1
    else if bit Data.compatMask2Lo Data.compatMask2Hi c then 2 else 3

/-- what is checked of each entry -/
def chk (k : Bool) (c : Nat) (m : List Nat) : Bool :=
  decide (0x7f < c) && !isSyllable c && decide (lv k c ≠ 0) && !m.isEmpty &&
  m.all fun x => !isSyllable x && decide (x ≠ 0x11A7) && decide (lv k x < lv k c)

theorem chk_canon_false : allEntries (chk false) Data.canonicalDecomposition = true := by decide +kernel
theorem chk_canon_true : allEntries (chk true) Data.canonicalDecomposition = true := by decide +kernel
theorem chk_compat_true : allEntries (fun c m => chk true c m.2) Data.compatibilityDecomposition = true := by decide +kernel

theorem lv_le (k : Bool) (c : Nat) : lv k c ≤ 3 := by
  cases k <;> simp only [lv] <;> (repeat' split) <;> omega

theorem jamo_lv : (List.range 256).all (fun i => lv false (0x1100 + i) == 0 && lv true (0x1100 + i) == 0) = true := by
  decide +kernel

theorem lv_jamo (k : Bool) (c : Nat) (h1 : 0x1100 ≤ c) (h2 : c ≤ 0x11FF) : lv k c = 0 := by
  have := List.all_eq_true.1 jamo_lv (c - 0x1100) (List.mem_range.2 (by omega))
  rw [show 0x1100 + (c - 0x1100) = c from by omega, Bool.and_eq_true, beq_iff_eq, beq_iff_eq] at this
  cases k
  · exact this.1
  · exact this.2

theorem tableMap_chk (k : Bool) (c : Nat) (m : List Nat)
    (h : tableMap canonicalDecomposition compatibilityDecomposition k c = some m) : chk k c m = true := by
  rw [tableMap, canonicalDecomposition_eq, compatibilityDecomposition_eq, canonC, compatC] at h
  cases hc : lookupCD Data.canonicalDecomposition c with
  | some m' =>
    rw [hc] at h
    simp only [Option.some.injEq] at h
    subst h
    have hm := lookupCD_mem hc
    cases k
    · exact allEntries_spec chk_canon_false hm
    · exact allEntries_spec chk_canon_true hm
  | none =>
    rw [hc] at h
    cases k with
    | false => simp at h
    | true =>
      simp only [if_true] at h
      cases hk : lookupCD Data.compatibilityDecomposition c with
      | none => rw [hk] at h; simp at h
      | some e =>
        rw [hk] at h
        simp only [Option.map_some, Option.some.injEq] at h
        subst h
        exact allEntries_spec chk_compat_true (lookupCD_mem hk)

theorem levelled (k : Bool) : Levelled canonicalDecomposition compatibilityDecomposition k (lv k) where
  zero c h := by
    cases hm : tableMap canonicalDecomposition compatibilityDecomposition k c with
    | none => rfl
    | some m =>
      have := tableMap_chk k c m hm
      simp only [chk, Bool.and_eq_true, decide_eq_true_eq] at this
      exact absurd h this.1.1.2
  down c m hm := by
    have := tableMap_chk k c m hm
    simp only [chk, Bool.and_eq_true, decide_eq_true_eq, Bool.not_eq_true', List.all_eq_true] at this
    obtain ⟨⟨⟨⟨h1, h2⟩, h3⟩, h4⟩, h5⟩ := this
    refine ⟨h1, h2, ?_, fun x hx => ⟨(h5 x hx).1.1, (h5 x hx).1.2, (h5 x hx).2⟩⟩
    rintro rfl
    simp at h4
  bound := lv_le k
  jamo := lv_jamo k

/-! ## Combining classes -/

def canonSF : SF (Option (List Nat)) := SF.ofEntries (directEntries Data.canonicalDecomposition.flatten)
theorem canonSF_eq (c : Nat) : canonicalDecomposition c = canonSF.eval c := by
  unfold canonicalDecomposition
  rw [findVal_eq_sf _ canonicalTable_asc, canonicalTable, entries_ofDirect]; rfl
def compatSF : SF (Option (List Nat)) :=
  SF.map (fun o => o.map (·.2)) (SF.ofEntries (directEntries Data.compatibilityDecomposition.flatten))
theorem compatSF_eq (c : Nat) : compatibilityDecomposition c = compatSF.eval c := by
  unfold compatibilityDecomposition
  rw [findVal_eq_sf _ compatibilityTable_asc, compatibilityTable, entries_ofDirect, compatSF, SF.eval_map]

def uniform (k : Nat) : Option (List Nat) → Bool
  | none => true
  | some m => Nat.beq k 0 || m.all fun x => Nat.beq (cccC x) k

theorem uniform_canon (c : Nat) : uniform (combiningClassSF.eval c) (canonSF.eval c) = true :=
  SF.all₂ uniform _ _ (by decide +kernel) c
theorem uniform_compat (c : Nat) : uniform (combiningClassSF.eval c) (compatSF.eval c) = true :=
  SF.all₂ uniform _ _ (by decide +kernel) c

theorem ccc_uniform (k : Bool) (c : Nat) (m : List Nat)
    (h : tableMap canonicalDecomposition compatibilityDecomposition k c = some m) (hc : Ucd.combiningClass c ≠ 0) :
    ∀ x ∈ m, Ucd.combiningClass x = Ucd.combiningClass c := by
  have key : uniform (Ucd.combiningClass c) (some m) = true := by
    rw [tableMap] at h
    cases h1 : canonicalDecomposition c with
    | some m' =>
      rw [h1] at h
      simp only [Option.some.injEq] at h
      subst h
      rw [combiningClass_sf, ← h1, canonSF_eq]
      exact uniform_canon c
    | none =>
      rw [h1] at h
      cases k with
      | false => simp at h
      | true =>
        simp only [if_true] at h
        rw [combiningClass_sf, ← h, compatSF_eq]
        exact uniform_compat c
  simp only [uniform, Bool.or_eq_true, Nat.beq_eq, List.all_eq_true] at key
  intro x hx
  rcases key with h | h
  · exact absurd h hc
  · rw [combiningClass_eq, h x hx]

theorem ccc_zero (c : Nat) (h : c ≤ 0x7f ∨ (0x1100 ≤ c ∧ c ≤ 0x11FF) ∨ (0xAC00 ≤ c ∧ c ≤ 0xD7A3)) : Ucd.combiningClass c = 0 := by
  have h1 := SF.all₂ (fun a b => !b.isSome || Nat.beq a 0) combiningClassSF
    (rangesSF [(0, 0x7f), (0x1100, 0x11FF), (0xAC00, 0xD7A3)]) (by decide +kernel) c
  rw [← combiningClass_sf, ← any_sf _ (by decide)] at h1
  simp only [List.any_cons, List.any_nil, Bool.or_false, Bool.or_eq_true, Nat.beq_eq, Bool.not_eq_true',
    Bool.or_eq_false_iff, Bool.and_eq_false_iff, decide_eq_false_iff_not] at h1
  omega

/-! ## Composition -/

theorem lookup_map {V W : Type} (f : V → W) (l : List (Nat × Nat × V)) (c : Nat) :
    lookup (l.map fun e => (e.1, e.2.1, f e.2.2)) c = (lookup l c).map f := by
  induction l with
  | nil => rfl
  | cons e l ih =>
    obtain ⟨lo, hi, v⟩ := e
    simp only [List.map_cons, lookup]
    split
    · rfl
    · exact ih

/-- every inner table is ascending, and what each entry means -/
def compChk (a : Nat) (l : List (Nat × Nat)) : Bool :=
  ascFrom 0 (directEntries l) && l.all fun e =>
    decide (canonC e.2 = some [a, e.1]) && decide (0x300 ≤ e.1) && decide (e.1 < 0x1100 ∨ 0x11FF < e.1) &&
    decide (e.2 < 0x1100 ∨ 0x1112 < e.2) && Nat.beq (cccC a) 0 && Nat.beq (cccC e.2) 0

theorem compChk_all : allEntries compChk Data.canonicalComposition = true := by decide +kernel

end Proofs.DecompData
