import Verif.Proofs.GraphemeState
import Verif.Proofs.UcdSF
import Verif.Data.SegTree
import Verif.Props.Relations

/-! Classes of the grapheme cluster and word boundary rules along canonical mappings and non-starters. -/
namespace Proofs.SegmentData
open Spec Spec.Normal Model Model.UcdNormal Proofs.DecompData Proofs.Chunked Proofs.GraphemeState Proofs.UcdSF Proofs.StepFn Proofs.UcdTables
open Data (GraphemeClusterBreak WordBreak)

/-- the class of a character in a search tree -/
def find {V : Type} : Data.SegTree V → Nat → Option V
  | .leaf, _ => none
  | .node lo hi v l r, c => if Nat.blt c lo then find l c else if Nat.ble c hi then some v else find r c

def toList {V : Type} : Data.SegTree V → List (Nat × Nat × V)
  | .leaf => []
  | .node lo hi v l r => toList l ++ (lo, hi, v) :: toList r

theorem find_mem {V : Type} {t : Data.SegTree V} {c : Nat} {v : V} (h : find t c = some v) : ∃ e ∈ toList t, Covers e c ∧ e.2.2 = v := by
  induction t with
  | leaf => simp [find] at h
  | node lo hi w l r ihl ihr =>
    rw [find] at h
    split at h
    · obtain ⟨e, he, h⟩ := ihl h
      exact ⟨e, by simp [toList, he], h⟩
    · rename_i h1
      split at h
      · rename_i h2
        refine ⟨(lo, hi, w), by simp [toList], ⟨?_, Nat.le_of_ble_eq_true h2⟩, by simpa using h⟩
        have : ¬ c < lo := fun h => h1 (by rw [Nat.blt, Nat.ble_eq]; exact h)
        show lo ≤ c
        omega
      · obtain ⟨e, he, h⟩ := ihr h
        exact ⟨e, by simp [toList, he], h⟩

theorem find_lookup {V : Type} {t : Data.SegTree V} (ha : ascFrom 0 (toList t) = true) {c : Nat} {v : V} (h : find t c = some v) :
    (SF.ofEntries (toList t)).eval c = some v := by
  rw [SF.ofEntries, SF.eval, evalSF_steps _ 0 c ha]
  obtain ⟨e, he, hc, hv⟩ := find_mem h
  have hp := (ascFrom_spec _ 0 ha).2.2
  generalize toList t = l at he hp
  induction l with
  | nil => simp at he
  | cons x l ih =>
    obtain ⟨lo, hi, w⟩ := x
    rw [lookup]
    rw [List.pairwise_cons] at hp
    rcases List.mem_cons.mp he with rfl | he
    · simp only [Covers] at hc
      rw [if_pos hc]; simpa using hv
    · rw [if_neg]
      · exact ih he hp.2
      · intro h
        have := hp.1 e he
        simp only [Covers] at hc
        simp only at this
        omega

theorem gcb_find {c : Nat} {v : GraphemeClusterBreak} (h : find Data.gcbTree c = some v) : Ucd.graphemeClusterBreak c = v := by
  have h1 := find_lookup (by decide +kernel) h
  have h2 := SF.zip₂ (fun a b => match a with | none => true | some a => decide (a = b)) (SF.ofEntries (toList Data.gcbTree)) graphemeClusterBreakSF
    (by decide +kernel) c
  rw [h1] at h2
  rw [graphemeClusterBreak_sf]
  exact (of_decide_eq_true h2).symm

theorem wb_find {c : Nat} {v : WordBreak} (h : find Data.wbTree c = some v) : Ucd.wordBreak c = v := by
  have h1 := find_lookup (by decide +kernel) h
  have h2 := SF.zip₂ (fun a b => match a with | none => true | some a => decide (a = b)) (SF.ofEntries (toList Data.wbTree)) wordBreakSF
    (by decide +kernel) c
  rw [h1] at h2
  rw [wordBreak_sf]
  exact (of_decide_eq_true h2).symm

/-- a check of the classes of a character and of its mapping, both looked up in the tree -/
def onEntry {V : Type} (t : Data.SegTree V) (ok : V → List V → Bool) (c : Nat) (m : List Nat) : Bool :=
  match find t c with
  | none => false
  | some v => match m with
    | [a] => match find t a with
      | some x => ok v [x]
      | none => false
    | [a, b] => match find t a, find t b with
      | some x, some y => ok v [x, y]
      | _, _ => false
    | _ => false

theorem onEntry_spec {V : Type} {t : Data.SegTree V} {ok : V → List V → Bool} {f : Nat → V} (hf : ∀ c v, find t c = some v → f c = v)
    {c : Nat} {m : List Nat} (h : onEntry t ok c m = true) : ok (f c) (m.map f) = true := by
  unfold onEntry at h
  split at h
  · simp at h
  · rename_i v hv
    rw [hf c v hv]
    split at h
    · split at h
      · rename_i x hx
        rw [List.map_cons, List.map_nil, hf _ x hx]; exact h
      · simp at h
    · split at h
      · rename_i x y hx hy
        rw [List.map_cons, List.map_cons, List.map_nil, hf _ x hx, hf _ y hy]; exact h
      · simp at h
    · simp at h

def isOther : GraphemeClusterBreak → Bool
  | .Other => true
  | _ => false
def isExtend : GraphemeClusterBreak → Bool
  | .Extend => true
  | _ => false
def isMark : GraphemeClusterBreak → Bool
  | .Extend => true
  | .SpacingMark => true
  | _ => false

/-- replacing a class by these classes keeps grapheme cluster boundaries -/
def okG (g : GraphemeClusterBreak) : List GraphemeClusterBreak → Bool
  | [a] => (isOther g && isOther a) || (isExtend g && isExtend a)
  | [a, b] => (isOther g && isOther a && isMark b) || (isExtend g && isExtend a && isExtend b) ||
    (isMark g && !isExtend g && isMark a && isMark b)
  | _ => false

theorem canon_gcb : allEntries (onEntry Data.gcbTree okG) Data.canonicalDecomposition = true := by decide +kernel

def isExtW : WordBreak → Bool
  | .Extend => true
  | _ => false
def isLetW : WordBreak → Bool
  | .ALetter => true
  | _ => false
/-- the classes of characters that decompose -/
def decW : WordBreak → Bool
  | .Other => true
  | .ALetter => true
  | .HebrewLetter => true
  | .Katakana => true
  | .MidNum => true
  | .MidLetter => true
  | .Extend => true
  | _ => false

/-- the same for word boundaries: the class followed by Extend -/
def okW (w : WordBreak) : List WordBreak → Bool
  | [a] => decW w && a == w
  | [a, b] => decW w && a == w && isExtW b
  | _ => false

theorem canon_wb : allEntries (onEntry Data.wbTree okW) Data.canonicalDecomposition = true := by decide +kernel

theorem okG_alike {g : GraphemeClusterBreak} {gs : List GraphemeClusterBreak} (h : okG g gs = true) :
    alike [g] gs = true ∧ alikeF [g] gs = true := by
  unfold okG at h
  split at h
  · rename_i a
    revert h
    cases g <;> cases a <;> decide
  · rename_i a b
    revert h
    cases g <;> simp [isOther, isExtend, isMark] <;> cases a <;> simp <;> cases b <;> simp <;> decide
  · simp at h

theorem hangul_gcb {c : Nat} (h1 : 0xAC00 ≤ c) (h2 : c ≤ 0xD7A3) :
    let m := if (c - 0xAC00) % 28 = 0 then [0x1100 + (c - 0xAC00) / 588, 0x1161 + (c - 0xAC00) % 588 / 28]
      else [c - (c - 0xAC00) % 28, 0x11A7 + (c - 0xAC00) % 28]
    alike [Ucd.graphemeClusterBreak c] (m.map Ucd.graphemeClusterBreak) = true ∧
    alikeF [Ucd.graphemeClusterBreak c] (m.map Ucd.graphemeClusterBreak) = true := by
  intro m
  have inr : ∀ (lo hi lo' hi' x : Nat), lo ≤ x → x ≤ hi → Spec.inRanges [(lo, hi), (lo', hi')] x = true := by
    intro lo hi lo' hi' x a b; simp [Spec.inRanges, a, b]
  by_cases h0 : (c - 0xAC00) % 28 = 0
  · have e : m = [0x1100 + (c - 0xAC00) / 588, 0x1161 + (c - 0xAC00) % 588 / 28] := if_pos h0
    have k0 := (Props.Relations.c60_hangul c).1.mpr ⟨h1, h2, h0⟩
    have k1 := (Props.Relations.c60_jamo (0x1100 + (c - 0xAC00) / 588)).1.mpr (inr _ _ _ _ _ (by omega) (by omega))
    have k2 := (Props.Relations.c60_jamo (0x1161 + (c - 0xAC00) % 588 / 28)).2.1.mpr (inr _ _ _ _ _ (by omega) (by omega))
    rw [e]; simp only [List.map_cons, List.map_nil]
    rw [k0, k1, k2]; decide
  · have e : m = [c - (c - 0xAC00) % 28, 0x11A7 + (c - 0xAC00) % 28] := if_neg h0
    have k0 := (Props.Relations.c60_hangul c).2.mpr ⟨h1, h2, h0⟩
    have k1 := (Props.Relations.c60_hangul (c - (c - 0xAC00) % 28)).1.mpr ⟨by omega, by omega, by omega⟩
    have k2 := (Props.Relations.c60_jamo (0x11A7 + (c - 0xAC00) % 28)).2.2.mpr (inr _ _ _ _ _ (by omega) (by omega))
    rw [e]; simp only [List.map_cons, List.map_nil]
    rw [k0, k1, k2]; decide

/-- a character and its canonical mapping are alike for grapheme cluster boundaries -/
theorem mapping_gcb {c : Nat} {m : List Nat} (h : mappingWith canonicalDecomposition c = some m) :
    alike [Ucd.graphemeClusterBreak c] (m.map Ucd.graphemeClusterBreak) = true ∧
    alikeF [Ucd.graphemeClusterBreak c] (m.map Ucd.graphemeClusterBreak) = true := by
  rw [mappingWith] at h
  split at h
  · rename_i hr
    simp only [Option.some.injEq] at h
    subst h
    exact hangul_gcb hr.1 hr.2
  · rw [canonicalDecomposition_eq, canonC] at h
    exact okG_alike (onEntry_spec (fun _ _ => gcb_find) (allEntries_spec canon_gcb (lookupCD_mem h)))

theorem nonstarter_gcb (c : Nat) (h : Ucd.combiningClass c > 0) : isMark (Ucd.graphemeClusterBreak c) = true := by
  have h1 := SF.zip₂ (fun a b => Nat.beq a 0 || isMark b) combiningClassSF graphemeClusterBreakSF (by decide +kernel) c
  rw [← combiningClass_sf, ← graphemeClusterBreak_sf, Bool.or_eq_true] at h1
  rcases h1 with h1 | h1
  · have := Nat.eq_of_beq_eq_true h1; omega
  · exact h1

theorem nonstarter_wb (c : Nat) (h : Ucd.combiningClass c > 0) : Ucd.wordBreak c = .Extend := by
  have h1 := SF.zip₂ (fun a b => Nat.beq a 0 || decide (b = .Extend)) combiningClassSF wordBreakSF (by decide +kernel) c
  rw [← combiningClass_sf, ← wordBreak_sf, Bool.or_eq_true, decide_eq_true_eq] at h1
  rcases h1 with h1 | h1
  · have := Nat.eq_of_beq_eq_true h1; omega
  · exact h1

theorem marks_alike {a b : GraphemeClusterBreak} (ha : isMark a = true) (hb : isMark b = true) :
    alike [a, b] [b, a] = true ∧ alikeF [a, b] [b, a] = true := by
  revert ha hb
  cases a <;> simp [isMark] <;> cases b <;> simp <;> decide

theorem hangul_wb (c : Nat) (h : (0xAC00 ≤ c ∧ c ≤ 0xD7A3) ∨ (0x1100 ≤ c ∧ c ≤ 0x11FF)) : Ucd.wordBreak c = .ALetter := by
  have h1 := SF.zip₂ (fun (a : Option Unit) b => a.isNone || decide (b = .ALetter))
    (SF.ofEntries [(0x1100, 0x11FF, ()), (0xAC00, 0xD7A3, ())]) wordBreakSF (by decide +kernel) c
  rw [SF.ofEntries, SF.eval, evalSF_steps _ 0 c (by decide), ← wordBreak_sf, Bool.or_eq_true, decide_eq_true_eq] at h1
  rcases h1 with h1 | h1
  · exfalso
    simp only [lookup] at h1
    split at h1
    · simp at h1
    · split at h1
      · simp at h1
      · omega
  · exact h1

/-- a character and its canonical mapping for word boundaries: the class, then Extend; or letters -/
theorem mapping_wb {c : Nat} {m : List Nat} (h : mappingWith canonicalDecomposition c = some m) :
    okW (Ucd.wordBreak c) (m.map Ucd.wordBreak) = true ∨ (Ucd.wordBreak c = .ALetter ∧ m.map Ucd.wordBreak = [.ALetter, .ALetter]) := by
  rw [mappingWith] at h
  split at h
  · rename_i hr
    simp only [Option.some.injEq] at h
    subst h
    right
    refine ⟨hangul_wb c (.inl hr), ?_⟩
    split
    · simp only [List.map_cons, List.map_nil]
      rw [hangul_wb _ (.inr ⟨by omega, by omega⟩), hangul_wb _ (.inr ⟨by omega, by omega⟩)]
    · simp only [List.map_cons, List.map_nil]
      rw [hangul_wb _ (.inl ⟨by omega, by omega⟩), hangul_wb _ (.inr ⟨by omega, by omega⟩)]
  · rw [canonicalDecomposition_eq, canonC] at h
    exact .inl (onEntry_spec (fun _ _ => wb_find) (allEntries_spec canon_wb (lookupCD_mem h)))

end Proofs.SegmentData
