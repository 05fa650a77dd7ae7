import Verif.Proofs.BidiData

/-! # Lines: rule L1 -/
namespace Proofs.Bidi
open Model Model.Bidi Data Proofs.Punycode Model.Grapheme Proofs.Grapheme Spec.Bidi

/-- a removed character is not reset if none waits -/
def lone (pend : Option Nat) : List Bool := if pend.isNone then [false] else []

@[simp] theorem lone_none : lone none = [false] := rfl
@[simp] theorem lone_some (n : Nat) : lone (some n) = [] := rfl

/-- which characters the loop of L1 resets; `pend` counts the characters that wait for a separator or the end -/
def flagsC : List BC → (pend : Option Nat) → List Bool
  | [], pend => List.replicate (pend.getD 0) true
  | c :: cs, pend =>
    if isRemoved c then lone pend ++ flagsC cs (pend.map (· + 1))
    else if isSeparator c then List.replicate (pend.getD 0 + 1) true ++ flagsC cs none
    else if isBlank c then flagsC cs (some (pend.getD 0 + 1))
    else List.replicate (pend.getD 0 + 1) false ++ flagsC cs none

theorem flagsC_length : ∀ (cs : List BC) (pend : Option Nat), (flagsC cs pend).length = pend.getD 0 + cs.length
  | [], pend => by simp [flagsC]
  | c :: cs, pend => by
    rw [flagsC]
    split_ifs
    · cases pend <;> simp [flagsC_length cs] <;> omega
    all_goals simp [flagsC_length cs]; omega

/-- the bytes of the flagged characters -/
def flagged (line : List Nat) : (k : Nat) → List Bool → List Nat
  | _, [] => []
  | k, true :: fs => block line k ++ flagged line (k + 1) fs
  | k, false :: fs => flagged line (k + 1) fs

theorem flagged_false {line : List Nat} {fs : List Bool} : ∀ (n k : Nat), flagged line k (List.replicate n false ++ fs) = flagged line (k + n) fs
  | 0, k => by simp
  | n + 1, k => by rw [List.replicate_succ, List.cons_append, flagged, flagged_false n (k + 1)]; congr 1; omega

theorem flagged_true {line : List Nat} {fs : List Bool} : ∀ (n k : Nat), flagged line k (List.replicate n true ++ fs) =
    List.range' (off line k) (off line (k + n) - off line k) ++ flagged line (k + n) fs
  | 0, k => by simp
  | n + 1, k => by
    rw [List.replicate_succ, List.cons_append, flagged, flagged_true n (k + 1), range_blocks (show k ≤ k + (n + 1) by omega),
      range_blocks (show k + 1 ≤ k + 1 + n by omega), show k + (n + 1) - k = n + 1 by omega, show k + 1 + n - (k + 1) = n by omega, List.range'_succ,
      List.flatMap_cons, List.append_assoc]
    congr 3
    omega

theorem mem_flagged {line : List Nat} {j : Nat} : ∀ (fs : List Bool) (k : Nat), j ∈ flagged line k fs ↔ ∃ m, fs[m]? = some true ∧ j ∈ block line (k + m)
  | [], k => by simp [flagged]
  | b :: fs, k => by
    have ih := mem_flagged (line := line) (j := j) fs (k + 1)
    cases b with
    | true =>
      rw [flagged, List.mem_append, ih]
      constructor
      · rintro (h | ⟨m, h1, h2⟩)
        · exact ⟨0, rfl, h⟩
        · exact ⟨m + 1, h1, by rw [show k + (m + 1) = k + 1 + m by omega]; exact h2⟩
      · rintro ⟨m, h1, h2⟩
        cases m with
        | zero => exact Or.inl h2
        | succ m => exact Or.inr ⟨m, h1, by rw [show k + 1 + m = k + (m + 1) by omega]; exact h2⟩
    | false =>
      rw [flagged, ih]
      constructor
      · rintro ⟨m, h1, h2⟩
        exact ⟨m + 1, h1, by rw [show k + (m + 1) = k + 1 + m by omega]; exact h2⟩
      · rintro ⟨m, h1, h2⟩
        cases m with
        | zero => simp at h1
        | succ m => exact ⟨m, h1, by rw [show k + 1 + m = k + (m + 1) by omega]; exact h2⟩

theorem setAll_append' {α : Type} (l : List α) (a b : List Nat) (v : α) : setAll l (a ++ b) v = setAll (setAll l a v) b v := by
  unfold setAll; rw [List.foldl_append]

theorem putRange_ok {L : List Nat} {a b v : Nat} (h : b ≤ L.length) : putRange L a b v = .ok (setAll L (List.range' a (b - a)) v) := by
  unfold putRange
  apply putAll_ok
  intro j hj
  rw [List.mem_range'_1] at hj
  omega

theorem classify_eq (st : L1) (i len : Nat) (c : BC) : st.classify i len c =
    if isRemoved c then .ok st
    else if isSeparator c then (if st.resetTo ≠ none then .panic else .ok { st with resetTo := some (i + len), resetFrom := some (st.resetFrom.getD i) })
    else if isBlank c then .ok { st with resetFrom := some (st.resetFrom.getD i) }
    else .ok { st with resetFrom := none } := by
  cases c <;> rfl

/-- the end of `visual_runs` part L1 -/
def l1End (len pl : Nat) (st : L1) : Outcome (List Nat) :=
  match st.resetFrom with
  | some from_ => putRange st.levels from_ len pl
  | none => return st.levels

theorem l1_loop {line : List Nat} {classes : List BC} {pl : Nat} : ∀ (rest : List Nat) (k : Nat) (C : List BC) (pend : Option Nat) (L : List Nat),
    line.drop k = rest → k ≤ line.length → C.length = rest.length → (∀ m, m < rest.length → classes[off line (k + m)]? = C[m]?) → pend.getD 0 ≤ k → blen line ≤ L.length →
    (L1.loop classes pl rest (off line k) ⟨pend.map (fun n => off line (k - n)), none, L⟩ >>= l1End (blen line) pl) =
      .ok (setAll L (flagged line (k - pend.getD 0) (flagsC C pend)) pl)
  | [], k, [], pend, L, hd, hk, _, _, hp, hL => by
    have hk' : line.length ≤ k := List.drop_eq_nil_iff.1 hd
    have hke : k = line.length := by omega
    rw [L1.loop, bind_ok, l1End]
    cases pend with
    | none => simp [flagsC, flagged]
    | some n =>
      simp only [Option.getD_some] at hp
      simp only [Option.map_some, flagsC, Option.getD_some]
      rw [putRange_ok hL, ← off_length, ← hke]
      have := flagged_true (line := line) (fs := []) n (k - n)
      rw [List.append_nil, show k - n + n = k by omega] at this
      rw [this]
      simp [flagged]
  | c :: rest, k, x :: C, pend, L, hd, hk, hC, hcls, hp, hL => by
    have hk' : k < line.length := by
      by_contra hn
      rw [List.drop_eq_nil_of_le (by omega)] at hd; simp at hd
    have hc : line[k] = c := by
      have : line[k]? = some c := by rw [← List.head?_drop, hd]; rfl
      rw [List.getElem?_eq_getElem hk'] at this; simpa using this
    have hd' : line.drop (k + 1) = rest := by rw [← List.drop_drop (i := 1) (j := k), hd]; rfl
    have hoff : off line k + Utf.lenUtf8 c = off line (k + 1) := by rw [off_succ hk', hc]
    have hx : classes[off line k]? = some x := by have := hcls 0 (by simp); simpa using this
    have hC' : C.length = rest.length := by simpa using hC
    have hcls' : ∀ m, m < rest.length → classes[off line (k + 1 + m)]? = C[m]? := by
      intro m hm
      have := hcls (m + 1) (by simp; omega)
      rw [show k + (m + 1) = k + 1 + m by omega, List.getElem?_cons_succ] at this
      exact this
    have hle : off line (k + 1) ≤ L.length := le_trans (by rw [← off_length]; exact off_mono (by omega)) hL
    have ih : ∀ (pend : Option Nat) (L : List Nat), pend.getD 0 ≤ k + 1 → blen line ≤ L.length → _ := fun pend L h1 h2 =>
      l1_loop (line := line) (classes := classes) (pl := pl) rest (k + 1) C pend L hd' (by omega) hC' hcls' h1 h2
    rw [L1.loop, at_ok hx, bind_ok, classify_eq, hoff, flagsC]
    by_cases h1 : isRemoved x = true
    · simp only [if_pos h1, bind_ok]
      cases pend with
      | none =>
        rw [show L1.reset ⟨Option.map (fun n => off line (k - n)) none, none, L⟩ pl = .ok ⟨none, none, L⟩ from rfl, bind_ok]
        have := ih none L (by simp) hL
        rw [Option.map_none] at this
        rw [this]
        rfl
      | some n =>
        simp only [Option.getD_some] at hp
        rw [show L1.reset ⟨Option.map (fun n => off line (k - n)) (some n), none, L⟩ pl = .ok ⟨some (off line (k - n)), none, L⟩ from rfl, bind_ok]
        have := ih (some (n + 1)) L (by simp; omega) hL
        simp only [Option.map_some, Option.getD_some, show k + 1 - (n + 1) = k - n by omega, lone_some, List.nil_append] at this ⊢
        rw [this]
    · simp only [if_neg h1]
      by_cases h2 : isSeparator x = true
      · simp only [if_pos h2, ne_eq, not_true_eq_false, if_false, bind_ok]
        have hfrom : (Option.map (fun n => off line (k - n)) pend).getD (off line k) = off line (k - pend.getD 0) := by cases pend <;> simp
        rw [hfrom]
        have hreset : L1.reset ⟨some (off line (k - pend.getD 0)), some (off line (k + 1)), L⟩ pl =
            .ok ⟨none, none, setAll L (List.range' (off line (k - pend.getD 0)) (off line (k + 1) - off line (k - pend.getD 0))) pl⟩ := by
          unfold L1.reset
          simp only
          rw [putRange_ok hle]
          rfl
        rw [hreset, bind_ok]
        have := ih none (setAll L (List.range' (off line (k - pend.getD 0)) (off line (k + 1) - off line (k - pend.getD 0))) pl) (by simp) (by simpa using hL)
        rw [Option.map_none] at this
        rw [this, flagged_true, show k - pend.getD 0 + (pend.getD 0 + 1) = k + 1 by omega, setAll_append']
        rfl
      · simp only [if_neg h2]
        by_cases h3 : isBlank x = true
        · simp only [if_pos h3, bind_ok]
          have hfrom : (Option.map (fun n => off line (k - n)) pend).getD (off line k) = off line (k - pend.getD 0) := by cases pend <;> simp
          rw [hfrom]
          rw [show L1.reset ⟨some (off line (k - pend.getD 0)), none, L⟩ pl = .ok ⟨some (off line (k - pend.getD 0)), none, L⟩ from rfl, bind_ok]
          have := ih (some (pend.getD 0 + 1)) L (by simp; omega) hL
          simp only [Option.map_some, Option.getD_some, show k + 1 - (pend.getD 0 + 1) = k - pend.getD 0 by omega] at this ⊢
          rw [this]
        · simp only [if_neg h3, bind_ok]
          rw [show L1.reset ⟨none, none, L⟩ pl = .ok ⟨none, none, L⟩ from rfl, bind_ok]
          have := ih none L (by simp) hL
          rw [Option.map_none] at this
          rw [this, flagged_false, show k - pend.getD 0 + (pend.getD 0 + 1) = k + 1 by omega]
          rfl
  | [], _, _ :: _, _, _, _, _, h, _, _, _ => by simp at h
  | _ :: _, _, [], _, _, _, _, h, _, _, _ => by simp at h

/-- the classes `visual_runs` looks at: those of the text at the offsets of the characters in the line -/
def lineClasses (info : BidiInfo) (line : List Nat) : List BC := (List.range line.length).map (fun k => info.classes.getD (off line k) .LeftToRight)

/-- the levels after L1 -/
def l1Levels (info : BidiInfo) (pl : Nat) (line : List Nat) : List Nat := setAll info.levels (flagged line 0 (flagsC (lineClasses info line) (some 0))) pl

theorem lineLevels_ok {info : BidiInfo} {para : Para} {line : List Nat} (h1 : blen line ≤ info.classes.length) (h2 : blen line ≤ info.levels.length) :
    lineLevels info para line = .ok (l1Levels info para.level line) := by
  have := l1_loop (line := line) (classes := info.classes) (pl := para.level) line 0 (lineClasses info line) (some 0) info.levels rfl (by omega)
    (by simp [lineClasses]) (by
      intro m hm
      rw [Nat.zero_add]
      have : off line m < info.classes.length := lt_of_lt_of_le (by rw [← off_length]; exact off_lt hm (Nat.le_refl _)) h1
      simp [lineClasses, hm, this]) (by simp) h2
  simp only [off_zero, Option.map_some, Nat.sub_self, Option.getD_some, Nat.sub_zero] at this
  unfold lineLevels l1Levels
  exact this

/-! ## the flags are those of L1 -/

theorem blankUpTo_flags : ∀ (cs : List BC) (n m : Nat), m < n → (flagsC cs (some n))[m]? = some (blankUpTo cs)
  | [], n, m, h => by simp [flagsC, blankUpTo, h]
  | c :: cs, n, m, h => by
    rw [flagsC, blankUpTo]
    split_ifs with h1 h2 h3
    · rw [lone_some, List.nil_append]; exact blankUpTo_flags cs (n + 1) m (by omega)
    · rw [List.getElem?_append_left (by simp; omega), List.getElem?_replicate, if_pos (by simp; omega)]
      simp [h2]
    · rw [blankUpTo_flags cs _ m (by simp; omega)]; simp [h2, h3]
    · rw [List.getElem?_append_left (by simp; omega), List.getElem?_replicate, if_pos (by simp; omega)]
      simp [h2, h3]

theorem flags_l1 : ∀ (cs : List BC) (pend : Option Nat) (k : Nat) (c : BC), cs[k]? = some c → isRemoved c = false →
    (flagsC cs pend)[pend.getD 0 + k]? = some (l1Resets cs k)
  | [], _, _, _, h, _ => by simp at h
  | x :: cs, pend, 0, c, h, hr => by
    simp at h; subst h
    rw [flagsC, hr, l1Resets]
    simp only [Bool.false_eq_true, if_false, List.drop_zero, Nat.add_zero]
    split_ifs with h2 h3
    · rw [List.getElem?_append_left (by simp), List.getElem?_replicate, if_pos (by omega)]; simp [h2]
    · rw [blankUpTo_flags cs _ _ (by omega)]; simp [h2, h3]
    · rw [List.getElem?_append_left (by simp), List.getElem?_replicate, if_pos (by omega)]; simp [h2, h3]
  | x :: cs, pend, k + 1, c, h, hr => by
    rw [List.getElem?_cons_succ] at h
    have hs : l1Resets (x :: cs) (k + 1) = l1Resets cs k := rfl
    rw [hs, flagsC]
    split_ifs with h1 h2 h3
    · cases pend with
      | none =>
        have := flags_l1 cs none k c h hr
        simp only [Option.getD_none, Nat.zero_add, lone_none, Option.map_none, List.singleton_append, List.getElem?_cons_succ] at this ⊢
        exact this
      | some n =>
        have := flags_l1 cs (some (n + 1)) k c h hr
        simp only [Option.getD_some, lone_some, Option.map_some, List.nil_append] at this ⊢
        rw [show n + (k + 1) = n + 1 + k by omega]; exact this
    · rw [List.getElem?_append_right (by simp), List.length_replicate, show pend.getD 0 + (k + 1) - (pend.getD 0 + 1) = k by omega]
      have := flags_l1 cs none k c h hr
      simpa using this
    · have := flags_l1 cs (some (pend.getD 0 + 1)) k c h hr
      simp only [Option.getD_some] at this
      rw [show pend.getD 0 + (k + 1) = pend.getD 0 + 1 + k by omega]; exact this
    · rw [List.getElem?_append_right (by simp), List.length_replicate, show pend.getD 0 + (k + 1) - (pend.getD 0 + 1) = k by omega]
      have := flags_l1 cs none k c h hr
      simpa using this

end Proofs.Bidi
