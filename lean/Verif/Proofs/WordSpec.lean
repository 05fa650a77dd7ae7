import Verif.Spec.Word
import Verif.Model.Word
import Mathlib.Tactic.Tauto

/-! The word boundary rules as a function of a finite summary of the text before and the text after a position. -/
namespace Proofs.Word
open Data Spec.Segment Model.Word

def isNl : WB → Bool
  | .CR => true
  | .LF => true
  | .Newline => true
  | _ => false
def ahl : WB → Bool
  | .ALetter => true
  | .HebrewLetter => true
  | _ => false
def midL : WB → Bool
  | .MidLetter => true
  | .MidNumLet => true
  | .SingleQuote => true
  | _ => false
def midN : WB → Bool
  | .MidNum => true
  | .MidNumLet => true
  | .SingleQuote => true
  | _ => false

theorem isIgn_iff (c : WB) : isIgn c = true ↔ Ignored c := by cases c <;> simp [isIgn, Ignored]
theorem isNl_iff (c : WB) : isNl c = true ↔ IsNewline c := by cases c <;> simp [isNl, IsNewline]
theorem decide_ignored (c : WB) : decide (Ignored c) = isIgn c := by
  cases h : isIgn c
  · simp only [decide_eq_false_iff_not]; rw [← isIgn_iff, h]; simp
  · simp only [decide_eq_true_eq]; rw [← isIgn_iff, h]

/-- what the rules see of the text before: the last two classes after WB4, whether the number of regional indicators
at its end is odd, and whether its last character is a ZWJ -/
structure Ctx where
  e1 : Option WB
  e2 : Option WB
  odd : Bool
  z : Bool
deriving DecidableEq, Repr

/-- the next character is absorbed if it is ignored -/
def Ctx.open (c : Ctx) : Bool := match c.e1 with | none => false | some e => !isNl e

def Ctx.push (c : Ctx) (x : WB) : Ctx :=
  if isIgn x && c.open then { c with z := x == .ZWJ }
  else { e1 := some x, e2 := c.e1, odd := x == .RegionalIndicator && !c.odd, z := x == .ZWJ }

def Ctx.nil : Ctx := ⟨none, none, false, false⟩

/-- summary of a reversed text -/
def ctx : List WB → Ctx
  | [] => .nil
  | x :: l => (ctx l).push x

/-- first class that is not skipped -/
def nextSig : List WB → Option WB
  | [] => none
  | x :: r => if isIgn x then nextSig r else some x

def optB (p : WB → Bool) : Option WB → Bool
  | none => false
  | some x => p x

/-- some rule from WB5 to WB16 applies -/
def joins (e : WB) (e2 : Option WB) (odd : Bool) (b : WB) (b2 : Option WB) : Bool :=
  (ahl e && ahl b) || (ahl e && midL b && optB ahl b2) || (midL e && ahl b && optB ahl e2)
  || (e == .HebrewLetter && b == .SingleQuote)
  || (e == .HebrewLetter && b == .DoubleQuote && b2 == some .HebrewLetter)
  || (e == .DoubleQuote && b == .HebrewLetter && e2 == some .HebrewLetter)
  || (e == .Numeric && b == .Numeric) || (ahl e && b == .Numeric) || (e == .Numeric && ahl b)
  || (midN e && b == .Numeric && e2 == some .Numeric)
  || (e == .Numeric && midN b && b2 == some .Numeric)
  || (e == .Katakana && b == .Katakana)
  || ((ahl e || e == .Numeric || e == .Katakana || e == .ExtendNumLet) && b == .ExtendNumLet)
  || (e == .ExtendNumLet && (ahl b || b == .Numeric || b == .Katakana))
  || ((e == .EBase || e == .EBaseGAZ) && b == .EModifier)
  || (e == .RegionalIndicator && b == .RegionalIndicator && odd)

/-- boundary between a text with summary `c` and a text starting with `b`, `b2` being the first class after `b` that
is not skipped -/
def bnd (c : Ctx) (b : WB) (b2 : Option WB) : Bool :=
  match c.e1 with
  | none => true
  | some e =>
    if e == .CR && b == .LF then false
    else if isNl e || isNl b then true
    else if c.z && (b == .GlueAfterZwj || b == .EBaseGAZ) then false
    else if isIgn b then false
    else !joins e c.e2 c.odd b b2

/-- boundary as a function; the text before is given reversed -/
def bw (rl r : List WB) : Bool :=
  match r with
  | [] => true
  | b :: r' => bnd (ctx rl) b (nextSig r')

/-! ### agreement with the rules -/

/-- reversed text with WB4 applied -/
def eff : List WB → List WB
  | [] => []
  | x :: l => if isIgn x && (ctx l).open then eff l else x :: eff l

def riCount : List WB → Nat
  | .RegionalIndicator :: l => riCount l + 1
  | _ => 0

theorem ctx_eff (l : List WB) :
    (ctx l).e1 = (eff l).head? ∧ (ctx l).e2 = (eff l).tail.head? ∧ (ctx l).odd = decide (riCount (eff l) % 2 = 1) := by
  induction l with
  | nil => simp [ctx, Ctx.nil, eff, riCount]
  | cons x l ih =>
    simp only [ctx, Ctx.push, eff]
    split
    · exact ih
    · refine ⟨rfl, by simpa using ih.1, ?_⟩
      show (x == .RegionalIndicator && !(ctx l).odd) = _
      rw [ih.2.2]
      by_cases hx : x = .RegionalIndicator
      · subst hx
        simp only [riCount, beq_self_eq_true, Bool.true_and]
        rcases Nat.mod_two_eq_zero_or_one (riCount (eff l)) with h | h
        · have : (riCount (eff l) + 1) % 2 = 1 := by omega
          simp [h, this]
        · have : (riCount (eff l) + 1) % 2 = 0 := by omega
          simp [h, this]
      · have : riCount (x :: eff l) = 0 := by cases x <;> first | rfl | exact absurd rfl hx
        simp [this, hx]

/-- `collapse` started after an absorbing character -/
def collapse' (absorb : Bool) (r : List WB) : List WB :=
  collapse (if absorb then r.dropWhile (fun x => decide (Ignored x)) else r)

theorem collapse_nil : collapse [] = [] := by rw [collapse]
theorem collapse_cons (c : WB) (s : List WB) : collapse (c :: s) = c :: collapse' (!isNl c) s := by
  rw [collapse, collapse']
  by_cases h : IsNewline c
  · rw [if_pos h, (isNl_iff c).mpr h]; rfl
  · have : isNl c = false := by rw [Bool.eq_false_iff]; intro h'; exact h ((isNl_iff c).mp h')
    rw [if_neg h, this]; rfl
theorem collapse'_nil (a : Bool) : collapse' a [] = [] := by cases a <;> simp [collapse', collapse_nil]
theorem collapse'_cons (a : Bool) (c : WB) (s : List WB) :
    collapse' a (c :: s) = if a && isIgn c then collapse' a s else c :: collapse' (!isNl c) s := by
  cases a
  · show collapse (c :: s) = _
    rw [collapse_cons]; rfl
  · rw [collapse', if_pos rfl, List.dropWhile_cons, decide_ignored]
    cases h : isIgn c
    · rw [if_neg (by simp), collapse_cons]; rfl
    · rw [if_pos rfl]; rfl

theorem ctx_open_cons (x : WB) (l : List WB) : (ctx (x :: l)).open = !isNl x := by
  simp only [ctx, Ctx.push]
  split
  · rename_i h
    simp only [Bool.and_eq_true] at h
    have hx : isNl x = false := by revert h; cases x <;> simp [isIgn, isNl]
    rw [hx]; exact h.2
  · rfl

/-- collapsing a text from left to right agrees with `eff` -/
theorem collapse_append (l r : List WB) : collapse (l.reverse ++ r) = (eff l).reverse ++ collapse' (ctx l).open r := by
  induction l generalizing r with
  | nil => rfl
  | cons x l ih =>
    rw [List.reverse_cons, List.append_assoc, ih, List.singleton_append, collapse'_cons]
    simp only [eff]
    rw [Bool.and_comm, ctx_open_cons]
    split
    · rename_i h
      simp only [Bool.and_eq_true] at h
      have hx : isNl x = false := by revert h; cases x <;> simp [isIgn, isNl]
      rw [h.2, hx]; rfl
    · simp

theorem collapse_reverse (l : List WB) : collapse l.reverse = (eff l).reverse := by
  have := collapse_append l []
  rw [collapse'_nil] at this
  simpa using this

theorem collapse_second (c : WB) (s : List WB) (h : isNl c = false) :
    ∃ t, collapse (c :: s) = c :: t ∧ t.head? = nextSig s := by
  refine ⟨_, collapse_cons c s, ?_⟩
  rw [h]
  show (collapse' true s).head? = _
  induction s with
  | nil => rw [collapse'_nil]; rfl
  | cons x s ih =>
    rw [collapse'_cons, nextSig, Bool.true_and]
    cases isIgn x
    · rfl
    · exact ih

theorem endsIn_rev (cs : List WB) (l : List WB) : endsIn cs l.reverse ↔ ∃ e, l.head? = some e ∧ e ∈ cs := by
  constructor
  · rintro ⟨p, c, h, hc⟩
    have := congrArg List.reverse h
    rw [List.reverse_reverse, List.reverse_append] at this
    exact ⟨c, by simp [this], hc⟩
  · rintro ⟨e, h, he⟩
    cases l with
    | nil => cases h
    | cons x l => cases h; exact ⟨l.reverse, e, by simp, he⟩

theorem endsIn2_rev (cs ds : List WB) (l : List WB) :
    endsIn2 cs ds l.reverse ↔ ∃ e f, l.head? = some e ∧ l.tail.head? = some f ∧ f ∈ cs ∧ e ∈ ds := by
  constructor
  · rintro ⟨p, c, d, h, hc, hd⟩
    have := congrArg List.reverse h
    rw [List.reverse_reverse, List.reverse_append] at this
    exact ⟨d, c, by simp [this], by simp [this], hc, hd⟩
  · rintro ⟨e, f, h, h2, hf, he⟩
    match l, h, h2 with
    | x :: y :: l, h, h2 => cases h; cases h2; exact ⟨l.reverse, f, e, by simp, hf, he⟩

theorem beginsWith_iff (cs : List WB) (l : List WB) : beginsWith cs l ↔ ∃ e, l.head? = some e ∧ e ∈ cs := by
  constructor
  · rintro ⟨c, s, rfl, h⟩; exact ⟨c, rfl, h⟩
  · rintro ⟨e, h, he⟩
    cases l with
    | nil => cases h
    | cons x l => cases h; exact ⟨e, l, rfl, he⟩

theorem beginsWith2_iff (cs ds : List WB) (l : List WB) :
    beginsWith2 cs ds l ↔ ∃ e f, l.head? = some e ∧ l.tail.head? = some f ∧ e ∈ cs ∧ f ∈ ds := by
  constructor
  · rintro ⟨c, d, s, rfl, h, h'⟩; exact ⟨c, d, rfl, rfl, h, h'⟩
  · rintro ⟨e, f, h, h2, he, hf⟩
    match l, h, h2 with
    | x :: y :: l, h, h2 => cases h; cases h2; exact ⟨e, f, l, rfl, he, hf⟩

theorem riCount_append (k : Nat) (l : List WB) :
    riCount (List.replicate k .RegionalIndicator ++ l) = k + riCount l := by
  induction k with
  | zero => simp
  | succ k ih => simp [List.replicate_succ, riCount, ih]; omega

theorem riCount_nonRI (x : WB) (l : List WB) (h : x ≠ .RegionalIndicator) : riCount (x :: l) = 0 := by
  cases x <;> first | rfl | exact absurd rfl h

theorem riCount_split (l : List WB) :
    ∃ r, l = List.replicate (riCount l) .RegionalIndicator ++ r ∧ ∀ x s, r = x :: s → x ≠ .RegionalIndicator := by
  induction l with
  | nil => exact ⟨[], by simp [riCount]⟩
  | cons x l ih =>
    by_cases hx : x = .RegionalIndicator
    · subst hx
      obtain ⟨r, h, hr⟩ := ih
      refine ⟨r, ?_, hr⟩
      simp only [riCount, List.replicate_succ, List.cons_append]
      rw [← h]
    · refine ⟨x :: l, ?_, ?_⟩
      · simp [riCount_nonRI _ _ hx]
      · rintro _ _ ⟨⟩; exact hx

theorem ri_spec (l : List WB) :
    ((∃ k, l.reverse = List.replicate (2 * k + 1) WordBreak.RegionalIndicator) ∨
     (∃ p x k, l.reverse = p ++ x :: List.replicate (2 * k + 1) .RegionalIndicator ∧ x ≠ WordBreak.RegionalIndicator))
      ↔ riCount l % 2 = 1 := by
  constructor
  · rintro (⟨k, h⟩ | ⟨p, x, k, h, hx⟩)
    · have : l = List.replicate (2 * k + 1) .RegionalIndicator ++ [] := by
        rw [← List.reverse_reverse l, h]; simp
      rw [this, riCount_append]; simp [riCount]
    · have : l = List.replicate (2 * k + 1) .RegionalIndicator ++ x :: p.reverse := by
        rw [← List.reverse_reverse l, h]; simp
      rw [this, riCount_append, riCount_nonRI _ _ hx]; omega
  · intro h
    obtain ⟨r, hl, hr⟩ := riCount_split l
    have hk : riCount l = 2 * (riCount l / 2) + 1 := by omega
    cases r with
    | nil => left; refine ⟨riCount l / 2, ?_⟩; have := congrArg List.reverse hl; rw [← hk]; simpa using this
    | cons x r =>
      right
      refine ⟨r.reverse, x, riCount l / 2, ?_, hr x r rfl⟩
      have := congrArg List.reverse hl; rw [← hk]; simpa using this

theorem breaks_cons {K : Type} (r : Rule K) (rs : List (Rule K)) (a b : List K) :
    Breaks (r :: rs) a b ↔ (r.Applies a b ∧ r.brk = true) ∨ (¬ r.Applies a b ∧ Breaks rs a b) := Iff.rfl
theorem breaks_yes {K : Type} {r : Rule K} {rs : List (Rule K)} {a b : List K} (h : r.brk = true) :
    Breaks (r :: rs) a b ↔ r.Applies a b ∨ Breaks rs a b := by
  rw [breaks_cons]; simp only [h, and_true]; tauto
theorem breaks_no {K : Type} {r : Rule K} {rs : List (Rule K)} {a b : List K} (h : r.brk = false) :
    Breaks (r :: rs) a b ↔ ¬ r.Applies a b ∧ Breaks rs a b := by
  rw [breaks_cons]; simp [h]

theorem breaks_skipping (rs : List (Rule WB)) (a b : List WB) :
    Breaks (rs.map Rule.skipping) a b ↔ Breaks rs (collapse a) (collapse b) := by
  induction rs with
  | nil => exact Iff.rfl
  | cons r rs ih => rw [List.map_cons, breaks_cons, breaks_cons, ih]; exact Iff.rfl

theorem ahl_iff (c : WB) : c ∈ AHLetter ↔ ahl c = true := by cases c <;> simp [ahl, AHLetter]
theorem midL_iff (c : WB) : c ∈ WordBreak.MidLetter :: MidNumLetQ ↔ midL c = true := by cases c <;> simp [midL, MidNumLetQ]
theorem midN_iff (c : WB) : c ∈ WordBreak.MidNum :: MidNumLetQ ↔ midN c = true := by cases c <;> simp [midN, MidNumLetQ]

theorem optB_iff (p : WB → Bool) (o : Option WB) : optB p o = true ↔ ∃ f, o = some f ∧ p f = true := by
  cases o <;> simp [optB]

theorem stage2 (L R : List WB) (e b : WB) (e2 b2 : Option WB) (hl : L.head? = some e) (h2 : L.tail.head? = e2)
    (hr : R.head? = some b) (h3 : R.tail.head? = b2) :
    Breaks wordRules2 L.reverse R ↔ joins e e2 (decide (riCount L % 2 = 1)) b b2 = false := by
  have hL : ∀ cs, endsIn cs L.reverse ↔ e ∈ cs := fun cs => by rw [endsIn_rev, hl]; simp
  have hL2 : ∀ cs ds, endsIn2 cs ds L.reverse ↔ (∃ f, e2 = some f ∧ f ∈ cs) ∧ e ∈ ds := fun cs ds => by
    rw [endsIn2_rev, hl, h2]; simp only [Option.some.injEq]
    constructor
    · rintro ⟨_, f, rfl, h, hf, he⟩; exact ⟨⟨f, h, hf⟩, he⟩
    · rintro ⟨⟨f, h, hf⟩, he⟩; exact ⟨e, f, rfl, h, hf, he⟩
  have hR : ∀ cs, beginsWith cs R ↔ b ∈ cs := fun cs => by rw [beginsWith_iff, hr]; simp
  have hR2 : ∀ cs ds, beginsWith2 cs ds R ↔ b ∈ cs ∧ ∃ f, b2 = some f ∧ f ∈ ds := fun cs ds => by
    rw [beginsWith2_iff, hr, h3]; simp only [Option.some.injEq]
    constructor
    · rintro ⟨_, f, rfl, h, he, hf⟩; exact ⟨he, f, h, hf⟩
    · rintro ⟨he, f, h, hf⟩; exact ⟨b, f, rfl, h, he, hf⟩
  have hri := ri_spec L
  generalize hk1 : (∃ k, L.reverse = List.replicate (2 * k + 1) WordBreak.RegionalIndicator) = k1 at hri
  generalize hk2 : (∃ p x k, L.reverse = p ++ x :: List.replicate (2 * k + 1) .RegionalIndicator ∧ x ≠ WordBreak.RegionalIndicator) = k2 at hri
  rw [wordRules2]
  simp only [breaks_no, Rule.Applies, hL, hL2, hR, hR2, hk1, hk2, ahl_iff, midL_iff, midN_iff]
  rw [breaks_yes rfl]
  rw [Bool.eq_false_iff]
  simp only [joins, Bool.or_eq_true, Bool.and_eq_true, beq_iff_eq, optB_iff, decide_eq_true_eq, ← hri, not_or, ne_eq,
    List.mem_singleton, List.mem_cons, List.not_mem_nil, or_false, List.mem_append, ahl_iff, Rule.Applies, any, and_true, true_or]
  simp only [exists_eq_right]
  have hri2 : k1 ∨ k2 → e = .RegionalIndicator := by
    intro h
    have := hri.mp h
    refine Decidable.byContradiction fun hne => ?_
    cases L with
    | nil => cases hl
    | cons y L => cases hl; rw [riCount_nonRI _ _ hne] at this; cases this
  clear hk1 hk2 hri hL hL2 hR hR2
  generalize (∃ f, b2 = some f ∧ ahl f = true) = g1
  generalize (∃ f, e2 = some f ∧ ahl f = true) = g2
  simp only [and_assoc]
  iterate 15 refine and_congr (by tauto) ?_
  tauto

theorem wordBoundary_iff (rl r : List WB) : WordBoundary rl.reverse r ↔ bw rl r = true := by
  rw [WordBoundary, wordRules, wordRules1]
  simp only [List.cons_append, List.nil_append]
  rw [breaks_yes rfl]
  cases rl with
  | nil =>
    have : bw [] r = true := by cases r <;> rfl
    simp [Rule.Applies, nothing, any, this]
  | cons x l =>
    rw [breaks_yes rfl]
    cases r with
    | nil => simp [Rule.Applies, nothing, any, bw]
    | cons b r' =>
      have hL : ∀ cs, endsIn cs (x :: l).reverse ↔ x ∈ cs := fun cs => by rw [endsIn_rev]; simp
      have hR : ∀ cs, beginsWith cs (b :: r') ↔ b ∈ cs := fun cs => by rw [beginsWith_iff]; simp
      have hn1 : nothing (x :: l).reverse ↔ False := by simp [nothing]
      have hn2 : nothing (b :: r') ↔ False := by simp [nothing]
      rw [breaks_no rfl, breaks_yes rfl, breaks_yes rfl, breaks_no rfl, breaks_no rfl, breaks_skipping]
      simp only [Rule.Applies, hL, hR, hn1, hn2, any, and_true, true_and, and_false, false_and, false_or]
      obtain ⟨h1, h2, h3⟩ := ctx_eff (x :: l)
      obtain ⟨e, he⟩ : ∃ e, (eff (x :: l)).head? = some e := by
        rw [← h1]; simp only [ctx, Ctx.push]
        split
        · rename_i h; simp only [Bool.and_eq_true, Ctx.open] at h
          revert h; cases (ctx l).e1 <;> simp
        · exact ⟨x, rfl⟩
      have hz : (ctx (x :: l)).z = (x == .ZWJ) := by simp only [ctx, Ctx.push]; split <;> rfl
      have hop : (!isNl e) = !isNl x := by
        rw [← ctx_open_cons x l, Ctx.open, h1, he]
      have hcr : x = .CR ↔ e = .CR := by
        have h1' := h1
        rw [he] at h1'
        simp only [ctx, Ctx.push] at h1'
        split at h1'
        · rename_i h
          simp only [Bool.and_eq_true, Ctx.open] at h
          rw [h1'] at h
          constructor
          · rintro rfl; simp [isIgn] at h
          · rintro rfl; simp [isNl] at h
        · simp at h1'; rw [h1']
      have hnlx : x = .Newline ∨ x = .CR ∨ x = .LF ↔ isNl e = true := by
        have : isNl e = isNl x := by simpa using hop
        rw [this]; cases x <;> simp [isNl]
      simp only [bw, bnd, h1, he, hz]
      by_cases c1 : x = .CR ∧ b = .LF
      · have : (e == .CR && b == .LF) = true := by simp [hcr.mp c1.1, c1.2]
        rw [if_pos this]
        simp [c1.1, c1.2]
      have n1 : (e == .CR && b == .LF) = false := by
        rw [Bool.eq_false_iff]; intro h; simp at h; exact c1 ⟨hcr.mpr h.1, h.2⟩
      rw [if_neg (by simp [n1])]
      have hnlb : b = .Newline ∨ b = .CR ∨ b = .LF ↔ isNl b = true := by cases b <;> simp [isNl]
      simp only [List.mem_cons, List.not_mem_nil, or_false, hnlx, hnlb, c1, not_false_eq_true, true_and]
      by_cases c2 : isNl e = true
      · simp [c2]
      by_cases c3 : isNl b = true
      · simp [c3]
      simp only [c2, c3, false_or]
      rw [if_neg (by simp [c2, c3])]
      by_cases c4 : x = .ZWJ ∧ (b = .GlueAfterZwj ∨ b = .EBaseGAZ)
      · rw [if_pos (by simp [c4])]; simp [c4]
      rw [if_neg (by simpa using c4)]
      have higb : b = .Extend ∨ b = .Format ∨ b = .ZWJ ↔ isIgn b = true := by cases b <;> simp [isIgn]
      rw [higb]
      by_cases c5 : isIgn b = true
      · simp [c5]
      rw [if_neg c5]
      simp only [c4, c5, not_false_eq_true, true_and]
      obtain ⟨t, ht, ht2⟩ := collapse_second b r' (by simpa using c3)
      rw [collapse_reverse, stage2 (eff (x :: l)) _ e b _ _ he h2.symm (by rw [ht]; rfl) rfl, h3]
      simp [ht, ht2]

end Proofs.Word
