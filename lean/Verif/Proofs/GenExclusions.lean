import Verif.Spec.UnicodeData
import Verif.Proofs.GenBinary

/-! # Proofs about `DerivedNormalizationProps.txt`: lines that do not match are passed over -/
namespace Proofs.GenExclusions
open Spec Spec.UcdFile Model Model.Regex Model.GenSource Proofs.Regex Proofs.GenSource Proofs.GenFiles Proofs.GenIdna Proofs.GenBinary

/-! ## What a match consumes -/

/-- every class of the expression is within `p` -/
def Only (p : Nat → Prop) : Re → Prop
  | .cls q => ∀ c, q c = true → p c
  | .seq a b => Only p a ∧ Only p b
  | .opt a => Only p a
  | .star a => Only p a
  | .cap _ a => Only p a
  | .bol => True
  | .eol => True

/-- the match went on after some characters with `p` -/
def Ate (p : Nat → Prop) (s : St) (k : St → Option St) (x : St) : Prop := ∃ u s', s.rest = u ++ s'.rest ∧ (∀ c ∈ u, p c) ∧ k s' = some x

theorem Ate.trans {p : Nat → Prop} {s : St} {k : St → Option St} {x : St} {u : List Nat} {s' : St} (h : s.rest = u ++ s'.rest) (hu : ∀ c ∈ u, p c) (h' : Ate p s' k x) : Ate p s k x := by
  obtain ⟨u', s'', h1, h2, h3⟩ := h'
  refine ⟨u ++ u', s'', by rw [h, h1, List.append_assoc], ?_, h3⟩
  intro c hc
  rcases List.mem_append.1 hc with hc | hc
  · exact hu c hc
  · exact h2 c hc

theorem run_ate (p : Nat → Prop) : ∀ (r : Re), Only p r → ∀ (s : St) (k : St → Option St) (x : St), run r s k = some x → Ate p s k x
  | .cls q, h, s, k, x, hr => by
    obtain ⟨rest, b, cs⟩ := s
    cases rest with
    | nil => cases hr
    | cons c r =>
      rw [run] at hr
      simp only at hr
      split at hr
      · rename_i hc
        exact ⟨[c], _, rfl, by simpa using h c hc, hr⟩
      · cases hr
  | .seq a b, h, s, k, x, hr => by
    obtain ⟨u, s', h1, h2, h3⟩ := run_ate p a h.1 s _ x hr
    exact Ate.trans h1 h2 (run_ate p b h.2 s' k x h3)
  | .opt a, h, s, k, x, hr => by
    rw [run] at hr
    split at hr
    · rename_i y hy
      cases hr
      exact run_ate p a h s k _ hy
    · exact ⟨[], s, rfl, by simp, hr⟩
  | .star a, h, s, k, x, hr => by
    rw [run] at hr
    generalize s.rest.length = n at hr
    induction n generalizing s with
    | zero => exact ⟨[], s, rfl, by simp, hr⟩
    | succ n ih =>
      rw [loop] at hr
      split at hr
      · rename_i y hy
        cases hr
        obtain ⟨u, s', h1, h2, h3⟩ := run_ate p a h s _ _ hy
        simp only at h3
        split at h3
        · exact Ate.trans h1 h2 (ih s' h3)
        · cases h3
      · exact ⟨[], s, rfl, by simp, hr⟩
  | .cap i a, h, s, k, x, hr => by
    obtain ⟨u, s', h1, h2, h3⟩ := run_ate p a h s _ x hr
    exact ⟨u, ⟨s'.rest, s'.start, (i, s.rest.take (s.rest.length - s'.rest.length)) :: s'.caps⟩, h1, h2, h3⟩
  | .bol, h, s, k, x, hr => by
    rw [run] at hr
    split at hr
    · exact ⟨[], s, rfl, by simp, hr⟩
    · cases hr
  | .eol, h, s, k, x, hr => by
    rw [run] at hr
    split at hr
    · exact ⟨[], s, rfl, by simp, hr⟩
    · cases hr

/-- a literal -/
theorem run_lit : ∀ (cs : List Nat) (s : St) (k : St → Option St) (x : St), run (cat (cs.map chr)) s k = some x → ∃ s', s.rest = cs ++ s'.rest ∧ (cs ≠ [] → k s' = some x)
  | [], s, k, x, _ => ⟨s, rfl, by simp⟩
  | [c], s, k, x, hr => by
    obtain ⟨rest, b, caps⟩ := s
    cases rest with
    | nil => cases hr
    | cons d r =>
      rw [List.map_cons, List.map_nil, cat, chr, run] at hr
      simp only at hr
      split at hr
      · rename_i hc
        rw [beq_iff_eq] at hc
        subst hc
        exact ⟨_, rfl, fun _ => hr⟩
      · cases hr
  | c :: c' :: cs, s, k, x, hr => by
    obtain ⟨rest, b, caps⟩ := s
    cases rest with
    | nil => cases hr
    | cons d r =>
      rw [List.map_cons, List.map_cons, cat, chr, run, run] at hr
      · simp only at hr
        split at hr
        · rename_i hc
          rw [beq_iff_eq] at hc
          subst hc
          obtain ⟨s', h1, h2⟩ := run_lit (c' :: cs) _ _ _ hr
          exact ⟨s', by rw [List.cons_append, ← h1], fun _ => h2 (by simp)⟩
        · cases hr
      · simp

theorem runs_lit : ∀ (cs : List Nat), cs ≠ [] → (∀ c ∈ cs, c ≠ 10) → ∀ (r : List Nat) (b : Bool) (caps : Caps), Runs (cat (cs.map chr)) ⟨cs ++ r, b, caps⟩ ⟨r, false, caps⟩
  | [], h, _, _, _, _ => absurd rfl h
  | [c], _, h, r, b, caps => by
    have := Runs.chr c r b caps
    rwa [show (c == 10) = false by rw [beq_eq_false_iff_ne]; exact h c (by simp)] at this
  | c :: c' :: cs, _, h, r, b, caps => by
    have h1 := Runs.chr c ((c' :: cs) ++ r) b caps
    rw [show (c == 10) = false by rw [beq_eq_false_iff_ne]; exact h c (by simp)] at h1
    exact h1.seq (runs_lit (c' :: cs) (by simp) (fun d hd => h d (by simp at hd ⊢; tauto)) r false caps)

theorem lit_eq (s : String) : lit s = cat ((TableText.text s).map chr) := by
  rw [lit, TableText.text, List.map_map]
  rfl

/-! ## Rows -/

/-- what is left after the first semicolon -/
theorem split_unique {u t u' t' : List Nat} (h : u ++ 59 :: t = u' ++ 59 :: t') (hu : 59 ∉ u) (hu' : 59 ∉ u') : t = t' := by
  induction u generalizing u' with
  | nil =>
    cases u' with
    | nil => simpa using h
    | cons d u' =>
      simp only [List.nil_append, List.cons_append, List.cons.injEq] at h
      simp [← h.1] at hu'
  | cons c u ih =>
    cases u' with
    | nil =>
      simp only [List.nil_append, List.cons_append, List.cons.injEq] at h
      simp [h.1] at hu
    | cons d u' =>
      simp only [List.cons_append, List.cons.injEq] at h
      simp only [List.mem_cons, not_or] at hu hu'
      exact ih h.2 hu.2 hu'.2

theorem digit_59 (s : List Nat) (h : IsHex s) : 59 ∉ s := by
  intro hm
  have := h.2.2 59 hm
  simp [TableText.digit] at this

theorem range_59 (r : Range) (h : r.Ok) : 59 ∉ r.text := by
  rw [Range.text]
  have h1 := digit_59 _ h.1
  cases hh : r.hi with
  | none => simpa using h1
  | some x =>
    have h2 := digit_59 _ (h.2 x hh)
    have h3 : 59 ∉ TableText.text ".." := by decide
    simp only [List.mem_append, not_or]
    exact ⟨h1, h3, h2⟩

/-- the longest word at the start -/
theorem word_prefix {v t v' t' : List Nat} (h : v ++ t = v' ++ t') (hv : ∀ c ∈ v, IsWord c) (hv' : ∀ c ∈ v', IsWord c) (ht : ∀ c, t.head? = some c → ¬ IsWord c)
    (ht' : ∀ c, t'.head? = some c → ¬ IsWord c) : v = v' := by
  induction v generalizing v' with
  | nil =>
    cases v' with
    | nil => rfl
    | cons d v' =>
      simp only [List.nil_append] at h
      exact absurd (hv' d (by simp)) (ht d (by rw [h]; rfl))
  | cons c v ih =>
    cases v' with
    | nil =>
      simp only [List.nil_append] at h
      exact absurd (hv c (by simp)) (ht' c (by rw [← h]; rfl))
    | cons d v' =>
      simp only [List.cons_append, List.cons.injEq] at h
      rw [h.1, ih h.2 (fun c hc => hv c (by simp [hc])) (fun c hc => hv' c (by simp [hc]))]

def exclusionBody : Re := cat [.cap 1 hex46, .opt (cat [chr 46, chr 46, .cap 2 hex46]), .star (.cls space), chr 59, lit " Full_Composition_Exclusion #"]

theorem only_hex : Only (· ≠ 59) hex46 := by
  have : ∀ c, xdigit c = true → c ≠ 59 := by
    rintro c hc rfl
    cases hc
  exact ⟨this, this, this, this, this, this⟩

theorem seq_ate (a b : Re) (ha : Only (· ≠ 59) a) {s : St} {k : St → Option St} {x : St} (h : run (.seq a b) s k = some x) :
    ∃ u s', s.rest = u ++ s'.rest ∧ (∀ c ∈ u, c ≠ 59) ∧ run b s' k = some x := run_ate _ a ha s _ x h

/-- a row of another property is passed over -/
theorem other_row (r : Row) (hr : r.Ok) (hv : r.value ≠ TableText.text "Full_Composition_Exclusion") (s : List Nat) : run (.seq .bol exclusionBody) ⟨r.text ++ 10 :: s, true, []⟩ some = none := by
  cases hx : run (.seq .bol exclusionBody) ⟨r.text ++ 10 :: s, true, []⟩ some with
  | none => rfl
  | some x =>
    exfalso
    obtain ⟨u0, s0, e0, p0, hx⟩ := seq_ate .bol exclusionBody trivial hx
    obtain ⟨u1, s1, e1, p1, hx⟩ := seq_ate (.cap 1 hex46) (.seq (.opt (cat [chr 46, chr 46, .cap 2 hex46])) (.seq (.star (.cls space)) (.seq (chr 59) (lit " Full_Composition_Exclusion #")))) only_hex hx
    obtain ⟨u2, s2, e2, p2, hx⟩ := seq_ate _ _ (by
      refine ⟨?_, ?_, only_hex⟩ <;>
      · rintro c hc rfl
        cases hc) hx
    obtain ⟨u3, s3, e3, p3, hx⟩ := seq_ate _ _ (by
      rintro c hc rfl
      cases hc) hx
    obtain ⟨s4, e4, hx⟩ := run_lit [59] s3 (fun s' => run (lit " Full_Composition_Exclusion #") s' some) x hx
    have hx := hx (by simp)
    rw [lit_eq] at hx
    obtain ⟨s5, e5, _⟩ := run_lit _ _ _ _ hx
    have e : r.text ++ 10 :: s = (u0 ++ (u1 ++ (u2 ++ u3))) ++ 59 :: s4.rest := by
      have e0' : r.text ++ 10 :: s = u0 ++ s0.rest := e0
      rw [e0', e1, e2, e3, e4]
      simp
    have e' : r.text ++ 10 :: s = (r.range.text ++ r.pad) ++ 59 :: (r.pad2 ++ (r.value ++ (r.tail ++ 10 :: s))) := by
      simp [Row.text]
    rw [e'] at e
    have h6 := split_unique e (by
      rw [List.mem_append, not_or]
      refine ⟨range_59 _ hr.range, fun h => ?_⟩
      rcases hr.pad.2 59 h with h | h <;> omega) (by
      simp only [List.mem_append, not_or]
      exact ⟨fun h => p0 59 h rfl, fun h => p1 59 h rfl, fun h => p2 59 h rfl, fun h => p3 59 h rfl⟩)
    rw [e5] at h6
    have h7 : TableText.text " Full_Composition_Exclusion #" ++ s5.rest = 32 :: (TableText.text "Full_Composition_Exclusion" ++ (32 :: 35 :: s5.rest)) := by
      rw [show TableText.text " Full_Composition_Exclusion #" = 32 :: (TableText.text "Full_Composition_Exclusion" ++ [32, 35]) by decide]
      simp
    rw [h7] at h6
    obtain ⟨h0, hb⟩ := hr.pad2
    cases hp : r.pad2 with
    | nil => exact h0 hp
    | cons c p =>
      rw [hp, List.cons_append, List.cons.injEq] at h6
      cases p with
      | nil =>
        refine hv (word_prefix h6.2 hr.value.2 (fun c hc => ?_) (tail_head hr s) ?_)
        · rw [← word_of]
          have : ∀ c ∈ TableText.text "Full_Composition_Exclusion", word c = true := by decide
          exact this c hc
        · intro c hc
          cases hc
          unfold IsWord
          omega
      | cons d p =>
        have h8 := h6.2
        rw [show TableText.text "Full_Composition_Exclusion" = 70 :: TableText.text "ull_Composition_Exclusion" by decide, List.cons_append, List.cons_append, List.cons.injEq] at h8
        have := hb d (by rw [hp]; simp)
        rcases this with h | h <;> omega

/-- a row of the property -/
theorem exclusion_row (r : Row) (hr : r.Ok) (hv : r.value = TableText.text "Full_Composition_Exclusion") (h2 : r.pad2 = [32]) (t : List Nat) (ht : r.tail = 32 :: 35 :: t) (s : List Nat) :
    Runs exclusionBody ⟨r.text ++ 10 :: s, true, []⟩ ⟨t ++ 10 :: s, false, rangeCaps r.range⟩ := by
  have e : r.text ++ 10 :: s = r.range.text ++ (r.pad ++ 59 :: (TableText.text " Full_Composition_Exclusion #" ++ (t ++ 10 :: s))) := by
    rw [show TableText.text " Full_Composition_Exclusion #" = 32 :: (TableText.text "Full_Composition_Exclusion" ++ [32, 35]) by decide]
    simp [Row.text, h2, hv, ht]
  rw [e]
  have e2 : TableText.text " Full_Composition_Exclusion #" = [32] ++ TableText.text "Full_Composition_Exclusion #" := by decide
  refine Runs.assoc (range_runs (· == 46) rfl r.range hr.range true _ (pad_head r.pad _ fun c hc => blank_xdigit (hr.pad.2 c hc)) ?_) ?_
  · rw [e2, List.append_assoc]
    exact pad_fails _ r.pad [32] _ hr.pad.1 (fun c hc => blank_xdigit (hr.pad.2 c hc)) (by simp) (by simp; rfl) _ _
  refine (Runs.star_cls' r.pad _ _ (fun c hc => blank_space (hr.pad.2 c hc)) (by rintro c hc; cases hc; rfl)).seq ?_
  refine (Runs.chr 59 _ _ _).seq ?_
  rw [cat, lit_eq]
  exact runs_lit _ (by decide) (by decide) _ _ _

theorem exclusion_captures (ls : List (Line Row)) (hf : FileOk UnicodeData.NormalizationRow ls) : capturesIter exclusionsRe (fileText Row.text ls) =
    ((rowsOf ls).filter fun r => r.value = TableText.text "Full_Composition_Exclusion").map fun r => rangeCaps r.range := by
  have h1 := captures_lines exclusionBody (lineText Row.text) (fun l : Line Row => match l with
    | .row x => if x.value = TableText.text "Full_Composition_Exclusion" then some (rangeCaps x.range) else none
    | .other _ => none) ls ?_ (other_fails _ (by simp) [] true (by simp))
  · have e : exclusionsRe = .seq .bol exclusionBody := rfl
    rw [e, fileText, h1, rowsOf, List.filter_filterMap, List.map_filterMap]
    congr 1
    funext l
    cases l with
    | other t => rfl
    | row x =>
      simp only [Option.filter_some, decide_eq_true_eq]
      split <;> rfl
  · intro l hl
    have h2 := hf l hl
    cases l with
    | row x =>
      refine ⟨row_line x h2.1, fun s => ?_⟩
      simp only
      by_cases hv : x.value = TableText.text "Full_Composition_Exclusion"
      · rw [if_pos hv]
        obtain ⟨h3, t, h4⟩ := h2.2 hv
        refine ⟨x.range.text ++ (x.pad ++ 59 :: (x.pad2 ++ (x.value ++ [32, 35]))), t, ?_, range_nonempty _ h2.1.range _, ?_⟩
        · simp [lineText, Row.text, h4]
        · exact (Runs.bol _ _).seq (exclusion_row x h2.1 hv h3 t h4 s) some _ rfl
      · rw [if_neg hv]
        exact other_row x h2.1 hv s
    | other t =>
      refine ⟨h2.1, fun s => ?_⟩
      have h3 : Fails exclusionBody ⟨t ++ 10 :: s, true, []⟩ := by
        refine other_fails _ (by simp) _ true ?_
        intro c hc
        rw [digit_xdigit]
        cases t with
        | nil =>
          cases hc
          rfl
        | cons d t =>
          simp only [List.cons_append, List.head?_cons, Option.some.injEq] at hc
          subst hc
          rw [h2.2 d rfl]
          rfl
      show run (.seq .bol exclusionBody) ⟨t ++ 10 :: s, true, []⟩ some = none
      rw [run, run, if_pos rfl]
      exact h3 some

/-- **The exclusions read from a file** are the characters of the rows of the property Full_Composition_Exclusion. -/
theorem exclusions_ok (ls : List (Line Row)) (hf : FileOk UnicodeData.NormalizationRow ls) : ∃ m, exclusionsFromStr (fileText Row.text ls) = .ok m ∧
    ∀ c, c ∈ m ↔ HasProperty (rowsOf ls) "Full_Composition_Exclusion" c := by
  refine ⟨((rowsOf ls).filter fun r => r.value = TableText.text "Full_Composition_Exclusion").foldl (fun m r => extendSet m (points r.range.first r.range.last)) [], ?_, ?_⟩
  · rw [exclusionsFromStr, exclusion_captures ls hf]
    refine fold_rows _ _ _ _ _ fun r hr m => ?_
    have := startEnd_ok r.range (rows_ok hf r (List.mem_filter.1 hr).1).1.range [] (by simp)
    rw [List.nil_append] at this
    rw [this]
    rfl
  · intro c
    have : ∀ (rs : List Row) (m : List Nat), c ∈ rs.foldl (fun m r => extendSet m (points r.range.first r.range.last)) m ↔ c ∈ m ∨ (IsScalar c ∧ ∃ r ∈ rs, r.range.first ≤ c ∧ c ≤ r.range.last) := by
      intro rs
      induction rs with
      | nil => simp
      | cons r rs ih =>
        intro m
        rw [List.foldl_cons, ih, mem_extendSet, mem_points]
        simp only [List.mem_cons, exists_eq_or_imp]
        tauto
    rw [this, HasProperty]
    simp only [List.not_mem_nil, false_or, List.mem_filter, decide_eq_true_eq, and_assoc]

end Proofs.GenExclusions
