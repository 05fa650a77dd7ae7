import Verif.Proofs.GenTests

/-! # Proofs about the tests made from `GraphemeBreakTest.txt` and `WordBreakTest.txt` -/
namespace Proofs.GenBreakTests
open Spec Spec.UcdFile Spec.TestFile Model Model.Regex Model.Gen Model.GenSource Model.GenUcdWriter Model.GenTests
open Proofs.Regex Proofs.GenSource Proofs.GenFiles Proofs.GenIdna Proofs.GenNames Proofs.Gen Proofs.GenTests

/-! ## Where a match can be -/

theorem cls_some {p : Nat → Bool} {s : St} {k : St → Option St} {x : St} (h : run (.cls p) s k = some x) : ∃ c r, s.rest = c :: r ∧ p c = true ∧ k ⟨r, c == 10, s.caps⟩ = some x := by
  rw [run] at h
  cases hs : s.rest with
  | nil =>
    rw [hs] at h
    cases h
  | cons c r =>
    rw [hs] at h
    simp only at h
    by_cases hp : p c = true
    · rw [if_pos hp] at h
      exact ⟨c, r, rfl, hp, h⟩
    · rw [if_neg hp] at h
      cases h

theorem loop_cls_some {p : Nat → Bool} {k : St → Option St} {x : St} : ∀ (n : Nat) (s : St), loop (run (.cls p)) n s k = some x →
    ∃ m r b, s.rest = m ++ r ∧ (∀ c ∈ m, p c = true) ∧ k ⟨r, b, s.caps⟩ = some x
  | 0, s, h => ⟨[], s.rest, s.start, rfl, by simp, h⟩
  | n + 1, s, h => by
    rw [loop] at h
    split at h
    · rename_i y hy
      cases h
      obtain ⟨c, r, h1, h2, h3⟩ := cls_some hy
      split at h3
      · obtain ⟨m, r', b, h4, h5, h6⟩ := loop_cls_some n _ h3
        refine ⟨c :: m, r', b, ?_, ?_, h6⟩
        · rw [h1, List.cons_append, ← h4]
        · intro d hd
          rcases List.mem_cons.1 hd with rfl | hd
          · exact h2
          · exact h5 d hd
      · cases h3
    · exact ⟨[], s.rest, s.start, rfl, by simp, h⟩

theorem plus_some {p : Nat → Bool} {s : St} {k : St → Option St} {x : St} (h : run (plus (.cls p)) s k = some x) :
    ∃ m r b, s.rest = m ++ r ∧ m ≠ [] ∧ (∀ c ∈ m, p c = true) ∧ k ⟨r, b, s.caps⟩ = some x := by
  rw [plus, run] at h
  obtain ⟨c, r, h1, h2, h3⟩ := cls_some h
  rw [run] at h3
  obtain ⟨m, r', b, h4, h5, h6⟩ := loop_cls_some _ _ h3
  refine ⟨c :: m, r', b, ?_, by simp, ?_, h6⟩
  · rw [h1, List.cons_append, ← h4]
  · intro d hd
    rcases List.mem_cons.1 hd with rfl | hd
    · exact h2
    · exact h5 d hd

/-- What comes after the class fails after more than `w`, and succeeds after `w`. -/
theorem loop_back' {p : Nat → Bool} {cs : Caps} {K : St → Option St} {Q : St → Prop} (t : List Nat) (h : ∀ b, ∃ x, K ⟨t, b, cs⟩ = some x ∧ Q x)
    (hf : ∀ u v b, t = u ++ v → u ≠ [] → (∀ c ∈ u, p c = true) → K ⟨v, b, cs⟩ = none) :
    ∀ (w : List Nat) (b : Bool) (n : Nat), (∀ c ∈ w, p c = true) → w.length ≤ n → ∃ x, loop (run (.cls p)) n ⟨w ++ t, b, cs⟩ K = some x ∧ Q x
  | [], b, n, _, _ => by
    have hn : ∀ n b, ∃ x, loop (run (.cls p)) n ⟨t, b, cs⟩ K = some x ∧ Q x := by
      intro n b
      cases n with
      | zero => exact h b
      | succ n =>
        rw [loop]
        split
        · rename_i y hy
          obtain ⟨c, r, h1, h2, h3⟩ := cls_some hy
          split at h3
          · obtain ⟨m, r', b', h4, h5, h6⟩ := loop_cls_some n _ h3
            have := hf (c :: m) r' b' (by rw [List.cons_append, ← h4]; exact h1) (by simp) (by
              intro d hd
              rcases List.mem_cons.1 hd with rfl | hd
              · exact h2
              · exact h5 d hd)
            rw [this] at h6
            cases h6
          · cases h3
        · exact h b
    exact hn n b
  | c :: w, b, n, hw, hn => by
    obtain ⟨n, rfl⟩ : ∃ m, n = m + 1 := ⟨n - 1, by simp only [List.length_cons] at hn; omega⟩
    simp only [List.length_cons] at hn
    obtain ⟨x, h1, h2⟩ := loop_back' t h hf w (c == 10) n (fun d hd => hw d (by simp [hd])) (by omega)
    refine ⟨x, ?_, h2⟩
    rw [loop, run]
    simp only [List.cons_append, hw c (by simp), if_true, List.length_cons, Nat.lt_succ_self, h1]

theorem loop_back {p : Nat → Bool} {cs : Caps} {K : St → Option St} {x : St} (t : List Nat) (h : ∀ b, K ⟨t, b, cs⟩ = some x)
    (hf : ∀ u v b, t = u ++ v → u ≠ [] → (∀ c ∈ u, p c = true) → K ⟨v, b, cs⟩ = none) (w : List Nat) (b : Bool) (n : Nat) (hw : ∀ c ∈ w, p c = true) (hn : w.length ≤ n) :
    loop (run (.cls p)) n ⟨w ++ t, b, cs⟩ K = some x := by
  obtain ⟨y, h1, rfl⟩ := loop_back' (Q := fun y => y = x) t (fun b => ⟨x, h b, rfl⟩) hf w b n hw hn
  exact h1

/-! ## The comment of a test -/

section
variable (w sp : Nat → Bool)

/-- neither sign is a letter or white space -/
structure Classes (w sp : Nat → Bool) : Prop where
  w247 : w 247 = false
  w215 : w 215 = false
  sp247 : sp 247 = false
  sp215 : sp 215 = false

theorem mark_cases (i : BreakItem) : i.mark = 247 ∨ i.mark = 215 := by
  unfold BreakItem.mark
  split
  · exact .inl rfl
  · exact .inr rfl

variable {w sp}

theorem mark_space (h : Classes w sp) (i : BreakItem) : uspace sp i.mark = false := by
  rcases mark_cases i with e | e <;> rw [e, uspace, if_neg (by omega)]
  · exact h.sp247
  · exact h.sp215

theorem mark_word (h : Classes w sp) (i : BreakItem) : uword w i.mark = false := by
  rcases mark_cases i with e | e <;> rw [e, uword, if_neg (by omega)]
  · exact h.w247
  · exact h.w215

theorem mark_name (h : Classes w sp) (i : BreakItem) : nameClass w sp i.mark = false := by
  unfold nameClass
  rw [mark_space h, mark_word h]
  rcases mark_cases i with e | e <;> rw [e] <;> rfl

theorem mark_line (i : BreakItem) : (i.mark == 10) = false := by
  rcases mark_cases i with e | e <;> rw [e] <;> rfl

theorem word_ascii {c : Nat} (h : IsWord c) : c < 128 := by
  unfold UcdFile.IsWord at h
  omega

theorem word_uword {c : Nat} (h : IsWord c) : uword w c = true := by
  rw [uword, if_pos (word_ascii h)]
  exact (word_of c).2 h

theorem word_uspace {c : Nat} (h : IsWord c) : uspace sp c = false ∧ c ≠ 10 := by
  rw [uspace, if_pos (word_ascii h)]
  unfold UcdFile.IsWord at h
  unfold Regex.space
  rw [Bool.eq_false_iff]
  simp only [Bool.or_eq_true, Bool.and_eq_true, decide_eq_true_eq, beq_iff_eq, ne_eq]
  omega

/-- the groups of a part of the comment -/
def itemCaps (i : BreakItem) : Caps := [(3, i.rule), (2, [i.mark]), (1, i.value)]

/-- a part of the comment -/
def itemText (i : BreakItem) : List Nat := 32 :: (i.name ++ 32 :: 40 :: (i.value ++ 41 :: 32 :: i.mark :: 32 :: 91 :: (i.rule ++ [93])))

theorem name_class (i : BreakItem) (hi : i.Ok) : ∀ c ∈ i.name, nameClass w sp c = true := by
  intro c hc
  unfold nameClass
  rcases hi.name.2.1 c hc with h | rfl | rfl | rfl | rfl | rfl | rfl
  · rw [word_uword h]
    rfl
  all_goals simp [uspace, Regex.space]

theorem name_head (i : BreakItem) (hi : i.Ok) (t : List Nat) : ∀ c, (i.name ++ t).head? = some c → uspace sp c = false := by
  intro c hc
  obtain ⟨h0, h1, h2⟩ := hi.name
  cases hn : i.name with
  | nil => exact absurd hn h0
  | cons d n =>
    rw [hn] at hc h1 h2
    simp only [List.cons_append, List.head?_cons, Option.some.injEq] at hc h2
    subst hc
    rcases h1 d (by simp) with h | h | h | h | h | h | h
    · exact (word_uspace h).1
    · exact absurd h (by simpa using h2)
    all_goals subst h; rfl

theorem rule_chars (i : BreakItem) (hi : i.Ok) : ∀ c ∈ i.rule, (c != 93) = true ∧ c ≠ 10 := by
  intro c hc
  have := hi.rule.2 c hc
  refine ⟨?_, by omega⟩
  rw [bne_iff_ne]
  omega

/-- what follows the name in the expression for a part of the comment -/
def afterName (w sp : Nat → Bool) : Re :=
  cat [plus (.cls (uspace sp)), chr 40, .cap 1 (plus (.cls (uword w))), chr 41, plus (.cls (uspace sp)),
    .cap 2 (.cls fun c => c == 247 || c == 215), plus (.cls (uspace sp)), chr 91, .cap 3 (plus (.cls fun c => c != 93)), chr 93]

theorem afterName_runs (h : Classes w sp) (i : BreakItem) (hi : i.Ok) (t : List Nat) (b : Bool) :
    Runs (afterName w sp) ⟨32 :: 40 :: (i.value ++ 41 :: 32 :: i.mark :: 32 :: 91 :: (i.rule ++ 93 :: t)), b, []⟩ ⟨t, false, itemCaps i⟩ := by
  refine (Runs.plus_cls' [32] _ _ _ (by simp) (by simp [uspace, Regex.space]) (by rintro c hc; cases hc; rfl)).seq ((Runs.chr 40 _ _ _).seq ?_)
  refine (Runs.cap (w := i.value) (b' := false) (cs' := []) (Runs.plus_cls' i.value _ _ _ hi.value.1 (fun c hc => ⟨word_uword (hi.value.2 c hc), (word_uspace (sp := sp) (hi.value.2 c hc)).2⟩)
    (by rintro c hc; cases hc; rfl))).seq ((Runs.chr 41 _ _ _).seq ?_)
  refine (Runs.plus_cls' [32] _ _ _ (by simp) (by simp [uspace, Regex.space]) (by rintro c hc; cases hc; exact mark_space h i)).seq ?_
  have hm : (fun c : Nat => c == 247 || c == 215) i.mark = true := by
    rcases mark_cases i with e | e <;> rw [e] <;> rfl
  have h1 := Runs.cls (p := fun c : Nat => c == 247 || c == 215) hm (32 :: 91 :: (i.rule ++ 93 :: t)) false [(1, i.value)]
  rw [mark_line] at h1
  refine (Runs.cap (w := [i.mark]) (b' := false) (cs' := [(1, i.value)]) h1).seq ?_
  refine (Runs.plus_cls' [32] _ _ _ (by simp) (by simp [uspace, Regex.space]) (by rintro c hc; cases hc; rfl)).seq ((Runs.chr 91 _ _ _).seq ?_)
  refine (Runs.cap (w := i.rule) (b' := false) (cs' := [(2, [i.mark]), (1, i.value)]) (Runs.plus_cls' i.rule _ _ _ hi.rule.1 (rule_chars i hi) (by rintro c hc; cases hc; rfl))).seq ?_
  exact Runs.chr 93 _ _ _

theorem afterName_fails (h : Classes w sp) (i : BreakItem) (hi : i.Ok) (z : List Nat) (u v : List Nat) (b : Bool) (cs : Caps) (k : St → Option St)
    (he : 32 :: 40 :: (i.value ++ 41 :: 32 :: i.mark :: z) = u ++ v) (hu : u ≠ []) (hc : ∀ c ∈ u, nameClass w sp c = true) : run (afterName w sp) ⟨v, b, cs⟩ k = none := by
  cases hr : run (afterName w sp) ⟨v, b, cs⟩ k with
  | none => rfl
  | some x =>
    exfalso
    rw [afterName, cat, run] at hr
    obtain ⟨m, r, b', h1, h2, h3, h4⟩ := plus_some hr
    · rw [cat, run] at h4
      obtain ⟨c, r', h5, h6, _⟩ := cls_some h4
      · simp only [beq_iff_eq] at h6
        subst h6
        simp only at h1 h5
        subst h5
        cases u with
        | nil => exact hu rfl
        | cons d u =>
          simp only [List.cons_append, List.cons.injEq] at he
          obtain ⟨rfl, he⟩ := he
          have e : (40 :: (i.value ++ [41])) ++ 32 :: i.mark :: z = u ++ v := by
            rw [← he]
            simp
          have hL : ∀ c ∈ 40 :: (i.value ++ [41]), uspace sp c = false := by
            intro c hc
            simp only [List.mem_cons, List.mem_append, List.mem_singleton, List.not_mem_nil, or_false] at hc
            rcases hc with rfl | hc | rfl
            · rfl
            · exact (word_uspace (hi.value.2 c hc)).1
            · rfl
          cases m with
          | nil => exact h2 rfl
          | cons s m =>
            have hs := h3 s (by simp)
            rw [h1] at e
            have key : ∀ a, 32 :: i.mark :: z = a ++ (s :: m ++ 40 :: r') → u = (40 :: (i.value ++ [41])) ++ a → False := by
              intro a ha hua
              cases a with
              | nil =>
                simp only [List.nil_append, List.cons_append, List.cons.injEq] at ha
                obtain ⟨rfl, ha⟩ := ha
                cases m with
                | nil =>
                  simp only [List.nil_append, List.cons.injEq] at ha
                  rcases mark_cases i with e | e <;> rw [e] at ha <;> exact absurd ha.1 (by omega)
                | cons q m =>
                  simp only [List.cons_append, List.cons.injEq] at ha
                  have := h3 q (by simp)
                  rw [← ha.1, mark_space h] at this
                  cases this
              | cons a0 a =>
                simp only [List.cons_append, List.cons.injEq] at ha
                obtain ⟨rfl, ha⟩ := ha
                cases a with
                | nil =>
                  simp only [List.nil_append, List.cons.injEq] at ha
                  rw [← ha.1, mark_space h] at hs
                  cases hs
                | cons a1 a =>
                  simp only [List.cons_append, List.cons.injEq] at ha
                  have := hc a1 (by rw [hua]; simp)
                  rw [← ha.1, mark_name h] at this
                  cases this
            rcases List.append_eq_append_iff.1 e with ⟨a, h7, h8⟩ | ⟨a, h7, h8⟩
            · exact key a h8 h7
            · cases a with
              | nil =>
                refine key [] ?_ (by simpa using h7.symm)
                simpa using h8.symm
              | cons a0 a =>
                simp only [List.cons_append, List.cons.injEq] at h8
                have := hL a0 (by rw [h7]; simp)
                rw [← h8.1, hs] at this
                cases this
      · simp
    · simp

theorem item_runs (h : Classes w sp) (i : BreakItem) (hi : i.Ok) (t : List Nat) (b : Bool) :
    Runs (commentRe w sp) ⟨itemText i ++ t, b, []⟩ ⟨t, false, itemCaps i⟩ := by
  have e : itemText i ++ t = [32] ++ (i.name ++ 32 :: 40 :: (i.value ++ 41 :: 32 :: i.mark :: 32 :: 91 :: (i.rule ++ 93 :: t))) := by simp [itemText]
  rw [e]
  refine (Runs.plus_cls' [32] _ _ _ (by simp) (by simp [uspace, Regex.space]) (name_head i hi _)).seq ?_
  intro k x hk
  have hr := fun b => afterName_runs h i hi t b k x hk
  change run (.seq (plus (.cls (nameClass w sp))) (afterName w sp)) _ k = some x
  rw [run, plus, run]
  cases hn : i.name with
  | nil => exact absurd hn hi.name.1
  | cons d n =>
    have hc := name_class (w := w) (sp := sp) i hi
    rw [hn] at hc
    rw [run]
    simp only [List.cons_append, hc d (by simp), if_true]
    rw [run]
    refine loop_back (p := nameClass w sp) _ (fun b => hr b) ?_ n _ _ (fun c hcn => hc c (by simp [hcn])) (by simp)
    intro u v b' he hu hcu
    exact afterName_fails h i hi _ u v b' _ _ he hu hcu

theorem comment_captures (h : Classes w sp) (items : List BreakItem) (hi : ∀ i ∈ items, i.Ok) : capturesIter (commentRe w sp) (items.flatMap itemText) = items.map itemCaps := by
  rw [capturesIter]
  have key : ∀ (items : List BreakItem) (n : Nat) (b : Bool), (∀ i ∈ items, i.Ok) → (items.flatMap itemText).length < n → iter (commentRe w sp) n (items.flatMap itemText) b = items.map itemCaps := by
    intro items
    induction items with
    | nil =>
      intro n b _ hn
      obtain ⟨n, rfl⟩ : ∃ m, n = m + 1 := ⟨n - 1, by omega⟩
      have : run (commentRe w sp) ⟨[], b, []⟩ some = none := (Fails.seq_left (Fails.seq_left (Fails.cls (by simp)))) some
      rw [List.flatMap_nil, iter_succ, this]
      rfl
    | cons i items ih =>
      intro n b hi hn
      obtain ⟨n, rfl⟩ : ∃ m, n = m + 1 := ⟨n - 1, by omega⟩
      have h1 := item_runs h i (hi i (by simp)) (items.flatMap itemText) b some _ rfl
      rw [List.flatMap_cons] at hn ⊢
      rw [iter_succ, h1]
      have hl : (items.flatMap itemText).length < (itemText i ++ items.flatMap itemText).length := by simp [itemText]; omega
      simp only
      rw [if_pos hl, ih n false (fun i hx => hi i (by simp [hx])) (by omega)]
      rfl
  exact key items _ true hi (Nat.lt_succ_self _)

/-! ## A line -/

/-- On its first line, a text has no letter with white space and a division sign after it. -/
def Clear (w sp : Nat → Bool) (t : List Nat) : Prop :=
  ∀ u c m z, t = u ++ c :: (m ++ 247 :: z) → 10 ∉ u → m ≠ [] → (∀ d ∈ m, uspace sp d = true) → uword w c = false

theorem clear_line (s : List Nat) : Clear w sp (10 :: s) := by
  intro u c m z h hu _ _
  cases u with
  | nil =>
    simp only [List.nil_append, List.cons.injEq] at h
    rw [← h.1]
    rfl
  | cons d u =>
    simp only [List.cons_append, List.cons.injEq] at h
    exact absurd h.1 fun e => hu (by simp [e])

theorem clear_cons {a : Nat} {t : List Nat} (ha : uword w a = false) (h : Clear w sp t) : Clear w sp (a :: t) := by
  intro u c m z he hu hm hs
  cases u with
  | nil =>
    simp only [List.nil_append, List.cons.injEq] at he
    rw [← he.1]
    exact ha
  | cons d u =>
    simp only [List.cons_append, List.cons.injEq] at he
    exact h u c m z he.2 (fun e => hu (by simp [e])) hm hs

theorem clear_seg {q : Nat} {t : List Nat} (hq : uspace sp q = false) (hq2 : q ≠ 247) (hq3 : uword w q = false) (h : Clear w sp t) : ∀ A : List Nat, 247 ∉ A → Clear w sp (A ++ q :: t)
  | [], _ => clear_cons hq3 h
  | a :: A, hA => by
    simp only [List.mem_cons, not_or] at hA
    intro u c m z he hu hm hs
    cases u with
    | nil =>
      exfalso
      simp only [List.nil_append, List.cons_append, List.cons.injEq] at he
      rcases List.append_eq_append_iff.1 he.2 with ⟨x, h1, h2⟩ | ⟨x, h1, h2⟩
      · cases x with
        | nil =>
          simp only [List.nil_append, List.cons.injEq] at h2
          exact hq2 h2.1
        | cons d x =>
          simp only [List.cons_append, List.cons.injEq] at h2
          have := hs q (by rw [h1, h2.1]; simp)
          rw [hq] at this
          cases this
      · cases x with
        | nil =>
          simp only [List.nil_append, List.cons.injEq] at h2
          exact hq2 h2.1.symm
        | cons d x =>
          simp only [List.cons_append, List.cons.injEq] at h2
          exact hA.2 (by rw [h1, ← h2.1]; simp)
    | cons d u =>
      simp only [List.cons_append, List.cons.injEq] at he
      exact clear_seg hq hq2 hq3 h A hA.2 u c m z he.2 (fun e => hu (by simp [e])) hm hs

theorem name_mark (i : BreakItem) (hi : i.Ok) : 247 ∉ i.name := by
  intro h
  rcases hi.name.2.1 _ h with h | h | h | h | h | h | h
  · exact absurd (word_ascii h) (by omega)
  all_goals omega

theorem value_mark (i : BreakItem) (hi : i.Ok) : 247 ∉ i.value := fun h => absurd (word_ascii (hi.value.2 _ h)) (by omega)

theorem rule_mark (i : BreakItem) (hi : i.Ok) : 247 ∉ i.rule := fun h => by
  have := hi.rule.2 _ h
  omega

theorem clear_items (h : Classes w sp) {t : List Nat} (ht : Clear w sp t) : ∀ items : List BreakItem, (∀ i ∈ items, i.Ok) → Clear w sp (items.flatMap itemText ++ t)
  | [], _ => ht
  | i :: items, hi => by
    have hi' := hi i (by simp)
    have ih := clear_items h ht items fun j hj => hi j (by simp [hj])
    have e : (i :: items).flatMap itemText ++ t = (32 :: (i.name ++ [32])) ++ 40 :: (i.value ++ 41 :: 32 :: i.mark :: ([32] ++ 91 :: (i.rule ++ 93 :: (items.flatMap itemText ++ t)))) := by
      simp [itemText]
    rw [e]
    refine clear_seg rfl (by omega) rfl ?_ _ (by simpa using name_mark i hi')
    refine clear_seg rfl (by omega) rfl ?_ _ (value_mark i hi')
    refine clear_cons rfl (clear_cons (mark_word h i) ?_)
    refine clear_seg rfl (by omega) rfl ?_ _ (by simp)
    exact clear_seg rfl (by omega) rfl ih _ (rule_mark i hi')

theorem clear_blanks {t : List Nat} (ht : Clear w sp t) : ∀ g : List Nat, (∀ c ∈ g, IsBlank c) → Clear w sp (g ++ t)
  | [], _ => ht
  | c :: g, h => by
    refine clear_cons ?_ (clear_blanks ht g fun d hd => h d (by simp [hd]))
    rcases h c (by simp) with rfl | rfl <;> rfl

theorem blank_uspace {c : Nat} (h : IsBlank c) : uspace sp c = true ∧ c ≠ 10 := by
  rcases h with rfl | rfl <;> exact ⟨rfl, by omega⟩

/-- the code points and the signs between them -/
def tokens : List BreakItem → List (List Nat)
  | [] => []
  | [i] => [i.code]
  | i :: r => i.code :: [i.mark] :: tokens r

/-- the part of the line with the code points -/
def source (r : BreakRow) : List Nat := UcdNames.joinWith [32] (tokens r.items)

theorem source_text : ∀ items : List BreakItem, (∃ i, items.getLast? = some i ∧ i.boundary = true) →
    (items.flatMap fun i => 32 :: (i.code ++ [32, i.mark])) = 32 :: (UcdNames.joinWith [32] (tokens items) ++ [32, 247])
  | [], h => by
    obtain ⟨i, h, _⟩ := h
    cases h
  | [i], h => by
    obtain ⟨j, h, hb⟩ := h
    simp only [List.getLast?_singleton, Option.some.injEq] at h
    subst h
    simp [tokens, UcdNames.joinWith, BreakItem.mark, hb]
  | i :: j :: r, h => by
    have ih := source_text (j :: r) (by simpa using h)
    have hne : tokens (j :: r) ≠ [] := by cases r <;> simp [tokens]
    obtain ⟨a, l, ha⟩ := List.exists_cons_of_ne_nil hne
    have e : tokens (i :: j :: r) = i.code :: [i.mark] :: tokens (j :: r) := rfl
    rw [List.flatMap_cons, ih, e, ha]
    simp [UcdNames.joinWith]

theorem hex_shape {p : List Nat} (h : IsHex p) : ∃ c m d, p = c :: (m ++ [d]) := by
  obtain ⟨h4, _, _⟩ := h
  cases p with
  | nil => simp at h4
  | cons c p =>
    cases hp : p.reverse with
    | nil =>
      rw [List.reverse_eq_nil_iff] at hp
      rw [hp] at h4
      simp at h4
    | cons d m =>
      refine ⟨c, m.reverse, d, ?_⟩
      rw [← List.reverse_reverse p, hp]
      simp

theorem hex_uword {p : List Nat} (h : IsHex p) : ∀ c ∈ p, uword w c = true ∧ c ≠ 10 ∧ uspace sp c = false := by
  intro c hc
  have := h.2.2 c hc
  have hw : UcdFile.IsWord c := by
    unfold TableText.digit at this
    unfold UcdFile.IsWord
    split at this
    · omega
    · split at this
      · omega
      · split at this
        · omega
        · cases this
  exact ⟨word_uword hw, (word_uspace (sp := sp) hw).2, (word_uspace hw).1⟩

theorem source_shape : ∀ items : List BreakItem, items ≠ [] → (∀ i ∈ items, i.Ok) → ∃ c m d, UcdNames.joinWith [32] (tokens items) = c :: (m ++ [d]) ∧
    uword w c = true ∧ uspace sp c = false ∧ uword w d = true ∧ ∀ x ∈ m, (x != 10) = true
  | [], h, _ => absurd rfl h
  | [i], _, hi => by
    have hc := (hi i (by simp)).code
    obtain ⟨c, m, d, h⟩ := hex_shape hc
    have hx := hex_uword (w := w) (sp := sp) hc
    rw [h] at hx
    refine ⟨c, m, d, h, (hx c (by simp)).1, (hx c (by simp)).2.2, (hx d (by simp)).1, fun x hm => ?_⟩
    rw [bne_iff_ne]
    exact (hx x (by simp [hm])).2.1
  | i :: j :: r, _, hi => by
    obtain ⟨c, m, d, h, _, _, h3, h4⟩ := source_shape (j :: r) (by simp) fun x hx => hi x (List.mem_cons_of_mem _ hx)
    have hc := (hi i (by simp)).code
    obtain ⟨c', m', d', h'⟩ := hex_shape hc
    have hx := hex_uword (w := w) (sp := sp) hc
    have hne : tokens (j :: r) ≠ [] := by cases r <;> simp [tokens]
    obtain ⟨a, l, ha⟩ := List.exists_cons_of_ne_nil hne
    have hc10 : c ≠ 10 := by
      rintro rfl
      simp_all [uword, Regex.word, Regex.digit, Regex.alpha]
    refine ⟨c', m' ++ d' :: 32 :: i.mark :: 32 :: c :: m, d, ?_, ?_, ?_, h3, ?_⟩
    · rw [tokens, ha, UcdNames.joinWith, UcdNames.joinWith, ← ha, h, h']
      all_goals simp
    · exact (hx c' (by rw [h']; simp)).1
    · exact (hx c' (by rw [h']; simp)).2.2
    · intro x hm
      rw [bne_iff_ne]
      simp only [List.mem_append, List.mem_cons] at hm
      rcases hm with hm | rfl | rfl | rfl | rfl | rfl | hm
      · exact (hx x (by rw [h']; simp [hm])).2.1
      · exact (hx x (by rw [h']; simp)).2.1
      · omega
      · rcases mark_cases i with e | e <;> rw [e] <;> omega
      · omega
      · exact hc10
      · simpa [bne_iff_ne] using h4 x hm

theorem run_seq {a b : Re} {s s1 x : St} {k : St → Option St} (h1 : Runs a s s1) (h2 : run b s1 k = some x) : run (.seq a b) s k = some x := h1 _ _ h2

/-- what follows the code points in the expression for a line -/
def afterSource (sp : Nat → Bool) : Re :=
  cat [plus (.cls (uspace sp)), chr 247,
    .star (.cls (uspace sp)), chr 35, .star (.cls (uspace sp)), chr 247, plus (.cls (uspace sp)), lit "[0.2]", .cap 2 (.star dot), .star (.cls (uspace sp)), .eol]

/-- the line after the code points, up to the end of the line -/
def afterText (r : BreakRow) (s : List Nat) : List Nat := 32 :: 247 :: (r.gap ++ 35 :: (r.gap2 ++ 247 :: 32 :: (TableText.text "[0.2]" ++ (r.items.flatMap itemText ++ 10 :: s))))

theorem line_text (r : BreakRow) (hr : r.Ok) (s : List Nat) : r.text ++ 10 :: s = 247 :: 32 :: (source r ++ afterText r s) := by
  rw [BreakRow.text, source_text r.items hr.last]
  have : (fun i : BreakItem => 32 :: (i.name ++ 32 :: 40 :: (i.value ++ 41 :: 32 :: i.mark :: 32 :: 91 :: (i.rule ++ [93])))) = itemText := rfl
  rw [this]
  simp [source, afterText]

theorem clear_after (h : Classes w sp) (r : BreakRow) (hr : r.Ok) (s : List Nat) : Clear w sp (afterText r s) := by
  have h247 : uword w 247 = false := by
    rw [uword, if_neg (by omega)]
    exact h.w247
  rw [afterText]
  refine clear_cons rfl (clear_cons h247 (clear_blanks (clear_cons rfl (clear_blanks (clear_cons h247 (clear_cons rfl ?_)) _ hr.gap2)) _ hr.gap))
  have e : TableText.text "[0.2]" ++ (r.items.flatMap itemText ++ 10 :: s) = [91, 48, 46, 50] ++ 93 :: (r.items.flatMap itemText ++ 10 :: s) := by simp [TableText.text]
  rw [e]
  exact clear_seg rfl (by omega) rfl (clear_items h (clear_line s) r.items hr.items) _ (by simp)

theorem items_line (items : List BreakItem) (hi : ∀ i ∈ items, i.Ok) : ∀ c ∈ items.flatMap itemText, (c != 10) = true ∧ c ≠ 10 := by
  intro c hc
  rw [bne_iff_ne, and_self]
  rw [List.mem_flatMap] at hc
  obtain ⟨i, h1, h2⟩ := hc
  have hi := hi i h1
  simp only [itemText, List.mem_cons, List.mem_append, List.not_mem_nil, or_false] at h2
  rcases h2 with rfl | h2 | rfl | rfl | h2 | rfl | rfl | h2 | rfl | rfl | h2 | rfl
  · omega
  · rcases hi.name.2.1 c h2 with h | h | h | h | h | h | h
    · exact (word_uspace (sp := fun _ => false) h).2
    all_goals omega
  · omega
  · omega
  · exact (word_uspace (sp := fun _ => false) (hi.value.2 c h2)).2
  · omega
  · omega
  · rcases mark_cases i with e | e <;> rw [h2, e] <;> omega
  · omega
  · omega
  · exact (rule_chars i hi c h2).2
  · omega

/-- the groups of a line -/
def rowCaps (r : BreakRow) : Caps := [(2, r.items.flatMap itemText), (1, source r)]

theorem after_run (h : Classes w sp) (r : BreakRow) (hr : r.Ok) (s : List Nat) (b : Bool) (k : St → Option St) (x : St)
    (hk : run (.seq (.star (.cls (uspace sp))) .eol) ⟨10 :: s, false, rowCaps r⟩ k = some x) : run (afterSource sp) ⟨afterText r s, b, [(1, source r)]⟩ k = some x := by
  have h247 : ∀ (c : List Nat) (c' : Nat), (247 :: c).head? = some c' → uspace sp c' = false := by
    rintro c _ hc
    cases hc
    rw [uspace, if_neg (by omega)]
    exact h.sp247
  rw [afterText, afterSource]
  refine run_seq (Runs.plus_cls' [32] _ _ _ (by simp) (by simp [uspace, Regex.space]) (h247 _)) (run_seq (Runs.chr 247 _ _ _) ?_)
  refine run_seq (Runs.star_cls' r.gap _ _ (fun c hc => blank_uspace (hr.gap c hc)) (by rintro c hc; cases hc; rfl)) (run_seq (Runs.chr 35 _ _ _) ?_)
  refine run_seq (Runs.star_cls' r.gap2 _ _ (fun c hc => blank_uspace (hr.gap2 c hc)) (h247 _)) (run_seq (Runs.chr 247 _ _ _) ?_)
  refine run_seq (Runs.plus_cls' [32] _ _ _ (by simp) (by simp [uspace, Regex.space]) (by rintro c hc; cases hc; rfl)) ?_
  refine run_seq (s1 := ⟨r.items.flatMap itemText ++ 10 :: s, false, [(1, source r)]⟩) ?_ ?_
  · exact (Runs.chr 91 _ _ _).seq ((Runs.chr 48 _ _ _).seq ((Runs.chr 46 _ _ _).seq ((Runs.chr 50 _ _ _).seq (Runs.chr 93 _ _ _))))
  · refine run_seq (Runs.cap (b' := false) (cs' := [(1, source r)]) (Runs.star_cls' _ _ _ (items_line r.items hr.items) (by rintro c hc; cases hc; rfl))) hk

/-- The expression for a line, from the start of a test. -/
theorem line_run (h : Classes w sp) (r : BreakRow) (hr : r.Ok) (s : List Nat) (k : St → Option St) (x : St)
    (hk : run (.seq (.star (.cls (uspace sp))) .eol) ⟨10 :: s, false, rowCaps r⟩ k = some x) : run (lineRe w sp) ⟨r.text ++ 10 :: s, true, []⟩ k = some x := by
  have h0 : r.items ≠ [] := by
    obtain ⟨i, hi, _⟩ := hr.last
    intro e
    rw [e] at hi
    cases hi
  obtain ⟨c, m, d, e1, hc, hcs, hd, hm⟩ := source_shape (w := w) (sp := sp) r.items h0 hr.items
  have e1 : source r = c :: (m ++ [d]) := e1
  rw [line_text r hr]
  refine run_seq (Runs.bol _ _) ?_
  have h247 : uspace sp 247 = false := by
    rw [uspace, if_neg (by omega)]
    exact h.sp247
  refine run_seq (Runs.star_nil (Fails.cls (by rintro c hc; cases hc; exact h247))) (run_seq (Runs.chr 247 _ _ _) ?_)
  refine run_seq (Runs.plus_cls' [32] (source r ++ afterText r s) _ _ (by simp) (by simp [uspace, Regex.space]) (by rw [e1]; rintro c' hc'; cases hc'; exact hcs)) ?_
  change run (.seq (.cap 1 (cat [.cls (uword w), .star dot, .cls (uword w)])) (afterSource sp)) _ k = some x
  have hgoal := after_run h r hr s (d == 10) k x hk
  rw [e1]
  change run (.cls (uword w)) ⟨c :: (m ++ [d] ++ afterText r s), false, []⟩ (fun s1 => loop (run dot) s1.rest.length s1 fun s' => run (.cls (uword w)) s' fun s'' => run (afterSource sp) ⟨s''.rest, s''.start,
      (1, (c :: (m ++ [d] ++ afterText r s)).take ((c :: (m ++ [d] ++ afterText r s)).length - s''.rest.length)) :: s''.caps⟩ k) = some x
  rw [run]
  simp only [hc, if_true]
  have hloop : ∀ K : St → Option St, (K = fun s' => run (.cls (uword w)) s' fun s'' => run (afterSource sp) ⟨s''.rest, s''.start,
      (1, (c :: (m ++ [d] ++ afterText r s)).take ((c :: (m ++ [d] ++ afterText r s)).length - s''.rest.length)) :: s''.caps⟩ k) →
      loop (run dot) (m ++ [d] ++ afterText r s).length ⟨m ++ [d] ++ afterText r s, c == 10, []⟩ K = some x := by
    intro K hK
    have e2 : m ++ [d] ++ afterText r s = m ++ (d :: afterText r s) := by simp
    rw [e2]
    refine loop_back (p := fun c => c != 10) (d :: afterText r s) ?_ ?_ m _ _ hm (by simp)
    · intro b
      rw [hK]
      beta_reduce
      rw [run]
      simp only [hd, if_true]
      have e3 : (c :: (m ++ [d] ++ afterText r s)).take ((c :: (m ++ [d] ++ afterText r s)).length - (afterText r s).length) = source r := by
        rw [e1, show c :: (m ++ [d] ++ afterText r s) = (c :: (m ++ [d])) ++ afterText r s by simp, List.length_append, Nat.add_sub_cancel, List.take_left]
      rw [e3]
      exact hgoal
    · intro u v b he hu hcu
      cases hv : K ⟨v, b, []⟩ with
      | none => rfl
      | some y =>
        exfalso
        rw [hK] at hv
        obtain ⟨c1, r1, h1, h2, h3⟩ := cls_some hv
        obtain ⟨m2, r2, b2, h4, h5, h6, h7⟩ := plus_some (p := uspace sp) (k := fun s => run _ s k) h3
        obtain ⟨c3, r3, h8, h9, _⟩ := cls_some (p := fun c => c == 247) (k := fun s => run _ s k) h7
        simp only [beq_iff_eq] at h9
        subst h9
        simp only at h1 h4 h8
        cases u with
        | nil => exact hu rfl
        | cons u0 u =>
          simp only [List.cons_append, List.cons.injEq] at he
          have := clear_after h r hr s u c1 m2 r3 (by rw [he.2, h1, h4, h8]) (fun h10 => by
            have := hcu 10 (by simp [h10])
            cases this) h5 h6
          rw [this] at h2
          cases h2
  exact hloop _ rfl

/-! ## The end of the line and empty lines -/

/-- a match ends at or after its start -/
theorem run_le : ∀ (r : Re) (s : St) (k : St → Option St) (x : St), run r s k = some x → ∃ s', s'.rest.length ≤ s.rest.length ∧ k s' = some x
  | .cls p, s, k, x, h => by
    obtain ⟨c, r, h1, _, h3⟩ := cls_some h
    exact ⟨_, by simp [h1], h3⟩
  | .seq a b, s, k, x, h => by
    rw [run] at h
    obtain ⟨s1, h1, h2⟩ := run_le a s _ x h
    obtain ⟨s2, h3, h4⟩ := run_le b s1 k x h2
    exact ⟨s2, by omega, h4⟩
  | .opt a, s, k, x, h => by
    rw [run] at h
    cases h1 : run a s k with
    | none =>
      rw [h1] at h
      exact ⟨s, Nat.le_refl _, h⟩
    | some y =>
      rw [h1] at h
      cases h
      exact run_le a s k x h1
  | .star a, s, k, x, h => by
    rw [run] at h
    have hl : ∀ (n : Nat) (s : St), loop (run a) n s k = some x → ∃ s', s'.rest.length ≤ s.rest.length ∧ k s' = some x := by
      intro n
      induction n with
      | zero =>
        intro s h
        exact ⟨s, Nat.le_refl _, h⟩
      | succ n ih =>
        intro s h
        rw [loop] at h
        cases h1 : run a s fun s' => if s'.rest.length < s.rest.length then loop (run a) n s' k else none with
        | none =>
          rw [h1] at h
          exact ⟨s, Nat.le_refl _, h⟩
        | some y =>
          rw [h1] at h
          cases h
          obtain ⟨s1, h2, h3⟩ := run_le a s _ x h1
          split at h3
          · obtain ⟨s2, h4, h5⟩ := ih s1 h3
            exact ⟨s2, by omega, h5⟩
          · cases h3
    exact hl _ s h
  | .cap i a, s, k, x, h => by
    rw [run] at h
    obtain ⟨s1, h1, h2⟩ := run_le a s _ x h
    exact ⟨⟨s1.rest, s1.start, (i, List.take (s.rest.length - s1.rest.length) s.rest) :: s1.caps⟩, h1, h2⟩
  | .bol, s, k, x, h => by
    rw [run] at h
    split at h
    · exact ⟨s, Nat.le_refl _, h⟩
    · cases h
  | .eol, s, k, x, h => by
    rw [run] at h
    split at h
    · exact ⟨s, Nat.le_refl _, h⟩
    · cases h

/-- white space and the end of the line: as many empty lines as there are are taken -/
theorem tail_run (cs : Caps) (k : Nat) (X : List Nat) (hX : ∀ c, X.head? = some c → uspace sp c = false) (b0 : Bool) :
    ∃ b, run (.seq (.star (.cls (uspace sp))) .eol) ⟨10 :: (List.replicate k 10 ++ X), b0, cs⟩ some = some ⟨if X = [] then [] else 10 :: X, b, cs⟩ := by
  have hw : ∀ m, ∀ c ∈ List.replicate m 10, uspace sp c = true := by
    intro m c hc
    rw [List.eq_of_mem_replicate hc]
    rfl
  rw [run, run]
  by_cases h0 : X = []
  · subst h0
    have e : 10 :: (List.replicate k 10 ++ []) = List.replicate (k + 1) 10 ++ [] := by simp [List.replicate_succ]
    rw [e]
    obtain ⟨x, h1, b, h2⟩ := loop_back' (p := uspace sp) (cs := cs) (K := fun s' => run .eol s' some) (Q := fun x => ∃ b, x = ⟨[], b, cs⟩) []
      (fun b => ⟨_, by simp [run], b, rfl⟩) (fun u v b h hu _ => absurd (List.append_eq_nil_iff.1 h.symm).1 hu) (List.replicate (k + 1) 10) b0
      (List.replicate (k + 1) 10 ++ []).length (hw _) (by simp)
    exact ⟨b, by rw [if_pos rfl, ← h2]; exact h1⟩
  · have e : 10 :: (List.replicate k 10 ++ X) = List.replicate k 10 ++ 10 :: X := by
      rw [← List.cons_append, ← List.replicate_succ, List.replicate_succ']
      simp
    rw [e]
    obtain ⟨x, h1, b, h2⟩ := loop_back' (p := uspace sp) (cs := cs) (K := fun s' => run .eol s' some) (Q := fun x => ∃ b, x = ⟨10 :: X, b, cs⟩) (10 :: X)
      (fun b => ⟨_, by simp [run], b, rfl⟩) (fun u v b h hu hs => by
        cases u with
        | nil => exact absurd rfl hu
        | cons u0 u =>
          simp only [List.cons_append, List.cons.injEq] at h
          cases u with
          | nil =>
            rw [List.nil_append] at h
            rw [run, if_neg, ]
            rintro (h' | h')
            · exact h0 (h.2.trans h')
            · have := hX 10 (by rw [h.2]; exact h')
              cases this
          | cons u1 u =>
            have := hX u1 (by rw [h.2]; rfl)
            rw [hs u1 (by simp)] at this
            cases this) (List.replicate k 10) b0 (List.replicate k 10 ++ 10 :: X).length (hw _) (by simp)
    exact ⟨b, by rw [if_neg h0, ← h2]; exact h1⟩

/-- the expression for a line without its start -/
def lineBody (w sp : Nat → Bool) : Re :=
  cat [chr 247, plus (.cls (uspace sp)), .cap 1 (cat [.cls (uword w), .star dot, .cls (uword w)]), plus (.cls (uspace sp)), chr 247,
    .star (.cls (uspace sp)), chr 35, .star (.cls (uspace sp)), chr 247, plus (.cls (uspace sp)), lit "[0.2]", .cap 2 (.star dot), .star (.cls (uspace sp)), .eol]

theorem lineRe_eq : lineRe w sp = .seq .bol (.seq (.star (.cls (uspace sp))) (lineBody w sp)) := rfl

theorem body_fails (s : St) (k : St → Option St) (h : s.rest.head? ≠ some 247) : run (lineBody w sp) s k = none := by
  cases hr : run (lineBody w sp) s k with
  | none => rfl
  | some x =>
    obtain ⟨c, r, h1, h2, _⟩ := cls_some (p := fun c => c == 247) (k := fun s => run _ s k) hr
    simp only [beq_iff_eq] at h2
    exact absurd (by rw [h1, h2]; rfl) h

theorem run_blank (s : List Nat) : run (lineRe w sp) ⟨10 :: s, true, []⟩ some = run (lineRe w sp) ⟨s, true, []⟩ some := by
  rw [lineRe_eq, run, run, run, run, run, run]
  simp only [if_true]
  rw [run, run, List.length_cons, loop, run]
  have : uspace sp 10 = true := rfl
  simp only [this, if_true, List.length_cons, Nat.lt_succ_self]
  have : ((10 : Nat) == 10) = true := rfl
  rw [this]
  cases h : loop (run (.cls (uspace sp))) s.length ⟨s, true, []⟩ fun s' => run (lineBody w sp) s' some with
  | none => exact body_fails _ _ (by simp)
  | some y => rfl

theorem line_shorter (s : St) (x : St) (h : run (lineRe w sp) s some = some x) : x.rest.length < s.rest.length := by
  rw [lineRe_eq, run, run] at h
  split at h
  · rw [run] at h
    obtain ⟨s1, h1, h2⟩ := run_le _ _ _ _ h
    obtain ⟨c, r, h3, _, h5⟩ := cls_some (p := fun c => c == 247) (k := fun s => run _ s some) h2
    obtain ⟨s3, h6, h7⟩ := run_le _ _ _ _ h5
    cases h7
    have : s1.rest.length = r.length + 1 := by rw [h3]; rfl
    simp only at h6
    omega
  · cases h

theorem iter_blank (n m : Nat) (s : List Nat) (hn : s.length + 1 < n) (hm : s.length < m) : iter (lineRe w sp) n (10 :: s) true = iter (lineRe w sp) m s true := by
  obtain ⟨n, rfl⟩ : ∃ k, n = k + 1 := ⟨n - 1, by omega⟩
  obtain ⟨m, rfl⟩ : ∃ k, m = k + 1 := ⟨m - 1, by omega⟩
  rw [iter_succ, run_blank]
  cases h : run (lineRe w sp) ⟨s, true, []⟩ some with
  | none =>
    simp only
    exact iter_fuel _ _ _ _ _ (by omega) (by omega)
  | some x =>
    have hx := line_shorter _ _ h
    simp only at hx
    rw [iter_succ, h]
    simp only [List.length_cons]
    rw [if_pos (by omega), if_pos hx, iter_fuel _ n m _ _ (by omega) (by omega)]

theorem iter_blanks (X : List Nat) : ∀ (k n m : Nat), k + X.length < n → X.length < m → iter (lineRe w sp) n (List.replicate k 10 ++ X) true = iter (lineRe w sp) m X true
  | 0, n, m, hn, hm => by
    rw [List.replicate_zero, List.nil_append]
    exact iter_fuel _ _ _ _ _ (by omega) (by omega)
  | k + 1, n, m, hn, hm => by
    rw [List.replicate_succ, List.cons_append, iter_blank n (k + X.length + 1) _ (by simp; omega) (by simp)]
    exact iter_blanks X k _ _ (by omega) hm

theorem file_blanks (ls : List (Line BreakRow)) (hf : BreakFileOk ls) (h : Classes w sp) :
    ∃ k X, fileText BreakRow.text ls = List.replicate k 10 ++ X ∧ ∀ c, X.head? = some c → uspace sp c = false := by
  induction ls with
  | nil => exact ⟨0, [], rfl, by simp⟩
  | cons l ls ih =>
    obtain ⟨k, X, h1, h2⟩ := ih fun x hx => hf x (by simp [hx])
    have hl := hf l (by simp)
    cases l with
    | row r =>
      refine ⟨0, _, (List.nil_append _).symm, fun c hc => ?_⟩
      simp only [fileText, List.flatMap_cons, lineText, BreakRow.text, List.cons_append, List.head?_cons, Option.some.injEq] at hc
      rw [← hc, uspace, if_neg (by omega)]
      exact h.sp247
    | other t =>
      cases t with
      | nil => exact ⟨k + 1, X, by rw [fileText, List.flatMap_cons, ← fileText, h1]; simp [lineText, List.replicate_succ], h2⟩
      | cons c t =>
        refine ⟨0, _, (List.nil_append _).symm, fun d hd => ?_⟩
        simp only [fileText, List.flatMap_cons, lineText, List.cons_append, List.head?_cons, Option.some.injEq] at hd
        have := hl.2 c rfl
        rw [← hd, this]
        rfl

theorem line_fails (s : List Nat) (b : Bool) (h1 : ∀ c, s.head? = some c → uspace sp c = false) (h2 : s.head? ≠ some 247) : run (lineRe w sp) ⟨s, b, []⟩ some = none := by
  rw [lineRe_eq, run, run]
  split
  · rw [run, run]
    cases s with
    | nil => exact body_fails (w := w) (sp := sp) ⟨[], b, []⟩ some h2
    | cons c s =>
      rw [List.length_cons, loop, run]
      have := h1 c rfl
      simp only [this, Bool.false_eq_true, if_false]
      exact body_fails ⟨c :: s, b, []⟩ _ h2
  · rfl

theorem iter_lines (h : Classes w sp) : ∀ (ls : List (Line BreakRow)), BreakFileOk ls → ∀ n, (fileText BreakRow.text ls).length < n →
    iter (lineRe w sp) n (fileText BreakRow.text ls) true = (rowsOf ls).map rowCaps
  | [], _, n, hn => by
    obtain ⟨n, rfl⟩ : ∃ k, n = k + 1 := ⟨n - 1, by omega⟩
    rw [iter_succ, fileText, List.flatMap_nil, line_fails [] true (by simp) (by simp)]
    rfl
  | .row r :: ls, hf, n, hn => by
    have hr : r.Ok := hf (.row r) (by simp)
    have hf' : BreakFileOk ls := fun x hx => hf x (by simp [hx])
    obtain ⟨k, X, hX, hsp⟩ := file_blanks ls hf' h
    obtain ⟨b, ht⟩ := tail_run (rowCaps r) k X hsp false
    have e : fileText BreakRow.text (.row r :: ls) = r.text ++ 10 :: fileText BreakRow.text ls := by
      rw [fileText, List.flatMap_cons, ← fileText]
      simp [lineText]
    obtain ⟨n, rfl⟩ : ∃ k, n = k + 1 := ⟨n - 1, by omega⟩
    rw [e] at hn ⊢
    have hrun := line_run h r hr (fileText BreakRow.text ls) some _ (by rw [hX]; exact ht)
    have hlt := line_shorter _ _ hrun
    rw [iter_succ, hrun]
    simp only at hlt ⊢
    rw [if_pos hlt]
    have hrows : rowsOf (.row r :: ls) = r :: rowsOf ls := rfl
    rw [hrows, List.map_cons, ← iter_lines h ls hf' ((fileText BreakRow.text ls).length + 1) (by omega)]
    congr 1
    rw [hX]
    have hlen : (fileText BreakRow.text ls).length = k + X.length := by rw [hX]; simp
    have hn : (fileText BreakRow.text ls).length + 2 < n + 1 := by
      simp only [List.length_append, List.length_cons, BreakRow.text] at hn
      omega
    rw [iter_blanks X k _ (X.length + 1) (by simp) (by omega)]
    by_cases h0 : X = []
    · subst h0
      rw [if_pos rfl]
      have : ∀ m b, iter (lineRe w sp) (m + 1) [] b = [] := by
        intro m b
        rw [iter_succ, line_fails [] b (by simp) (by simp)]
      obtain ⟨n, rfl⟩ : ∃ k, n = k + 1 := ⟨n - 1, by omega⟩
      rw [this, this]
    · rw [if_neg h0]
      simp only [if_neg h0, List.length_cons, List.length_append] at hlt
      cases b with
      | true => exact iter_blank _ _ _ (by omega) (by omega)
      | false =>
        have := iter_inside (.seq (.star (.cls (uspace sp))) (lineBody w sp)) [] X n (by simp)
        rw [← lineRe_eq, List.nil_append] at this
        by_cases hn2 : X.length + 1 < n
        · rw [this (by simpa using hn2)]
          exact iter_fuel _ _ _ _ _ (by simp; omega) (by omega)
        · exfalso
          omega
  | .other [] :: ls, hf, n, hn => by
    have hf' : BreakFileOk ls := fun x hx => hf x (by simp [hx])
    have e : fileText BreakRow.text (.other [] :: ls) = 10 :: fileText BreakRow.text ls := by
      rw [fileText, List.flatMap_cons, ← fileText]
      simp [lineText]
    rw [e] at hn ⊢
    rw [iter_blank n _ _ (by simpa using hn) (Nat.lt_succ_self _), iter_lines h ls hf' _ (Nat.lt_succ_self _)]
    rfl
  | .other (c :: t) :: ls, hf, n, hn => by
    have hf' : BreakFileOk ls := fun x hx => hf x (by simp [hx])
    have hl : 10 ∉ (c :: t) ∧ ∀ d, (c :: t).head? = some d → d = 35 := hf (.other (c :: t)) (by simp)
    have hc := hl.2 c rfl
    subst hc
    have e : fileText BreakRow.text (.other (35 :: t) :: ls) = 35 :: (t ++ 10 :: fileText BreakRow.text ls) := by
      rw [fileText, List.flatMap_cons, ← fileText]
      simp [lineText]
    rw [e] at hn ⊢
    obtain ⟨n, rfl⟩ : ∃ k, n = k + 1 := ⟨n - 1, by omega⟩
    rw [iter_succ, line_fails _ true (by rintro c hc; cases hc; rfl) (by simp)]
    simp only
    have h10 : ((35 : Nat) == 10) = false := rfl
    simp only [List.length_cons, List.length_append] at hn
    rw [h10, lineRe_eq, iter_inside _ t _ n (fun h => hl.1 (by simp [h])) (by omega), ← lineRe_eq]
    exact iter_lines h ls hf' _ (by omega)

theorem line_captures (h : Classes w sp) (ls : List (Line BreakRow)) (hf : BreakFileOk ls) :
    capturesIter (lineRe w sp) (fileText BreakRow.text ls) = (rowsOf ls).map rowCaps := iter_lines h ls hf _ (Nat.lt_succ_self _)

/-! ## A test -/

theorem step2_tokens : ∀ items : List BreakItem, step2 (tokens items) = items.map BreakItem.code
  | [] => rfl
  | [_] => rfl
  | i :: j :: r => by
    have ih := step2_tokens (j :: r)
    have e : tokens (i :: j :: r) = i.code :: [i.mark] :: tokens (j :: r) := rfl
    rw [e, step2, ih]
    rfl

theorem step2_marks : ∀ items : List BreakItem, step2 ((tokens items).drop 1) = items.dropLast.map fun i => [i.mark]
  | [] => rfl
  | [_] => rfl
  | [i, j] => rfl
  | i :: j :: l :: r => by
    have ih := step2_marks (j :: l :: r)
    have e : tokens (i :: j :: l :: r) = i.code :: [i.mark] :: j.code :: [j.mark] :: tokens (l :: r) := rfl
    have e2 : tokens (j :: l :: r) = j.code :: [j.mark] :: tokens (l :: r) := rfl
    rw [e2] at ih
    rw [e]
    simp only [List.drop_succ_cons, List.drop_zero] at ih ⊢
    rw [step2, ih]
    rfl

theorem tokens_length : ∀ items : List BreakItem, items ≠ [] → (tokens items).length + 1 = items.length * 2
  | [], h => absurd rfl h
  | [_], _ => rfl
  | i :: j :: r, _ => by
    have ih := tokens_length (j :: r) (by simp)
    have e : tokens (i :: j :: r) = i.code :: [i.mark] :: tokens (j :: r) := rfl
    rw [e, List.length_cons, List.length_cons]
    simp only [List.length_cons] at ih ⊢
    omega

theorem tokens_white : ∀ items : List BreakItem, (∀ i ∈ items, i.Ok) → ∀ x ∈ tokens items, x ≠ [] ∧ ∀ c ∈ x, isWhitespace c = false
  | [], _, _, hx => by cases hx
  | [i], hi, x, hx => by
    simp only [tokens, List.mem_singleton] at hx
    subst hx
    exact ⟨GenTests.hex_nonempty (hi i (by simp)).code, GenTests.hex_white (hi i (by simp)).code⟩
  | i :: j :: r, hi, x, hx => by
    have e : tokens (i :: j :: r) = i.code :: [i.mark] :: tokens (j :: r) := rfl
    rw [e, List.mem_cons, List.mem_cons] at hx
    rcases hx with rfl | rfl | hx
    · exact ⟨GenTests.hex_nonempty (hi i (by simp)).code, GenTests.hex_white (hi i (by simp)).code⟩
    · refine ⟨by simp, fun c hc => ?_⟩
      simp only [List.mem_singleton] at hc
      subst hc
      rcases mark_cases i with e | e <;> rw [e] <;> decide +kernel
    · exact tokens_white (j :: r) (fun k hk => hi k (List.mem_cons_of_mem _ hk)) x hx

/-- the three groups of each item, in a row -/
def flat (items : List BreakItem) : List (List Nat) := items.flatMap fun i => [i.value, [i.mark], i.rule]

theorem flat_length : ∀ items, (flat items).length = items.length * 3
  | [] => rfl
  | i :: r => by
    have := flat_length r
    rw [flat, List.flatMap_cons, ← flat, List.length_append, this, List.length_cons]
    simp
    omega

theorem step3_flat (v : List Nat) : ∀ items : List BreakItem, step3 (flat items ++ [v]) = items.map BreakItem.value ++ [v]
  | [] => rfl
  | i :: r => by
    have ih := step3_flat v r
    rw [flat, List.flatMap_cons, ← flat]
    change step3 (i.value :: [i.mark] :: i.rule :: (flat r ++ [v])) = _
    rw [step3, ih]
    rfl

theorem step3_rules (v x : List Nat) : ∀ items : List BreakItem, step3 (x :: (flat items ++ [v])) = x :: items.map BreakItem.rule
  | [] => rfl
  | i :: r => by
    have ih := step3_rules v i.rule r
    rw [flat, List.flatMap_cons, ← flat]
    change step3 (x :: i.value :: [i.mark] :: (i.rule :: (flat r ++ [v]))) = _
    rw [step3, ih]
    rfl

theorem commentItems_ok (h : Classes w sp) (items : List BreakItem) (hi : ∀ i ∈ items, i.Ok) : commentItems w sp (items.flatMap itemText) = .ok (flat items) := by
  rw [commentItems, comment_captures h items hi, GenTests.mapAll_map _ itemCaps (fun i => [i.value, [i.mark], i.rule]) items (fun i _ => rfl)]
  rfl

/-- the test of a row -/
def testOf (r : BreakRow) : BreakTest := ⟨r.chars, r.items.map BreakItem.value, r.items.dropLast.map BreakItem.boundary, r.items.dropLast.map BreakItem.rule⟩

theorem chars_scalar : ∀ l : List Nat, (∀ c ∈ l, IsScalar c) → l.filterMap Utf.charFromU32 = l
  | [], _ => rfl
  | c :: l, h => by
    have hc := h c (by simp)
    have : Utf.charFromU32 c = some c := by
      rw [Utf.charFromU32, if_pos (by unfold IsScalar at hc; omega)]
    rw [List.filterMap_cons, this, chars_scalar l fun d hd => h d (by simp [hd])]

theorem chars_not : ∀ l : List Nat, (¬ ∀ c ∈ l, IsScalar c) → (l.filterMap Utf.charFromU32).length < l.length
  | [], h => absurd (by simp) h
  | c :: l, h => by
    rw [List.filterMap_cons]
    by_cases hc : IsScalar c
    · have : Utf.charFromU32 c = some c := by
        rw [Utf.charFromU32, if_pos (by unfold IsScalar at hc; omega)]
      rw [this]
      have := chars_not l fun hl => h (by simpa [hc] using hl)
      simpa using this
    · have : Utf.charFromU32 c = none := by
        rw [Utf.charFromU32, if_neg (by unfold IsScalar at hc; omega)]
      rw [this]
      have := List.length_filterMap_le Utf.charFromU32 l
      simp only [List.length_cons]
      omega

theorem breakToken_ok (i : BreakItem) : breakToken [i.mark] = .ok i.boundary := by
  unfold breakToken BreakItem.mark
  cases i.boundary <;> rfl

theorem breakStep_ok (h : Classes w sp) (r : BreakRow) (hr : r.Ok) : GenTests.breakStep w sp (rowCaps r) = .ok (if r.IsTest then some (testOf r) else none) := by
  obtain ⟨last, hlast, _⟩ := hr.last
  obtain ⟨init, hinit⟩ : ∃ init, r.items = init ++ [last] := by
    rw [List.getLast?_eq_some_iff] at hlast
    exact hlast
  have hne : r.items ≠ [] := by rw [hinit]; simp
  have g1 : group (rowCaps r) 1 = .ok (source r) := rfl
  have g2 : group (rowCaps r) 2 = .ok (r.items.flatMap itemText) := rfl
  have e1 : splitWhitespace (source r) = tokens r.items :=
    GenTests.split_white _ (fun e => by have := tokens_length r.items hne; rw [e] at this; simp at this; omega) (tokens_white r.items hr.items)
  have e2 : mapAll hexU32 (r.items.map BreakItem.code) = .ok r.chars :=
    GenTests.mapAll_map hexU32 BreakItem.code _ _ fun i hi => (hexU32_ok (hr.items i hi).code).1
  have e3 : mapAll breakToken (r.items.dropLast.map fun i => [i.mark]) = .ok (r.items.dropLast.map BreakItem.boundary) :=
    GenTests.mapAll_map _ _ _ _ fun i _ => breakToken_ok i
  have hlen : r.chars.length = r.items.length := by rw [BreakRow.chars, List.length_map]
  rw [GenTests.breakStep, g1, g2]
  simp only [bind_ok, bind_ok', e1, step2_tokens, e2, step2_marks, e3]
  by_cases ht : r.IsTest
  · have hc : r.chars.filterMap Utf.charFromU32 = r.chars := by
      refine chars_scalar _ fun c hc => ?_
      rw [BreakRow.chars, List.mem_map] at hc
      obtain ⟨i, hi, rfl⟩ := hc
      exact ht i hi
    have hil : r.items.length = init.length + 1 := by rw [hinit]; simp
    have hdl : r.items.dropLast = init := by rw [hinit]; simp
    have htk : (flat r.items).take ((flat r.items).length - 2) = flat init ++ [last.value] := by
      have : flat r.items = (flat init ++ [last.value]) ++ [[last.mark], last.rule] := by rw [hinit]; simp [flat]
      rw [this]
      rw [show ((flat init ++ [last.value]) ++ [[last.mark], last.rule]).length - 2 = (flat init ++ [last.value]).length by simp]
      exact List.take_left ..
    have hdr : step3 ((flat init ++ [last.value]).drop 2) = init.map BreakItem.rule := by
      cases init with
      | nil => rfl
      | cons i init => exact step3_rules last.value i.rule init
    have hv : r.items.map BreakItem.value = init.map BreakItem.value ++ [last.value] := by rw [hinit]; simp
    have htl := tokens_length r.items hne
    rw [hc, if_neg (by simp), if_pos ht]
    simp only [require, commentItems_ok h r.items hr.items, bind_ok, bind_ok', htk, step3_flat, hdr]
    rw [if_pos (by omega), if_pos (by simp [hlen]), if_pos (by rw [flat_length]; omega), if_pos (by simp [flat_length]; omega), if_pos (by simp; omega), if_pos (by simp; omega)]
    rw [testOf, hv, hdl]
  · have hc := chars_not r.chars (fun hs => ht fun i hi => hs _ (by rw [BreakRow.chars, List.mem_map]; exact ⟨i, hi, rfl⟩))
    rw [if_pos (by omega), if_neg ht]
    rfl

theorem filter_tests : ∀ l : List BreakRow, (l.map fun r => if r.IsTest then some (testOf r) else none).filterMap id = (l.filter fun r => decide r.IsTest).map testOf
  | [] => rfl
  | r :: l => by
    have ih := filter_tests l
    simp only [List.filterMap_map, Function.comp_def, id] at ih
    by_cases h : r.IsTest <;> simp [h, ih]

theorem tests_ok (h : Classes w sp) (ls : List (Line BreakRow)) (hf : BreakFileOk ls) : breakTestsFromStr w sp (fileText BreakRow.text ls) = .ok ((testsOf ls).map testOf) := by
  have hm : mapAll (GenTests.breakStep w sp) ((rowsOf ls).map rowCaps) = .ok ((rowsOf ls).map fun r => if r.IsTest then some (testOf r) else none) := by
    refine GenTests.mapAll_map _ _ _ _ fun r hr => breakStep_ok h r ?_
    rw [rowsOf, List.mem_filterMap] at hr
    obtain ⟨l, hl, hr⟩ := hr
    cases l with
    | row r' =>
      cases hr
      exact hf (.row r) hl
    | other t => cases hr
  rw [breakTestsFromStr, line_captures h ls hf, hm]
  simp only [bind_ok, pure_ok]
  rw [filter_tests, testsOf]

end
end Proofs.GenBreakTests
