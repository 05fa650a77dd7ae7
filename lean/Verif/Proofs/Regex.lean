import Verif.Model.Regex

/-! # Proofs about the regular expressions: matches without backtracking, and searches line by line -/
namespace Proofs.Regex
open Model.Regex

/-- `r` first tries the end `s'`: if the rest succeeds there, that is the match. -/
def Runs (r : Re) (s s' : St) : Prop := ∀ k x, k s' = some x → run r s k = some x

/-- `r` does not match at `s`. -/
def Fails (r : Re) (s : St) : Prop := ∀ k, run r s k = none

/-- `r` matches nothing that is followed by something other than `P`. -/
def FailsTo (P : St → Prop) (r : Re) (s : St) : Prop := ∀ k, (∀ s', P s' → k s' = none) → run r s k = none

theorem Runs.seq {a b : Re} {s s1 s2 : St} (h1 : Runs a s s1) (h2 : Runs b s1 s2) : Runs (.seq a b) s s2 := by
  intro k x hk
  exact h1 _ x (h2 k x hk)

theorem Runs.opt {a : Re} {s s' : St} (h : Runs a s s') : Runs (.opt a) s s' := by
  intro k x hk
  simp only [run, h k x hk]

theorem Fails.opt {a : Re} {s : St} (h : Fails a s) : Runs (.opt a) s s := by
  intro k x hk
  simp only [run, h k, hk]

theorem Runs.cls {p : Nat → Bool} {c : Nat} (hc : p c = true) (r : List Nat) (b : Bool) (cs : Caps) : Runs (.cls p) ⟨c :: r, b, cs⟩ ⟨r, c == 10, cs⟩ := by
  intro k x hk
  simp only [run, hc, if_true, hk]

theorem Runs.chr (c : Nat) (r : List Nat) (b : Bool) (cs : Caps) : Runs (chr c) ⟨c :: r, b, cs⟩ ⟨r, c == 10, cs⟩ := Runs.cls (by simp) r b cs

theorem Fails.cls {p : Nat → Bool} {s : St} (h : ∀ c, s.rest.head? = some c → p c = false) : Fails (.cls p) s := by
  intro k
  obtain ⟨rest, b, cs⟩ := s
  cases rest with
  | nil => rfl
  | cons c r => simp [run, h c rfl]

theorem Fails.seq_left {a b : Re} {s : St} (h : Fails a s) : Fails (.seq a b) s := fun k => h _

theorem Fails.seq_right {a b : Re} {s s' : St} (h1 : FailsTo (· = s') a s) (h2 : Fails b s') : Fails (.seq a b) s := by
  intro k
  apply h1
  rintro _ rfl
  exact h2 k

theorem FailsTo.cls {p : Nat → Bool} (c : Nat) (r : List Nat) (b : Bool) (cs : Caps) : FailsTo (· = ⟨r, c == 10, cs⟩) (.cls p) ⟨c :: r, b, cs⟩ := by
  intro k hk
  simp only [run, hk _ rfl, ite_self]

theorem Fails.cap {i : Nat} {a : Re} {s : St} (h : Fails a s) : Fails (.cap i a) s := fun k => h _

theorem Runs.cap {i : Nat} {a : Re} {w t : List Nat} {b b' : Bool} {cs cs' : Caps} (h : Runs a ⟨w ++ t, b, cs⟩ ⟨t, b', cs'⟩) :
    Runs (.cap i a) ⟨w ++ t, b, cs⟩ ⟨t, b', (i, w) :: cs'⟩ := by
  intro k x hk
  refine h _ x ?_
  simpa using hk

theorem Runs.bol (s : List Nat) (cs : Caps) : Runs .bol ⟨s, true, cs⟩ ⟨s, true, cs⟩ := by
  intro k x hk
  simpa [run] using hk

theorem Fails.bol (s : List Nat) (cs : Caps) : Fails .bol ⟨s, false, cs⟩ := by
  intro k
  simp [run]

theorem Runs.eol (s : List Nat) (b : Bool) (cs : Caps) : Runs .eol ⟨10 :: s, b, cs⟩ ⟨10 :: s, b, cs⟩ := by
  intro k x hk
  simpa [run] using hk

/-- the bound on the repetitions does not matter -/
theorem loop_fuel (f : Matcher) : ∀ (n m : Nat) (s : St) (k : St → Option St), s.rest.length ≤ n → s.rest.length ≤ m →
    (∀ s k, (∀ s' : St, k s' = none) → f s k = none) → loop f n s k = loop f m s k
  | 0, 0, _, _, _, _, _ => rfl
  | 0, m + 1, s, k, h, _, hf => by
    have : (fun s' : St => if s'.rest.length < s.rest.length then loop f m s' k else none) = fun _ => none := by
      funext s'
      rw [if_neg (by omega)]
    rw [loop, loop, this, hf _ _ (fun _ => rfl)]
  | n + 1, 0, s, k, _, h, hf => by
    have : (fun s' : St => if s'.rest.length < s.rest.length then loop f n s' k else none) = fun _ => none := by
      funext s'
      rw [if_neg (by omega)]
    rw [loop, loop, this, hf _ _ (fun _ => rfl)]
  | n + 1, m + 1, s, k, h1, h2, hf => by
    have : (fun s' : St => if s'.rest.length < s.rest.length then loop f n s' k else none) = fun s' : St => if s'.rest.length < s.rest.length then loop f m s' k else none := by
      funext s'
      split
      · exact loop_fuel f n m s' k (by omega) (by omega) hf
      · rfl
    rw [loop, loop, this]

/-- nothing matches if nothing may follow -/
theorem run_none : ∀ (r : Re) (s : St) (k : St → Option St), (∀ s', k s' = none) → run r s k = none
  | .cls p, ⟨[], b, cs⟩, k, h => rfl
  | .cls p, ⟨c :: r, b, cs⟩, k, h => by simp [run, h]
  | .seq a b, s, k, h => run_none a s _ fun s' => run_none b s' k h
  | .opt a, s, k, h => by simp only [run, run_none a s k h, h]
  | .star a, s, k, h => by
    rw [run]
    generalize s.rest.length = n
    induction n generalizing s with
    | zero => exact h s
    | succ n ih =>
      rw [loop, run_none a s _ (fun s' => by split; exact ih s'; rfl)]
      exact h s
  | .cap i a, s, k, h => run_none a s _ fun s' => h _
  | .bol, s, k, h => by
    simp only [run, h]
    split <;> rfl
  | .eol, s, k, h => by
    simp only [run, h]
    split <;> rfl

theorem Runs.star_cons {a : Re} {s s1 s2 : St} (h1 : Runs a s s1) (hl : s1.rest.length < s.rest.length) (h2 : Runs (.star a) s1 s2) : Runs (.star a) s s2 := by
  intro k x hk
  have h3 := h2 k x hk
  rw [run] at h3 ⊢
  obtain ⟨n, hn⟩ : ∃ n, s.rest.length = n + 1 := ⟨s.rest.length - 1, by omega⟩
  rw [hn, loop, h1 _ x]
  rw [if_pos hl, loop_fuel (run a) n s1.rest.length s1 k (by omega) (Nat.le_refl _) (run_none a)]
  exact h3

theorem Runs.star_nil {a : Re} {s : St} (h : Fails a s) : Runs (.star a) s s := by
  intro k x hk
  rw [run]
  cases s.rest.length with
  | zero => exact hk
  | succ n => rw [loop, h]; exact hk

theorem ends_append {p : Nat → Bool} {w : List Nat} (hw : ∀ c ∈ w, p c = true) : w.getLast? = some 10 → p 10 = true := by
  intro h
  exact hw _ (List.mem_of_getLast? h)

/-- all of `w` is in the class and the class does not contain a line feed -/
theorem Runs.star_cls {p : Nat → Bool} (h10 : p 10 = false) : ∀ (w t : List Nat) (cs : Caps), (∀ c ∈ w, p c = true) → (∀ c, t.head? = some c → p c = false) →
    Runs (.star (.cls p)) ⟨w ++ t, false, cs⟩ ⟨t, false, cs⟩
  | [], t, cs, _, ht => Runs.star_nil (Fails.cls ht)
  | c :: w, t, cs, hw, ht => by
    have hc : (c == 10) = false := by
      rw [beq_eq_false_iff_ne]
      rintro rfl
      rw [hw 10 (by simp)] at h10
      cases h10
    have h1 := Runs.cls (p := p) (hw c (by simp)) (w ++ t) false cs
    rw [hc] at h1
    exact Runs.star_cons h1 (by simp) (Runs.star_cls h10 w t cs (fun c h => hw c (by simp [h])) ht)

/-- the same for a class that contains a line feed, for text without one -/
theorem Runs.star_cls' {p : Nat → Bool} : ∀ (w t : List Nat) (cs : Caps), (∀ c ∈ w, p c = true ∧ c ≠ 10) → (∀ c, t.head? = some c → p c = false) →
    Runs (.star (.cls p)) ⟨w ++ t, false, cs⟩ ⟨t, false, cs⟩
  | [], t, cs, _, ht => Runs.star_nil (Fails.cls ht)
  | c :: w, t, cs, hw, ht => by
    have hc : (c == 10) = false := by
      rw [beq_eq_false_iff_ne]
      exact (hw c (by simp)).2
    have h1 := Runs.cls (p := p) (hw c (by simp)).1 (w ++ t) false cs
    rw [hc] at h1
    exact Runs.star_cons h1 (by simp) (Runs.star_cls' w t cs (fun c h => hw c (by simp [h])) ht)

theorem Runs.plus_cls' {p : Nat → Bool} (w t : List Nat) (b : Bool) (cs : Caps) (h0 : w ≠ []) (hw : ∀ c ∈ w, p c = true ∧ c ≠ 10) (ht : ∀ c, t.head? = some c → p c = false) :
    Runs (plus (.cls p)) ⟨w ++ t, b, cs⟩ ⟨t, false, cs⟩ := by
  cases w with
  | nil => exact absurd rfl h0
  | cons c w =>
    have hc : (c == 10) = false := by
      rw [beq_eq_false_iff_ne]
      exact (hw c (by simp)).2
    have h1 := Runs.cls (p := p) (hw c (by simp)).1 (w ++ t) b cs
    rw [hc] at h1
    exact h1.seq (Runs.star_cls' w t cs (fun c h => hw c (by simp [h])) ht)

/-! ## Hexadecimal numbers of four to six digits -/

theorem xdigit_ne {c : Nat} (h : xdigit c = true) : (c == 10) = false := by
  rw [beq_eq_false_iff_ne]
  rintro rfl
  cases h

theorem Runs.hex46 (w t : List Nat) (b : Bool) (cs : Caps) (h4 : 4 ≤ w.length) (h6 : w.length ≤ 6) (hw : ∀ c ∈ w, xdigit c = true)
    (ht : ∀ c, t.head? = some c → xdigit c = false) : Runs hex46 ⟨w ++ t, b, cs⟩ ⟨t, false, cs⟩ := by
  have step : ∀ {c : Nat} {r : List Nat} {b : Bool}, xdigit c = true → Runs (.cls xdigit) ⟨c :: r, b, cs⟩ ⟨r, false, cs⟩ := by
    intro c r b hc
    have h1 := Runs.cls (p := xdigit) hc r b cs
    rwa [xdigit_ne hc] at h1
  match w, h4, h6, hw with
  | [c1, c2, c3, c4], _, _, hw =>
    refine (step (hw c1 (by simp))).seq ((step (hw c2 (by simp))).seq ((step (hw c3 (by simp))).seq ((step (hw c4 (by simp))).seq ?_)))
    exact Fails.opt (Fails.seq_left (Fails.cls ht))
  | [c1, c2, c3, c4, c5], _, _, hw =>
    refine (step (hw c1 (by simp))).seq ((step (hw c2 (by simp))).seq ((step (hw c3 (by simp))).seq ((step (hw c4 (by simp))).seq ?_)))
    exact Runs.opt ((step (hw c5 (by simp))).seq (Fails.opt (Fails.cls ht)))
  | [c1, c2, c3, c4, c5, c6], _, _, hw =>
    refine (step (hw c1 (by simp))).seq ((step (hw c2 (by simp))).seq ((step (hw c3 (by simp))).seq ((step (hw c4 (by simp))).seq ?_)))
    exact Runs.opt ((step (hw c5 (by simp))).seq (Runs.opt (step (hw c6 (by simp)))))

theorem Fails.hex46 {s : St} (h : ∀ c, s.rest.head? = some c → xdigit c = false) : Fails hex46 s := Fails.seq_left (Fails.cls h)

/-- A hexadecimal number is not followed by `q` unless the text after its digits is. -/
theorem FailsTo.hex46 (q : Nat → Bool) (hq : ∀ c, xdigit c = true → q c = false) (w t : List Nat) (b : Bool) (cs : Caps) (hw : ∀ c ∈ w, xdigit c = true)
    (ht : ∀ c, t.head? = some c → q c = false) (ht' : ∀ c, t.head? = some c → xdigit c = false) :
    FailsTo (fun s => ∀ c, s.rest.head? = some c → q c = false) hex46 ⟨w ++ t, b, cs⟩ := by
  intro k hk
  -- the states after a prefix of the digits
  have inv : ∀ (r : Re) (w : List Nat) (b : Bool) (k : St → Option St), (r = .cls xdigit) → (∀ c ∈ w, xdigit c = true) →
      (∀ w' b', (∀ c ∈ w', xdigit c = true) → k ⟨w' ++ t, b', cs⟩ = none) → run r ⟨w ++ t, b, cs⟩ k = none := by
    rintro r w b k rfl hw hk
    cases w with
    | nil =>
      exact Fails.cls (s := ⟨t, b, cs⟩) ht' k
    | cons c w =>
      have := hk w (c == 10) (fun c h => hw c (by simp [h]))
      simp only [List.cons_append, run, this, ite_self]
  have base : ∀ w' b', (∀ c ∈ w', xdigit c = true) → k ⟨w' ++ t, b', cs⟩ = none := by
    intro w' b' hw'
    apply hk
    intro c hc
    cases w' with
    | nil => exact ht c hc
    | cons d w' =>
      simp only [List.cons_append, List.head?_cons, Option.some.injEq] at hc
      subst hc
      exact hq d (hw' d (by simp))
  rw [Model.Regex.hex46]
  simp only [run.eq_2]
  refine inv _ w b _ rfl hw fun w b hw => inv _ w b _ rfl hw fun w b hw => inv _ w b _ rfl hw fun w b hw => inv _ w b _ rfl hw fun w b hw => ?_
  simp only [run.eq_3]
  have h1 : run (Re.seq (.cls xdigit) (.opt (.cls xdigit))) ⟨w ++ t, b, cs⟩ k = none := by
    rw [run]
    refine inv _ w b _ rfl hw fun w b hw => ?_
    rw [run, inv _ w b _ rfl hw base]
    exact base w b hw
  rw [h1]
  exact base w b hw

/-! ## Line by line -/

theorem iter_succ (r : Re) (n : Nat) (s : List Nat) (b : Bool) : iter r (n + 1) s b = match run r ⟨s, b, []⟩ some with
    | some st => st.caps :: (if st.rest.length < s.length then iter r n st.rest st.start else [])
    | none => match s with
      | [] => []
      | c :: s' => iter r n s' (c == 10) := by
  cases s <;> rfl

/-- enough steps are enough -/
theorem iter_fuel (r : Re) : ∀ (n m : Nat) (s : List Nat) (b : Bool), s.length < n → s.length < m → iter r n s b = iter r m s b
  | 0, _, _, _, h, _ => by omega
  | _ + 1, 0, _, _, _, h => by omega
  | n + 1, m + 1, s, b, h1, h2 => by
    rw [iter_succ, iter_succ]
    split
    · rename_i st _
      split
      · rw [iter_fuel r n m st.rest st.start (by omega) (by omega)]
      · rfl
    · cases s with
      | nil => rfl
      | cons c s' =>
        simp only [List.length_cons] at h1 h2
        exact iter_fuel r n m s' (c == 10) (by omega) (by omega)

/-- an expression that starts with `^` is not found inside a line -/
theorem iter_inside (r : Re) : ∀ (u s : List Nat) (n : Nat), 10 ∉ u → u.length + s.length + 1 < n →
    iter (.seq .bol r) n (u ++ 10 :: s) false = iter (.seq .bol r) (n - u.length - 1) s true
  | [], s, n, _, hn => by
    obtain ⟨n, rfl⟩ : ∃ m, n = m + 1 := ⟨n - 1, by omega⟩
    simp [iter, run]
  | c :: u, s, n, hu, hn => by
    obtain ⟨n, rfl⟩ : ∃ m, n = m + 1 := ⟨n - 1, by omega⟩
    simp only [List.mem_cons, not_or] at hu
    have hc : (c == 10) = false := by
      rw [beq_eq_false_iff_ne]
      exact fun h => hu.1 h.symm
    simp only [List.length_cons] at hn
    simp only [iter, run, List.cons_append, hc]
    have := iter_inside r u s n hu.2 (by omega)
    simp only [List.length_cons]
    simp only [Bool.false_eq_true, if_false]
    rw [this]
    congr 1
    omega

/-- A match on a line ends on that line; `txt` is the text of a line and `f` gives the groups captured on it. -/
def OnLines {E : Type} (r : Re) (txt : E → List Nat) (f : E → Option Caps) (lines : List E) : Prop :=
  ∀ l ∈ lines, 10 ∉ txt l ∧ ∀ s, match f l with
    | some c => ∃ u t, txt l = u ++ t ∧ u ≠ [] ∧ run r ⟨txt l ++ 10 :: s, true, []⟩ some = some ⟨t ++ 10 :: s, false, c⟩
    | none => run r ⟨txt l ++ 10 :: s, true, []⟩ some = none

theorem iter_lines {E : Type} (r : Re) (txt : E → List Nat) (f : E → Option Caps) : ∀ (lines : List E), OnLines (.seq .bol r) txt f lines →
    ∀ n, (lines.flatMap fun l => txt l ++ [10]).length < n →
    iter (.seq .bol r) n (lines.flatMap fun l => txt l ++ [10]) true = lines.filterMap f ++ iter (.seq .bol r) 1 [] true
  | [], _, n, hn => by
    obtain ⟨n, rfl⟩ : ∃ m, n = m + 1 := ⟨n - 1, by omega⟩
    simp only [List.flatMap_nil, List.filterMap_nil, List.nil_append]
    exact iter_fuel _ _ _ _ _ (by simp) (by simp)
  | l :: lines, h, n, hn => by
    obtain ⟨n, rfl⟩ : ∃ m, n = m + 1 := ⟨n - 1, by omega⟩
    have ih := iter_lines r txt f lines fun l hl => h l (by simp [hl])
    obtain ⟨hl, hs⟩ := h l (by simp)
    have hs := hs (lines.flatMap fun l => txt l ++ [10])
    simp only [List.flatMap_cons, List.append_assoc, List.cons_append, List.nil_append] at hn ⊢
    generalize (lines.flatMap fun l => txt l ++ [10]) = R at *
    have key : ∀ (u : List Nat) (m : Nat), 10 ∉ u → (u ++ 10 :: R).length < m →
        iter (.seq .bol r) m (u ++ 10 :: R) false = lines.filterMap f ++ iter (.seq .bol r) 1 [] true := by
      intro u m hu hm
      simp only [List.length_append, List.length_cons] at hm
      rw [iter_inside r u _ m hu (by omega), ih _ (by omega)]
    cases hf : f l with
    | some c =>
      rw [hf] at hs
      obtain ⟨u, t, he, hu, hr⟩ := hs
      rw [iter_succ, hr]
      have hlen : (t ++ 10 :: R).length < (txt l ++ 10 :: R).length := by
        have := List.length_pos_iff.2 hu
        simp only [he, List.length_append]
        omega
      simp only
      rw [if_pos hlen, key t n (fun h => hl (by simp [he, h])) (by omega), List.filterMap_cons_some hf]
      rfl
    | none =>
      rw [hf] at hs
      rw [iter_succ, hs, List.filterMap_cons_none hf]
      cases htl : txt l with
      | nil =>
        simp only [List.nil_append]
        rw [show ((10 : Nat) == 10) = true from rfl, ih n (by simpa [htl] using hn)]
      | cons d l =>
        rw [htl] at hl hn
        simp only [List.cons_append, List.mem_cons, not_or] at hl ⊢
        have hd : (d == 10) = false := by
          rw [beq_eq_false_iff_ne]
          exact fun h => hl.1 h.symm
        rw [hd, key l n hl.2 (by simpa using hn)]

/-- **The matches of an expression that starts with `^`** in a text whose lines it matches one by one. -/
theorem captures_lines {E : Type} (r : Re) (txt : E → List Nat) (f : E → Option Caps) (lines : List E) (h : OnLines (.seq .bol r) txt f lines)
    (h0 : Fails r ⟨[], true, []⟩) : capturesIter (.seq .bol r) (lines.flatMap fun l => txt l ++ [10]) = lines.filterMap f := by
  rw [capturesIter, iter_lines r txt f lines h _ (Nat.lt_succ_self _)]
  have : iter (.seq .bol r) 1 [] true = [] := by
    have h1 := h0 some
    simp only [iter, run, if_true, h1]
  rw [this, List.append_nil]

end Proofs.Regex
