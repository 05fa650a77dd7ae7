import Verif.Proofs.GenSource
import Verif.Model.GenWriter

/-! # Proofs about the tables generated from files with one value on each row -/
namespace Proofs.GenFiles
open Spec Spec.UcdFile Model Model.Regex Model.Gen Model.GenSource Model.GenWriter Proofs.Regex Proofs.GenSource

theorem Runs.assoc {a b c : Re} {s s1 s2 : St} (h1 : Runs (.seq a b) s s1) (h2 : Runs c s1 s2) : Runs (.seq a (.seq b c)) s s2 := fun k x hk => h1 _ x (h2 k x hk)

theorem blank_of {c : Nat} (h : IsBlank c) : blank c = true ∧ c ≠ 10 := by
  rcases h with rfl | rfl <;> exact ⟨rfl, by omega⟩

theorem blank_xdigit {c : Nat} (h : IsBlank c) : xdigit c = false := by
  rcases h with rfl | rfl <;> rfl

theorem word_of (c : Nat) : word c = true ↔ IsWord c := by
  unfold word digit alpha IsWord
  simp only [Bool.or_eq_true, Bool.and_eq_true, decide_eq_true_eq, beq_iff_eq]
  omega

theorem word_blank {c : Nat} (h : IsWord c) : blank c = false ∧ c ≠ 10 := by
  refine ⟨?_, by unfold IsWord at h; omega⟩
  unfold blank
  unfold IsWord at h
  simp only [Bool.or_eq_false_iff, beq_eq_false_iff_ne]
  omega

/-- the blanks and the semicolon are not a second code point -/
theorem pad_fails (a : Nat → Bool) (pad pad2 v : List Nat) (h1 : pad ≠ []) (h1' : ∀ c ∈ pad, xdigit c = false) (h2 : pad2 ≠ []) (h2' : ∀ c ∈ pad2, xdigit c = false)
    (b : Bool) (cs : Caps) : Fails (cat [.cls a, .cls a, .cap 2 hex46]) ⟨pad ++ 59 :: (pad2 ++ v), b, cs⟩ := by
  apply fails_points
  intro x y z r h
  match pad, pad2, h1, h2 with
  | [p], q :: pad2, _, _ =>
    simp only [List.cons_append, List.nil_append, List.cons.injEq] at h
    rw [← h.2.2.1]
    exact h2' q (by simp)
  | [p, p'], _, _, _ =>
    simp only [List.cons_append, List.nil_append, List.cons.injEq] at h
    rw [← h.2.2.1]
    rfl
  | p :: p' :: p'' :: pad, _, _, _ =>
    simp only [List.cons_append, List.cons.injEq] at h
    rw [← h.2.2.1]
    exact h1' p'' (by simp)

theorem pad_head (pad t : List Nat) (h1' : ∀ c ∈ pad, xdigit c = false) : ∀ c, (pad ++ 59 :: t).head? = some c → xdigit c = false := by
  intro c hc
  cases pad with
  | nil =>
    cases hc
    rfl
  | cons d pad =>
    simp only [List.cons_append, List.head?_cons, Option.some.injEq] at hc
    subst hc
    exact h1' d (by simp)

/-- a row up to its value -/
theorem row_runs (a p : Nat → Bool) (ha : a 46 = true) (hp : p 59 = false) (range : Range) (pad pad2 v : List Nat) (hr : range.Ok) (h1 : pad ≠ [])
    (h1' : ∀ c ∈ pad, p c = true ∧ c ≠ 10 ∧ xdigit c = false) (h2 : pad2 ≠ []) (h2' : ∀ c ∈ pad2, p c = true ∧ c ≠ 10 ∧ xdigit c = false)
    (hv : ∀ c, v.head? = some c → p c = false) (b : Bool) (q : Re) (s' : St) (hq : Runs q ⟨v, false, rangeCaps range⟩ s') :
    Runs (cat ([.cap 1 hex46, .opt (cat [.cls a, .cls a, .cap 2 hex46]), .star (.cls p), chr 59, .star (.cls p)] ++ [q])) ⟨range.text ++ (pad ++ 59 :: (pad2 ++ v)), b, []⟩ s' := by
  refine Runs.assoc (range_runs a ha range hr b _ (pad_head pad _ fun c hc => (h1' c hc).2.2)
    (pad_fails a pad pad2 v h1 (fun c hc => (h1' c hc).2.2) h2 (fun c hc => (h2' c hc).2.2) _ _)) ?_
  refine (Runs.star_cls' pad _ _ (fun c hc => ⟨(h1' c hc).1, (h1' c hc).2.1⟩) (by rintro c hc; cases hc; exact hp)).seq ?_
  refine (Runs.chr 59 _ _ _).seq ?_
  exact (Runs.star_cls' pad2 v _ (fun c hc => ⟨(h2' c hc).1, (h2' c hc).2.1⟩) hv).seq hq

theorem hex_line {s : List Nat} (h : IsHex s) : 10 ∉ s := fun hc => by
  have := h.2.2 10 hc
  simp [TableText.digit] at this

theorem range_line (r : Range) (h : r.Ok) : 10 ∉ r.text := by
  have hdots : 10 ∉ TableText.text ".." := by decide
  obtain ⟨h1, h2⟩ := h
  rw [Range.text]
  cases hh : r.hi with
  | none => simpa using hex_line h1
  | some h =>
    simp only [List.mem_append, not_or]
    exact ⟨hex_line h1, hdots, hex_line (h2 h hh)⟩

theorem range_nonempty (r : Range) (h : r.Ok) (t : List Nat) : r.text ++ t ≠ [] := by
  have := h.1.1
  intro h0
  rw [Range.text] at h0
  simp only [List.append_eq_nil_iff] at h0
  rw [h0.1.1] at this
  simp at this

theorem other_fails (rs : List Re) (hrs : rs ≠ []) (t : List Nat) (b : Bool) (h : ∀ c, t.head? = some c → xdigit c = false) : Fails (cat (.cap 1 hex46 :: rs)) ⟨t, b, []⟩ := by
  cases rs with
  | nil => exact absurd rfl hrs
  | cons q rs => exact Fails.seq_left (Fails.cap (Fails.hex46 h))

/-! ## Break properties -/

theorem tail_head {r : Row} (hr : r.Ok) (s : List Nat) : ∀ c, (r.tail ++ 10 :: s).head? = some c → ¬ IsWord c := by
  intro c hc
  cases ht : r.tail with
  | nil =>
    rw [ht] at hc
    cases hc
    unfold IsWord
    omega
  | cons d t =>
    rw [ht] at hc
    simp only [List.cons_append, List.head?_cons, Option.some.injEq] at hc
    subst hc
    exact (hr.tail.2 d (by rw [ht]; rfl)).1

theorem break_row (r : Row) (hr : r.Ok) (b : Bool) (s : List Nat) :
    Runs (cat (rangeRe ++ [.cap 3 (plus (.cls word))])) ⟨r.text ++ 10 :: s, b, []⟩ ⟨r.tail ++ 10 :: s, false, [(3, r.value)] ++ rangeCaps r.range⟩ := by
  have e : r.text ++ 10 :: s = r.range.text ++ (r.pad ++ 59 :: (r.pad2 ++ (r.value ++ (r.tail ++ 10 :: s)))) := by
    simp [Row.text]
  rw [e]
  refine row_runs (· != 10) blank rfl rfl r.range r.pad r.pad2 _ hr.range hr.pad.1 (fun c hc => ⟨(blank_of (hr.pad.2 c hc)).1, (blank_of (hr.pad.2 c hc)).2, blank_xdigit (hr.pad.2 c hc)⟩)
    hr.pad2.1 (fun c hc => ⟨(blank_of (hr.pad2.2 c hc)).1, (blank_of (hr.pad2.2 c hc)).2, blank_xdigit (hr.pad2.2 c hc)⟩) ?_ b _ _ ?_
  · intro c hc
    obtain ⟨h0, h1⟩ := hr.value
    cases hv : r.value with
    | nil => exact absurd hv h0
    | cons d v =>
      rw [hv] at hc
      simp only [List.cons_append, List.head?_cons, Option.some.injEq] at hc
      subst hc
      exact (word_blank (h1 d (by rw [hv]; simp))).1
  · refine Runs.cap (Runs.plus_cls' r.value _ _ _ hr.value.1 (fun c hc => ⟨(word_of c).2 (hr.value.2 c hc), (word_blank (hr.value.2 c hc)).2⟩) ?_)
    intro c hc
    have := tail_head hr s c hc
    rw [← word_of] at this
    simpa using this

theorem row_line (r : Row) (hr : r.Ok) : 10 ∉ r.text := by
  simp only [Row.text, List.mem_append, List.mem_cons, not_or]
  exact ⟨range_line _ hr.range, fun h => (blank_of (hr.pad.2 10 h)).2 rfl, by omega, fun h => (blank_of (hr.pad2.2 10 h)).2 rfl, fun h => (word_blank (hr.value.2 10 h)).2 rfl, hr.tail.1⟩

theorem row_split (r : Row) (hr : r.Ok) : ∃ u, r.text = u ++ r.tail ∧ u ≠ [] := by
  refine ⟨r.range.text ++ (r.pad ++ 59 :: (r.pad2 ++ r.value)), by simp [Row.text], range_nonempty _ hr.range _⟩

theorem break_captures (ls : List (Line Row)) (hf : FileOk Row.Ok ls) : capturesIter breakRe (fileText Row.text ls) = (rowsOf ls).map fun r => [(3, r.value)] ++ rangeCaps r.range := by
  refine captures_file _ Row.text Row.Ok _ ls hf ?_ fun t b h => other_fails _ (by simp) t b h
  intro x hx
  obtain ⟨u, h1, h2⟩ := row_split x hx
  exact ⟨row_line x hx, u, x.tail, h1, h2, fun s => break_row x hx true s⟩

theorem rows_ok {R : Type} {ok : R → Prop} {ls : List (Line R)} (hf : FileOk ok ls) : ∀ r ∈ rowsOf ls, ok r := by
  intro r hr
  rw [rowsOf, List.mem_filterMap] at hr
  obtain ⟨l, hl, h⟩ := hr
  have := hf l hl
  cases l with
  | row x =>
    cases h
    exact this
  | other t => cases h

/-- one step for each row -/
theorem fold_rows {R σ : Type} (step : σ → Caps → Outcome σ) (g : σ → R → σ) (caps : R → Caps) : ∀ (rs : List R) (m : σ), (∀ r ∈ rs, ∀ m, step m (caps r) = .ok (g m r)) →
    foldOutcome step m (rs.map caps) = .ok (rs.foldl g m)
  | [], _, _ => rfl
  | r :: rs, m, h => by
    rw [List.map_cons, foldOutcome, h r (by simp)]
    exact fold_rows step g caps rs (g m r) fun r hr => h r (by simp [hr])

/-- the table written from the rows of a file -/
theorem table_rows {V : Type} [DecidableEq V] (display : V → List Nat) (o : Outcome (List (Nat × V))) (rows : List (Nat × Nat × V)) (ho : o = .ok (insertRows [] rows))
    (hd : ∀ r ∈ rows, 10 ∉ display r.2.2) : ∃ s t, (o >>= fun m => toRangeCharTable display m) = .ok s ∧ TableText.readTable s = some t ∧ WellFormed t ∧
      ∀ c, t.find c = .ok ((valueOf rows c).map display) := by
  have hs : Sorted (insertRows [] rows) := sorted_insertRows _ _ List.Pairwise.nil
  have hfind : ∀ c, find c (insertRows [] rows) = valueOf rows c := by
    intro c
    rw [find_insertRows c _ _ List.Pairwise.nil]
    simp [find]
  obtain ⟨s, t, h1, h2, h3, h4⟩ := range_find display _ hs (by
    intro c v hv
    rw [hfind, valueOf] at hv
    split at hv
    · rw [Option.map_eq_some_iff] at hv
      obtain ⟨x, hx, rfl⟩ := hv
      have := List.mem_of_getLast? hx
      exact hd x (List.mem_filter.1 this).1
    · cases hv)
  refine ⟨s, t, ?_, h2, h3, fun c => by rw [h4, hfind]⟩
  rw [ho]
  exact h1

theorem break_map (ls : List (Line Row)) (hf : FileOk Row.Ok ls) : breakFromStr (fileText Row.text ls) = .ok (insertRows [] ((rowsOf ls).map Row.triple)) := by
  rw [breakFromStr, break_captures ls hf, insertRows, List.foldl_map]
  refine fold_rows _ _ _ _ _ fun r hr m => ?_
  have hr := rows_ok hf r hr
  rw [breakStep, startEnd_ok r.range hr.range _ (by simp), group, get_caps _ 3 (by omega)]
  rfl

/-- a table with one word for each range -/
theorem break_table (pre : List Nat) (hpre : 10 ∉ pre) (ls : List (Line Row)) (hf : FileOk Row.Ok ls) : ∃ s t,
    (breakFromStr (fileText Row.text ls) >>= fun m => toRangeCharTable (fun v => pre ++ v) m) = .ok s ∧ TableText.readTable s = some t ∧ WellFormed t ∧
      ∀ c, t.find c = .ok ((valueOf ((rowsOf ls).map Row.triple) c).map (pre ++ ·)) := by
  refine table_rows (fun v => pre ++ v) _ _ (break_map ls hf) fun x hx => ?_
  rw [List.mem_map] at hx
  obtain ⟨r, hr, rfl⟩ := hx
  simp only [List.mem_append, not_or]
  exact ⟨hpre, fun h => (word_blank ((rows_ok hf r hr).value.2 10 h)).2 rfl⟩

/-! ## Blocks -/

theorem not_blank_of {c : Nat} (h : ¬ IsBlank c) : blank c = false := by
  unfold IsBlank at h
  unfold blank
  simp only [Bool.or_eq_false_iff, beq_eq_false_iff_ne]
  omega

theorem name_head {name : List Nat} (h : ∀ c, name.head? = some c → ¬ IsBlank c) (s : List Nat) : ∀ c, (name ++ 10 :: s).head? = some c → blank c = false := by
  intro c hc
  cases name with
  | nil =>
    cases hc
    rfl
  | cons d t =>
    simp only [List.cons_append, List.head?_cons, Option.some.injEq] at hc
    subst hc
    exact not_blank_of (h d rfl)

theorem blocks_captures (ls : List (Line BlockRow)) (hf : FileOk BlockRow.Ok ls) :
    capturesIter blocksRe (fileText BlockRow.text ls) = (rowsOf ls).map fun r => [(3, r.name), (2, r.hi), (1, r.lo)] := by
  refine captures_file _ BlockRow.text BlockRow.Ok _ ls hf ?_ fun t b h => other_fails _ (by simp) t b h
  intro r hr
  refine ⟨?_, r.text, [], by simp, ?_, fun s => ?_⟩
  · simp only [BlockRow.text, List.mem_append, List.mem_cons, not_or]
    exact ⟨hex_line hr.lo, by decide, hex_line hr.hi, fun h => (blank_of (hr.pad 10 h)).2 rfl, by omega, fun h => (blank_of (hr.pad2 10 h)).2 rfl, hr.name.1⟩
  · have := hr.lo.1
    rw [BlockRow.text]
    intro h0
    rw [List.append_eq_nil_iff] at h0
    rw [h0.1] at this
    simp at this
  · have e : r.text ++ 10 :: s = r.lo ++ (46 :: 46 :: (r.hi ++ (r.pad ++ 59 :: (r.pad2 ++ (r.name ++ 10 :: s))))) := by
      simp [BlockRow.text, TableText.text]
    rw [e]
    refine (isHex_runs hr.lo 1 _ _ _ (by rintro c hc; cases hc; rfl)).seq ?_
    refine (Runs.cls rfl _ _ _).seq ((Runs.cls rfl _ _ _).seq ?_)
    refine (isHex_runs hr.hi 2 _ _ _ (pad_head _ _ fun c hc => blank_xdigit (hr.pad c hc))).seq ?_
    refine (Runs.star_cls' r.pad _ _ (fun c hc => blank_of (hr.pad c hc)) (by rintro c hc; cases hc; rfl)).seq ?_
    refine (Runs.chr 59 _ _ _).seq ?_
    refine (Runs.star_cls' r.pad2 _ _ (fun c hc => blank_of (hr.pad2 c hc)) (name_head hr.name.2 s)).seq ?_
    exact Runs.cap (Runs.star_cls' r.name _ _ (fun c hc => by
      have : c ≠ 10 := fun h => hr.name.1 (h ▸ hc)
      exact ⟨by simpa using this, this⟩) (by rintro c hc; cases hc; rfl))

theorem blocks_map (ls : List (Line BlockRow)) (hf : FileOk BlockRow.Ok ls) : blocksFromStr (fileText BlockRow.text ls) = .ok (insertRows [] ((rowsOf ls).map BlockRow.triple)) := by
  rw [blocksFromStr, blocks_captures ls hf, insertRows, List.foldl_map]
  refine fold_rows _ _ _ _ _ fun r hr m => ?_
  have hr := rows_ok hf r hr
  have e1 : group [(3, r.name), (2, r.hi), (1, r.lo)] 1 = .ok r.lo := rfl
  have e2 : group [(3, r.name), (2, r.hi), (1, r.lo)] 2 = .ok r.hi := rfl
  have e3 : group [(3, r.name), (2, r.hi), (1, r.lo)] 3 = .ok r.name := rfl
  rw [blocksStep, e1, e2, e3]
  simp only [bind_ok, bind_ok', (hexU32_ok hr.lo).1, (hexU32_ok hr.hi).1, pure_ok]
  rfl

/-! ## Ages -/

theorem decDigit_of {c : Nat} (h : 48 ≤ c ∧ c ≤ 57) : Regex.digit c = true ∧ c ≠ 10 := by
  refine ⟨?_, by omega⟩
  unfold Regex.digit
  simpa using h

theorem not_decDigit_of {c : Nat} (h : ¬ (48 ≤ c ∧ c ≤ 57)) : Regex.digit c = false := by
  unfold Regex.digit
  rw [Bool.eq_false_iff]
  simpa using h

theorem foldl_mono : ∀ (s : List Nat) (n : Nat), n ≤ s.foldl (fun n c => n * 10 + (c - 48)) n
  | [], _ => by simp
  | c :: s, n => by
    have := foldl_mono s (n * 10 + (c - 48))
    simp only [List.foldl_cons]
    omega

theorem decLoop_ok (max : Nat) : ∀ (s : List Nat) (acc : Nat), (∀ c ∈ s, 48 ≤ c ∧ c ≤ 57) → s.foldl (fun n c => n * 10 + (c - 48)) acc ≤ max →
    decLoop max acc s = some (s.foldl (fun n c => n * 10 + (c - 48)) acc)
  | [], _, _, _ => rfl
  | c :: s, acc, h, hm => by
    simp only [List.foldl_cons] at hm ⊢
    have h1 := foldl_mono s (acc * 10 + (c - 48))
    rw [decLoop, if_pos (decDigit_of (h c (by simp))).1, if_pos (by omega)]
    exact decLoop_ok max s _ (fun c hc => h c (by simp [hc])) hm

theorem parseDec_ok {s : List Nat} (h : IsDec s) : unwrap (parseDec 0xFFFF s) = .ok (decValue s) := by
  obtain ⟨h0, h1, h2⟩ := h
  rw [parseDec, if_neg h0, decLoop_ok 0xFFFF s 0 h1 (by unfold decValue at h2; omega)]
  rfl

theorem decFmt_eq : ∀ (fuel n : Nat), n ≤ fuel → decFmt fuel n = (Nat.toDigits 10 n).map Char.toNat
  | 0, n, h => by
    obtain rfl : n = 0 := by omega
    rfl
  | fuel + 1, n, h => by
    rw [decFmt]
    by_cases hn : n < 10
    · rw [if_pos hn, Nat.toDigits_of_lt_base hn]
      have : n = 0 ∨ n = 1 ∨ n = 2 ∨ n = 3 ∨ n = 4 ∨ n = 5 ∨ n = 6 ∨ n = 7 ∨ n = 8 ∨ n = 9 := by omega
      rcases this with rfl | rfl | rfl | rfl | rfl | rfl | rfl | rfl | rfl | rfl <;> rfl
    · rw [if_neg hn, decFmt_eq fuel (n / 10) (by omega), Nat.toDigits_of_base_le (b := 10) (n := n) (by omega) (by omega), List.map_append]
      congr 1
      have hd : n % 10 < 10 := Nat.mod_lt _ (by omega)
      generalize n % 10 = d at hd
      have : d = 0 ∨ d = 1 ∨ d = 2 ∨ d = 3 ∨ d = 4 ∨ d = 5 ∨ d = 6 ∨ d = 7 ∨ d = 8 ∨ d = 9 := by omega
      rcases this with rfl | rfl | rfl | rfl | rfl | rfl | rfl | rfl | rfl | rfl <;> rfl

theorem text_append (a b : String) : TableText.text (a ++ b) = TableText.text a ++ TableText.text b := by
  simp [TableText.text, String.toList_append]

theorem versionText_eq (a b c : Nat) : versionText a b c = versionLiteral (a, b, c) := by
  have h : ∀ n : Nat, TableText.text (toString n) = decFmt n n := by
    intro n
    rw [decFmt_eq n n (Nat.le_refl _), TableText.text, Nat.toString_eq_ofList_toDigits, String.toList_ofList]
  simp only [versionLiteral, text_append, h, versionText]
  rfl

theorem decFmt_line : ∀ fuel n, 10 ∉ decFmt fuel n
  | 0, n => by
    simp only [decFmt, List.mem_singleton]
    omega
  | fuel + 1, n => by
    rw [decFmt]
    split
    · simp only [List.mem_singleton]
      omega
    · simp only [List.mem_append, List.mem_singleton, not_or]
      exact ⟨decFmt_line fuel _, by omega⟩

theorem version_line (v : Nat × Nat × Nat) : 10 ∉ versionLiteral v := by
  obtain ⟨a, b, c⟩ := v
  rw [← versionText_eq, versionText]
  simp only [List.mem_append, not_or]
  exact ⟨⟨⟨⟨⟨⟨by decide, decFmt_line _ _⟩, by decide⟩, decFmt_line _ _⟩, by decide⟩, decFmt_line _ _⟩, by decide⟩

theorem age_row (r : AgeRow) (hr : r.Ok) (b : Bool) (s : List Nat) :
    Runs (cat (rangeRe ++ [.cap 3 (plus (.cls Regex.digit)), chr 46, .cap 4 (plus (.cls Regex.digit)), .opt (cat [chr 46, .cap 5 (plus (.cls Regex.digit))])]))
      ⟨r.text ++ 10 :: s, b, []⟩ ⟨r.tail ++ 10 :: s, false, ((match r.micro with
        | none => []
        | some m => [(5, m)]) ++ [(4, r.minor), (3, r.major)]) ++ rangeCaps r.range⟩ := by
  have tail_digit : ∀ c, (r.tail ++ 10 :: s).head? = some c → Regex.digit c = false ∧ c ≠ 46 := by
    intro c hc
    cases ht : r.tail with
    | nil =>
      rw [ht] at hc
      cases hc
      exact ⟨rfl, by omega⟩
    | cons d t =>
      rw [ht] at hc
      simp only [List.cons_append, List.head?_cons, Option.some.injEq] at hc
      subst hc
      have := hr.tail.2 d (by rw [ht]; rfl)
      exact ⟨not_decDigit_of this.2, this.1⟩
  have e : r.text ++ 10 :: s = r.range.text ++ (r.pad ++ 59 :: (r.pad2 ++ (r.major ++ 46 :: (r.minor ++ (r.microText ++ (r.tail ++ 10 :: s)))))) := by
    simp [AgeRow.text]
  rw [e, AgeRow.microText]
  refine row_runs (· != 10) blank rfl rfl r.range r.pad r.pad2 _ hr.range hr.pad.1 (fun c hc => ⟨(blank_of (hr.pad.2 c hc)).1, (blank_of (hr.pad.2 c hc)).2, blank_xdigit (hr.pad.2 c hc)⟩)
    hr.pad2.1 (fun c hc => ⟨(blank_of (hr.pad2.2 c hc)).1, (blank_of (hr.pad2.2 c hc)).2, blank_xdigit (hr.pad2.2 c hc)⟩) ?_ b
      (cat [.cap 3 (plus (.cls Regex.digit)), chr 46, .cap 4 (plus (.cls Regex.digit)), .opt (cat [chr 46, .cap 5 (plus (.cls Regex.digit))])]) _ ?_
  · intro c hc
    obtain ⟨h0, h1, _⟩ := hr.major
    cases hv : r.major with
    | nil => exact absurd hv h0
    | cons d v =>
      rw [hv] at hc
      simp only [List.cons_append, List.head?_cons, Option.some.injEq] at hc
      subst hc
      have := h1 d (by rw [hv]; simp)
      apply not_blank_of
      unfold IsBlank
      omega
  · refine (Runs.cap (Runs.plus_cls' r.major _ _ _ hr.major.1 (fun c hc => decDigit_of (hr.major.2.1 c hc)) (by rintro c hc; cases hc; rfl))).seq ?_
    refine (Runs.chr 46 _ _ _).seq ?_
    cases hm : r.micro with
    | none =>
      simp only [List.nil_append]
      refine (Runs.cap (Runs.plus_cls' r.minor _ _ _ hr.minor.1 (fun c hc => decDigit_of (hr.minor.2.1 c hc)) fun c hc => (tail_digit c hc).1)).seq ?_
      exact Fails.opt (Fails.seq_left (Fails.cls fun c hc => by simpa using (tail_digit c hc).2))
    | some m =>
      have hm := hr.micro m hm
      simp only [List.cons_append, List.nil_append]
      refine (Runs.cap (Runs.plus_cls' r.minor _ _ _ hr.minor.1 (fun c hc => decDigit_of (hr.minor.2.1 c hc)) (by rintro c hc; cases hc; rfl))).seq ?_
      refine Runs.opt ((Runs.chr 46 _ _ _).seq ?_)
      exact Runs.cap (Runs.plus_cls' m _ _ _ hm.1 (fun c hc => decDigit_of (hm.2.1 c hc)) fun c hc => (tail_digit c hc).1)

theorem dec_line {s : List Nat} (h : IsDec s) : 10 ∉ s := fun hc => by
  have := h.2.1 10 hc
  omega

theorem age_captures (ls : List (Line AgeRow)) (hf : FileOk AgeRow.Ok ls) :
    capturesIter ageRe (fileText AgeRow.text ls) = (rowsOf ls).map fun r => ((match r.micro with
        | none => []
        | some m => [(5, m)]) ++ [(4, r.minor), (3, r.major)]) ++ rangeCaps r.range := by
  refine captures_file _ AgeRow.text AgeRow.Ok _ ls hf ?_ fun t b h => other_fails _ (by simp) t b h
  intro r hr
  refine ⟨?_, r.range.text ++ (r.pad ++ 59 :: (r.pad2 ++ (r.major ++ 46 :: (r.minor ++ r.microText)))), r.tail, ?_, ?_, fun s => age_row r hr true s⟩
  · simp only [AgeRow.text, List.mem_append, List.mem_cons, not_or]
    refine ⟨range_line _ hr.range, fun h => (blank_of (hr.pad.2 10 h)).2 rfl, by omega, fun h => (blank_of (hr.pad2.2 10 h)).2 rfl, dec_line hr.major, by omega, dec_line hr.minor, ?_, hr.tail.1⟩
    rw [AgeRow.microText]
    cases hm : r.micro with
    | none => simp
    | some m => simpa using dec_line (hr.micro m hm)
  · simp [AgeRow.text]
  · exact range_nonempty _ hr.range _

theorem age_map (ls : List (Line AgeRow)) (hf : FileOk AgeRow.Ok ls) :
    ageFromStr (fileText AgeRow.text ls) = .ok (insertRows [] ((rowsOf ls).map fun r => (r.triple.1, r.triple.2.1, versionLiteral r.triple.2.2))) := by
  rw [ageFromStr, age_captures ls hf, insertRows, List.foldl_map]
  refine fold_rows _ _ _ _ _ fun r hr m => ?_
  have hr := rows_ok hf r hr
  rw [ageStep, startEnd_ok r.range hr.range _ (by cases r.micro <;> simp), group, group, get_caps _ 3 (by omega), get_caps _ 4 (by omega), get_caps _ 5 (by omega)]
  cases hm : r.micro with
  | none =>
    have e3 : capGet ([] ++ [(4, r.minor), (3, r.major)]) 3 = some r.major := rfl
    have e4 : capGet ([] ++ [(4, r.minor), (3, r.major)]) 4 = some r.minor := rfl
    have e5 : capGet ([] ++ [(4, r.minor), (3, r.major)]) 5 = none := rfl
    simp only [e3, e4, e5, bind_ok, bind_ok', pure_ok, unwrap, mapOpt]
    have p3 := parseDec_ok hr.major
    have p4 := parseDec_ok hr.minor
    unfold unwrap at p3 p4
    simp only [p3, p4, bind_ok, AgeRow.triple, hm, versionText_eq, Option.map_none, Option.getD_none]
  | some mi =>
    have e3 : capGet ([(5, mi)] ++ [(4, r.minor), (3, r.major)]) 3 = some r.major := rfl
    have e4 : capGet ([(5, mi)] ++ [(4, r.minor), (3, r.major)]) 4 = some r.minor := rfl
    have e5 : capGet ([(5, mi)] ++ [(4, r.minor), (3, r.major)]) 5 = some mi := rfl
    simp only [e3, e4, e5, bind_ok, bind_ok', pure_ok, unwrap, mapOpt]
    have p3 := parseDec_ok hr.major
    have p4 := parseDec_ok hr.minor
    have p5 := parseDec_ok (hr.micro mi hm)
    unfold unwrap at p3 p4 p5
    simp only [p3, p4, p5, bind_ok, AgeRow.triple, hm, versionText_eq, Option.map_some, Option.getD_some, Outcome.map]

end Proofs.GenFiles
