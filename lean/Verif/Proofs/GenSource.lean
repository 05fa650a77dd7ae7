import Verif.Model.GenSource
import Verif.Proofs.Regex
import Verif.Spec.UcdFile
import Verif.Props.Gen
import Verif.Props.CharRange
import Mathlib.Tactic.Ring

/-! # Proofs about the parsers of data files: maps, numbers, ranges at the start of a line -/
namespace Proofs.GenSource
open Spec Spec.UcdFile Model Model.Regex Model.Gen Model.GenSource Proofs.Regex

@[simp] theorem bind_ok {α β : Type} (a : α) (f : α → Outcome β) : (Outcome.ok a >>= f) = f a := rfl
@[simp] theorem bind_ok' {α β : Type} (a : α) (f : α → Outcome β) : (Outcome.ok a).bind f = f a := rfl
@[simp] theorem pure_ok {α : Type} (a : α) : (pure a : Outcome α) = .ok a := rfl

/-! ## Maps -/

/-- a map has its keys in ascending order -/
def Sorted {V : Type} (m : List (Nat × V)) : Prop := m.Pairwise fun a b => a.1 < b.1

theorem mem_insert {V : Type} (k : Nat) (v : V) : ∀ (m : List (Nat × V)) (e : Nat × V), e ∈ put k v m → e = (k, v) ∨ e ∈ m
  | [], e, h => by
    simp only [put, List.mem_singleton] at h
    exact .inl h
  | (k', v') :: r, e, h => by
    rw [put] at h
    split at h
    · simpa using h
    · split at h
      · simp only [List.mem_cons] at h ⊢
        rcases h with h | h
        · exact .inl h
        · exact .inr (.inr h)
      · simp only [List.mem_cons] at h ⊢
        rcases h with h | h
        · exact .inr (.inl h)
        · rcases mem_insert k v r e h with h | h
          · exact .inl h
          · exact .inr (.inr h)

theorem sorted_insert {V : Type} (k : Nat) (v : V) : ∀ (m : List (Nat × V)), Sorted m → Sorted (put k v m)
  | [], _ => by simp [put, Sorted]
  | (k', v') :: r, h => by
    obtain ⟨h1, h2⟩ := List.pairwise_cons.1 h
    rw [put]
    split
    · rename_i hk
      refine List.pairwise_cons.2 ⟨?_, h⟩
      intro e he
      rcases List.mem_cons.1 he with rfl | he
      · exact hk
      · have := h1 e he
        simp only at this ⊢
        omega
    · split
      · rename_i hk
        refine List.pairwise_cons.2 ⟨?_, h2⟩
        intro e he
        have := h1 e he
        simp only at this ⊢
        omega
      · refine List.pairwise_cons.2 ⟨?_, sorted_insert k v r h2⟩
        intro e he
        rcases mem_insert k v r e he with rfl | he
        · simp only
          omega
        · exact h1 e he

theorem find_cons {V : Type} (c k : Nat) (v : V) (r : List (Nat × V)) : find c ((k, v) :: r) = if c = k then some v else find c r := by
  unfold find
  rw [List.lookup_cons]
  by_cases h : c = k
  · rw [if_pos h, show (c == k) = true by simpa using h]
  · rw [if_neg h, show (c == k) = false by simpa using h]

theorem find_none {V : Type} (c : Nat) : ∀ (m : List (Nat × V)), (∀ e ∈ m, c ≠ e.1) → find c m = none
  | [], _ => rfl
  | (k, v) :: r, h => by
    rw [find_cons, if_neg (h (k, v) (by simp)), find_none c r fun e he => h e (by simp [he])]

theorem find_insert {V : Type} (c k : Nat) (v : V) : ∀ (m : List (Nat × V)), Sorted m → find c (put k v m) = if c = k then some v else find c m
  | [], _ => by rw [put, find_cons]
  | (k', v') :: r, h => by
    obtain ⟨h1, h2⟩ := List.pairwise_cons.1 h
    rw [put]
    split
    · rw [find_cons]
    · split
      · rename_i hk
        subst hk
        rw [find_cons, find_cons]
        split <;> rfl
      · rw [find_cons, find_cons, find_insert c k v r h2]
        split_ifs <;> first | rfl | omega

theorem mem_iff_find {V : Type} : ∀ (m : List (Nat × V)), Sorted m → ∀ c v, (c, v) ∈ m ↔ find c m = some v
  | [], _, c, v => by simp [find]
  | (k, v') :: r, h, c, v => by
    obtain ⟨h1, h2⟩ := List.pairwise_cons.1 h
    rw [find_cons, List.mem_cons, Prod.mk.injEq]
    split
    · rename_i hc
      subst hc
      constructor
      · rintro (⟨_, rfl⟩ | he)
        · rfl
        · exact absurd (h1 _ he) (by simp)
      · intro he
        exact .inl ⟨rfl, (Option.some.inj he).symm⟩
    · rename_i hc
      rw [← mem_iff_find r h2 c v]
      constructor
      · rintro (⟨rfl, _⟩ | he)
        · exact absurd rfl hc
        · exact he
      · exact .inr

theorem sorted_insertAll {V : Type} : ∀ (l m : List (Nat × V)), Sorted m → Sorted (insertAll m l)
  | [], _, h => h
  | e :: l, m, h => sorted_insertAll l (put e.1 e.2 m) (sorted_insert e.1 e.2 m h)

theorem insertAll_append {V : Type} (m l l' : List (Nat × V)) : insertAll m (l ++ l') = insertAll (insertAll m l) l' := by
  simp [insertAll, List.foldl_append]

/-- the last pair with a key counts -/
theorem find_insertAll {V : Type} (c : Nat) : ∀ (l m : List (Nat × V)), Sorted m →
    find c (insertAll m l) = (((l.filter fun e => decide (e.1 = c)).getLast?).map (·.2)).or (find c m)
  | [], m, _ => by simp [insertAll]
  | (k, v) :: l, m, h => by
    have ih := find_insertAll c l (put k v m) (sorted_insert k v m h)
    have e : insertAll m ((k, v) :: l) = insertAll (put k v m) l := rfl
    rw [e, ih, find_insert c k v m h, List.filter_cons]
    by_cases hc : k = c
    · subst hc
      simp only [if_true, decide_true]
      cases hl : (l.filter fun e => decide (e.1 = k)).getLast? with
      | none =>
        rw [List.getLast?_eq_none_iff] at hl
        rw [hl]
        rfl
      | some x =>
        rw [List.getLast?_cons, hl]
        rfl
    · rw [if_neg (fun h => hc h.symm), decide_eq_false hc]
      rfl

/-- the characters between two code points all capGet the same value -/
theorem find_insertRange {V : Type} (c : Nat) (cs : List Nat) (v : V) (m : List (Nat × V)) (h : Sorted m) :
    find c (insertAll m (cs.map fun p => (p, v))) = if c ∈ cs then some v else find c m := by
  rw [find_insertAll c _ m h]
  cases hl : ((cs.map fun p => (p, v)).filter fun e => decide (e.1 = c)).getLast? with
  | none =>
    rw [List.getLast?_eq_none_iff] at hl
    rw [if_neg]
    · rfl
    · intro hc
      have : (c, v) ∈ (cs.map fun p => (p, v)).filter fun e => decide (e.1 = c) := by
        rw [List.mem_filter]
        exact ⟨List.mem_map.2 ⟨c, hc, rfl⟩, by simp⟩
      rw [hl] at this
      cases this
  | some x =>
    have hx := List.mem_of_getLast? hl
    rw [List.mem_filter, List.mem_map] at hx
    obtain ⟨⟨p, hp, rfl⟩, hx⟩ := hx
    simp only [decide_eq_true_eq] at hx
    subst hx
    rw [if_pos hp]
    rfl

theorem mem_points (low high c : Nat) : c ∈ points low high ↔ IsScalar c ∧ low ≤ c ∧ c ≤ high := by
  simp only [points, List.mem_filterMap, List.mem_range'_1, Utf.charFromU32, IsScalar]
  constructor
  · rintro ⟨p, hp, h⟩
    split at h
    · cases h
      omega
    · cases h
  · intro h
    refine ⟨c, by omega, ?_⟩
    rw [if_pos (by omega)]

/-- the rows one after the other -/
def insertRows {V : Type} (m : List (Nat × V)) (rows : List (Nat × Nat × V)) : List (Nat × V) :=
  rows.foldl (fun m r => insertAll m ((points r.1 r.2.1).map fun p => (p, r.2.2))) m

theorem sorted_insertRows {V : Type} : ∀ (rows : List (Nat × Nat × V)) (m : List (Nat × V)), Sorted m → Sorted (insertRows m rows)
  | [], _, h => h
  | _ :: rows, _, h => sorted_insertRows rows _ (sorted_insertAll _ _ h)

theorem find_insertRows {V : Type} (c : Nat) : ∀ (rows : List (Nat × Nat × V)) (m : List (Nat × V)), Sorted m → find c (insertRows m rows) = (valueOf rows c).or (find c m)
  | [], m, _ => by
    simp [insertRows, valueOf]
  | r :: rows, m, h => by
    have ih := find_insertRows c rows _ (sorted_insertAll ((points r.1 r.2.1).map fun p => (p, r.2.2)) m h)
    have e : insertRows m (r :: rows) = insertRows (insertAll m ((points r.1 r.2.1).map fun p => (p, r.2.2))) rows := rfl
    rw [e, ih, find_insertRange c _ _ m h]
    simp only [valueOf]
    by_cases hc : IsScalar c
    · simp only [if_pos hc, List.filter_cons, mem_points, hc, true_and]
      by_cases hr : r.1 ≤ c ∧ c ≤ r.2.1
      · rw [if_pos hr, decide_eq_true hr, if_pos trivial, if_pos rfl, if_pos trivial, List.getLast?_cons]
        cases (rows.filter fun r => decide (r.1 ≤ c ∧ c ≤ r.2.1)).getLast? <;> rfl
      · rw [if_neg hr, decide_eq_false hr]
        simp
    · simp only [if_neg hc, mem_points, hc, false_and, if_false]

/-- a table written from a map answers as the map -/
theorem range_find {V : Type} [DecidableEq V] (display : V → List Nat) (m : List (Nat × V)) (hm : Sorted m) (hd : ∀ c v, find c m = some v → 10 ∉ display v) :
    ∃ s t, toRangeCharTable display m = .ok s ∧ TableText.readTable s = some t ∧ WellFormed t ∧ ∀ c, t.find c = .ok ((find c m).map display) := by
  obtain ⟨s, t, h1, h2, h3, h4, h5⟩ := Props.Gen.c10_range display m (fun e he => hd e.1 e.2 ((mem_iff_find m hm _ _).1 he)) hm
  refine ⟨s, t, h1, h2, h3, fun c => ?_⟩
  cases hf : find c m with
  | some v => exact h4 c v ((mem_iff_find m hm c v).2 hf)
  | none =>
    refine h5 c fun v hv => ?_
    rw [(mem_iff_find m hm c v).1 hv] at hf
    cases hf

theorem direct_find {V : Type} [DecidableEq V] (display : V → List Nat) (m : List (Nat × V)) (hm : Sorted m) (hd : ∀ c v, find c m = some v → 10 ∉ display v) :
    ∃ t, TableText.readTable (toDirectCharTable display m) = some t ∧ WellFormed t ∧ ∀ c, t.find c = .ok ((find c m).map display) := by
  obtain ⟨t, h2, h3, h4, h5⟩ := Props.Gen.c10_direct display m (fun e he => hd e.1 e.2 ((mem_iff_find m hm _ _).1 he)) hm
  refine ⟨t, h2, h3, fun c => ?_⟩
  cases hf : find c m with
  | some v => exact h4 c v ((mem_iff_find m hm c v).2 hf)
  | none =>
    refine h5 c fun v hv => ?_
    rw [(mem_iff_find m hm c v).1 hv] at hf
    cases hf

/-! ## Numbers -/

theorem digit_xdigit (c : Nat) : xdigit c = (TableText.digit c).isSome := by
  unfold xdigit TableText.digit
  rw [Bool.eq_iff_iff]
  split_ifs <;> simp <;> omega

theorem digit_bound {c d : Nat} (h : TableText.digit c = some d) : d < 16 ∧ Hex.toDigit c = some d ∧ c ≠ 43 := by
  unfold TableText.digit at h
  unfold Hex.toDigit
  split_ifs at h <;> cases h <;> refine ⟨by omega, ?_, by omega⟩ <;> split_ifs <;> first | rfl | omega

theorem parseLoop_hex (max : Nat) : ∀ (s : List Nat) (acc : Nat), (∀ c ∈ s, (TableText.digit c).isSome = true) → acc * 16 ^ s.length + 16 ^ s.length ≤ max + 1 →
    Hex.parseLoop max acc s = some (TableText.readHex acc s).1 ∧ (TableText.readHex acc s).1 < acc * 16 ^ s.length + 16 ^ s.length
  | [], acc, _, _ => by simp [Hex.parseLoop, TableText.readHex]
  | c :: s, acc, h, hm => by
    obtain ⟨d, hd⟩ := Option.isSome_iff_exists.1 (h c (by simp))
    obtain ⟨h1, h2, _⟩ := digit_bound hd
    have hp : 1 ≤ 16 ^ s.length := Nat.one_le_pow _ _ (by omega)
    have h3 : (acc * 16 + d) * 16 ^ s.length + 16 ^ s.length ≤ acc * 16 ^ (s.length + 1) + 16 ^ (s.length + 1) := by
      have e1 : acc * 16 ^ (s.length + 1) = (acc * 16) * 16 ^ s.length := by rw [Nat.pow_succ]; ring
      have e2 : (acc * 16 + d) * 16 ^ s.length = acc * 16 * 16 ^ s.length + d * 16 ^ s.length := by ring
      have e3 : d * 16 ^ s.length ≤ 15 * 16 ^ s.length := Nat.mul_le_mul_right _ (by omega)
      have e4 : 16 ^ (s.length + 1) = 16 * 16 ^ s.length := by rw [Nat.pow_succ]; ring
      omega
    simp only [List.length_cons] at hm ⊢
    have hm' : (acc * 16 + d) * 16 ^ s.length + 16 ^ s.length ≤ max + 1 := by omega
    obtain ⟨i1, i2⟩ := parseLoop_hex max s (acc * 16 + d) (fun c hc => h c (by simp [hc])) hm'
    have hle : acc * 16 + d ≤ max := by
      have : (acc * 16 + d) * 1 ≤ (acc * 16 + d) * 16 ^ s.length := Nat.mul_le_mul_left _ hp
      omega
    rw [Hex.parseLoop, h2, TableText.readHex, hd]
    simp only [if_pos hle]
    exact ⟨i1, by omega⟩

/-- reading four to six hexadecimal digits -/
theorem hexU32_ok {s : List Nat} (h : IsHex s) : hexU32 s = .ok (hexValue s) ∧ hexValue s < 0x1000000 := by
  obtain ⟨h4, h6, hd⟩ := h
  have hp : 16 ^ s.length ≤ 16 ^ 6 := Nat.pow_le_pow_right (by omega) h6
  obtain ⟨h1, h2⟩ := parseLoop_hex 0xFFFFFFFF s 0 hd (by omega)
  refine ⟨?_, by unfold hexValue; omega⟩
  rw [hexU32, hexValue]
  cases s with
  | nil => simp at h4
  | cons c r =>
    obtain ⟨d, hc⟩ := Option.isSome_iff_exists.1 (hd c (by simp))
    rw [Hex.fromStrRadix16, if_neg (digit_bound hc).2.2, h1]
    rfl

/-! ## The code points at the start of a line -/

/-- what is captured from a range -/
def rangeCaps (r : Range) : Caps := match r.hi with
  | none => [(1, r.lo)]
  | some h => [(2, h), (1, r.lo)]

theorem startEnd_ok (r : Range) (hr : r.Ok) (more : Caps) (hm : ∀ e ∈ more, e.1 ≠ 1 ∧ e.1 ≠ 2) : startEnd (more ++ rangeCaps r) = .ok (r.first, r.last) := by
  have look : ∀ (more : Caps) (i : Nat), (∀ e ∈ more, e.1 ≠ i) → capGet (more ++ rangeCaps r) i = capGet (rangeCaps r) i := by
    intro more i h
    induction more with
    | nil => rfl
    | cons e more ih =>
      have := h e (by simp)
      have ih := ih fun e he => h e (by simp [he])
      unfold capGet at ih ⊢
      rw [List.cons_append, List.lookup_cons, ih, show (i == e.1) = false by simpa using fun h => this h.symm]
  obtain ⟨h1, h2⟩ := hr
  rw [startEnd, group, look more 1 (fun e he => (hm e he).1), look more 2 (fun e he => (hm e he).2)]
  cases hh : r.hi with
  | none =>
    simp only [rangeCaps, hh, Range.first, Range.last]
    have e1 : capGet [(1, r.lo)] 1 = some r.lo := rfl
    have e2 : capGet [(1, r.lo)] 2 = none := rfl
    simp [e1, e2, unwrap, (hexU32_ok h1).1, mapOpt]
  | some h =>
    simp only [rangeCaps, hh, Range.first, Range.last]
    have e1 : capGet [(2, h), (1, r.lo)] 1 = some r.lo := rfl
    have e2 : capGet [(2, h), (1, r.lo)] 2 = some h := rfl
    simp [e1, e2, unwrap, (hexU32_ok h1).1, (hexU32_ok (h2 h hh)).1, mapOpt, Outcome.map]

theorem get_caps {r : Range} (more : Caps) (i : Nat) (hi : 2 < i) : capGet (more ++ rangeCaps r) i = capGet more i := by
  induction more with
  | nil =>
    cases hh : r.hi with
    | none =>
      simp only [rangeCaps, hh, capGet, List.nil_append, List.lookup_cons, List.lookup_nil]
      rw [show (i == 1) = false by simp; omega]
    | some h =>
      simp only [rangeCaps, hh, capGet, List.nil_append, List.lookup_cons, List.lookup_nil]
      rw [show (i == 1) = false by simp; omega, show (i == 2) = false by simp; omega]
  | cons e more ih =>
    unfold capGet at ih ⊢
    rw [List.cons_append, List.lookup_cons, List.lookup_cons, ih]

theorem isHex_runs {w : List Nat} (h : IsHex w) (i : Nat) (t : List Nat) (b : Bool) (cs : Caps) (ht : ∀ c, t.head? = some c → xdigit c = false) :
    Runs (.cap i hex46) ⟨w ++ t, b, cs⟩ ⟨t, false, (i, w) :: cs⟩ :=
  Runs.cap (Runs.hex46 w t b cs h.1 h.2.1 (fun c hc => by rw [digit_xdigit]; exact h.2.2 c hc) ht)

/-- `XXXX` or `XXXX..YYYY`; `a` stands for a point -/
theorem range_runs (a : Nat → Bool) (ha : a 46 = true) (r : Range) (hr : r.Ok) (b : Bool) (t : List Nat) (ht : ∀ c, t.head? = some c → xdigit c = false)
    (ht2 : Fails (cat [.cls a, .cls a, .cap 2 hex46]) ⟨t, false, [(1, r.lo)]⟩) :
    Runs (.seq (.cap 1 hex46) (.opt (cat [.cls a, .cls a, .cap 2 hex46]))) ⟨r.text ++ t, b, []⟩ ⟨t, false, rangeCaps r⟩ := by
  obtain ⟨h1, h2⟩ := hr
  rw [Range.text]
  cases hh : r.hi with
  | none =>
    simp only [rangeCaps, hh, List.append_nil]
    exact (isHex_runs h1 1 t b [] ht).seq ht2.opt
  | some h =>
    have e : r.lo ++ (TableText.text ".." ++ h) ++ t = r.lo ++ (46 :: 46 :: (h ++ t)) := by
      simp [TableText.text]
    simp only [rangeCaps, hh, e]
    refine (isHex_runs h1 1 (46 :: 46 :: (h ++ t)) b [] (by intro c hc; cases hc; rfl)).seq (Runs.opt ?_)
    exact (Runs.cls ha _ _ _).seq ((Runs.cls ha _ _ _).seq (isHex_runs (h2 h hh) 2 t _ _ ht))

/-- two characters and then something that is not a hexadecimal digit -/
theorem fails_points (a : Nat → Bool) (i : Nat) (s : St) (h : ∀ x y z r, s.rest = x :: y :: z :: r → xdigit z = false) : Fails (cat [.cls a, .cls a, .cap i hex46]) s := by
  intro k
  obtain ⟨rest, b, cs⟩ := s
  simp only [cat, run]
  cases rest with
  | nil => rfl
  | cons x r =>
    simp only
    split
    · cases r with
      | nil => rfl
      | cons y r =>
        simp only
        split
        · refine Fails.hex46 ?_ _
          intro c hc
          cases r with
          | nil => cases hc
          | cons z r =>
            simp only [List.head?_cons, Option.some.injEq] at hc
            subst hc
            exact h x y z r rfl
        · rfl
    · rfl

/-! ## Files -/

/-- The matches in a file: one for each row. `caps` are the groups captured on a row, `rest` what is left of its line. -/
theorem captures_file {R : Type} (r : Re) (text : R → List Nat) (ok : R → Prop) (caps : R → Caps) (ls : List (Line R)) (hf : FileOk ok ls)
    (hrow : ∀ x, ok x → 10 ∉ text x ∧ ∃ u t, text x = u ++ t ∧ u ≠ [] ∧ ∀ s, Runs r ⟨text x ++ 10 :: s, true, []⟩ ⟨t ++ 10 :: s, false, caps x⟩)
    (hother : ∀ t b, (∀ c, t.head? = some c → xdigit c = false) → Fails r ⟨t, b, []⟩) :
    capturesIter (.seq .bol r) (fileText text ls) = (rowsOf ls).map caps := by
  have h1 := captures_lines r (lineText text) (fun l : Line R => match l with | .row x => some (caps x) | .other _ => none) ls ?_
    (hother [] true (by simp))
  · rw [fileText, h1, rowsOf, List.map_filterMap]
    congr 1
    funext l
    cases l <;> rfl
  · intro l hl
    have h2 := hf l hl
    cases l with
    | row x =>
      obtain ⟨h3, u, t, h4, h5, h6⟩ := hrow x h2
      refine ⟨h3, fun s => ⟨u, t, h4, h5, ?_⟩⟩
      exact (Runs.bol _ _).seq (h6 s) some _ rfl
    | other t =>
      refine ⟨h2.1, fun s => ?_⟩
      have h3 : Fails r ⟨t ++ 10 :: s, true, []⟩ := by
        apply hother
        intro c hc
        rw [digit_xdigit]
        cases t with
        | nil =>
          cases hc
          rfl
        | cons d t =>
          simp only [List.cons_append, List.head?_cons, Option.some.injEq] at hc
          subst hc
          rw [h2.2 d rfl]
          rfl
      simpa [run, lineText] using h3 some

theorem foldOutcome_ok {α σ : Type} (f : σ → α → Outcome σ) (g : σ → α → σ) : ∀ (l : List α) (s : σ), (∀ s, ∀ a ∈ l, f s a = .ok (g s a)) → foldOutcome f s l = .ok (l.foldl g s)
  | [], _, _ => rfl
  | a :: l, s, h => by
    rw [foldOutcome, h s a (by simp)]
    exact foldOutcome_ok f g l (g s a) fun s b hb => h s b (by simp [hb])

end Proofs.GenSource
