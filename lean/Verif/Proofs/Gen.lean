import Verif.Model.Gen
import Verif.Spec.Table
import Verif.Spec.TableText
import Verif.Props.Tables
import Mathlib.Tactic.Tauto
import Mathlib.Data.List.Chain

/-! The table writers: rows and their texts. -/
namespace Proofs.Gen
open Spec Spec.TableText Model Model.Gen

/-! ## Rows -/
section
variable {V : Type} [DecidableEq V]

/-- the rows that the loop of `to_range_char_table` writes -/
def rows : List (Nat × V) → Nat → Nat → V → List (Nat × Nat × V)
  | [], low, high, value => [(low, high, value)]
  | (c, p) :: r, low, high, value => if p ≠ value ∨ c > high + 1 then (low, high, value) :: rows r c c p else rows r low c value

/-- the text of a row -/
def rowText (display : V → List Nat) (e : Nat × Nat × V) : List Nat :=
  str "    (chars!('" ++ escapeUnicode e.1 ++ str "'..='" ++ escapeUnicode e.2.1 ++ str "'), " ++ display e.2.2 ++ str "),\n"

theorem rangeLoop_rows (display : V → List Nat) : ∀ (r : List (Nat × V)) (out : List Nat) (low high : Nat) (value : V),
    r.Pairwise (fun a b => a.1 < b.1) → (∀ e ∈ r, high < e.1) →
    ∃ o l h v, rangeLoop display r out low high value = .ok (o, l, h, v) ∧ appendEntry display o l h v = out ++ (rows r low high value).flatMap (rowText display)
  | [], out, low, high, value, _, _ => ⟨out, low, high, value, rfl, by simp [rows, appendEntry, rowText]⟩
  | (c, p) :: r, out, low, high, value, hp, hh => by
    rw [List.pairwise_cons] at hp
    rw [rangeLoop, rows]
    by_cases h : p ≠ value ∨ c > high + 1
    · rw [if_pos h, if_pos h]
      obtain ⟨o, l, h', v, e1, e2⟩ := rangeLoop_rows display r (appendEntry display out low high value) c c p hp.2 (fun e he => hp.1 e he)
      refine ⟨o, l, h', v, e1, ?_⟩
      rw [e2, List.flatMap_cons, ← List.append_assoc]
      rfl
    · have hc := hh (c, p) (by simp)
      rw [if_neg h, if_neg h, if_pos (by simp only at hc; omega)]
      exact rangeLoop_rows display r out low c value hp.2 (fun e he => hp.1 e he)

theorem rows_covers : ∀ (r : List (Nat × V)) (low high : Nat) (value : V), low ≤ high → r.Pairwise (fun a b => a.1 < b.1) → (∀ e ∈ r, high < e.1) →
    ∀ (c : Nat) (v : V), (∃ e ∈ rows r low high value, Covers e c ∧ e.2.2 = v) ↔ (low ≤ c ∧ c ≤ high ∧ v = value) ∨ (c, v) ∈ r
  | [], low, high, value, _, _, _, c, v => by
    simp only [rows, List.mem_singleton, exists_eq_left, Covers, List.not_mem_nil, or_false]
    tauto
  | (c', p) :: r, low, high, value, hl, hp, hh, c, v => by
    rw [List.pairwise_cons] at hp
    have hc := hh (c', p) (by simp)
    simp only at hc
    rw [rows]
    by_cases h : p ≠ value ∨ c' > high + 1
    · rw [if_pos h]
      have ih := rows_covers r c' c' p (Nat.le_refl _) hp.2 (fun e he => hp.1 e he) c v
      simp only [Covers] at ih
      simp only [List.mem_cons, exists_eq_or_imp, Covers, Prod.mk.injEq, ih]
      constructor
      · rintro (⟨⟨h1, h2⟩, rfl⟩ | ⟨h1, h2, rfl⟩ | h1)
        · exact .inl ⟨h1, h2, rfl⟩
        · exact .inr (.inl ⟨by omega, rfl⟩)
        · exact .inr (.inr h1)
      · rintro (⟨h1, h2, rfl⟩ | ⟨rfl, rfl⟩ | h1)
        · exact .inl ⟨⟨h1, h2⟩, rfl⟩
        · exact .inr (.inl ⟨Nat.le_refl _, Nat.le_refl _, rfl⟩)
        · exact .inr (.inr h1)
    · rw [if_neg h]
      have hv : p = value := by tauto
      subst hv
      rw [rows_covers r low c' p (by omega) hp.2 (fun e he => hp.1 e he) c v]
      simp only [List.mem_cons, Prod.mk.injEq]
      constructor
      · rintro (⟨h1, h2, rfl⟩ | h1)
        · by_cases hcc : c ≤ high
          · exact .inl ⟨h1, hcc, rfl⟩
          · exact .inr (.inl ⟨by omega, rfl⟩)
        · exact .inr (.inr h1)
      · rintro (⟨h1, h2, rfl⟩ | ⟨rfl, rfl⟩ | h1)
        · exact .inl ⟨h1, by omega, rfl⟩
        · exact .inl ⟨by omega, Nat.le_refl _, rfl⟩
        · exact .inr h1

/-- rows ascend, start at `low`, and neighbours without a gap differ -/
theorem rows_asc : ∀ (r : List (Nat × V)) (low high : Nat) (value : V), low ≤ high → r.Pairwise (fun a b => a.1 < b.1) → (∀ e ∈ r, high < e.1) →
    (∀ e ∈ rows r low high value, e.1 ≤ e.2.1 ∧ low ≤ e.1) ∧ (rows r low high value).Pairwise (fun e e' => e.2.1 < e'.1) ∧
      (rows r low high value).IsChain (fun e e' => e.2.1 + 1 = e'.1 → e.2.2 ≠ e'.2.2) ∧ ∃ h t, rows r low high value = (low, h, value) :: t
  | [], low, high, value, hl, _, _ => by simpa [rows] using hl
  | (c', p) :: r, low, high, value, hl, hp, hh => by
    rw [List.pairwise_cons] at hp
    have hc := hh (c', p) (by simp)
    simp only at hc
    rw [rows]
    by_cases h : p ≠ value ∨ c' > high + 1
    · rw [if_pos h]
      obtain ⟨i1, i2, i3, h', t, i4⟩ := rows_asc r c' c' p (Nat.le_refl _) hp.2 (fun e he => hp.1 e he)
      refine ⟨?_, ?_, ?_, _, _, rfl⟩
      · intro e he
        rcases List.mem_cons.1 he with rfl | he
        · exact ⟨hl, Nat.le_refl _⟩
        · have := i1 e he
          exact ⟨this.1, by omega⟩
      · rw [List.pairwise_cons]
        refine ⟨?_, i2⟩
        intro e he
        have := i1 e he
        simp only
        omega
      · rw [i4, List.isChain_cons_cons, ← i4]
        refine ⟨?_, i3⟩
        simp only
        intro he
        rcases h with h | h
        · exact fun hv => h hv.symm
        · omega
    · rw [if_neg h]
      exact rows_asc r low c' value (by omega) hp.2 (fun e he => hp.1 e he)
end

/-! ## Reading numbers and characters -/

theorem digit_lower : ∀ d, d < 16 → digit (lowerDigit d) = some d := by decide

theorem readHex_append : ∀ (fuel n acc : Nat) (s : List Nat), n ≤ fuel →
    ∃ k, 0 < k ∧ n < 16 ^ k ∧ readHex acc (hexLower fuel n ++ s) = readHex (acc * 16 ^ k + n) s
  | 0, n, acc, s, h => by
    obtain rfl : n = 0 := by omega
    refine ⟨1, by omega, by omega, ?_⟩
    simp [hexLower, readHex, digit_lower 0 (by omega)]
  | fuel + 1, n, acc, s, h => by
    rw [hexLower]
    by_cases hn : n < 16
    · refine ⟨1, by omega, by omega, ?_⟩
      simp [hn, readHex, digit_lower n hn]
    · obtain ⟨k, h0, h1, h2⟩ := readHex_append fuel (n / 16) acc ([lowerDigit (n % 16)] ++ s) (by omega)
      refine ⟨k + 1, by omega, by rw [Nat.pow_succ]; omega, ?_⟩
      rw [if_neg hn, List.append_assoc, h2]
      simp only [List.singleton_append, readHex, digit_lower (n % 16) (Nat.mod_lt _ (by omega))]
      congr 1
      rw [Nat.pow_succ, Nat.add_mul, Nat.mul_assoc]
      omega

theorem after_append (p s : List Nat) : after p (p ++ s) = some s := by
  simp [after]

theorem before_append (p s : List Nat) : before p (s ++ p) = some s := by
  simp [before]

theorem readHex_escape (c : Nat) (s : List Nat) : readHex 0 (hexLower c c ++ (text "}'" ++ s)) = (c, text "}'" ++ s) := by
  obtain ⟨k, _, _, h⟩ := readHex_append c c 0 (text "}'" ++ s) (Nat.le_refl _)
  rw [h, Nat.zero_mul, Nat.zero_add]
  have : text "}'" ++ s = 125 :: 39 :: s := rfl
  rw [this, readHex]
  rfl

theorem readChar_escape (c : Nat) (s : List Nat) : readChar (str "'" ++ (escapeUnicode c ++ (str "'" ++ s))) = some (c, s) := by
  have e : str "'" ++ (escapeUnicode c ++ (str "'" ++ s)) = text "'\\u{" ++ (hexLower c c ++ (text "}'" ++ s)) := by
    have e1 : text "'\\u{" = str "'" ++ str "\\u{" := rfl
    have e2 : text "}'" = str "}" ++ str "'" := rfl
    rw [escapeUnicode, e1, e2]
    simp only [List.append_assoc]
  rw [readChar, e, after_append]
  simp only [Option.bind_eq_bind, Option.bind_some, readHex_escape, after_append, pure]

/-! ## Lines -/

theorem lines_append : ∀ (a s cur : List Nat), 10 ∉ a → lines (a ++ 10 :: s) cur = (cur.reverse ++ a) :: lines s []
  | [], s, cur, _ => by simp [lines]
  | c :: a, s, cur, h => by
    simp only [List.mem_cons, not_or] at h
    rw [List.cons_append, lines, if_neg (fun hc => h.1 hc.symm), lines_append a s _ h.2]
    simp

theorem lines_end : ∀ (a cur : List Nat), 10 ∉ a → lines a cur = [cur.reverse ++ a]
  | [], cur, _ => by simp [lines]
  | c :: a, cur, h => by
    simp only [List.mem_cons, not_or] at h
    rw [lines, if_neg (fun hc => h.1 hc.symm), lines_end a _ h.2]
    simp

theorem hexLower_line : ∀ (fuel n : Nat), 10 ∉ hexLower fuel n
  | 0, n => by
    simp only [hexLower, List.mem_singleton, lowerDigit]
    split <;> omega
  | fuel + 1, n => by
    rw [hexLower]
    split
    · simp only [List.mem_singleton, lowerDigit]
      split <;> omega
    · simp only [List.mem_append, List.mem_singleton, lowerDigit, not_or]
      refine ⟨hexLower_line fuel _, ?_⟩
      split <;> omega

theorem escape_line (c : Nat) : 10 ∉ escapeUnicode c := by
  have h1 : 10 ∉ str "\\u{" := by decide
  have h2 : 10 ∉ str "}" := by decide
  simp only [escapeUnicode, List.mem_append, not_or]
  exact ⟨⟨h1, hexLower_line _ _⟩, h2⟩

theorem str_append (a b : String) : str (a ++ b) = str a ++ str b := by simp [str, String.toList_append]

/-- the lines of a text of rows -/
theorem lines_rows {E : Type} (f : E → List Nat) (g : E → List Nat) (hg : ∀ e, g e = f e ++ [10]) : ∀ (l : List E), (∀ e ∈ l, 10 ∉ f e) →
    lines (l.flatMap g ++ str "])") [] = l.map f ++ [str "])"]
  | [], _ => by
    have : 10 ∉ str "])" := by decide
    simpa using lines_end _ [] this
  | e :: l, h => by
    rw [List.flatMap_cons, hg, List.append_assoc, List.append_assoc, List.singleton_append, lines_append _ _ _ (h e (by simp)),
      lines_rows f g hg l (fun e he => h e (by simp [he]))]
    simp

theorem readRows_map {E α : Type} (f : E → List Nat) (rd : List Nat → Option α) (k : E → α) (h : ∀ e, rd (f e) = some (k e)) : ∀ (l : List E),
    readRows rd (l.map f ++ [str "])"]) = some (l.map k)
  | [] => by
    have : text "])" = str "])" := rfl
    simp [readRows, this]
  | e :: l => by
    have ih := readRows_map f rd k h l
    obtain ⟨a, b, hab⟩ : ∃ a b, l.map f ++ [str "])"] = a :: b := List.exists_cons_of_ne_nil (by simp)
    rw [List.map_cons, List.cons_append, hab, readRows, h e, ← hab, ih]
    · rfl
    · simp

/-! ## Rows of ranges -/

/-- the line of a row -/
def rangeLine {V : Type} (display : V → List Nat) (e : Nat × Nat × V) : List Nat :=
  str "    (chars!(" ++ (str "'" ++ (escapeUnicode e.1 ++ (str "'" ++ (str "..=" ++ (str "'" ++ (escapeUnicode e.2.1 ++ (str "'" ++ (str "), " ++ (display e.2.2 ++ str "),")))))))))

theorem rowText_line {V : Type} (display : V → List Nat) (e : Nat × Nat × V) : rowText display e = rangeLine display e ++ [10] := by
  have e1 : str "    (chars!('" = str "    (chars!(" ++ str "'" := rfl
  have e2 : str "'..='" = str "'" ++ (str "..=" ++ str "'") := rfl
  have e3 : str "'), " = str "'" ++ str "), " := rfl
  have e4 : str "),\n" = str ")," ++ [10] := rfl
  rw [rowText, rangeLine, e1, e2, e3, e4]
  simp only [List.append_assoc]

theorem rangeLine_line {V : Type} (display : V → List Nat) (e : Nat × Nat × V) (hd : 10 ∉ display e.2.2) : 10 ∉ rangeLine display e := by
  have h1 : 10 ∉ str "    (chars!(" := by decide
  have h2 : 10 ∉ str "'" := by decide
  have h3 : 10 ∉ str "..=" := by decide
  have h4 : 10 ∉ str "), " := by decide
  have h5 : 10 ∉ str ")," := by decide
  simp only [rangeLine, List.mem_append, not_or]
  exact ⟨h1, h2, escape_line _, h2, h3, h2, escape_line _, h2, h4, hd, h5⟩

theorem readRange_line {V : Type} (display : V → List Nat) (e : Nat × Nat × V) : readRange (rangeLine display e) = some (⟨e.1, e.2.1⟩, display e.2.2) := by
  have t1 : text "    (chars!(" = str "    (chars!(" := rfl
  have t2 : text "..=" = str "..=" := rfl
  have t3 : text "), " = str "), " := rfl
  have t4 : text ")," = str ")," := rfl
  rw [readRange, rangeLine, t1, t2, t3, t4, after_append]
  simp only [Option.bind_eq_bind, Option.bind_some, readChar_escape, after_append, before_append, pure]

/-- the line of an entry -/
def directLine {V : Type} (display : V → List Nat) (e : Nat × V) : List Nat :=
  str "    (" ++ (str "'" ++ (escapeUnicode e.1 ++ (str "'" ++ (str ", " ++ (display e.2 ++ str "),")))))

theorem directLine_line {V : Type} (display : V → List Nat) (e : Nat × V) (hd : 10 ∉ display e.2) : 10 ∉ directLine display e := by
  have h1 : 10 ∉ str "    (" := by decide
  have h2 : 10 ∉ str "'" := by decide
  have h4 : 10 ∉ str ", " := by decide
  have h5 : 10 ∉ str ")," := by decide
  simp only [directLine, List.mem_append, not_or]
  exact ⟨h1, h2, escape_line _, h2, h4, hd, h5⟩

theorem readDirect_line {V : Type} (display : V → List Nat) (e : Nat × V) : readDirect (directLine display e) = some (e.1, display e.2) := by
  have t1 : text "    (" = str "    (" := rfl
  have t3 : text ", " = str ", " := rfl
  have t4 : text ")," = str ")," := rfl
  rw [readDirect, directLine, t1, t3, t4, after_append]
  simp only [Option.bind_eq_bind, Option.bind_some, readChar_escape, after_append, before_append, pure]

theorem directLoop_lines {V : Type} (display : V → List Nat) : ∀ (l : List (Nat × V)) (out : List Nat),
    directLoop display l out = out ++ l.flatMap (fun e => directLine display e ++ [10])
  | [], out => by simp [directLoop]
  | (c, p) :: r, out => by
    have e1 : str "    ('" = str "    (" ++ str "'" := rfl
    have e3 : str "', " = str "'" ++ str ", " := rfl
    have e4 : str "),\n" = str ")," ++ [10] := rfl
    rw [directLoop, directLoop_lines display r, List.flatMap_cons, directLine, e1, e3, e4]
    simp only [List.append_assoc]

/-! ## Whole texts -/

theorem readTable_range {V : Type} (display : V → List Nat) (l : List (Nat × Nat × V)) (hd : ∀ e ∈ l, 10 ∉ display e.2.2) :
    readTable (str "CharDataTable::Range(&[\n" ++ (l.flatMap (rowText display) ++ str "])")) = some (.range (l.map fun e => (⟨e.1, e.2.1⟩, display e.2.2))) := by
  have e1 : str "CharDataTable::Range(&[\n" = str "CharDataTable::Range(&[" ++ [10] := rfl
  have h1 : 10 ∉ str "CharDataTable::Range(&[" := by decide
  have t1 : text "CharDataTable::Range(&[" = str "CharDataTable::Range(&[" := rfl
  rw [readTable, e1, List.append_assoc, List.singleton_append, lines_append _ _ _ h1, lines_rows (rangeLine display) _ (rowText_line display) _ (fun e he => rangeLine_line display e (hd e he)),
    t1]
  simp only [List.reverse_nil, List.nil_append, if_true]
  rw [readRows_map _ _ (fun e : Nat × Nat × V => (⟨e.1, e.2.1⟩, display e.2.2)) (readRange_line display)]
  rfl

theorem readTable_direct {V : Type} (display : V → List Nat) (l : List (Nat × V)) (hd : ∀ e ∈ l, 10 ∉ display e.2) :
    readTable (str "CharDataTable::Direct(&[\n" ++ (l.flatMap (fun e => directLine display e ++ [10]) ++ str "])")) = some (.direct (l.map fun e => (e.1, display e.2))) := by
  have e1 : str "CharDataTable::Direct(&[\n" = str "CharDataTable::Direct(&[" ++ [10] := rfl
  have h1 : 10 ∉ str "CharDataTable::Direct(&[" := by decide
  have t1 : text "CharDataTable::Range(&[" = str "CharDataTable::Range(&[" := rfl
  have t2 : text "CharDataTable::Direct(&[" = str "CharDataTable::Direct(&[" := rfl
  have ne : str "CharDataTable::Direct(&[" ≠ str "CharDataTable::Range(&[" := by decide
  rw [readTable, e1, List.append_assoc, List.singleton_append, lines_append _ _ _ h1, lines_rows (directLine display) _ (fun _ => rfl) _ (fun e he => directLine_line display e (hd e he)),
    t1, t2]
  simp only [List.reverse_nil, List.nil_append, if_neg ne, if_true]
  rw [readRows_map _ _ (fun e : Nat × V => (e.1, display e.2)) (readDirect_line display)]
  rfl

end Proofs.Gen
