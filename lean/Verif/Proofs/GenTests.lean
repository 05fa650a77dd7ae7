import Verif.Model.GenTests
import Verif.Spec.TestFile
import Verif.Proofs.GenNames

/-! # Proofs about the producers of test data -/
namespace Proofs.GenTests
open Spec Spec.UcdFile Spec.TestFile Model Model.Regex Model.Gen Model.GenSource Model.GenUcdWriter Model.GenTests
open Proofs.Regex Proofs.GenSource Proofs.GenFiles Proofs.GenIdna Proofs.GenNames Proofs.Gen

/-! ## `NormalizationTest.txt` -/

/-- the groups of a row -/
def normCaps (r : NormRow) : Caps := [(5, pointsText r.nfkd), (4, pointsText r.nfkc), (3, pointsText r.nfd), (2, pointsText r.nfc), (1, pointsText r.source)]

theorem column_runs (i : Nat) (ps : List (List Nat)) (h : IsText ps) (t : List Nat) (b : Bool) (cs : Caps) :
    Runs (.cap i hexListRe) ⟨pointsText ps ++ 59 :: t, b, cs⟩ ⟨59 :: t, false, (i, pointsText ps) :: cs⟩ := by
  obtain ⟨h0, h1⟩ := h
  cases ps with
  | nil => exact absurd rfl h0
  | cons p ps =>
    have hp := (h1 p (by simp)).1
    have ht : ∀ c, (59 :: t).head? = some c → xdigit c = false := by rintro c hc; cases hc; rfl
    have hf : Fails (.seq (chr 32) hex46) ⟨59 :: t, false, cs⟩ := Fails.seq_left (Fails.cls (by rintro c hc; cases hc; rfl))
    refine Runs.cap (b' := false) (cs' := cs) ?_
    rw [pointsText_cons, List.append_assoc]
    refine Runs.seq (Runs.hex46 p _ _ _ hp.1 hp.2.1 (fun c hc => by rw [digit_xdigit]; exact hp.2.2 c hc) (flat_head ps _ ht)) ?_
    exact star_runs _ cs ht hf ps fun q hq => (h1 q (by simp [hq])).1

theorem norm_runs (r : NormRow) (hr : r.Ok) (b : Bool) (s : List Nat) :
    Runs (cat [.cap 1 hexListRe, chr 59, .cap 2 hexListRe, chr 59, .cap 3 hexListRe, chr 59, .cap 4 hexListRe, chr 59, .cap 5 hexListRe, chr 59, chr 32, chr 35])
      ⟨r.text ++ 10 :: s, b, []⟩ ⟨r.comment ++ 10 :: s, false, normCaps r⟩ := by
  have e : r.text ++ 10 :: s = pointsText r.source ++ 59 :: (pointsText r.nfc ++ 59 :: (pointsText r.nfd ++ 59 :: (pointsText r.nfkc ++ 59 :: (pointsText r.nfkd ++
      59 :: 32 :: 35 :: (r.comment ++ 10 :: s))))) := by simp [NormRow.text]
  rw [e]
  refine (column_runs 1 _ hr.source _ _ _).seq ((Runs.chr 59 _ _ _).seq ?_)
  refine (column_runs 2 _ hr.nfc _ _ _).seq ((Runs.chr 59 _ _ _).seq ?_)
  refine (column_runs 3 _ hr.nfd _ _ _).seq ((Runs.chr 59 _ _ _).seq ?_)
  refine (column_runs 4 _ hr.nfkc _ _ _).seq ((Runs.chr 59 _ _ _).seq ?_)
  refine (column_runs 5 _ hr.nfkd _ _ _).seq ((Runs.chr 59 _ _ _).seq ?_)
  exact (Runs.chr 32 _ _ _).seq (Runs.chr 35 _ _ _)

theorem norm_captures (ls : List (Line NormRow)) (hf : FileOk NormRow.Ok ls) : capturesIter normRe (fileText NormRow.text ls) = (rowsOf ls).map normCaps := by
  refine captures_file _ NormRow.text NormRow.Ok _ ls hf ?_ ?_
  · intro r hr
    refine ⟨?_, pointsText r.source ++ 59 :: (pointsText r.nfc ++ 59 :: (pointsText r.nfd ++ 59 :: (pointsText r.nfkc ++ 59 :: (pointsText r.nfkd ++ [59, 32, 35])))), r.comment,
      by simp [NormRow.text], by simp, fun s => norm_runs r hr true s⟩
    simp only [NormRow.text, List.mem_append, List.mem_cons, not_or]
    have hp : ∀ ps, IsText ps → 10 ∉ pointsText ps := fun ps h => pointsText_line ps fun p hp => (h.2 p hp).1
    exact ⟨hp _ hr.source, by omega, hp _ hr.nfc, by omega, hp _ hr.nfd, by omega, hp _ hr.nfkc, by omega, hp _ hr.nfkd, by omega, by omega, by omega, hr.comment⟩
  · intro t b h
    exact Fails.seq_left (Fails.cap (Fails.seq_left (Fails.hex46 h)))

theorem hex_white {p : List Nat} (h : IsHex p) : ∀ c ∈ p, isWhitespace c = false := by
  intro c hc
  have := h.2.2 c hc
  unfold TableText.digit at this
  unfold isWhitespace
  simp only [Bool.or_eq_false_iff, Bool.and_eq_false_imp, decide_eq_true_eq, decide_eq_false_iff_not, beq_eq_false_iff_ne]
  split at this
  · omega
  · split at this
    · omega
    · split at this
      · omega
      · cases this

/-- parts without white space, with a space between them -/
theorem split_tokens : ∀ (ws : List (List Nat)) (w : List Nat), (∀ x ∈ w :: ws, ∀ c ∈ x, isWhitespace c = false) →
    Cli.split isWhitespace (UcdNames.joinWith [32] (w :: ws)) = w :: ws
  | [], w, h => split_word_last _ w fun c hc => h w (by simp) c hc
  | x :: ws, w, h => by
    rw [UcdNames.joinWith, List.singleton_append, split_word_append _ 32 rfl _ w (fun c hc => h w (by simp) c hc), split_tokens ws x fun y hy => h y (List.mem_cons_of_mem _ hy)]
    simp

theorem split_white (ws : List (List Nat)) (h0 : ws ≠ []) (h : ∀ x ∈ ws, x ≠ [] ∧ ∀ c ∈ x, isWhitespace c = false) : splitWhitespace (UcdNames.joinWith [32] ws) = ws := by
  cases ws with
  | nil => exact absurd rfl h0
  | cons w ws =>
    rw [splitWhitespace, split_tokens ws w fun x hx => (h x hx).2, List.filter_eq_self]
    intro x hx
    simpa using (h x hx).1

theorem pointsText_join : ∀ ps, pointsText ps = UcdNames.joinWith [32] ps
  | [] => rfl
  | [p] => rfl
  | p :: q :: r => by rw [pointsText, UcdNames.joinWith, pointsText_join (q :: r)] <;> simp

theorem hex_nonempty {p : List Nat} (h : IsHex p) : p ≠ [] := by
  rintro rfl
  exact absurd h.1 (by simp)

theorem normColumn_ok (c : Caps) (i : Nat) (ps : List (List Nat)) (h : IsText ps) (hc : capGet c i = some (pointsText ps)) : normColumn c i = .ok (ps.map hexValue) := by
  rw [normColumn, group, hc, unwrap, bind_ok, pointsText_join, split_white ps h.1 fun x hx => ⟨hex_nonempty (h.2 x hx).1, hex_white (h.2 x hx).1⟩]
  refine mapAll_ok _ hexValue _ fun q hq => ?_
  rw [(hexU32_ok (h.2 q hq).1).1]
  exact char_ok (h.2 q hq).2

/-- the test of a row -/
def normTest (r : NormRow) : NormTest := ⟨r.source.map hexValue, r.nfc.map hexValue, r.nfd.map hexValue, r.nfkc.map hexValue, r.nfkd.map hexValue⟩

theorem normStep_ok (r : NormRow) (hr : r.Ok) : normStep (normCaps r) = .ok (normTest r) := by
  rw [normStep, normColumn_ok _ 1 _ hr.source rfl, normColumn_ok _ 2 _ hr.nfc rfl, normColumn_ok _ 3 _ hr.nfd rfl, normColumn_ok _ 4 _ hr.nfkc rfl, normColumn_ok _ 5 _ hr.nfkd rfl]
  rfl

theorem mapAll_map {α β γ : Type} (f : β → Outcome γ) (g : α → β) (k : α → γ) : ∀ (l : List α), (∀ a ∈ l, f (g a) = .ok (k a)) → mapAll f (l.map g) = .ok (l.map k)
  | [], _ => rfl
  | a :: l, h => by
    rw [List.map_cons, mapAll, h a (by simp), mapAll_map f g k l fun b hb => h b (by simp [hb])]
    rfl

theorem normFromStr_ok (ls : List (Line NormRow)) (hf : FileOk NormRow.Ok ls) : normFromStr (fileText NormRow.text ls) = .ok ((rowsOf ls).map normTest) := by
  rw [normFromStr, norm_captures ls hf]
  exact mapAll_map _ _ _ _ fun r hr => normStep_ok r (rows_ok hf r hr)

/-! ## Reading the Rust text -/

theorem readHex_brace (c : Nat) (s : List Nat) : TableText.readHex 0 (hexLower c c ++ (TableText.text "}" ++ s)) = (c, TableText.text "}" ++ s) := by
  obtain ⟨k, _, _, h⟩ := readHex_append c c 0 (TableText.text "}" ++ s) (Nat.le_refl _)
  rw [h]
  simp [TableText.readHex, TableText.text, TableText.digit]

theorem readUnits_ok (t : List Nat) : ∀ (cs : List Nat) (n : Nat), cs.length < n → readUnits n (cs.flatMap escapeUnicode ++ 34 :: t) = some (cs, t)
  | [], n, h => by
    obtain ⟨n, rfl⟩ : ∃ m, n = m + 1 := ⟨n - 1, by omega⟩
    simp [readUnits]
  | c :: cs, n, h => by
    obtain ⟨n, rfl⟩ : ∃ m, n = m + 1 := ⟨n - 1, by omega⟩
    simp only [List.length_cons] at h
    have e : (c :: cs).flatMap escapeUnicode ++ 34 :: t = TableText.text "\\u{" ++ (hexLower c c ++ (TableText.text "}" ++ (cs.flatMap escapeUnicode ++ 34 :: t))) := by
      simp [escapeUnicode, TableText.text, str]
    rw [readUnits, if_neg, e, after_append]
    · simp only [Option.bind_eq_bind, Option.bind_some]
      rw [readHex_brace]
      simp only [after_append, Option.bind_some]
      rw [readUnits_ok t cs n (by omega)]
      rfl
    · rw [e]
      simp [TableText.text]

theorem escape_length : ∀ cs : List Nat, cs.length ≤ (cs.flatMap escapeUnicode).length
  | [] => by simp
  | c :: cs => by
    have := escape_length cs
    have h2 : 1 ≤ (escapeUnicode c).length := by simp [escapeUnicode, str]
    rw [List.flatMap_cons, List.length_append, List.length_cons]
    omega

theorem readString_ok (cs t : List Nat) : readString (charsEscape cs ++ t) = some (cs, t) := by
  have e : charsEscape cs ++ t = TableText.text "\"" ++ (cs.flatMap escapeUnicode ++ 34 :: t) := by simp [charsEscape, TableText.text, str]
  rw [readString, e, after_append]
  simp only [Option.bind_eq_bind, Option.bind_some]
  refine readUnits_ok t cs _ ?_
  have := escape_length cs
  simp only [List.length_append, List.length_cons]
  omega

/-- string literals with `, ` between them -/
def joinStrings (ps : List (List Nat)) : List Nat := UcdNames.joinWith (str ", ") (ps.map charsEscape)

theorem readStrings_ok (t : List Nat) (ht : t.head? ≠ some 44) : ∀ (ps : List (List Nat)) (n : Nat), ps ≠ [] → ps.length < n → readStrings n (joinStrings ps ++ t) = some (ps, t)
  | [], _, h, _ => absurd rfl h
  | [p], n, _, h => by
    obtain ⟨n, rfl⟩ : ∃ m, n = m + 1 := ⟨n - 1, by omega⟩
    simp only [joinStrings, List.map_cons, List.map_nil, UcdNames.joinWith]
    rw [readStrings, readString_ok]
    simp only [Option.bind_eq_bind, Option.bind_some]
    have : TableText.after (TableText.text ", ") t = none := by
      rw [TableText.after, if_neg]
      intro hp
      rw [List.isPrefixOf_iff_prefix] at hp
      obtain ⟨r, rfl⟩ := hp
      exact ht rfl
    rw [this]
    rfl
  | p :: q :: ps, n, _, h => by
    obtain ⟨n, rfl⟩ : ∃ m, n = m + 1 := ⟨n - 1, by omega⟩
    have ih := readStrings_ok t ht (q :: ps) n (by simp) (by simp only [List.length_cons] at h ⊢; omega)
    have e : joinStrings (p :: q :: ps) ++ t = charsEscape p ++ (TableText.text ", " ++ (joinStrings (q :: ps) ++ t)) := by
      simp [joinStrings, UcdNames.joinWith, str, TableText.text]
    rw [e, readStrings, readString_ok]
    simp only [Option.bind_eq_bind, Option.bind_some, after_append]
    rw [ih]
    rfl

theorem strings_length : ∀ ps : List (List Nat), ps.length ≤ (joinStrings ps).length
  | [] => by simp
  | [p] => by simp [joinStrings, UcdNames.joinWith, charsEscape, str]
  | p :: q :: ps => by
    have := strings_length (q :: ps)
    have e : joinStrings (p :: q :: ps) = charsEscape p ++ (str ", " ++ joinStrings (q :: ps)) := by simp [joinStrings, UcdNames.joinWith]
    rw [e]
    simp only [List.length_append, List.length_cons, charsEscape, str] at this ⊢
    simp
    omega

theorem readStrings_all (ps : List (List Nat)) (h0 : ps ≠ []) (t : List Nat) (ht : t.head? ≠ some 44) : readStrings ((joinStrings ps ++ t).length + 1) (joinStrings ps ++ t) = some (ps, t) := by
  refine readStrings_ok t ht ps _ h0 ?_
  have := strings_length ps
  simp only [List.length_append]
  omega

theorem readSlice_ok (ps : List (List Nat)) (h0 : ps ≠ []) (t : List Nat) : TestFile.readSlice (str "&[" ++ (joinStrings ps ++ (str "]" ++ t))) = some (ps, t) := by
  rw [TestFile.readSlice, show str "&[" = TableText.text "&[" from rfl, after_append]
  simp only [Option.bind_eq_bind, Option.bind_some]
  rw [readStrings_all ps h0 _ (by simp [str])]
  simp only [Option.bind_some, show str "]" = TableText.text "]" from rfl, after_append]
  rfl

theorem escapes_line (cs : List Nat) : 10 ∉ charsEscape cs := by
  simp only [charsEscape, List.mem_append, List.mem_flatMap, not_or, not_exists, not_and]
  exact ⟨⟨by decide, fun c _ => escape_line c⟩, by decide⟩

theorem strings_line : ∀ ps : List (List Nat), 10 ∉ joinStrings ps
  | [] => by simp [joinStrings, UcdNames.joinWith]
  | [p] => by simpa [joinStrings, UcdNames.joinWith] using escapes_line p
  | p :: q :: ps => by
    have := strings_line (q :: ps)
    have e : joinStrings (p :: q :: ps) = charsEscape p ++ (str ", " ++ joinStrings (q :: ps)) := by simp [joinStrings, UcdNames.joinWith]
    rw [e]
    simp only [List.mem_append, not_or]
    exact ⟨escapes_line p, by decide, this⟩

/-- an array whose lines can be read -/
theorem readLines_ok {E α : Type} (f : E → List Nat) (rd : List Nat → Option α) (k : E → α) : ∀ (l : List E), (∀ e ∈ l, rd (f e) = some (k e)) →
    readLines rd (l.map f ++ [TableText.text "]"]) = some (l.map k)
  | [], _ => by simp [readLines]
  | e :: l, h => by
    have ih := readLines_ok f rd k l fun e he => h e (by simp [he])
    rw [List.map_cons, List.cons_append, readLines, h e (by simp), ih]
    · rfl
    · simp

theorem readArray_ok {E α : Type} (f : E → List Nat) (rd : List Nat → Option α) (k : E → α) (l : List E) (h : ∀ e ∈ l, rd (f e) = some (k e) ∧ 10 ∉ f e) :
    readArray rd (str "&[\n" ++ (l.map fun e => f e ++ [10]).flatten ++ str "]") = some (l.map k) := by
  have h1 : ∀ l : List E, (∀ e ∈ l, 10 ∉ f e) → TableText.lines ((l.map fun e => f e ++ [10]).flatten ++ str "]") [] = l.map f ++ [TableText.text "]"] := by
    intro l
    induction l with
    | nil => intro _; rfl
    | cons e l ih =>
      intro h
      have e' : ((e :: l).map fun e => f e ++ [10]).flatten ++ str "]" = f e ++ 10 :: ((l.map fun e => f e ++ [10]).flatten ++ str "]") := by simp
      rw [e', lines_append _ _ _ (h e (by simp)), ih fun x hx => h x (by simp [hx])]
      rfl
  have e2 : str "&[\n" ++ (l.map fun e => f e ++ [10]).flatten ++ str "]" = TableText.text "&[" ++ 10 :: ((l.map fun e => f e ++ [10]).flatten ++ str "]") := by
    simp [str, TableText.text]
  rw [readArray, e2, lines_append _ _ _ (by decide), h1 l fun e he => (h e he).2]
  simp only [List.reverse_nil, List.nil_append, if_true]
  exact readLines_ok f rd k l fun e he => (h e he).1

theorem foldl_rows {α : Type} (f : α → List Nat) : ∀ (l : List α) (s : List Nat), l.foldl (fun c t => c ++ f t) s = s ++ (l.map f).flatten
  | [], s => by simp
  | a :: l, s => by
    rw [List.foldl_cons, foldl_rows f l]
    simp

theorem norm_table (ls : List (Line NormRow)) (hf : FileOk NormRow.Ok ls) : ∃ s, normTests (fileText NormRow.text ls) = .ok s ∧ readArray readNorm s = some ((rowsOf ls).map NormRow.values) := by
  refine ⟨((rowsOf ls).map normTest).foldl (fun contents t => contents ++ normRow t) (str "&[\n") ++ str "]", ?_, ?_⟩
  · rw [normTests, normFromStr_ok ls hf]
    rfl
  · rw [foldl_rows]
    have e : ∀ r : NormRow, normRow (normTest r) = (str "    (" ++ (joinStrings r.values ++ str "),")) ++ [10] := by
      intro r
      simp [normRow, normTest, joinStrings, NormRow.values, UcdNames.joinWith, charsEscape, str]
    rw [List.map_map]
    have e2 : (normRow ∘ normTest) = fun r => (str "    (" ++ (joinStrings r.values ++ str "),")) ++ [10] := funext e
    rw [e2]
    refine readArray_ok (fun r : NormRow => str "    (" ++ (joinStrings r.values ++ str "),")) readNorm NormRow.values (rowsOf ls) fun r _ => ⟨?_, ?_⟩
    · rw [readNorm, show str "    (" = TableText.text "    (" from rfl, after_append]
      simp only [Option.bind_eq_bind, Option.bind_some]
      rw [readStrings_all _ (by simp [NormRow.values]) _ (by simp [str])]
      rfl
    · simp only [List.mem_append, not_or]
      exact ⟨by decide, strings_line _, by decide⟩

end Proofs.GenTests
