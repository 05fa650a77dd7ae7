import Verif.Spec.UcdNames
import Verif.Proofs.GenUcdTables

/-! # Proofs about the tables of names, short names of jamo and name aliases -/
namespace Proofs.GenNames
open Spec Spec.UnicodeData Spec.UcdNames Model Model.Regex Model.Gen Model.GenSource Model.GenUnicodeData Model.GenUcdWriter
open Proofs.Regex Proofs.GenSource Proofs.GenFiles Proofs.GenIdna Proofs.GenBinary Proofs.GenUnicodeData Proofs.GenUcdTables

/-! ## Reading lists -/

theorem parts_last (d : Nat) : ∀ p : List Nat, d ∉ p → parts d p = [p]
  | [], _ => rfl
  | c :: p, h => by
    simp only [List.mem_cons, not_or] at h
    rw [parts, if_neg (Ne.symm h.1), parts_last d p h.2]

theorem parts_append (d : Nat) (t : List Nat) : ∀ p : List Nat, d ∉ p → parts d (p ++ d :: t) = p :: parts d t
  | [], _ => by rw [List.nil_append, parts, if_pos rfl]
  | c :: p, h => by
    simp only [List.mem_cons, not_or] at h
    rw [List.cons_append, parts, if_neg (Ne.symm h.1), parts_append d t p h.2]

theorem traverse_map {α β γ : Type} (f : β → Option γ) (g : α → β) (k : α → γ) : ∀ l : List α, (∀ a ∈ l, f (g a) = some (k a)) → traverse f (l.map g) = some (l.map k)
  | [], _ => rfl
  | a :: l, h => by
    rw [List.map_cons, traverse, h a (by simp), traverse_map f g k l fun b hb => h b (by simp [hb])]
    rfl

theorem joinComma_cons (a : List Nat) : ∀ l, joinComma (a :: l) = a ++ l.flatMap fun b => str ", " ++ b
  | [] => by simp [joinComma]
  | b :: l => by
    rw [joinComma, joinComma_cons b l]
    · simp
    · simp

theorem parts_join : ∀ (l : List (List Nat)) (a : List Nat), (∀ x ∈ a :: l, 44 ∉ x) → parts 44 (a ++ l.flatMap fun b => str ", " ++ b) = a :: l.map fun b => TableText.text " " ++ b
  | [], a, h => by
    rw [List.flatMap_nil, List.append_nil, parts_last 44 a (h a (by simp))]
    rfl
  | b :: l, a, h => by
    have e : a ++ (b :: l).flatMap (fun b => str ", " ++ b) = a ++ 44 :: ((32 :: b) ++ l.flatMap fun b => str ", " ++ b) := by
      rw [List.flatMap_cons]
      rfl
    rw [e, parts_append 44 _ a (h a (by simp)), parts_join l (32 :: b) (by
      intro x hx
      rcases List.mem_cons.1 hx with rfl | hx
      · simp only [List.mem_cons, not_or]
        exact ⟨by omega, h b (by simp)⟩
      · exact h x (by simp [hx]))]
    rfl

/-- a slice written and read back -/
theorem list_ok (l : List (List Nat)) (h : ∀ x ∈ l, 44 ∉ x ∧ x ≠ []) : readList (str "&[" ++ joinComma l ++ str "]") = some l := by
  have e : str "&[" ++ joinComma l ++ str "]" = TableText.text "&[" ++ (joinComma l ++ TableText.text "]") := by
    rw [List.append_assoc]
    rfl
  rw [readList, e, Proofs.Gen.after_append]
  simp only [Option.bind_eq_bind, Option.bind_some, Proofs.Gen.before_append]
  cases l with
  | nil => rfl
  | cons a l =>
    rw [joinComma_cons, if_neg, parts_join l a fun x hx => (h x hx).1]
    · simp only
      have := traverse_map (TableText.after (TableText.text " ")) (fun b : List Nat => TableText.text " " ++ b) (fun b => b) l fun b _ => Proofs.Gen.after_append _ _
      rw [this]
      simp
    · intro h0
      exact (h a (by simp)).2 (List.append_eq_nil_iff.1 h0).1

theorem joinComma_line (l : List (List Nat)) (h : ∀ x ∈ l, 10 ∉ x) : 10 ∉ joinComma l := by
  cases l with
  | nil => simp [joinComma]
  | cons a l =>
    rw [joinComma_cons, List.mem_append, List.mem_flatMap]
    rintro (h1 | ⟨b, hb, h1⟩)
    · exact h a (by simp) h1
    · rcases List.mem_append.1 h1 with h1 | h1
      · exact absurd h1 (by decide)
      · exact h b (by simp [hb]) h1

theorem quoted_ok (v : List Nat) : readQuoted (str "\"" ++ v ++ str "\"") = some v := by
  have e : str "\"" ++ v ++ str "\"" = TableText.text "\"" ++ (v ++ TableText.text "\"") := by
    rw [List.append_assoc]
    rfl
  rw [readQuoted, e, Proofs.Gen.after_append]
  simp only [Option.bind_eq_bind, Option.bind_some, Proofs.Gen.before_append]

/-! ## Sets of strings -/

theorem strLt_irrefl : ∀ s, strLt s s = false
  | [] => rfl
  | a :: s => by rw [strLt, if_neg (Nat.lt_irrefl _), if_pos rfl, strLt_irrefl s]

theorem strLt_trans : ∀ {s t u : List Nat}, strLt s t = true → strLt t u = true → strLt s u = true
  | [], [], _, h, _ => by cases h
  | [], _ :: _, [], _, h => by cases h
  | [], _ :: _, _ :: _, _, _ => rfl
  | _ :: _, [], _, h, _ => by cases h
  | _ :: _, _ :: _, [], _, h => by cases h
  | a :: s, b :: t, c :: u, h1, h2 => by
    rw [strLt] at h1 h2 ⊢
    split at h1
    · rename_i hab
      split at h2
      · rw [if_pos (by omega)]
      · split at h2
        · rw [if_pos (by omega)]
        · cases h2
    · split at h1
      · rename_i hab
        subst hab
        split at h2
        · rename_i hbc
          rw [if_pos hbc]
        · split at h2
          · rename_i h3 h4
            rw [if_neg h3, if_pos h4]
            exact strLt_trans h1 h2
          · cases h2
      · cases h1

theorem strLt_total : ∀ {s t : List Nat}, strLt s t = false → s ≠ t → strLt t s = true
  | [], [], _, h => absurd rfl h
  | [], _ :: _, h, _ => by cases h
  | _ :: _, [], _, _ => rfl
  | a :: s, b :: t, h, hn => by
    rw [strLt] at h ⊢
    split at h
    · cases h
    · rename_i hab
      split at h
      · rename_i he
        subst he
        rw [if_neg (Nat.lt_irrefl _), if_pos rfl]
        exact strLt_total h fun h => hn (by rw [h])
      · rw [if_pos (by omega)]

theorem mem_insertStr (k : List Nat) : ∀ (l : List (List Nat)) (x : List Nat), x ∈ insertStr k l ↔ x = k ∨ x ∈ l
  | [], x => by simp [insertStr]
  | y :: l, x => by
    rw [insertStr]
    split
    · simp
    · split
      · rename_i h
        subst h
        simp
      · rw [List.mem_cons, mem_insertStr k l x, List.mem_cons]
        tauto

theorem sorted_insertStr (k : List Nat) : ∀ (l : List (List Nat)), l.Pairwise (fun a b => strLt a b = true) → (insertStr k l).Pairwise (fun a b => strLt a b = true)
  | [], _ => by simp [insertStr]
  | y :: l, h => by
    obtain ⟨h1, h2⟩ := List.pairwise_cons.1 h
    rw [insertStr]
    split
    · rename_i hlt
      refine List.pairwise_cons.2 ⟨?_, h⟩
      intro x hx
      rcases List.mem_cons.1 hx with rfl | hx
      · exact hlt
      · exact strLt_trans hlt (h1 x hx)
    · rename_i hlt
      split
      · exact h
      · rename_i hne
        refine List.pairwise_cons.2 ⟨?_, sorted_insertStr k l h2⟩
        intro x hx
        rcases (mem_insertStr k l x).1 hx with rfl | hx
        · exact strLt_total (Bool.not_eq_true _ ▸ hlt) hne
        · exact h1 x hx

theorem values_ok : ∀ (ps acc : List (List Nat)), acc.Pairwise (fun a b => strLt a b = true) → (ps.foldl (fun s p => insertStr p s) acc).Pairwise (fun a b => strLt a b = true) ∧
    ∀ x, x ∈ ps.foldl (fun s p => insertStr p s) acc ↔ x ∈ acc ∨ x ∈ ps
  | [], acc, h => ⟨h, by simp⟩
  | p :: ps, acc, h => by
    obtain ⟨h1, h2⟩ := values_ok ps (insertStr p acc) (sorted_insertStr p acc h)
    refine ⟨h1, fun x => ?_⟩
    rw [List.foldl_cons, h2, mem_insertStr, List.mem_cons]
    tauto

/-! ## The file of constants -/

/-- a word of a name -/
def IsWord (w : List Nat) : Prop := w ≠ [] ∧ ∀ c ∈ w, (65 ≤ c ∧ c ≤ 90) ∨ (48 ≤ c ∧ c ≤ 57) ∨ c = 45

theorem underscores_chars {w : List Nat} (h : IsWord w) : ∀ c ∈ underscores w, (65 ≤ c ∧ c ≤ 90) ∨ (48 ≤ c ∧ c ≤ 57) ∨ c = 95 := by
  intro c hc
  rw [underscores, List.mem_map] at hc
  obtain ⟨d, hd, rfl⟩ := hc
  have := h.2 d hd
  split <;> omega

theorem underscores_inj : ∀ {w w' : List Nat}, (∀ c ∈ w, c ≠ 95) → (∀ c ∈ w', c ≠ 95) → underscores w = underscores w' → w = w'
  | [], [], _, _, _ => rfl
  | [], _ :: _, _, _, h => by cases h
  | _ :: _, [], _, _, h => by cases h
  | a :: w, b :: w', h1, h2, h => by
    simp only [underscores, List.map_cons, List.cons.injEq] at h
    have ha := h1 a (by simp)
    have hb := h2 b (by simp)
    have : a = b := by
      have := h.1
      split at this <;> split at this <;> omega
    rw [this, underscores_inj (fun c hc => h1 c (by simp [hc])) (fun c hc => h2 c (by simp [hc])) h.2]

/-- the line of a constant -/
def constLine (p : List Nat) : List Nat := str "const " ++ underscores p ++ str ": &str = \"" ++ p ++ str "\";"

theorem constLine_ok {p : List Nat} (h : IsWord p) : 10 ∉ constLine p ∧ readConst (constLine p) = some (underscores p, p) := by
  have hu := underscores_chars h
  refine ⟨?_, ?_⟩
  · rw [constLine]
    simp only [List.mem_append, not_or]
    refine ⟨⟨⟨⟨by decide, fun hc => ?_⟩, by decide⟩, fun hc => ?_⟩, by decide⟩
    · have := hu 10 hc
      omega
    · have := h.2 10 hc
      omega
  · have e : constLine p = TableText.text "const " ++ (underscores p ++ 58 :: (TableText.text " &str = \"" ++ (p ++ TableText.text "\";"))) := by
      rw [constLine]
      simp only [List.append_assoc]
      rfl
    obtain ⟨h1, h2⟩ := takeWhile_append_stop (· ≠ 58) (underscores p) (TableText.text " &str = \"" ++ (p ++ TableText.text "\";")) (by
      intro c hc
      have := hu c hc
      simp only [decide_eq_true_eq]
      omega) 58 (by rfl)
    rw [readConst, e, Proofs.Gen.after_append]
    simp only [Option.bind_eq_bind, Option.bind_some, h1, h2]
    have e2 : 58 :: (TableText.text " &str = \"" ++ (p ++ TableText.text "\";")) = TableText.text ": &str = \"" ++ (p ++ TableText.text "\";") := rfl
    rw [e2, Proofs.Gen.after_append]
    simp only [Option.bind_some, Proofs.Gen.before_append]
    rfl

theorem lines_consts : ∀ (ps : List (List Nat)), (∀ p ∈ ps, IsWord p) → TableText.lines (ps.flatMap fun p => constLine p ++ [10]) [] = ps.map constLine ++ [[]]
  | [], _ => rfl
  | p :: ps, h => by
    rw [List.flatMap_cons, List.append_assoc, List.singleton_append, Proofs.Gen.lines_append _ _ _ (constLine_ok (h p (by simp))).1, lines_consts ps fun q hq => h q (by simp [hq])]
    rfl

theorem consts_ok (ps : List (List Nat)) (h : ∀ p ∈ ps, IsWord p) : readConsts (ps.flatMap fun p => constLine p ++ [10]) = some (ps.map fun p => (underscores p, p)) := by
  rw [readConsts, lines_consts ps h]
  simp only [List.getLast?_concat, if_true, List.dropLast_concat]
  exact traverse_map readConst constLine _ ps fun p hp => (constLine_ok (h p hp)).2

theorem lookup_const (p : List Nat) (hp : IsWord p) : ∀ (ps : List (List Nat)), (∀ q ∈ ps, IsWord q) → p ∈ ps → (ps.map fun p => (underscores p, p)).lookup (underscores p) = some p
  | q :: ps, h, hm => by
    rw [List.map_cons, List.lookup_cons]
    by_cases hq : p = q
    · subst hq
      simp
    · have hne : underscores p ≠ underscores q := fun he => hq (underscores_inj (fun c hc => by have := hp.2 c hc; omega) (fun c hc => by have := (h q (by simp)).2 c hc; omega) he)
      rw [show (underscores p == underscores q) = false by simpa using hne]
      exact lookup_const p hp ps (fun q hq => h q (by simp [hq])) (by
        rcases List.mem_cons.1 hm with h | h
        · exact absurd h hq
        · exact h)

/-! ## Splitting a name -/

theorem word_space {c : Nat} (h : (65 ≤ c ∧ c ≤ 90) ∨ (48 ≤ c ∧ c ≤ 57) ∨ c = 45) : isWhitespace c = false := by
  unfold isWhitespace
  simp only [Bool.or_eq_false_iff, Bool.and_eq_false_imp, decide_eq_true_eq, decide_eq_false_iff_not, beq_eq_false_iff_ne]
  omega

theorem split_word_append (sep : Nat → Bool) (d : Nat) (hd : sep d = true) (t : List Nat) : ∀ p : List Nat, (∀ c ∈ p, sep c = false) → Cli.split sep (p ++ d :: t) = p :: Cli.split sep t
  | [], _ => by rw [List.nil_append, Cli.split, if_pos hd]
  | c :: p, h => by
    rw [List.cons_append, Cli.split, h c (by simp), split_word_append sep d hd t p fun c hc => h c (by simp [hc])]
    simp

theorem split_word_last (sep : Nat → Bool) : ∀ p : List Nat, (∀ c ∈ p, sep c = false) → Cli.split sep p = [p]
  | [], _ => rfl
  | c :: p, h => by
    rw [Cli.split, h c (by simp), split_word_last sep p fun c hc => h c (by simp [hc])]
    simp

theorem split_name : ∀ (ws : List (List Nat)) (w : List Nat), (∀ x ∈ w :: ws, IsWord x) → Cli.split isWhitespace (joinWith [32] (w :: ws)) = w :: ws
  | [], w, h => split_word_last _ w fun c hc => word_space ((h w (by simp)).2 c hc)
  | x :: ws, w, h => by
    rw [joinWith, List.singleton_append, split_word_append _ 32 rfl _ w (fun c hc => word_space ((h w (by simp)).2 c hc)), split_name ws x fun y hy => h y (List.mem_cons_of_mem _ hy)]
    simp

theorem split_ok (ws : List (List Nat)) (h0 : ws ≠ []) (h : ∀ w ∈ ws, IsWord w) : splitWhitespace (joinWith [32] ws) = ws := by
  cases ws with
  | nil => exact absurd rfl h0
  | cons w ws =>
    rw [splitWhitespace, split_name ws w h, List.filter_eq_self]
    intro x hx
    simpa using (h x hx).1

/-! ## The two files -/

theorem mem_namePieces (items : List Item) (h : FileOk items) (c : Nat) (ps : List (List Nat)) : (c, ps) ∈ namePieces (items.flatMap itemEntries) ↔
    (nameOf items c).map splitWhitespace = some ps := by
  rw [namePieces, List.mem_map]
  constructor
  · rintro ⟨e, he, hc⟩
    rw [List.mem_filter, mem_entryAt items h] at he
    cases hc
    obtain ⟨he, hn⟩ := he
    rw [entryAt, Option.map_eq_some_iff] at he
    obtain ⟨i, hi, he⟩ := he
    have hname : e.name = i.name := by rw [← he]; rfl
    rw [nameOf, hi, Option.map_some, Option.filter_some, ← hname, if_pos hn]
    rfl
  · intro hn
    rw [nameOf] at hn
    cases hi : itemOf items c with
    | none =>
      rw [hi] at hn
      cases hn
    | some i =>
      rw [hi, Option.map_some, Option.filter_some] at hn
      split at hn
      · rename_i hh
        rw [Option.map_some, Option.some.injEq] at hn
        subst hn
        refine ⟨entry i.fields i.name c, List.mem_filter.2 ⟨(mem_entryAt items h _).2 ?_, hh⟩, rfl⟩
        show entryAt items c = _
        rw [entryAt, hi]
        rfl
      · cases hn

theorem name_tables (items : List Item) (h : FileOk items) (hn : ∀ c n, nameOf items c = some n → IsName n) :
    ∃ sv consts sm t, nameValues (UnicodeData.fileText items) = .ok sv ∧ readConsts sv = some consts ∧ (consts.map (·.1)).Nodup ∧
      nameMap (UnicodeData.fileText items) = .ok sm ∧ TableText.readTable sm = some t ∧ WellFormed t ∧
      ∀ c, ∃ v, t.find c = .ok v ∧ v.map (readName consts) = (nameOf items c).map some := by
  have hname : ∀ c n, nameOf items c = some n → splitWhitespace n ≠ [] ∧ (∀ w ∈ splitWhitespace n, IsWord w) ∧ joinWith [32] (splitWhitespace n) = n := by
    intro c n hc
    obtain ⟨ws, h0, rfl, hw⟩ := hn c n hc
    rw [split_ok ws h0 hw]
    exact ⟨h0, hw, rfl⟩
  obtain ⟨hv1, hv2⟩ := values_ok ((namePieces (items.flatMap itemEntries)).flatMap (·.2)) [] List.Pairwise.nil
  have hmem : ∀ p, p ∈ ((namePieces (items.flatMap itemEntries)).flatMap (·.2)).foldl (fun s p => insertStr p s) [] ↔ ∃ c n, nameOf items c = some n ∧ p ∈ splitWhitespace n := by
    intro p
    rw [hv2]
    simp only [List.not_mem_nil, false_or, List.mem_flatMap]
    constructor
    · rintro ⟨⟨c, ps⟩, h1, h2⟩
      rw [mem_namePieces items h, Option.map_eq_some_iff] at h1
      obtain ⟨n, hc, rfl⟩ := h1
      exact ⟨c, n, hc, h2⟩
    · rintro ⟨c, n, hc, h2⟩
      refine ⟨(c, splitWhitespace n), (mem_namePieces items h _ _).2 ?_, h2⟩
      rw [hc]
      rfl
  generalize hval : ((namePieces (items.flatMap itemEntries)).flatMap (·.2)).foldl (fun s p => insertStr p s) [] = vals at hv1 hmem
  have hwords : ∀ p ∈ vals, IsWord p := by
    intro p hp
    obtain ⟨c, n, hc, h2⟩ := (hmem p).1 hp
    exact (hname c n hc).2.1 p h2
  have hfind : ∀ c, find c (collectMap (namePieces (items.flatMap itemEntries))) = (nameOf items c).map splitWhitespace := by
    intro c
    rw [namePieces, collect_filter_find items h, nameOf, entryAt]
    cases itemOf items c with
    | none => rfl
    | some i =>
      simp only [Option.map_some, Option.filter_some, entry]
      split <;> rfl
  obtain ⟨t, h1, h2, h3⟩ := direct_find (fun ps : List (List Nat) => str "&[" ++ joinComma (ps.map underscores) ++ str "]") _ (collect_sorted (namePieces (items.flatMap itemEntries))) (by
    intro c v hv
    rw [hfind, Option.map_eq_some_iff] at hv
    obtain ⟨n, hc, rfl⟩ := hv
    simp only [List.mem_append, not_or]
    refine ⟨⟨by decide, joinComma_line _ ?_⟩, by decide⟩
    intro x hx h10
    obtain ⟨w, hw, rfl⟩ := List.mem_map.1 hx
    have := underscores_chars ((hname c n hc).2.1 w hw) 10 h10
    omega)
  refine ⟨_, _, _, t, ?_, consts_ok vals hwords, ?_, ?_, h1, h2, fun c => ⟨_, h3 c, ?_⟩⟩
  · rw [nameValues, parse_ok items h.ok, bind_ok]
    simp only [hval]
    show Outcome.ok _ = Outcome.ok _
    congr 1
    congr 1
    funext p
    rw [constLine]
    simp only [List.append_assoc]
    rfl
  · rw [List.map_map, List.Nodup, List.pairwise_map]
    refine hv1.imp_of_mem ?_
    intro a b ha hb hlt he
    have := underscores_inj (fun c hc => by have := (hwords a ha).2 c hc; omega) (fun c hc => by have := (hwords b hb).2 c hc; omega) he
    subst this
    rw [strLt_irrefl] at hlt
    cases hlt
  · rw [nameMap, parse_ok items h.ok, bind_ok]
    rfl
  · rw [hfind, Option.map_map, Option.map_map]
    cases hc : nameOf items c with
    | none => rfl
    | some n =>
      obtain ⟨h0, hw, hj⟩ := hname c n hc
      simp only [Option.map_some, Function.comp_apply, Option.some.injEq]
      rw [readName, list_ok]
      · simp only [Option.bind_eq_bind, Option.bind_some]
        rw [traverse_map _ underscores (fun p => p) _ fun p hp => lookup_const p (hw p hp) vals hwords ((hmem p).2 ⟨c, n, hc, hp⟩)]
        simp only [List.map_id', Option.bind_some, hj]
        rfl
      · intro x hx
        obtain ⟨w, hw', rfl⟩ := List.mem_map.1 hx
        refine ⟨fun h44 => ?_, ?_⟩
        · have := underscores_chars (hw w hw') 44 h44
          omega
        · rw [underscores, ne_eq, List.map_eq_nil_iff]
          exact (hw w hw').1

/-! ## `Jamo.txt` -/

theorem alpha_of (c : Nat) : alpha c = true ↔ (65 ≤ c ∧ c ≤ 90) ∨ (97 ≤ c ∧ c ≤ 122) := by
  unfold alpha
  simp only [Bool.or_eq_true, Bool.and_eq_true, decide_eq_true_eq]

def jamoCaps (r : JamoRow) : Caps := [(2, r.name), (1, r.code)]

theorem jamo_runs (r : JamoRow) (hr : r.Ok) (b : Bool) (s : List Nat) :
    Runs (cat [.cap 1 hex46, chr 59, .star (.cls blank), .cap 2 (.star (.cls alpha))]) ⟨r.text ++ 10 :: s, b, []⟩ ⟨r.tail ++ 10 :: s, false, jamoCaps r⟩ := by
  have e : r.text ++ 10 :: s = r.code ++ 59 :: (r.pad ++ (r.name ++ (r.tail ++ 10 :: s))) := by simp [JamoRow.text]
  rw [e]
  have ht : ∀ c, (r.tail ++ 10 :: s).head? = some c → alpha c = false ∧ (r.name = [] → blank c = false) := by
    intro c hc
    cases htl : r.tail with
    | nil =>
      rw [htl] at hc
      cases hc
      exact ⟨rfl, fun _ => rfl⟩
    | cons d t =>
      rw [htl] at hc
      simp only [List.cons_append, List.head?_cons, Option.some.injEq] at hc
      subst hc
      obtain ⟨h1, h2⟩ := hr.tail.2 d (by rw [htl]; rfl)
      rw [← alpha_of] at h1
      refine ⟨by simpa using h1, fun h0 => ?_⟩
      have := h2 h0
      unfold UcdFile.IsBlank at this
      unfold blank
      simp only [Bool.or_eq_false_iff, beq_eq_false_iff_ne]
      omega
  refine (isHex_runs hr.code.1 1 _ _ _ (by rintro c hc; cases hc; rfl)).seq ?_
  refine (Runs.chr 59 _ _ _).seq ?_
  refine (Runs.star_cls' r.pad _ _ (fun c hc => blank_of (hr.pad c hc)) ?_).seq ?_
  · intro c hc
    cases hn : r.name with
    | nil =>
      rw [hn] at hc
      exact (ht c hc).2 hn
    | cons d t =>
      rw [hn] at hc
      simp only [List.cons_append, List.head?_cons, Option.some.injEq] at hc
      subst hc
      have := hr.name d (by rw [hn]; simp)
      unfold blank
      simp only [Bool.or_eq_false_iff, beq_eq_false_iff_ne]
      omega
  · exact Runs.cap (Runs.star_cls' r.name _ _ (fun c hc => ⟨(alpha_of c).2 (hr.name c hc), by have := hr.name c hc; omega⟩) fun c hc => (ht c hc).1)

theorem jamo_line (r : JamoRow) (hr : r.Ok) : 10 ∉ r.text := by
  simp only [JamoRow.text, List.mem_append, List.mem_cons, not_or]
  exact ⟨hex_line hr.code.1, by omega, fun h => (blank_of (hr.pad 10 h)).2 rfl, fun h => by have := hr.name 10 h; omega, hr.tail.1⟩

theorem jamo_captures (ls : List (UcdFile.Line JamoRow)) (h : UcdFile.FileOk JamoRow.Ok ls) :
    capturesIter jamoRe (UcdFile.fileText JamoRow.text ls) = (UcdFile.rowsOf ls).map jamoCaps := by
  refine captures_file _ JamoRow.text JamoRow.Ok jamoCaps ls h ?_ (fun t b ht => other_fails _ (by simp) t b ht)
  intro r hr
  refine ⟨jamo_line r hr, r.code ++ 59 :: (r.pad ++ r.name), r.tail, by simp [JamoRow.text], by simp, fun s => jamo_runs r hr true s⟩

theorem valueOf_mem {α : Type} {rows : List (Nat × Nat × α)} {c : Nat} {v : α} (h : UcdFile.valueOf rows c = some v) : ∃ e ∈ rows, e.2.2 = v := by
  rw [UcdFile.valueOf] at h
  split at h
  · rw [Option.map_eq_some_iff] at h
    obtain ⟨e, he, rfl⟩ := h
    exact ⟨e, (List.mem_filter.1 (List.mem_of_getLast? he)).1, rfl⟩
  · cases h

theorem jamo_table (ls : List (UcdFile.Line JamoRow)) (h : UcdFile.FileOk JamoRow.Ok ls) :
    ∃ s t, jamo (UcdFile.fileText JamoRow.text ls) = .ok s ∧ TableText.readTable s = some t ∧ WellFormed t ∧
      ∀ c, ∃ v, t.find c = .ok v ∧ v.map readQuoted = (UcdFile.valueOf ((UcdFile.rowsOf ls).map JamoRow.triple) c).map some := by
  have hok : ∀ r ∈ UcdFile.rowsOf ls, r.Ok := fun r hr => rows_ok h r hr
  have hm : jamoFromStr (UcdFile.fileText JamoRow.text ls) = .ok (insertRows [] ((UcdFile.rowsOf ls).map JamoRow.triple)) := by
    rw [jamoFromStr, jamo_captures ls h, foldOutcome_ok _ (fun m c => put (UcdFile.hexValue ((capGet c 1).getD [])) ((capGet c 2).getD []) m)]
    · rw [insertRows, List.foldl_map, List.foldl_map]
      congr 1
      refine List.foldl_ext _ _ _ ?_
      intro m r hr
      have hc := (hok r hr).code
      have : points (UcdFile.hexValue r.code) (UcdFile.hexValue r.code) = [UcdFile.hexValue r.code] := by
        rw [points, show UcdFile.hexValue r.code + 1 - UcdFile.hexValue r.code = 1 by omega]
        simp only [List.range'_one, List.filterMap_cons, List.filterMap_nil]
        rw [Utf.charFromU32, if_pos (by have := hc.2; unfold IsScalar at this; omega)]
      simp only [JamoRow.triple, this]
      rfl
    · intro m c hc
      obtain ⟨r, hr, rfl⟩ := List.mem_map.1 hc
      have h1 : group (jamoCaps r) 1 = .ok r.code := rfl
      have h2 : group (jamoCaps r) 2 = .ok r.name := rfl
      rw [h1, h2]
      show (hexChar r.code).bind _ = _
      rw [hexChar_ok (hok r hr).code]
      rfl
  have hs : Sorted (insertRows [] ((UcdFile.rowsOf ls).map JamoRow.triple)) := sorted_insertRows _ _ List.Pairwise.nil
  have hf : ∀ c, find c (insertRows [] ((UcdFile.rowsOf ls).map JamoRow.triple)) = UcdFile.valueOf ((UcdFile.rowsOf ls).map JamoRow.triple) c := fun c => by
    rw [find_insertRows c _ _ List.Pairwise.nil]
    exact Option.or_none
  obtain ⟨t, h1, h2, h3⟩ := direct_find (fun v : List Nat => str "\"" ++ v ++ str "\"") _ hs (by
    intro c v hv
    rw [hf] at hv
    obtain ⟨r, hr, rfl⟩ : ∃ r ∈ UcdFile.rowsOf ls, v = r.name := by
      obtain ⟨e, he, rfl⟩ := valueOf_mem hv
      obtain ⟨r, hr, rfl⟩ := List.mem_map.1 he
      exact ⟨r, hr, rfl⟩
    simp only [List.mem_append, not_or]
    exact ⟨⟨by decide, fun h => by have := (hok r hr).name 10 h; omega⟩, by decide⟩)
  refine ⟨_, t, by rw [jamo, hm]; rfl, h1, h2, fun c => ⟨_, h3 c, ?_⟩⟩
  rw [hf, Option.map_map]
  congr 1
  funext v
  exact quoted_ok v

/-! ## `NameAliases.txt` -/

def aliasCaps (r : AliasRow) : Caps := [(3, TableText.text r.type.1), (2, r.alias), (1, r.code)]

theorem type_chars : ∀ t ∈ aliasTypes, ∀ c ∈ TableText.text t.1, alpha c = true ∧ c ≠ 10 := by decide

theorem alias_runs (r : AliasRow) (hr : r.Ok) (b : Bool) (s : List Nat) :
    Runs (cat [.cap 1 hex46, chr 59, .cap 2 (.star (.cls fun c => digit c || alpha c || c == 32 || c == 45)), chr 59, .cap 3 (.star (.cls alpha))])
      ⟨r.text ++ 10 :: s, b, []⟩ ⟨10 :: s, false, aliasCaps r⟩ := by
  have e : r.text ++ 10 :: s = r.code ++ 59 :: (r.alias ++ 59 :: (TableText.text r.type.1 ++ 10 :: s)) := by simp [AliasRow.text]
  rw [e]
  refine (isHex_runs hr.code.1 1 _ _ _ (by rintro c hc; cases hc; rfl)).seq ?_
  refine (Runs.chr 59 _ _ _).seq ?_
  refine (Runs.cap (Runs.star_cls' r.alias _ _ (fun c hc => ?_) (by rintro c hc; cases hc; rfl))).seq ?_
  · have := hr.alias c hc
    refine ⟨?_, by omega⟩
    unfold digit alpha
    simp only [Bool.or_eq_true, Bool.and_eq_true, decide_eq_true_eq, beq_iff_eq]
    omega
  · refine (Runs.chr 59 _ _ _).seq ?_
    exact Runs.cap (Runs.star_cls' _ _ _ (type_chars _ hr.type) (by rintro c hc; cases hc; rfl))

theorem alias_captures (ls : List (UcdFile.Line AliasRow)) (h : UcdFile.FileOk AliasRow.Ok ls) :
    capturesIter aliasesRe (UcdFile.fileText AliasRow.text ls) = (UcdFile.rowsOf ls).map aliasCaps := by
  refine captures_file _ AliasRow.text AliasRow.Ok aliasCaps ls h ?_ (fun t b ht => other_fails _ (by simp) t b ht)
  intro r hr
  refine ⟨?_, r.text, [], by simp, by simp [AliasRow.text], fun s => alias_runs r hr true s⟩
  simp only [AliasRow.text, List.mem_append, List.mem_cons, not_or]
  exact ⟨hex_line hr.code.1, by omega, fun h => by have := hr.alias 10 h; omega, by omega, fun h => (type_chars _ hr.type 10 h).2 rfl⟩

/-- what a row says about `c` in the map `x` -/
def aliasValue (x : String) (c : Nat) (r : AliasRow) : Option (List Nat) :=
  if UcdFile.hexValue r.code = c then
    if x = "name_alias_types" then some (TableText.text r.type.2.1) else if aliasTables.lookup r.type.2.2 = some x then some r.alias else none
  else none

def AliasInv (m : Maps) (rows : List AliasRow) : Prop := ∀ x, Sorted (m x) ∧ ∀ c, find c (m x) = nonempty (rows.filterMap (aliasValue x c)).eraseDups

theorem insertOrAppend_ok (m : List (Nat × List (List Nat))) (V : Nat → List (List Nat)) (hs : Sorted m) (hf : ∀ c, find c m = nonempty (V c).eraseDups) (k : Nat) (v : List Nat) :
    Sorted (insertOrAppend m k v) ∧ ∀ c, find c (insertOrAppend m k v) = nonempty (V c ++ if k = c then [v] else []).eraseDups := by
  have hne : ∀ l : List (List Nat), nonempty l = if l = [] then none else some l := by
    intro l
    cases l <;> rfl
  have happ : ∀ l : List (List Nat), (l ++ [v]).eraseDups = if v ∈ l then l.eraseDups else l.eraseDups ++ [v] := by
    intro l
    rw [List.eraseDups_append]
    by_cases h : v ∈ l
    · rw [if_pos h]
      simp [List.removeAll, h]
    · rw [if_neg h]
      simp [List.removeAll, h, List.eraseDups_cons]
  have hk := hf k
  rw [insertOrAppend]
  cases hfk : find k m with
  | none =>
    rw [hfk, hne] at hk
    have h0 : (V k).eraseDups = [] := by
      split at hk
      · assumption
      · cases hk
    have h0' : V k = [] := by
      rw [List.eq_nil_iff_forall_not_mem]
      intro x hx
      have := List.mem_eraseDups.2 hx
      rw [h0] at this
      cases this
    refine ⟨sorted_insert _ _ _ hs, fun c => ?_⟩
    simp only
    rw [find_insert c k [v] m hs]
    by_cases hc : k = c
    · subst hc
      rw [if_pos rfl, if_pos rfl, h0']
      rfl
    · rw [if_neg (Ne.symm hc), if_neg hc, List.append_nil, hf]
  | some vs =>
    rw [hfk, hne] at hk
    have h0 : vs = (V k).eraseDups := by
      split at hk
      · cases hk
      · exact Option.some.inj hk
    have h1 : (V k).eraseDups ≠ [] := by
      split at hk
      · cases hk
      · assumption
    simp only
    by_cases hv : v ∈ V k
    · rw [if_pos (by rw [h0]; simpa using hv)]
      refine ⟨hs, fun c => ?_⟩
      rw [hf]
      by_cases hc : k = c
      · subst hc
        rw [if_pos rfl, happ, if_pos hv]
      · rw [if_neg hc, List.append_nil]
    · rw [if_neg (by rw [h0]; simpa using hv)]
      refine ⟨sorted_insert _ _ _ hs, fun c => ?_⟩
      rw [find_insert c k _ m hs]
      by_cases hc : k = c
      · subst hc
        rw [if_pos rfl, if_pos rfl, happ, if_neg hv, hne, if_neg (by simp), h0]
      · rw [if_neg (Ne.symm hc), if_neg hc, List.append_nil, hf]

theorem arm_of : ∀ t ∈ aliasTypes, ∃ a, (aliasArms.find? fun a => str a.1 = TableText.text t.1) = some a ∧ a.2.1 = t.2.1 ∧ aliasTables.lookup t.2.2 = some a.2.2 ∧ a.2.2 ≠ "name_alias_types" := by
  intro t ht
  simp only [aliasTypes, List.mem_cons, List.not_mem_nil, or_false] at ht
  rcases ht with rfl | rfl | rfl | rfl | rfl
  · exact ⟨("correction", "NameCorrections", "corrections"), by decide, rfl, by decide, by decide⟩
  · exact ⟨("control", "ControlCodeNames", "controls"), by decide, rfl, by decide, by decide⟩
  · exact ⟨("alternate", "AlternateNames", "alternates"), by decide, rfl, by decide, by decide⟩
  · exact ⟨("figment", "Figments", "figments"), by decide, rfl, by decide, by decide⟩
  · exact ⟨("abbreviation", "NameAbbreviations", "abbreviations"), by decide, rfl, by decide, by decide⟩

theorem alias_step (m : Maps) (rows : List AliasRow) (hm : AliasInv m rows) (r : AliasRow) (hr : r.Ok) :
    ∃ m', aliasesStep m (aliasCaps r) = .ok m' ∧ AliasInv m' (rows ++ [r]) := by
  obtain ⟨a, h1, h2, h3, h4⟩ := arm_of r.type hr.type
  have g1 : group (aliasCaps r) 1 = .ok r.code := rfl
  have g2 : group (aliasCaps r) 2 = .ok r.alias := rfl
  have g3 : group (aliasCaps r) 3 = .ok (TableText.text r.type.1) := rfl
  have g4 : (Outcome.ok r.code).bind hexChar = .ok (UcdFile.hexValue r.code) := hexChar_ok hr.code
  refine ⟨fun x => if x = a.2.2 then insertOrAppend (if x = "name_alias_types" then insertOrAppend (m x) (UcdFile.hexValue r.code) (str a.2.1) else m x) (UcdFile.hexValue r.code) r.alias
      else if x = "name_alias_types" then insertOrAppend (m x) (UcdFile.hexValue r.code) (str a.2.1) else m x, ?_, ?_⟩
  · rw [aliasesStep, g1, g2, g3, g4]
    simp only [bind_ok, h1, unwrap]
    rfl
  · intro x
    obtain ⟨hs, hf⟩ := hm x
    have happ : ∀ c, (rows ++ [r]).filterMap (aliasValue x c) = rows.filterMap (aliasValue x c) ++ (aliasValue x c r).toList := by
      intro c
      rw [List.filterMap_append]
      cases hv : aliasValue x c r <;> simp [hv]
    by_cases hx : x = a.2.2
    · have hx' : x ≠ "name_alias_types" := hx ▸ h4
      simp only [if_pos hx, if_neg hx']
      obtain ⟨h5, h6⟩ := insertOrAppend_ok (m x) (fun c => rows.filterMap (aliasValue x c)) hs hf (UcdFile.hexValue r.code) r.alias
      refine ⟨h5, fun c => ?_⟩
      have hl : aliasTables.lookup r.type.2.2 = some x := by rw [hx, h3]
      rw [h6, happ, aliasValue, if_neg hx', if_pos hl]
      split <;> rfl
    · by_cases hx' : x = "name_alias_types"
      · simp only [if_neg hx, if_pos hx']
        obtain ⟨h5, h6⟩ := insertOrAppend_ok (m x) (fun c => rows.filterMap (aliasValue x c)) hs hf (UcdFile.hexValue r.code) (str a.2.1)
        refine ⟨h5, fun c => ?_⟩
        rw [h6, happ, aliasValue, if_pos hx', h2]
        split <;> rfl
      · simp only [if_neg hx, if_neg hx']
        refine ⟨hs, fun c => ?_⟩
        have hl : ¬ aliasTables.lookup r.type.2.2 = some x := by
          rw [h3, Option.some.injEq]
          exact Ne.symm hx
        rw [hf, happ, aliasValue, if_neg hx', if_neg hl]
        simp

theorem alias_fold : ∀ (rows done : List AliasRow) (m : Maps), (∀ r ∈ rows, r.Ok) → AliasInv m done →
    ∃ m', foldOutcome aliasesStep m (rows.map aliasCaps) = .ok m' ∧ AliasInv m' (done ++ rows)
  | [], done, m, _, hm => ⟨m, rfl, by simpa using hm⟩
  | r :: rows, done, m, h, hm => by
    obtain ⟨m1, h1, h2⟩ := alias_step m done hm r (h r (by simp))
    obtain ⟨m2, h3, h4⟩ := alias_fold rows (done ++ [r]) m1 (fun q hq => h q (by simp [hq])) h2
    refine ⟨m2, ?_, by simpa using h4⟩
    rw [List.map_cons, foldOutcome, h1]
    exact h3

theorem aliases_ok (ls : List (UcdFile.Line AliasRow)) (h : UcdFile.FileOk AliasRow.Ok ls) :
    ∃ m, aliasesFromStr (UcdFile.fileText AliasRow.text ls) = .ok m ∧ AliasInv m (UcdFile.rowsOf ls) := by
  rw [aliasesFromStr, alias_captures ls h]
  exact alias_fold (UcdFile.rowsOf ls) [] (fun _ => []) (rows_ok h) fun x => ⟨List.Pairwise.nil, fun c => rfl⟩

theorem types_values (rows : List AliasRow) (c : Nat) : (rows.filterMap (aliasValue "name_alias_types" c)).eraseDups = typesOf rows c := by
  rw [typesOf]
  congr 1
  induction rows with
  | nil => rfl
  | cons r rows ih =>
    rw [List.filterMap_cons, List.filter_cons, aliasValue]
    by_cases hc : UcdFile.hexValue r.code = c
    · simp [hc, ih]
    · simp [hc, ih]

theorem field_inj : ∀ t ∈ aliasTypes, ∀ t' ∈ aliasTypes, aliasTables.lookup t.2.2 = aliasTables.lookup t'.2.2 → t = t' := by decide

theorem alias_values (rows : List AliasRow) (hr : ∀ r ∈ rows, r.Ok) (type : String × String × String) (ht : type ∈ aliasTypes) (x : String) (hx : aliasTables.lookup type.2.2 = some x)
    (hx' : x ≠ "name_alias_types") (c : Nat) : (rows.filterMap (aliasValue x c)).eraseDups = aliasesOf rows type c := by
  rw [aliasesOf]
  congr 1
  induction rows with
  | nil => rfl
  | cons r rows ih =>
    rw [List.filterMap_cons, List.filter_cons, aliasValue, if_neg hx', ih fun q hq => hr q (by simp [hq])]
    by_cases hc : UcdFile.hexValue r.code = c
    · by_cases he : r.type = type
      · simp [hc, he, hx]
      · rw [if_pos hc, if_neg]
        · simp [he]
        · intro h
          exact he (field_inj _ (hr r (by simp)).type _ ht (h.trans hx.symm))
    · simp [hc]

theorem nonempty_map {α β : Type} (f : List α → β) (l : List α) : (nonempty l).map f = if l.isEmpty then none else some (f l) := by
  rw [nonempty]
  split <;> rfl

theorem type_names : ∀ t ∈ aliasTypes, 44 ∉ TableText.text t.2.1 ∧ 10 ∉ TableText.text t.2.1 ∧ TableText.text t.2.1 ≠ [] := by decide

theorem mem_nonempty {α : Type} {l v : List α} (h : nonempty l = some v) : v = l := by
  rw [nonempty] at h
  split at h
  · cases h
  · exact (Option.some.inj h).symm

theorem types_table (ls : List (UcdFile.Line AliasRow)) (h : UcdFile.FileOk AliasRow.Ok ls) :
    ∃ s t, nameAliasTypes (UcdFile.fileText AliasRow.text ls) = .ok s ∧ TableText.readTable s = some t ∧ WellFormed t ∧
      ∀ c, ∃ v, t.find c = .ok v ∧ v.map readList = (nonempty (typesOf (UcdFile.rowsOf ls) c)).map some := by
  obtain ⟨m, hm, hinv⟩ := aliases_ok ls h
  obtain ⟨hs, hf⟩ := hinv "name_alias_types"
  simp only [types_values] at hf
  have hmem : ∀ c, ∀ x ∈ typesOf (UcdFile.rowsOf ls) c, 44 ∉ x ∧ 10 ∉ x ∧ x ≠ [] := by
    intro c x hx
    rw [typesOf, List.mem_eraseDups, List.mem_map] at hx
    obtain ⟨r, hr, rfl⟩ := hx
    exact type_names _ (rows_ok h r (List.mem_filter.1 hr).1).type
  obtain ⟨t, h1, h2, h3⟩ := direct_find (fun vs : List (List Nat) => str "&[" ++ joinComma vs ++ str "]") _ hs (by
    intro c v hv
    rw [hf] at hv
    rw [mem_nonempty hv]
    simp only [List.mem_append, not_or]
    exact ⟨⟨by decide, joinComma_line _ fun x hx => (hmem c x hx).2.1⟩, by decide⟩)
  refine ⟨_, t, by rw [nameAliasTypes, hm]; rfl, h1, h2, fun c => ⟨_, h3 c, ?_⟩⟩
  rw [hf, Option.map_map, nonempty_map, nonempty_map]
  split
  · rfl
  · rw [Function.comp_apply, list_ok _ fun x hx => ⟨(hmem c x hx).1, (hmem c x hx).2.2⟩]

theorem aliases_table (type : String × String × String) (ht : type ∈ aliasTypes) (ls : List (UcdFile.Line AliasRow)) (h : UcdFile.FileOk AliasRow.Ok ls) :
    ∃ s t, nameAliases type.2.2 (UcdFile.fileText AliasRow.text ls) = .ok s ∧ TableText.readTable s = some t ∧ WellFormed t ∧
      ∀ c, ∃ v, t.find c = .ok v ∧ v.map (fun v => (readList v).bind (traverse readQuoted)) = (nonempty (aliasesOf (UcdFile.rowsOf ls) type c)).map some := by
  obtain ⟨m, hm, hinv⟩ := aliases_ok ls h
  obtain ⟨a, _, _, hx, hx'⟩ := arm_of type ht
  obtain ⟨hs, hf⟩ := hinv a.2.2
  simp only [alias_values _ (rows_ok h) type ht a.2.2 hx hx'] at hf
  have hmem : ∀ c, ∀ x ∈ aliasesOf (UcdFile.rowsOf ls) type c, 44 ∉ x ∧ 10 ∉ x := by
    intro c x hx
    rw [aliasesOf, List.mem_eraseDups, List.mem_map] at hx
    obtain ⟨r, hr, rfl⟩ := hx
    have := (rows_ok h r (List.mem_filter.1 hr).1).alias
    exact ⟨fun h => by have := this 44 h; omega, fun h => by have := this 10 h; omega⟩
  obtain ⟨t, h1, h2, h3⟩ := direct_find (fun vs : List (List Nat) => str "&[" ++ joinComma (vs.map fun v => str "\"" ++ v ++ str "\"") ++ str "]") _ hs (by
    intro c v hv
    rw [hf] at hv
    rw [mem_nonempty hv]
    simp only [List.mem_append, not_or]
    refine ⟨⟨by decide, joinComma_line _ ?_⟩, by decide⟩
    intro x hx
    obtain ⟨y, hy, rfl⟩ := List.mem_map.1 hx
    simp only [List.mem_append, not_or]
    exact ⟨⟨by decide, (hmem c y hy).2⟩, by decide⟩)
  refine ⟨_, t, by rw [nameAliases, hx]; simp only [hm]; rfl, h1, h2, fun c => ⟨_, h3 c, ?_⟩⟩
  rw [hf, Option.map_map, nonempty_map, nonempty_map]
  split
  · rfl
  · rw [Function.comp_apply, list_ok]
    · rw [Option.bind_some, traverse_map readQuoted _ (fun v => v) _ fun v _ => quoted_ok v, List.map_id']
    · intro x hx
      obtain ⟨y, hy, rfl⟩ := List.mem_map.1 hx
      simp only [List.mem_append, not_or]
      exact ⟨⟨⟨by decide, (hmem c y hy).1⟩, by decide⟩, by simp [str]⟩

end Proofs.GenNames
