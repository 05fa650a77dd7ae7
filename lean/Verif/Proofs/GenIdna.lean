import Verif.Proofs.GenFiles
import Mathlib.Data.List.Sort

/-! # Proofs about the tables generated from `IdnaMappingTable.txt`, `DerivedNormalizationProps.txt` and the files of binary properties -/
namespace Proofs.GenIdna
open Spec Spec.UcdFile Model Model.Regex Model.Gen Model.GenSource Model.GenWriter Proofs.Regex Proofs.GenSource Proofs.GenFiles

/-! ## Characters between two code points -/

theorem points_between (a b : Nat) : points a b = scalarsBetween a b := by
  rw [points, scalarsBetween]
  induction List.range' a (b + 1 - a) with
  | nil => rfl
  | cons x l ih =>
    rw [List.filterMap_cons, List.filter_cons, ih, Utf.charFromU32]
    have : ((x < 0xD800 ∨ 0xDFFF < x) ∧ x ≤ 0x10FFFF) ↔ IsScalar x := by
      unfold IsScalar
      omega
    by_cases h : IsScalar x
    · rw [if_pos (this.2 h)]
      simp [h]
    · rw [if_neg (fun h' => h (this.1 h'))]
      simp [h]

theorem collect_points (a b : Nat) (ha : IsScalar a) (hb : IsScalar b) : CharRange.collect (CharRange.CharRange.closed a b).iter = points a b := by
  rw [(Props.CharRange.c01_iteration_exact _ ⟨ha, hb⟩).1, points_between]
  rfl

theorem char_ok {c : Nat} (h : IsScalar c) : unwrap (Utf.charFromU32 c) = .ok c := by
  rw [Utf.charFromU32, if_pos (by unfold IsScalar at h; omega)]
  rfl

theorem openRight_points (a b : Nat) (ha : IsScalar a) (hb : IsScalar b) (hab : a ≤ b) : CharRange.collect (CharRange.CharRange.openRight a b).iter ++ [b] = points a b := by
  have hc := fun c (hc : IsScalar c) => (Props.CharRange.c04_constructors a b c ha hb hc).2.1
  have hv := (Props.CharRange.c04_constructors a b a ha hb ha).2.2.2.2.2.2.1
  obtain ⟨_, h2, h3⟩ := Props.CharRange.c01_iteration_exact _ hv
  have hm : ∀ c, c ∈ CharRange.collect (CharRange.CharRange.openRight a b).iter ↔ IsScalar c ∧ a ≤ c ∧ c < b := by
    intro c
    rw [h3]
    constructor
    · rintro ⟨h, h'⟩
      exact ⟨h, (hc c h).1 ((Props.CharRange.contains_iff _ _).2 h')⟩
    · rintro ⟨h, h'⟩
      exact ⟨h, (Props.CharRange.contains_iff _ _).1 ((hc c h).2 h')⟩
  refine List.Pairwise.eq_of_mem_iff (r := (· < ·)) ?_ ?_ ?_
  · rw [List.pairwise_append]
    refine ⟨h2, by simp, ?_⟩
    intro x hx y hy
    rw [List.mem_singleton] at hy
    subst hy
    exact ((hm x).1 hx).2.2
  · rw [points_between]
    exact Props.CharRange.sorted_scalarsBetween _ _
  · intro c
    rw [List.mem_append, hm, List.mem_singleton, mem_points]
    constructor
    · rintro (⟨h, h1, h2⟩ | rfl)
      · exact ⟨h, h1, by omega⟩
      · exact ⟨hb, hab, by omega⟩
    · rintro ⟨h, h1, h2⟩
      by_cases h3 : c = b
      · exact .inr h3
      · exact .inl ⟨h, h1, by omega⟩

/-! ## `IdnaMappingTable.txt` -/

theorem blank_space {c : Nat} (h : IsBlank c) : space c = true ∧ c ≠ 10 := by
  rcases h with rfl | rfl <;> exact ⟨rfl, by omega⟩

theorem hex_head {p : List Nat} (h : IsHex p) (t : List Nat) : ∃ d r, p ++ t = d :: r ∧ xdigit d = true := by
  obtain ⟨h4, _, hd⟩ := h
  cases p with
  | nil => simp at h4
  | cons d p => exact ⟨d, p ++ t, rfl, by rw [digit_xdigit]; exact hd d (by simp)⟩

theorem xdigit_space {c : Nat} (h : xdigit c = true) : space c = false := by
  unfold xdigit at h
  unfold space
  rw [Bool.eq_false_iff]
  simp only [Bool.or_eq_true, Bool.and_eq_true, decide_eq_true_eq, beq_iff_eq, ne_eq] at h ⊢
  omega

theorem pointsText_cons (p : List Nat) : ∀ ps, pointsText (p :: ps) = p ++ ps.flatMap (32 :: ·)
  | [] => by simp [pointsText]
  | q :: ps => by
    rw [pointsText, pointsText_cons q ps]
    · simp
    · simp

theorem flat_head (ps : List (List Nat)) (t : List Nat) (ht : ∀ c, t.head? = some c → xdigit c = false) : ∀ c, (ps.flatMap (32 :: ·) ++ t).head? = some c → xdigit c = false := by
  cases ps with
  | nil => simpa using ht
  | cons p ps =>
    intro c hc
    simp only [List.flatMap_cons, List.cons_append, List.head?_cons, Option.some.injEq] at hc
    subst hc
    rfl

theorem star_runs (t : List Nat) (cs : Caps) (ht : ∀ c, t.head? = some c → xdigit c = false) (hf : Fails (.seq (chr 32) hex46) ⟨t, false, cs⟩) :
    ∀ ps : List (List Nat), (∀ p ∈ ps, IsHex p) → Runs (.star (.seq (chr 32) hex46)) ⟨ps.flatMap (32 :: ·) ++ t, false, cs⟩ ⟨t, false, cs⟩
  | [], _ => Runs.star_nil hf
  | p :: ps, h => by
    have hp := h p (by simp)
    have e : (p :: ps).flatMap (32 :: ·) ++ t = 32 :: (p ++ (ps.flatMap (32 :: ·) ++ t)) := by simp
    rw [e]
    refine Runs.star_cons (s1 := ⟨ps.flatMap (32 :: ·) ++ t, false, cs⟩) ((Runs.chr 32 _ _ _).seq ?_) (by simp; omega) (star_runs t cs ht hf ps fun q hq => h q (by simp [hq]))
    exact Runs.hex46 p _ _ _ hp.1 hp.2.1 (fun c hc => by rw [digit_xdigit]; exact hp.2.2 c hc) (flat_head ps t ht)

theorem points_runs (p : List Nat) (ps : List (List Nat)) (h : ∀ q ∈ p :: ps, IsHex q) (t : List Nat) (cs : Caps) (ht : ∀ c, t.head? = some c → xdigit c = false)
    (hf : Fails (.seq (chr 32) hex46) ⟨t, false, cs⟩) : Runs hexListRe ⟨pointsText (p :: ps) ++ t, false, cs⟩ ⟨t, false, cs⟩ := by
  have hp := h p (by simp)
  rw [pointsText_cons, List.append_assoc]
  refine Runs.seq (Runs.hex46 p _ _ _ hp.1 hp.2.1 (fun c hc => by rw [digit_xdigit]; exact hp.2.2 c hc) (flat_head ps t ht)) ?_
  exact star_runs t cs ht hf ps fun q hq => h q (by simp [hq])

/-- the head of what follows blanks -/
theorem blanks_head {P : Nat → Prop} (hb : ∀ c, IsBlank c → P c) (pad t : List Nat) (hp : ∀ c ∈ pad, IsBlank c) (ht : ∀ c, t.head? = some c → P c) :
    ∀ c, (pad ++ t).head? = some c → P c := by
  intro c hc
  cases pad with
  | nil => exact ht c hc
  | cons d pad =>
    simp only [List.cons_append, List.head?_cons, Option.some.injEq] at hc
    subst hc
    exact hb d (hp d (by simp))

/-- a semicolon or a number sign -/
def Stop (t : List Nat) : Prop := ∀ c, t.head? = some c → c = 59 ∨ c = 35

theorem Stop.xdigit {t : List Nat} (h : Stop t) : ∀ c, t.head? = some c → xdigit c = false := fun c hc => by
  rcases h c hc with rfl | rfl <;> rfl

theorem Stop.space {t : List Nat} (h : Stop t) : ∀ c, t.head? = some c → space c = false := fun c hc => by
  rcases h c hc with rfl | rfl <;> rfl

theorem Stop.word {t : List Nat} (h : Stop t) : ∀ c, t.head? = some c → word c = false := fun c hc => by
  rcases h c hc with rfl | rfl <;> rfl

theorem blank_word {c : Nat} (h : IsBlank c) : word c = false := by
  rcases h with rfl | rfl <;> rfl

theorem list_fails (pad t : List Nat) (cs : Caps) (hp : ∀ c ∈ pad, IsBlank c) (ht : Stop t) : Fails (.seq (chr 32) hex46) ⟨pad ++ t, false, cs⟩ := by
  cases pad with
  | nil =>
    refine Fails.seq_left (Fails.cls fun c hc => ?_)
    rcases ht c hc with rfl | rfl <;> rfl
  | cons d pad =>
    refine Fails.seq_right (s' := ⟨pad ++ t, d == 10, cs⟩) (FailsTo.cls d _ _ _) (Fails.hex46 ?_)
    exact blanks_head (fun c hc => blank_xdigit hc) pad t (fun c hc => hp c (by simp [hc])) ht.xdigit

/-- the groups captured after the range -/
def idnaCaps (r : IdnaRow) : Caps :=
  (match r.mapping with
    | none => []
    | some (_, ps, _) => (match r.flag with
      | none => []
      | some (_, f, _) => [(5, f)]) ++ (if ps = [] then [] else [(4, pointsText ps)])) ++ [(3, TableText.text r.status.1)]

theorem status_word : ∀ s ∈ idnaStatuses, ∀ c ∈ TableText.text s.1, Regex.word c = true ∧ c ≠ 10 := by
  decide

theorem status_head (s : String × String × Bool) (hs : s ∈ idnaStatuses) (t : List Nat) : ∀ c, (TableText.text s.1 ++ t).head? = some c → space c = false := by
  have h : ∀ s ∈ idnaStatuses, ∃ c ∈ (TableText.text s.1).head?, space c = false := by decide
  obtain ⟨c, hc, h1⟩ := h s hs
  intro d hd
  cases he : TableText.text s.1 with
  | nil =>
    rw [he] at hc
    cases hc
  | cons x l =>
    rw [he] at hc hd
    simp only [List.head?_cons, Option.mem_def, Option.some.injEq, List.cons_append] at hc hd
    rw [← hd, hc]
    exact h1

theorem flag_runs (r : IdnaRow) (hr : r.Ok) (t : List Nat) (cs : Caps) :
    Runs (.opt (cat [chr 59, .star (.cls space), .cap 5 (cat [.cls fun c => c == 78 || c == 88, chr 86, chr 56]), .star (.cls space)])) ⟨r.flagText ++ 35 :: t, false, cs⟩
      ⟨35 :: t, false, (match r.flag with
      | none => []
      | some (_, f, _) => [(5, f)]) ++ cs⟩ := by
  rw [IdnaRow.flagText]
  cases hf : r.flag with
  | none => exact Fails.opt (Fails.seq_left (Fails.cls (by rintro c hc; cases hc; rfl)))
  | some x =>
    obtain ⟨d, f, d'⟩ := x
    obtain ⟨h1, h2, h3⟩ := hr.flag d f d' hf
    have e : 59 :: (d ++ (f ++ d')) ++ 35 :: t = 59 :: (d ++ (f ++ (d' ++ 35 :: t))) := by simp
    simp only [e]
    refine Runs.opt ((Runs.chr 59 _ _ _).seq ?_)
    have hf3 : ∃ x, (x == 78 || x == 88) = true ∧ f = [x, 86, 56] := by
      rcases h2 with rfl | rfl
      · exact ⟨78, rfl, rfl⟩
      · exact ⟨88, rfl, rfl⟩
    obtain ⟨x, hx, rfl⟩ := hf3
    have hx' : (x == 10) = false ∧ space x = false := by
      simp only [Bool.or_eq_true, beq_iff_eq] at hx
      rcases hx with rfl | rfl <;> exact ⟨rfl, rfl⟩
    refine (Runs.star_cls' d _ _ (fun c hc => blank_space (h1 c hc)) (by rintro c hc; cases hc; exact hx'.2)).seq ?_
    refine Runs.seq (Runs.cap (w := [x, 86, 56]) (b' := false) (cs' := cs) ?_) (Runs.star_cls' d' _ _ (fun c hc => blank_space (h3 c hc)) (by rintro c hc; cases hc; rfl))
    exact (Runs.cls hx _ _ _).seq ((Runs.chr 86 _ _ _).seq (Runs.chr 56 _ _ _))

theorem stop_flag (r : IdnaRow) (t : List Nat) : Stop (r.flagText ++ 35 :: t) := by
  intro c hc
  rw [IdnaRow.flagText] at hc
  cases hf : r.flag with
  | none =>
    rw [hf] at hc
    cases hc
    exact .inr rfl
  | some x =>
    rw [hf] at hc
    cases hc
    exact .inl rfl

theorem stop_mapping (r : IdnaRow) (t : List Nat) : Stop (r.mappingText ++ 35 :: t) := by
  intro c hc
  rw [IdnaRow.mappingText] at hc
  cases hf : r.mapping with
  | none =>
    rw [hf] at hc
    cases hc
    exact .inr rfl
  | some x =>
    rw [hf] at hc
    cases hc
    exact .inl rfl

theorem mapping_runs (r : IdnaRow) (hr : r.Ok) (t : List Nat) (cs : Caps) :
    Runs (.opt (cat [chr 59, .star (.cls space), .opt (.cap 4 hexListRe), .star (.cls space),
      .opt (cat [chr 59, .star (.cls space), .cap 5 (cat [.cls fun c => c == 78 || c == 88, chr 86, chr 56]), .star (.cls space)])])) ⟨r.mappingText ++ 35 :: t, false, cs⟩
      ⟨35 :: t, false, (match r.mapping with
    | none => []
    | some (_, ps, _) => (match r.flag with
      | none => []
      | some (_, f, _) => [(5, f)]) ++ (if ps = [] then [] else [(4, pointsText ps)])) ++ cs⟩ := by
  rw [IdnaRow.mappingText]
  cases hm : r.mapping with
  | none => exact Fails.opt (Fails.seq_left (Fails.cls (by rintro c hc; cases hc; rfl)))
  | some x =>
    obtain ⟨b, ps, b'⟩ := x
    obtain ⟨h1, h2, h3, h4⟩ := hr.mapping b ps b' hm
    have e : 59 :: (b ++ (pointsText ps ++ (b' ++ r.flagText))) ++ 35 :: t = 59 :: (b ++ (pointsText ps ++ (b' ++ (r.flagText ++ 35 :: t)))) := by simp
    simp only [e]
    refine Runs.opt ((Runs.chr 59 _ _ _).seq ?_)
    have hstop := stop_flag r t
    cases ps with
    | nil =>
      rw [h4 rfl]
      simp only [pointsText, List.nil_append, if_true, List.append_nil]
      refine (Runs.star_cls' b _ _ (fun c hc => blank_space (h1 c hc)) hstop.space).seq ?_
      refine (Fails.opt (Fails.cap (Fails.seq_left (Fails.hex46 hstop.xdigit)))).seq ?_
      exact (Runs.star_cls' [] _ _ (by simp) hstop.space).seq (flag_runs r hr t cs)
    | cons p ps =>
      rw [if_neg (by simp)]
      have hp := (h2 p (by simp)).1
      refine (Runs.star_cls' b _ _ (fun c hc => blank_space (h1 c hc)) ?_).seq ?_
      · obtain ⟨d, l, h5, h6⟩ := hex_head hp (ps.flatMap (32 :: ·) ++ (b' ++ (r.flagText ++ 35 :: t)))
        rw [pointsText_cons, List.append_assoc, h5]
        rintro c hc
        cases hc
        exact xdigit_space h6
      · refine (Runs.opt (Runs.cap (points_runs p ps (fun q hq => (h2 q hq).1) _ _ ?_ (list_fails b' _ _ h3 hstop)))).seq ?_
        · exact blanks_head (fun c hc => blank_xdigit hc) b' _ h3 hstop.xdigit
        · rw [List.append_assoc]
          exact (Runs.star_cls' b' _ _ (fun c hc => blank_space (h3 c hc)) hstop.space).seq (flag_runs r hr t _)

theorem idna_row (r : IdnaRow) (hr : r.Ok) (b : Bool) (s : List Nat) :
    Runs (cat [.cap 1 hex46, .opt (cat [chr 46, chr 46, .cap 2 hex46]), .star (.cls space), chr 59, .star (.cls space), .cap 3 (.star (.cls word)), .star (.cls space),
    .opt (cat [chr 59, .star (.cls space), .opt (.cap 4 hexListRe), .star (.cls space),
      .opt (cat [chr 59, .star (.cls space), .cap 5 (cat [.cls fun c => c == 78 || c == 88, chr 86, chr 56]), .star (.cls space)])]),
    chr 35]) ⟨r.text ++ 10 :: s, b, []⟩ ⟨r.comment ++ 10 :: s, false, idnaCaps r ++ rangeCaps r.range⟩ := by
  have e : r.text ++ 10 :: s = r.range.text ++ (r.pad ++ 59 :: (r.pad2 ++ (TableText.text r.status.1 ++ (r.pad3 ++ (r.mappingText ++ 35 :: (r.comment ++ 10 :: s)))))) := by
    simp [IdnaRow.text]
  rw [e, idnaCaps, List.append_assoc]
  have hstop := stop_mapping r (r.comment ++ 10 :: s)
  refine Runs.assoc (range_runs (· == 46) rfl r.range hr.range b _ (pad_head r.pad _ fun c hc => blank_xdigit (hr.pad c hc)) ?_) ?_
  · refine Fails.seq_left (Fails.cls ?_)
    exact blanks_head (P := fun c => (c == 46) = false) (fun c hc => by rcases hc with rfl | rfl <;> rfl) r.pad _ hr.pad (by rintro c hc; cases hc; rfl)
  · refine (Runs.star_cls' r.pad _ _ (fun c hc => blank_space (hr.pad c hc)) (by rintro c hc; cases hc; rfl)).seq ?_
    refine (Runs.chr 59 _ _ _).seq ?_
    refine (Runs.star_cls' r.pad2 _ _ (fun c hc => blank_space (hr.pad2 c hc)) (status_head _ hr.status _)).seq ?_
    refine (Runs.cap (Runs.star_cls' _ _ _ (status_word _ hr.status) (blanks_head (fun c hc => blank_word hc) r.pad3 _ hr.pad3 hstop.word))).seq ?_
    refine (Runs.star_cls' r.pad3 _ _ (fun c hc => blank_space (hr.pad3 c hc)) hstop.space).seq ?_
    exact (mapping_runs r hr _ _).seq (Runs.chr 35 _ _ _)

theorem pointsText_line : ∀ (ps : List (List Nat)), (∀ p ∈ ps, IsHex p) → 10 ∉ pointsText ps
  | [], _ => by simp [pointsText]
  | p :: ps, h => by
    rw [pointsText_cons]
    simp only [List.mem_append, List.mem_flatMap, List.mem_cons, not_or, not_exists, not_and]
    exact ⟨hex_line (h p (by simp)), fun q hq => ⟨by omega, hex_line (h q (by simp [hq]))⟩⟩

theorem idna_captures (ls : List (Line IdnaRow)) (hf : FileOk IdnaRow.Ok ls) : capturesIter idnaRe (fileText IdnaRow.text ls) = (rowsOf ls).map fun r => idnaCaps r ++ rangeCaps r.range := by
  refine captures_file _ IdnaRow.text IdnaRow.Ok _ ls hf ?_ fun t b h => other_fails _ (by simp) t b h
  intro r hr
  refine ⟨?_, r.range.text ++ (r.pad ++ 59 :: (r.pad2 ++ (TableText.text r.status.1 ++ (r.pad3 ++ (r.mappingText ++ [35]))))), r.comment, by simp [IdnaRow.text],
    range_nonempty _ hr.range _, fun s => idna_row r hr true s⟩
  simp only [IdnaRow.text, List.mem_append, List.mem_cons, not_or]
  refine ⟨range_line _ hr.range, fun h => (blank_of (hr.pad 10 h)).2 rfl, by omega, fun h => (blank_of (hr.pad2 10 h)).2 rfl, fun h => (status_word _ hr.status 10 h).2 rfl,
    fun h => (blank_of (hr.pad3 10 h)).2 rfl, ?_, by omega, hr.comment⟩
  have hflag : 10 ∉ r.flagText := by
    rw [IdnaRow.flagText]
    cases hfl : r.flag with
    | none => simp
    | some x =>
      obtain ⟨d, f, d'⟩ := x
      obtain ⟨h1, h2, h3⟩ := hr.flag d f d' hfl
      simp only [List.mem_cons, List.mem_append, not_or]
      refine ⟨by omega, fun h => (blank_of (h1 10 h)).2 rfl, ?_, fun h => (blank_of (h3 10 h)).2 rfl⟩
      rcases h2 with rfl | rfl <;> decide
  rw [IdnaRow.mappingText]
  cases hm : r.mapping with
  | none => simp
  | some x =>
    obtain ⟨b, ps, b'⟩ := x
    obtain ⟨h1, h2, h3, _⟩ := hr.mapping b ps b' hm
    simp only [List.mem_cons, List.mem_append, not_or]
    exact ⟨by omega, fun h => (blank_of (h1 10 h)).2 rfl, pointsText_line ps fun p hp => (h2 p hp).1, fun h => (blank_of (h3 10 h)).2 rfl, hflag⟩

theorem split_append (p t : List Nat) (hp : 32 ∉ p) : Cli.split (fun c => c == 32) (p ++ 32 :: t) = p :: Cli.split (fun c => c == 32) t := by
  induction p with
  | nil => simp [Cli.split]
  | cons c p ih =>
    simp only [List.mem_cons, not_or] at hp
    rw [List.cons_append, Cli.split, ih hp.2, show (c == 32) = false by simpa using fun h => hp.1 h.symm]
    rfl

theorem split_last (p : List Nat) (hp : 32 ∉ p) : Cli.split (fun c => c == 32) p = [p] := by
  induction p with
  | nil => simp [Cli.split]
  | cons c p ih =>
    simp only [List.mem_cons, not_or] at hp
    rw [Cli.split, ih hp.2, show (c == 32) = false by simpa using fun h => hp.1 h.symm]
    rfl

theorem hex_space {p : List Nat} (h : IsHex p) : 32 ∉ p := fun hc => by
  have := h.2.2 32 hc
  simp [TableText.digit] at this

theorem split_points : ∀ (ps : List (List Nat)) (p : List Nat), (∀ q ∈ p :: ps, IsHex q) → Cli.split (fun c => c == 32) (pointsText (p :: ps)) = p :: ps
  | [], p, h => split_last p (hex_space (h p (by simp)))
  | q :: ps, p, h => by
    rw [pointsText, split_append p _ (hex_space (h p (by simp))), split_points ps q fun x hx => h x (List.mem_cons_of_mem _ hx)]
    simp

theorem mapAll_ok {α β : Type} (f : α → Outcome β) (g : α → β) : ∀ (l : List α), (∀ a ∈ l, f a = .ok (g a)) → mapAll f l = .ok (l.map g)
  | [], _ => rfl
  | a :: l, h => by
    rw [mapAll, h a (by simp), mapAll_ok f g l fun b hb => h b (by simp [hb])]
    rfl

theorem hexList_ok (ps : List (List Nat)) (h0 : ps ≠ []) (h : ∀ p ∈ ps, IsHex p ∧ IsScalar (hexValue p)) : hexList (pointsText ps) = .ok (ps.map hexValue) := by
  cases ps with
  | nil => exact absurd rfl h0
  | cons p ps =>
    rw [hexList, split_points ps p fun q hq => (h q hq).1]
    refine mapAll_ok _ hexValue _ fun q hq => ?_
    rw [(hexU32_ok (h q hq).1).1]
    exact char_ok (h q hq).2

/-- the entry of a row -/
def idnaEntry (r : IdnaRow) : IdnaEntry := ⟨r.status.2.1, if r.chars = [] then none else some r.chars⟩

theorem status_ok : ∀ s ∈ idnaStatuses, idnaStatus (TableText.text s.1) = .ok s.2.1 := by
  decide

theorem idna_group4 (r : IdnaRow) (hr : r.Ok) : mapOpt hexList (capGet (idnaCaps r) 4) = .ok (if r.chars = [] then none else some r.chars) := by
  rw [idnaCaps, IdnaRow.chars]
  cases hm : r.mapping with
  | none => rfl
  | some x =>
    obtain ⟨b, ps, b'⟩ := x
    obtain ⟨_, h2, _, _⟩ := hr.mapping b ps b' hm
    have e : ∀ t : List Nat, capGet ((match r.flag with
      | none => []
      | some (_, f, _) => [(5, f)]) ++ [(4, t)] ++ [(3, TableText.text r.status.1)]) 4 = some t := by
      intro t
      cases r.flag <;> rfl
    have e' : capGet ((match r.flag with
      | none => []
      | some (_, f, _) => [(5, f)]) ++ [] ++ [(3, TableText.text r.status.1)]) 4 = none := by
      cases r.flag <;> rfl
    cases ps with
    | nil =>
      simp only [if_true, e']
      rfl
    | cons p ps =>
      simp only [if_neg (List.cons_ne_nil p ps), e, mapOpt, hexList_ok (p :: ps) (by simp) h2]
      rfl

theorem idna_group3 (r : IdnaRow) : capGet (idnaCaps r) 3 = some (TableText.text r.status.1) := by
  rw [idnaCaps]
  cases r.mapping with
  | none => rfl
  | some x =>
    obtain ⟨b, ps, b'⟩ := x
    cases ps <;> cases r.flag <;> rfl

theorem capGet_range (r : Range) (i : Nat) (hi : i = 1 ∨ i = 2) (more : Caps) (hm : ∀ e ∈ more, 2 < e.1) : capGet (more ++ rangeCaps r) i = capGet (rangeCaps r) i := by
  induction more with
  | nil => rfl
  | cons e more ih =>
    have := hm e (by simp)
    have ih := ih fun e he => hm e (by simp [he])
    unfold capGet at ih ⊢
    rw [List.cons_append, List.lookup_cons, ih, show (i == e.1) = false by simp; omega]

theorem range_group1 (r : Range) : capGet (rangeCaps r) 1 = some r.lo := by
  rw [rangeCaps]
  cases r.hi <;> rfl

theorem range_group2 (r : Range) : capGet (rangeCaps r) 2 = r.hi := by
  rw [rangeCaps]
  cases r.hi <;> rfl

theorem idnaCaps_gt (r : IdnaRow) : ∀ e ∈ idnaCaps r, 2 < e.1 := by
  rw [idnaCaps]
  cases r.mapping with
  | none => simp
  | some x =>
    obtain ⟨b, ps, b'⟩ := x
    cases ps <;> cases r.flag <;> simp

/-- the last code point of a range as a character -/
theorem high_ok (r : Range) (hr : r.Ok) (hl : IsScalar r.first) (hs : IsScalar r.last) :
    ∃ h, mapOpt (fun t => (hexU32 t).bind fun u => unwrap (Utf.charFromU32 u)) r.hi = .ok h ∧ h.getD r.first = r.last := by
  cases hh : r.hi with
  | none => exact ⟨none, rfl, by simp [Range.first, Range.last, hh]⟩
  | some t =>
    have e : r.last = hexValue t := by simp [Range.last, hh]
    refine ⟨some (hexValue t), ?_, by simp [e]⟩
    rw [mapOpt, (hexU32_ok (hr.2 t hh)).1]
    simp only [bind_ok', char_ok (e ▸ hs)]
    rfl

theorem idna_map (ls : List (Line IdnaRow)) (hf : FileOk IdnaRow.Ok ls) :
    idnaFromStr (fileText IdnaRow.text ls) = .ok (insertRows [] ((rowsOf ls).map fun r => (r.range.first, r.range.last, idnaEntry r))) := by
  rw [idnaFromStr, idna_captures ls hf, insertRows, List.foldl_map]
  refine fold_rows _ _ _ _ _ fun r hr m => ?_
  have hr := rows_ok hf r hr
  rw [idnaStep, group, group, capGet_range _ 1 (.inl rfl) _ (idnaCaps_gt r), capGet_range _ 2 (.inr rfl) _ (idnaCaps_gt r), range_group1, range_group2, get_caps _ 3 (by omega),
    get_caps _ 4 (by omega), idna_group3, idna_group4 r hr]
  have e1 : (unwrap (some r.range.lo)).bind hexU32 = .ok r.range.first := (hexU32_ok hr.range.1).1
  rw [e1, bind_ok]
  obtain ⟨hle, hends | hends⟩ := hr.ends
  · have e2 : Utf.charFromU32 r.range.first = some r.range.first := by
      rw [Utf.charFromU32, if_pos]
      have := hends.1
      unfold IsScalar at this
      omega
    obtain ⟨h, h1, h2⟩ := high_ok r.range hr.range hends.1 hends.2
    have e3 : (unwrap (some (TableText.text r.status.1))).bind idnaStatus = .ok r.status.2.1 := status_ok _ hr.status
    rw [e2]
    simp only [h1, h2, e3, bind_ok, pure_ok]
    rw [← openRight_points _ _ hends.1 hends.2 hle, List.map_append, insertAll_append]
    rfl
  · have e2 : Utf.charFromU32 r.range.first = none := by
      rw [Utf.charFromU32, if_neg]
      omega
    have e3 : points r.range.first r.range.last = [] := by
      rw [List.eq_nil_iff_forall_not_mem]
      intro c hc
      rw [mem_points, IsScalar] at hc
      omega
    rw [e2, e3]
    rfl

/-! ### The values -/

theorem readHex_brace (c : Nat) (s : List Nat) : TableText.readHex 0 (hexLower c c ++ (TableText.text "}" ++ s)) = (c, TableText.text "}" ++ s) := by
  obtain ⟨k, _, _, h⟩ := Proofs.Gen.readHex_append c c 0 (TableText.text "}" ++ s) (Nat.le_refl _)
  rw [h, Nat.zero_mul, Nat.zero_add]
  have : TableText.text "}" ++ s = 125 :: s := rfl
  rw [this, TableText.readHex]
  rfl

theorem readEscapes_ok : ∀ (cs : List Nat) (n : Nat), cs.length < n → readEscapes n (cs.flatMap escapeUnicode ++ TableText.text "\")") = some cs
  | [], n, h => by
    cases n with
    | zero => omega
    | succ n =>
      rw [readEscapes, List.flatMap_nil, List.nil_append, if_pos rfl]
  | c :: cs, n, h => by
    cases n with
    | zero => omega
    | succ n =>
      have e : (c :: cs).flatMap escapeUnicode ++ TableText.text "\")" = TableText.text "\\u{" ++ (hexLower c c ++ (TableText.text "}" ++ (cs.flatMap escapeUnicode ++ TableText.text "\")"))) := by
        rw [List.flatMap_cons, escapeUnicode]
        simp only [List.append_assoc]
        rfl
      rw [e, readEscapes, if_neg, Proofs.Gen.after_append]
      · simp only [Option.bind_eq_bind, Option.bind_some, readHex_brace, Proofs.Gen.after_append, readEscapes_ok cs n (by simpa using h), pure]
      · intro h0
        cases h0

theorem names_ok : ∀ s ∈ idnaStatuses, (40 ∉ TableText.text s.2.1 ∧ 10 ∉ TableText.text s.2.1) ∧
    ((s.2.1 = "Mapped" ∨ s.2.1 = "Deviation" ∨ s.2.1 = "DisallowedStd3Mapped") ↔ s.2.2 = true) := by
  decide

theorem takeWhile_append_stop (p : Nat → Bool) (a b : List Nat) (ha : ∀ c ∈ a, p c = true) (x : Nat) (hx : p x = false) :
    (a ++ x :: b).takeWhile p = a ∧ (a ++ x :: b).dropWhile p = x :: b := by
  induction a with
  | nil => simp [hx]
  | cons c a ih =>
    obtain ⟨h1, h2⟩ := ih fun c hc => ha c (by simp [hc])
    simp [ha c (by simp), h1, h2]

theorem dropWhile_all (p : Nat → Bool) (a : List Nat) (ha : ∀ c ∈ a, p c = true) : a.dropWhile p = [] := by
  induction a with
  | nil => rfl
  | cons c a ih => rw [List.dropWhile_cons, if_pos (ha c (by simp)), ih fun c hc => ha c (by simp [hc])]

theorem display_ok (r : IdnaRow) (hr : r.Ok) : readIdna (idnaDisplay (idnaEntry r)) = some (TableText.text r.status.2.1, if r.status.2.2 then some r.chars else none) := by
  obtain ⟨⟨h1, _⟩, h2⟩ := names_ok _ hr.status
  have hne : ∀ c ∈ TableText.text r.status.2.1, (decide (c ≠ 40)) = true := fun c hc => by
    simp only [decide_eq_true_eq]
    exact fun h => h1 (h ▸ hc)
  by_cases hb : r.status.2.2 = true
  · have e2 : idnaDisplay (idnaEntry r) = TableText.text r.status.2.1 ++ 40 :: (34 :: (r.chars.flatMap escapeUnicode ++ TableText.text "\")")) := by
      have hs : (idnaEntry r).status = "Mapped" ∨ (idnaEntry r).status = "Deviation" ∨ (idnaEntry r).status = "DisallowedStd3Mapped" := h2.2 hb
      rw [idnaDisplay, if_pos hs]
      by_cases hc : r.chars = []
      · simp only [idnaEntry, hc, if_true]
        rfl
      · simp only [idnaEntry, hc, if_false]
        rfl
    rw [if_pos hb]
    obtain ⟨h3, h4⟩ := takeWhile_append_stop (fun c => decide (c ≠ 40)) _ (34 :: (r.chars.flatMap escapeUnicode ++ TableText.text "\")")) hne 40 rfl
    rw [e2, readIdna, h4, h3]
    have e3 : TableText.after (TableText.text "(\"") (40 :: 34 :: (r.chars.flatMap escapeUnicode ++ TableText.text "\")")) =
        some (r.chars.flatMap escapeUnicode ++ TableText.text "\")") := Proofs.Gen.after_append (TableText.text "(\"") _
    simp only [e3, Option.bind_eq_bind, Option.bind_some]
    rw [readEscapes_ok]
    · rfl
    · have : r.chars.length ≤ (r.chars.flatMap escapeUnicode).length := by
        induction r.chars with
        | nil => simp
        | cons c cs ih =>
          rw [List.flatMap_cons, List.length_append, List.length_cons]
          have : 1 ≤ (escapeUnicode c).length := by
            simp [escapeUnicode, str]
          omega
      simp only [List.length_cons, List.length_append]
      omega
  · rw [if_neg hb, idnaDisplay, show (idnaEntry r).status = r.status.2.1 from rfl, if_neg (fun h => hb (h2.1 h)), List.append_nil]
    have e : str r.status.2.1 = TableText.text r.status.2.1 := rfl
    rw [e, readIdna, dropWhile_all _ _ hne]

theorem display_line (r : IdnaRow) (hr : r.Ok) : 10 ∉ idnaDisplay (idnaEntry r) := by
  obtain ⟨⟨_, h1⟩, _⟩ := names_ok _ hr.status
  rw [idnaDisplay]
  simp only [List.mem_append, not_or]
  refine ⟨h1, ?_⟩
  split
  · simp only [List.mem_append, not_or]
    refine ⟨⟨by decide, ?_⟩, by decide⟩
    split
    · rw [List.mem_flatMap]
      rintro ⟨c, _, hc⟩
      exact Proofs.Gen.escape_line c hc
    · simp
  · simp

theorem valueOf_map {R α β : Type} (rs : List R) (lo hi : R → Nat) (f : R → α) (g : α → β) (h : R → β) (hg : ∀ r ∈ rs, g (f r) = h r) (c : Nat) :
    (valueOf (rs.map fun r => (lo r, hi r, f r)) c).map g = valueOf (rs.map fun r => (lo r, hi r, h r)) c := by
  unfold valueOf
  split
  · rw [List.filter_map, List.filter_map, List.getLast?_map, List.getLast?_map]
    simp only [Function.comp_def, Option.map_map]
    cases hl : (rs.filter fun r => decide (lo r ≤ c ∧ c ≤ hi r)).getLast? with
    | none => rfl
    | some r =>
      have := List.mem_of_getLast? hl
      simp [hg r (List.mem_filter.1 this).1]
  · rfl

theorem idna_table (ls : List (Line IdnaRow)) (hf : FileOk IdnaRow.Ok ls) : ∃ s t, idnaMapping (fileText IdnaRow.text ls) = .ok s ∧ TableText.readTable s = some t ∧ WellFormed t ∧
    ∀ c, ∃ v, t.find c = .ok v ∧ v.map readIdna = (valueOf ((rowsOf ls).map IdnaRow.triple) c).map some := by
  obtain ⟨s, t, h1, h2, h3, h4⟩ := table_rows idnaDisplay _ _ (idna_map ls hf) (by
    intro x hx
    rw [List.mem_map] at hx
    obtain ⟨r, hr, rfl⟩ := hx
    exact display_line r (rows_ok hf r hr))
  refine ⟨s, t, h1, h2, h3, fun c => ⟨_, h4 c, ?_⟩⟩
  rw [Option.map_map, valueOf_map (rowsOf ls) (fun r => r.range.first) (fun r => r.range.last) idnaEntry (readIdna ∘ idnaDisplay)
    (fun r => some (TableText.text r.status.2.1, if r.status.2.2 then some r.chars else none)) (fun r hr => display_ok r (rows_ok hf r hr)) c]
  rw [show (rowsOf ls).map IdnaRow.triple = (rowsOf ls).map fun r => (r.range.first, r.range.last, (TableText.text r.status.2.1, if r.status.2.2 then some r.chars else none)) from rfl]
  exact (valueOf_map (rowsOf ls) _ _ _ some _ (fun r _ => rfl) c).symm

end Proofs.GenIdna
