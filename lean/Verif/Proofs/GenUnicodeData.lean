import Verif.Proofs.GenIdna
import Verif.Model.GenUnicodeData
import Verif.Spec.UnicodeData

/-! # Proofs about the parser of `UnicodeData.txt` -/
namespace Proofs.GenUnicodeData
open Spec Spec.UcdFile Spec.UnicodeData Model Model.Regex Model.Gen Model.GenSource Model.GenUnicodeData Proofs.Regex Proofs.GenSource Proofs.GenFiles Proofs.GenIdna

/-! ## A line -/

theorem semicolon_head {p : Nat → Bool} (t : List Nat) (h : p 59 = false := by rfl) : ∀ c, (59 :: t : List Nat).head? = some c → p c = false := by
  rintro c hc
  cases hc
  exact h

theorem field_cls {s : List Nat} (h : IsField s) : ∀ c ∈ s, notSemicolon c = true ∧ c ≠ 10 := by
  intro c hc
  refine ⟨?_, fun he => h.2 (he ▸ hc)⟩
  rw [notSemicolon, bne_iff_ne]
  exact fun he => h.1 (he ▸ hc)

/-- a field that is not empty, and the semicolon after it -/
theorem field_runs {q : Re} {i : Nat} {w t : List Nat} {b : Bool} {cs : Caps} {s' : St} (h0 : w ≠ []) (h : IsField w) (hq : Runs q ⟨t, false, (i, w) :: cs⟩ s') :
    Runs (.seq (.cap i (plus (.cls notSemicolon))) (.seq (chr 59) q)) ⟨w ++ 59 :: t, b, cs⟩ s' :=
  (Runs.cap (Runs.plus_cls' w _ _ _ h0 (field_cls h) (semicolon_head t))).seq ((Runs.chr 59 _ _ _).seq hq)

/-- what is captured from an optional field -/
def oc (i : Nat) (o : Option (List Nat)) : Caps := match o with
  | none => []
  | some t => [(i, t)]

theorem opt_field_runs {q : Re} {i : Nat} {o : Option (List Nat)} {t : List Nat} {b : Bool} {cs : Caps} {s' : St} (h : ∀ w, o = some w → w ≠ [] ∧ IsField w)
    (hb : b = false) (hq : Runs q ⟨t, false, oc i o ++ cs⟩ s') :
    Runs (.seq (.opt (.cap i (plus (.cls notSemicolon)))) (.seq (chr 59) q)) ⟨optText o ++ 59 :: t, b, cs⟩ s' := by
  subst hb
  cases o with
  | none => exact (Fails.opt (Fails.cap (Fails.seq_left (Fails.cls (semicolon_head t))))).seq ((Runs.chr 59 _ _ _).seq hq)
  | some w => exact (Runs.opt (Runs.cap (Runs.plus_cls' w _ _ _ (h w rfl).1 (field_cls (h w rfl).2) (semicolon_head t)))).seq ((Runs.chr 59 _ _ _).seq hq)

theorem opt_digit_runs {q : Re} {i : Nat} {o : Option Nat} {t : List Nat} {b : Bool} {cs : Caps} {s' : St} (h : ∀ c, o = some c → 48 ≤ c ∧ c ≤ 57)
    (hb : b = false) (hq : Runs q ⟨t, false, oc i (o.map fun c => [c]) ++ cs⟩ s') :
    Runs (.seq (.opt (.cap i (.cls Regex.digit))) (.seq (chr 59) q)) ⟨charText o ++ 59 :: t, b, cs⟩ s' := by
  subst hb
  cases o with
  | none => exact (Fails.opt (Fails.cap (Fails.cls (semicolon_head t)))).seq ((Runs.chr 59 _ _ _).seq hq)
  | some c =>
    obtain ⟨h1, h2⟩ := decDigit_of (h c rfl)
    have hr := Runs.cls (p := Regex.digit) h1 (59 :: t) false cs
    rw [show (c == 10) = false by simpa using h2] at hr
    exact (Runs.opt (Runs.cap (w := [c]) hr)).seq ((Runs.chr 59 _ _ _).seq hq)

theorem hex_runs {p : List Nat} (h : IsHex p) (t : List Nat) (b : Bool) (cs : Caps) (ht : ∀ c, t.head? = some c → xdigit c = false) : Runs hex46 ⟨p ++ t, b, cs⟩ ⟨t, false, cs⟩ :=
  Runs.hex46 p t b cs h.1 h.2.1 (fun c hc => by rw [digit_xdigit]; exact h.2.2 c hc) ht

theorem opt_hex_runs {i : Nat} {o : Option (List Nat)} {t : List Nat} {cs : Caps} (h : ∀ w, o = some w → IsChar w) (ht : ∀ c, t.head? = some c → xdigit c = false) :
    Runs (.opt (.cap i hex46)) ⟨optText o ++ t, false, cs⟩ ⟨t, false, oc i o ++ cs⟩ := by
  cases o with
  | none => exact Fails.opt (Fails.cap (Fails.hex46 ht))
  | some w => exact Runs.opt (Runs.cap (hex_runs (h w rfl).1 t _ _ ht))

/-- the code points of a decomposition -/
theorem mapping_star (t : List Nat) (cs : Caps) : ∀ (ps : List (List Nat)) (p : List Nat) (b : Bool), (∀ q ∈ p :: ps, IsHex q) →
    Runs (.seq (.star (.seq hex46 (chr 32))) hex46) ⟨pointsText (p :: ps) ++ 59 :: t, b, cs⟩ ⟨59 :: t, false, cs⟩
  | [], p, b, h => by
    have hp := h p (by simp)
    refine Runs.seq (Runs.star_nil ?_) (hex_runs hp _ _ _ (semicolon_head t))
    intro k
    refine FailsTo.hex46 (· == 32) ?_ p (59 :: t) b cs (fun c hc => by rw [digit_xdigit]; exact hp.2.2 c hc) (semicolon_head t) (semicolon_head t) _ ?_
    · intro c hc
      rw [beq_eq_false_iff_ne]
      rintro rfl
      cases hc
    · intro s' hs'
      exact Fails.cls hs' k
  | p' :: ps, p, b, h => by
    have hp := h p (by simp)
    have e : pointsText (p :: p' :: ps) ++ 59 :: t = p ++ 32 :: (pointsText (p' :: ps) ++ 59 :: t) := by simp [pointsText]
    rw [e]
    intro k x hk
    have ih := mapping_star t cs ps p' (32 == 10) (fun q hq => h q (by simp [hq])) k x hk
    rw [run] at ih ⊢
    have hstar : ∀ k x, run (.star (.seq hex46 (chr 32))) ⟨pointsText (p' :: ps) ++ 59 :: t, (32 == 10), cs⟩ k = some x →
        run (.star (.seq hex46 (chr 32))) ⟨p ++ 32 :: (pointsText (p' :: ps) ++ 59 :: t), b, cs⟩ k = some x := by
      intro k x hx
      have h1 : Runs (.seq hex46 (chr 32)) ⟨p ++ 32 :: (pointsText (p' :: ps) ++ 59 :: t), b, cs⟩ ⟨pointsText (p' :: ps) ++ 59 :: t, (32 == 10), cs⟩ :=
        (hex_runs hp _ _ _ (by rintro c hc; cases hc; rfl)).seq (Runs.chr 32 _ _ _)
      rw [run] at hx ⊢
      have hlen : (⟨pointsText (p' :: ps) ++ 59 :: t, (32 == 10), cs⟩ : St).rest.length < (⟨p ++ 32 :: (pointsText (p' :: ps) ++ 59 :: t), b, cs⟩ : St).rest.length := by
        simp only [List.length_append, List.length_cons]
        omega
      generalize (⟨p ++ 32 :: (pointsText (p' :: ps) ++ 59 :: t), b, cs⟩ : St) = s at *
      generalize (⟨pointsText (p' :: ps) ++ 59 :: t, (32 == 10), cs⟩ : St) = s1 at *
      obtain ⟨n, hn⟩ : ∃ n, s.rest.length = n + 1 := ⟨s.rest.length - 1, by omega⟩
      rw [hn, loop, h1 _ x]
      rw [if_pos hlen, loop_fuel (run (.seq hex46 (chr 32))) n s1.rest.length s1 k (by omega) (Nat.le_refl _) (run_none _)]
      exact hx
    exact hstar _ x ih

def decompositionCaps : Option (Option (List Nat) × List (List Nat)) → Caps
  | none => []
  | some (tag, ps) => (7, pointsText ps) :: oc 6 tag

theorem tag_runs (tag : Option (List Nat)) (h : ∀ t, tag = some t → 62 ∉ t ∧ 10 ∉ t) (u : List Nat) (cs : Caps) (hu : ∀ c, u.head? = some c → xdigit c = true) :
    Runs (.opt (cat [chr 60, .cap 6 (.star (.cls (· != 62))), chr 62, chr 32])) ⟨tagText tag ++ u, false, cs⟩ ⟨u, false, oc 6 tag ++ cs⟩ := by
  cases tag with
  | none =>
    refine Fails.opt (Fails.seq_left (Fails.cls ?_))
    intro c hc
    have := hu c hc
    simp only [beq_eq_false_iff_ne]
    rintro rfl
    cases this
  | some t =>
    have e : tagText (some t) ++ u = 60 :: (t ++ 62 :: 32 :: u) := by simp [tagText]
    rw [e]
    refine Runs.opt ((Runs.chr 60 _ _ _).seq ?_)
    refine (Runs.cap (Runs.star_cls' t _ _ (fun c hc => ⟨?_, fun he => (h t rfl).2 (he ▸ hc)⟩) (by rintro c hc; cases hc; rfl))).seq ?_
    · simp only [bne_iff_ne]
      exact fun he => (h t rfl).1 (he ▸ hc)
    · exact (Runs.chr 62 _ _ _).seq (Runs.chr 32 _ _ _)

theorem decomposition_runs (d : Option (Option (List Nat) × List (List Nat))) (h : ∀ tag ps, d = some (tag, ps) → (∀ t, tag = some t → 62 ∉ t ∧ 10 ∉ t) ∧ ps ≠ [] ∧ ∀ p ∈ ps, IsChar p)
    (t : List Nat) (cs : Caps) : Runs (.opt decompositionRe) ⟨decompositionText d ++ 59 :: t, false, cs⟩ ⟨59 :: t, false, decompositionCaps d ++ cs⟩ := by
  cases d with
  | none =>
    refine Fails.opt ?_
    have h2 : Fails (.cap 7 (.seq (.star (.seq hex46 (chr 32))) hex46)) ⟨59 :: t, false, cs⟩ := by
      refine Fails.cap ?_
      intro k
      have hf : Fails hex46 ⟨59 :: t, false, cs⟩ := Fails.hex46 (semicolon_head t)
      have : run (.star (.seq hex46 (chr 32))) ⟨59 :: t, false, cs⟩ (fun s' => run hex46 s' k) = none := by
        rw [run, List.length_cons, loop, Fails.seq_left hf]
        exact hf k
      exact this
    intro k
    have h1 : Fails (cat [chr 60, .cap 6 (.star (.cls (· != 62))), chr 62, chr 32]) ⟨59 :: t, false, cs⟩ := Fails.seq_left (Fails.cls (semicolon_head t))
    show run (.seq (.opt _) _) ⟨59 :: t, false, cs⟩ k = none
    rw [run, run, h1]
    exact h2 k
  | some x =>
    obtain ⟨tag, ps⟩ := x
    obtain ⟨h1, h2, h3⟩ := h tag ps rfl
    have e : decompositionText (some (tag, ps)) ++ 59 :: t = tagText tag ++ (pointsText ps ++ 59 :: t) := by simp [decompositionText]
    have ec : decompositionCaps (some (tag, ps)) ++ cs = (7, pointsText ps) :: (oc 6 tag ++ cs) := rfl
    rw [e, ec]
    cases ps with
    | nil => exact absurd rfl h2
    | cons p ps =>
      refine Runs.opt (Runs.seq (tag_runs tag h1 _ _ ?_) (Runs.cap (mapping_star t _ ps p _ fun q hq => (h3 q hq).1)))
      rw [pointsText_cons, List.append_assoc]
      obtain ⟨d, l, h4, h5⟩ := hex_head (h3 p (by simp)).1 (ps.flatMap (32 :: ·) ++ 59 :: t)
      rw [h4]
      rintro c hc
      cases hc
      exact h5

/-- the groups captured on a line -/
def rowCaps (r : DataRow) : Caps :=
  oc 15 r.fields.title ++ (oc 14 r.fields.lower ++ (oc 13 r.fields.upper ++ (oc 12 r.fields.oldName ++ ((11, [if r.fields.mirrored then 89 else 78]) ::
    (oc 10 r.fields.numeric ++ (oc 9 (r.fields.digit.map fun c => [c]) ++ (oc 8 (r.fields.decimal.map fun c => [c]) ++ (decompositionCaps r.fields.decomposition ++
    [(5, r.fields.bidiClass), (4, r.fields.combiningClass), (3, r.fields.category), (2, r.name), (1, r.code)]))))))))

structure RowOk (r : DataRow) : Prop where
  code : IsHex r.code
  name : r.name ≠ [] ∧ IsField r.name
  fields : r.fields.Ok

theorem mirrored_runs (m : Bool) (t : List Nat) (b : Bool) (cs : Caps) :
    Runs (.cap 11 (.cls fun c => c == 89 || c == 78)) ⟨(if m then 89 else 78) :: t, b, cs⟩ ⟨t, false, (11, [if m then 89 else 78]) :: cs⟩ := by
  cases m
  · exact Runs.cap (w := [78]) (Runs.cls (c := 78) rfl _ _ _)
  · exact Runs.cap (w := [89]) (Runs.cls (c := 89) rfl _ _ _)

theorem row_matches (r : DataRow) (hr : RowOk r) (b : Bool) (s : List Nat) :
    Runs (cat [.cap 1 hex46, chr 59, .cap 2 (plus (.cls notSemicolon)), chr 59, .cap 3 (plus (.cls notSemicolon)), chr 59, .cap 4 (plus (.cls Regex.digit)), chr 59,
    .cap 5 (plus (.cls notSemicolon)), chr 59, .opt decompositionRe, chr 59, .opt (.cap 8 (.cls Regex.digit)), chr 59, .opt (.cap 9 (.cls Regex.digit)), chr 59,
    .opt (.cap 10 (plus (.cls notSemicolon))), chr 59, .cap 11 (.cls fun c => c == 89 || c == 78), chr 59, .opt (.cap 12 (plus (.cls notSemicolon))), chr 59, chr 59,
    .opt (.cap 13 hex46), chr 59, .opt (.cap 14 hex46), chr 59, .opt (.cap 15 hex46), .eol]) ⟨r.text ++ 10 :: s, b, []⟩ ⟨10 :: s, false, rowCaps r⟩ := by
  have hf := hr.fields
  simp only [DataRow.text, List.append_assoc, List.cons_append]
  refine (isHex_runs hr.code 1 _ _ _ (semicolon_head _)).seq ((Runs.chr 59 _ _ _).seq ?_)
  refine field_runs hr.name.1 hr.name.2 (field_runs hf.category.1 hf.category.2 ?_)
  refine (Runs.cap (Runs.plus_cls' _ _ _ _ hf.combiningClass.1 (fun c hc => decDigit_of (hf.combiningClass.2.1 c hc)) (semicolon_head _))).seq ((Runs.chr 59 _ _ _).seq ?_)
  refine field_runs hf.bidiClass.1 hf.bidiClass.2 ?_
  refine (decomposition_runs _ hf.decomposition _ _).seq ((Runs.chr 59 _ _ _).seq ?_)
  refine opt_digit_runs hf.decimal rfl (opt_digit_runs hf.digit rfl (opt_field_runs hf.numeric rfl ?_))
  refine (mirrored_runs _ _ _ _).seq ((Runs.chr 59 _ _ _).seq ?_)
  refine opt_field_runs hf.oldName rfl ((Runs.chr 59 _ _ _).seq ?_)
  refine (opt_hex_runs hf.upper (semicolon_head _)).seq ((Runs.chr 59 _ _ _).seq ?_)
  refine (opt_hex_runs hf.lower (semicolon_head _)).seq ((Runs.chr 59 _ _ _).seq ?_)
  exact (opt_hex_runs hf.title (by rintro c hc; cases hc; rfl)).seq (Runs.eol _ _ _)

theorem field_line {s : List Nat} (h : IsField s) : 10 ∉ s := h.2

theorem opt_line {o : Option (List Nat)} (h : ∀ w, o = some w → 10 ∉ w) : 10 ∉ optText o := by
  cases o with
  | none => simp [optText]
  | some w => exact h w rfl

theorem char_line {o : Option Nat} (h : ∀ c, o = some c → 48 ≤ c ∧ c ≤ 57) : 10 ∉ charText o := by
  cases o with
  | none => simp [charText]
  | some c =>
    have := h c rfl
    simp only [charText, List.mem_singleton]
    omega

theorem row_one_line (r : DataRow) (hr : RowOk r) : 10 ∉ r.text := by
  have hf := hr.fields
  have hd : 10 ∉ decompositionText r.fields.decomposition := by
    cases hd : r.fields.decomposition with
    | none => simp [decompositionText]
    | some x =>
      obtain ⟨tag, ps⟩ := x
      obtain ⟨h1, h2, h3⟩ := hf.decomposition tag ps hd
      simp only [decompositionText, List.mem_append, not_or]
      refine ⟨?_, pointsText_line ps fun p hp => (h3 p hp).1⟩
      cases tag with
      | none => simp [tagText]
      | some t => simpa [tagText] using (h1 t rfl).2
  simp only [DataRow.text, List.mem_append, List.mem_cons, not_or]
  refine ⟨hex_line hr.code, by omega, hr.name.2.2, by omega, hf.category.2.2, by omega, fun h => by have := hf.combiningClass.2.1 10 h; omega, by omega, hf.bidiClass.2.2, by omega, hd,
    by omega, char_line hf.decimal, by omega, char_line hf.digit, by omega, opt_line fun w hw => (hf.numeric w hw).2.2, by omega, by split <;> omega, by omega,
    opt_line fun w hw => (hf.oldName w hw).2.2, by omega, by omega, opt_line fun w hw => hex_line (hf.upper w hw).1, by omega, opt_line fun w hw => hex_line (hf.lower w hw).1, by omega,
    opt_line fun w hw => hex_line (hf.title w hw).1⟩

theorem rows_captures (rows : List DataRow) (h : ∀ r ∈ rows, RowOk r) : capturesIter unicodeDataRe (rows.flatMap fun r => r.text ++ [10]) = rows.map rowCaps := by
  have h1 := captures_file _ DataRow.text RowOk rowCaps (rows.map Line.row) (by
      intro l hl
      rw [List.mem_map] at hl
      obtain ⟨r, hr, rfl⟩ := hl
      exact h r hr) (by
      intro r hr
      refine ⟨row_one_line r hr, r.text, [], by simp, ?_, fun s => row_matches r hr true s⟩
      intro h0
      have := hr.code.1
      rw [DataRow.text, List.append_eq_nil_iff] at h0
      rw [h0.1] at this
      simp at this) fun t b h => other_fails _ (by simp) t b h
  have e1 : UcdFile.fileText DataRow.text (rows.map Line.row) = rows.flatMap fun r => r.text ++ [10] := by
    rw [UcdFile.fileText, List.flatMap_map]
    rfl
  have e2 : rowsOf (rows.map Line.row) = rows := by
    rw [rowsOf, List.filterMap_map]
    exact List.filterMap_some
  rw [e1, e2] at h1
  exact h1

/-! ## The fields -/

theorem capGet_oc_ne {i j : Nat} (o : Option (List Nat)) (cs : Caps) (h : j ≠ i) : capGet (oc i o ++ cs) j = capGet cs j := by
  cases o with
  | none => rfl
  | some t =>
    simp only [oc, capGet, List.cons_append, List.nil_append, List.lookup_cons]
    rw [show (j == i) = false by simpa using h]

theorem capGet_oc (i : Nat) (o : Option (List Nat)) (cs : Caps) : capGet (oc i o ++ cs) i = o.or (capGet cs i) := by
  cases o with
  | none => rfl
  | some t => simp [oc, capGet, List.lookup_cons]

theorem capGet_cons_ne {i j : Nat} (t : List Nat) (cs : Caps) (h : j ≠ i) : capGet ((i, t) :: cs) j = capGet cs j := by
  simp only [capGet, List.lookup_cons]
  rw [show (j == i) = false by simpa using h]

theorem capGet_cons (i : Nat) (t : List Nat) (cs : Caps) : capGet ((i, t) :: cs) i = some t := by
  simp [capGet, List.lookup_cons]

theorem capGet_decomposition_ne {j : Nat} (d : Option (Option (List Nat) × List (List Nat))) (cs : Caps) (h6 : j ≠ 6) (h7 : j ≠ 7) :
    capGet (decompositionCaps d ++ cs) j = capGet cs j := by
  cases d with
  | none => rfl
  | some x =>
    obtain ⟨tag, ps⟩ := x
    simp only [decompositionCaps, List.cons_append]
    rw [capGet_cons_ne _ _ h7, capGet_oc_ne _ _ h6]

theorem capGet_tag (d : Option (Option (List Nat) × List (List Nat))) (cs : Caps) (h : capGet cs 6 = none) : capGet (decompositionCaps d ++ cs) 6 = d.bind (·.1) := by
  cases d with
  | none => exact h
  | some x =>
    obtain ⟨tag, ps⟩ := x
    simp only [decompositionCaps, List.cons_append]
    rw [capGet_cons_ne _ _ (by omega), capGet_oc, h]
    simp

theorem capGet_mapping (d : Option (Option (List Nat) × List (List Nat))) (cs : Caps) (h : capGet cs 7 = none) : capGet (decompositionCaps d ++ cs) 7 = d.map fun x => pointsText x.2 := by
  cases d with
  | none => exact h
  | some x =>
    obtain ⟨tag, ps⟩ := x
    simp only [decompositionCaps, List.cons_append]
    rw [capGet_cons]
    rfl

/-- the entry of a character -/
def entry (f : UnicodeData.Fields) (name : List Nat) (c : Nat) : Entry where
  character := c
  name := name
  generalCategory := f.category
  canonicalCombiningClass := decValue f.combiningClass
  bidiClass := f.bidiClass
  decompositionType := f.decomposition.bind (·.1)
  decompositionMapping := f.decomposition.map fun d => d.2.map hexValue
  decimalNumericValue := f.decimal.map (· - 48)
  digitNumericValue := f.digit.map (· - 48)
  numericNumericValue := f.numeric
  bidiMirrored := f.mirrored
  unicode1Name := f.oldName
  simpleUppercaseMapping := f.upper.map hexValue
  simpleLowercaseMapping := f.lower.map hexValue
  simpleTitlecaseMapping := (f.title.map hexValue).or (f.upper.map hexValue)

theorem hexChar_ok {s : List Nat} (h : IsChar s) : hexChar s = .ok (hexValue s) := by
  rw [hexChar, (hexU32_ok h.1).1]
  exact char_ok h.2

theorem mapOpt_hexChar {o : Option (List Nat)} (h : ∀ w, o = some w → IsChar w) : mapOpt hexChar o = .ok (o.map hexValue) := by
  cases o with
  | none => rfl
  | some w => rw [mapOpt, hexChar_ok (h w rfl)]; rfl

theorem mapOpt_digit {o : Option Nat} (h : ∀ c, o = some c → 48 ≤ c ∧ c ≤ 57) :
    mapOpt (fun t => unwrap (parseDec 255 t)) (o.map fun c => [c]) = .ok (o.map (· - 48)) := by
  cases o with
  | none => rfl
  | some c =>
    have h1 := h c rfl
    have : parseDec 255 [c] = some (c - 48) := by
      rw [parseDec, if_neg (by simp), decLoop_ok 255 [c] 0 (by simpa using h1) (by simp; omega)]
      simp
    simp [mapOpt, this, unwrap, Outcome.map]

theorem entryOf_ok (r : DataRow) (hr : RowOk r) (c : Nat) : entryOf c (rowCaps r) = .ok (entry r.fields r.name c) := by
  have hf := hr.fields
  have g1 : ∀ j, j < 8 → capGet (rowCaps r) j = capGet (decompositionCaps r.fields.decomposition ++
      [(5, r.fields.bidiClass), (4, r.fields.combiningClass), (3, r.fields.category), (2, r.name), (1, r.code)]) j := by
    intro j hj
    rw [rowCaps, capGet_oc_ne _ _ (by omega), capGet_oc_ne _ _ (by omega), capGet_oc_ne _ _ (by omega), capGet_oc_ne _ _ (by omega), capGet_cons_ne _ _ (by omega),
      capGet_oc_ne _ _ (by omega), capGet_oc_ne _ _ (by omega), capGet_oc_ne _ _ (by omega)]
  have gd : ∀ j, j < 6 → capGet (rowCaps r) j = capGet [(5, r.fields.bidiClass), (4, r.fields.combiningClass), (3, r.fields.category), (2, r.name), (1, r.code)] j := by
    intro j hj
    rw [g1 j (by omega), capGet_decomposition_ne _ _ (by omega) (by omega)]
  have g2 : capGet (rowCaps r) 2 = some r.name := gd 2 (by omega)
  have g3 : capGet (rowCaps r) 3 = some r.fields.category := gd 3 (by omega)
  have g4 : capGet (rowCaps r) 4 = some r.fields.combiningClass := gd 4 (by omega)
  have g5 : capGet (rowCaps r) 5 = some r.fields.bidiClass := gd 5 (by omega)
  have g6 : capGet (rowCaps r) 6 = r.fields.decomposition.bind (·.1) := by rw [g1 6 (by omega), capGet_tag _ _ rfl]
  have g7 : capGet (rowCaps r) 7 = r.fields.decomposition.map fun x => pointsText x.2 := by rw [g1 7 (by omega), capGet_mapping _ _ rfl]
  have gn : ∀ j, 7 < j → capGet (decompositionCaps r.fields.decomposition ++
      [(5, r.fields.bidiClass), (4, r.fields.combiningClass), (3, r.fields.category), (2, r.name), (1, r.code)]) j = none := by
    intro j hj
    rw [capGet_decomposition_ne _ _ (by omega) (by omega), capGet_cons_ne _ _ (by omega), capGet_cons_ne _ _ (by omega), capGet_cons_ne _ _ (by omega), capGet_cons_ne _ _ (by omega),
      capGet_cons_ne _ _ (by omega)]
    rfl
  have g8 : capGet (rowCaps r) 8 = r.fields.decimal.map fun c => [c] := by
    rw [rowCaps, capGet_oc_ne _ _ (by omega), capGet_oc_ne _ _ (by omega), capGet_oc_ne _ _ (by omega), capGet_oc_ne _ _ (by omega), capGet_cons_ne _ _ (by omega),
      capGet_oc_ne _ _ (by omega), capGet_oc_ne _ _ (by omega), capGet_oc, gn 8 (by omega), Option.or_none]
  have g9 : capGet (rowCaps r) 9 = r.fields.digit.map fun c => [c] := by
    rw [rowCaps, capGet_oc_ne _ _ (by omega), capGet_oc_ne _ _ (by omega), capGet_oc_ne _ _ (by omega), capGet_oc_ne _ _ (by omega), capGet_cons_ne _ _ (by omega),
      capGet_oc_ne _ _ (by omega), capGet_oc, capGet_oc_ne _ _ (by omega), gn 9 (by omega), Option.or_none]
  have g10 : capGet (rowCaps r) 10 = r.fields.numeric := by
    rw [rowCaps, capGet_oc_ne _ _ (by omega), capGet_oc_ne _ _ (by omega), capGet_oc_ne _ _ (by omega), capGet_oc_ne _ _ (by omega), capGet_cons_ne _ _ (by omega),
      capGet_oc, capGet_oc_ne _ _ (by omega), capGet_oc_ne _ _ (by omega), gn 10 (by omega), Option.or_none]
  have g11 : capGet (rowCaps r) 11 = some [if r.fields.mirrored then 89 else 78] := by
    rw [rowCaps, capGet_oc_ne _ _ (by omega), capGet_oc_ne _ _ (by omega), capGet_oc_ne _ _ (by omega), capGet_oc_ne _ _ (by omega), capGet_cons]
  have rest : ∀ j, 11 < j → capGet ((11, [if r.fields.mirrored then 89 else 78]) :: (oc 10 r.fields.numeric ++ (oc 9 (r.fields.digit.map fun c => [c]) ++
      (oc 8 (r.fields.decimal.map fun c => [c]) ++ (decompositionCaps r.fields.decomposition ++
      [(5, r.fields.bidiClass), (4, r.fields.combiningClass), (3, r.fields.category), (2, r.name), (1, r.code)]))))) j = none := by
    intro j hj
    rw [capGet_cons_ne _ _ (by omega), capGet_oc_ne _ _ (by omega), capGet_oc_ne _ _ (by omega), capGet_oc_ne _ _ (by omega), gn j (by omega)]
  have g12 : capGet (rowCaps r) 12 = r.fields.oldName := by
    rw [rowCaps, capGet_oc_ne _ _ (by omega), capGet_oc_ne _ _ (by omega), capGet_oc_ne _ _ (by omega), capGet_oc, rest 12 (by omega), Option.or_none]
  have g13 : capGet (rowCaps r) 13 = r.fields.upper := by
    rw [rowCaps, capGet_oc_ne _ _ (by omega), capGet_oc_ne _ _ (by omega), capGet_oc, capGet_oc_ne _ _ (by omega), rest 13 (by omega), Option.or_none]
  have g14 : capGet (rowCaps r) 14 = r.fields.lower := by
    rw [rowCaps, capGet_oc_ne _ _ (by omega), capGet_oc, capGet_oc_ne _ _ (by omega), capGet_oc_ne _ _ (by omega), rest 14 (by omega), Option.or_none]
  have g15 : capGet (rowCaps r) 15 = r.fields.title := by
    rw [rowCaps, capGet_oc, capGet_oc_ne _ _ (by omega), capGet_oc_ne _ _ (by omega), capGet_oc_ne _ _ (by omega), rest 15 (by omega), Option.or_none]
  have e4 : (unwrap (some r.fields.combiningClass)).bind (fun t => unwrap (parseDec 255 t)) = .ok (decValue r.fields.combiningClass) := by
    obtain ⟨h0, h1, h2⟩ := hf.combiningClass
    simp only [unwrap, bind_ok', parseDec, if_neg h0, decLoop_ok 255 _ 0 h1 h2]
    rfl
  have e7 : mapOpt hexList (r.fields.decomposition.map fun x => pointsText x.2) = .ok (r.fields.decomposition.map fun d => d.2.map hexValue) := by
    cases hd : r.fields.decomposition with
    | none => rfl
    | some x =>
      obtain ⟨tag, ps⟩ := x
      obtain ⟨_, h2, h3⟩ := hf.decomposition tag ps hd
      simp [mapOpt, hexList_ok ps h2 h3, Outcome.map]
  have e11 : decide ([if r.fields.mirrored then 89 else 78] = str "Y") = r.fields.mirrored := by
    cases r.fields.mirrored <;> rfl
  rw [entryOf, group, group, group, group, group, g2, g3, g4, g5, g6, g7, g8, g9, g10, g11, g12, g13, g14, g15, e4, e7, mapOpt_digit hf.decimal, mapOpt_digit hf.digit,
    mapOpt_hexChar hf.upper, mapOpt_hexChar hf.lower, mapOpt_hexChar hf.title]
  simp only [unwrap, bind_ok, pure_ok, e11]
  rfl

/-! ## Items -/

theorem position_append (x : Nat) (a b : List Nat) (ha : x ∉ a) : position x (a ++ x :: b) = some a.length := by
  induction a with
  | nil => simp [position]
  | cons c a ih =>
    simp only [List.mem_cons, not_or] at ha
    rw [List.cons_append, position, if_neg (fun h => ha.1 h.symm), ih ha.2]
    rfl

/-- `<label, word>` becomes `<label>` -/
theorem drain_ok (label word : List Nat) (h1 : 44 ∉ label) (h2 : 62 ∉ label) (h3 : 62 ∉ word) : drainName (60 :: (label ++ 44 :: (word ++ [62]))) = .ok (60 :: (label ++ [62])) := by
  have e1 : position 44 (60 :: (label ++ 44 :: (word ++ [62]))) = some (label.length + 1) := position_append 44 (60 :: label) (word ++ [62]) (by simpa using h1)
  have e2 : position 62 (60 :: (label ++ 44 :: (word ++ [62]))) = some (label.length + word.length + 2) := by
    have := position_append 62 (60 :: (label ++ 44 :: word)) [] (by simp [h2, h3])
    simp only [List.cons_append, List.append_assoc, List.length_cons, List.length_append] at this
    rw [this]
    congr 1
  rw [drainName, e1, e2]
  simp only [unwrap, bind_ok]
  rw [if_pos (by omega)]
  have e3 : (60 :: (label ++ 44 :: (word ++ [62]))).take (label.length + 1) = 60 :: label := by simp
  have e4 : (60 :: (label ++ 44 :: (word ++ [62]))).drop (label.length + word.length + 2) = [62] := by
    have : 60 :: (label ++ 44 :: (word ++ [62])) = (60 :: (label ++ 44 :: word)) ++ [62] := by simp
    rw [this, List.drop_left' (by simp; omega)]
  rw [e3, e4]
  rfl

theorem first_suffix (label : List Nat) : (str ", First>").isSuffixOf (60 :: (label ++ TableText.text ", First>")) = true := by
  rw [List.isSuffixOf_iff_suffix]
  exact ⟨60 :: label, rfl⟩

theorem last_suffix (label : List Nat) : (str ", Last>").isSuffixOf (60 :: (label ++ TableText.text ", Last>")) = true := by
  rw [List.isSuffixOf_iff_suffix]
  exact ⟨60 :: label, rfl⟩

theorem last_not_first (label : List Nat) : (str ", First>").isSuffixOf (60 :: (label ++ TableText.text ", Last>")) = false := by
  rw [Bool.eq_false_iff, ne_eq, List.isSuffixOf_iff_suffix]
  intro h
  have h2 : str ", Last>" <:+ 60 :: (label ++ TableText.text ", Last>") := ⟨60 :: label, rfl⟩
  have := List.suffix_of_suffix_length_le h2 h (by decide)
  exact absurd this (by decide)

theorem charFromU32_some {c : Nat} (h : IsScalar c) : Utf.charFromU32 c = some c := by
  rw [Utf.charFromU32, if_pos (by unfold IsScalar at h; omega)]

theorem charFromU32_none {c : Nat} (h : ¬ IsScalar c) : Utf.charFromU32 c = none := by
  rw [Utf.charFromU32, if_neg (by unfold IsScalar at h; omega)]

theorem code_ok (r : DataRow) (hr : RowOk r) : (group (rowCaps r) 1).bind hexU32 = .ok (hexValue r.code) := by
  have : capGet (rowCaps r) 1 = some r.code := by
    rw [rowCaps, capGet_oc_ne _ _ (by omega), capGet_oc_ne _ _ (by omega), capGet_oc_ne _ _ (by omega), capGet_oc_ne _ _ (by omega), capGet_cons_ne _ _ (by omega),
      capGet_oc_ne _ _ (by omega), capGet_oc_ne _ _ (by omega), capGet_oc_ne _ _ (by omega), capGet_decomposition_ne _ _ (by omega) (by omega), capGet_cons_ne _ _ (by omega),
      capGet_cons_ne _ _ (by omega), capGet_cons_ne _ _ (by omega), capGet_cons_ne _ _ (by omega), capGet_cons]
  rw [group, this]
  exact (hexU32_ok hr.code).1

theorem step_skip (r : DataRow) (hr : RowOk r) (hc : ¬ IsScalar (hexValue r.code)) (s : List Entry × Option Nat) : unicodeStep s (rowCaps r) = .ok s := by
  rw [unicodeStep, code_ok r hr, bind_ok, charFromU32_none hc]
  rfl

theorem step_single (r : DataRow) (hr : RowOk r) (hc : IsScalar (hexValue r.code)) (h1 : (str ", First>").isSuffixOf r.name = false) (h2 : (str ", Last>").isSuffixOf r.name = false)
    (s : List Entry × Option Nat) : unicodeStep s (rowCaps r) = .ok (s.1 ++ [entry r.fields r.name (hexValue r.code)], s.2) := by
  rw [unicodeStep, code_ok r hr, bind_ok, charFromU32_some hc]
  simp only
  rw [entryOf_ok r hr, bind_ok]
  rw [if_neg (by show ¬ (str ", First>").isSuffixOf r.name = true; rw [h1]; simp), if_neg (by show ¬ (str ", Last>").isSuffixOf r.name = true; rw [h2]; simp)]
  rfl

theorem step_first (r : DataRow) (hr : RowOk r) (hc : IsScalar (hexValue r.code)) (h1 : (str ", First>").isSuffixOf r.name = true) (name : List Nat)
    (h2 : drainName r.name = .ok name) (s : List Entry × Option Nat) :
    unicodeStep s (rowCaps r) = .ok (s.1 ++ [entry r.fields name (hexValue r.code)], some (hexValue r.code)) := by
  rw [unicodeStep, code_ok r hr, bind_ok, charFromU32_some hc]
  simp only
  rw [entryOf_ok r hr, bind_ok]
  rw [if_pos (by simpa [entry] using h1)]
  have : drainName (entry r.fields r.name (hexValue r.code)).name = .ok name := h2
  rw [this]
  rfl

theorem step_last (r : DataRow) (hr : RowOk r) (hc : IsScalar (hexValue r.code)) (h1 : (str ", First>").isSuffixOf r.name = false) (h2 : (str ", Last>").isSuffixOf r.name = true)
    (name : List Nat) (h3 : drainName r.name = .ok name) (es : List Entry) (start : Nat) (hs : start < hexValue r.code) :
    unicodeStep (es, some start) (rowCaps r) = .ok (es ++ (points start (hexValue r.code - 1)).map (entry r.fields name) ++ [entry r.fields name (hexValue r.code)], some start) := by
  rw [unicodeStep, code_ok r hr, bind_ok, charFromU32_some hc]
  simp only
  rw [entryOf_ok r hr, bind_ok]
  rw [if_neg (by show ¬ (str ", First>").isSuffixOf r.name = true; rw [h1]; simp), if_pos (by simpa [entry] using h2)]
  have e1 : (entry r.fields r.name (hexValue r.code)).character = hexValue r.code := rfl
  have e2 : drainName (entry r.fields r.name (hexValue r.code)).name = .ok name := h3
  simp only [unwrap, bind_ok, e1, e2, if_pos hs, pure_ok]
  have e3 : hexValue r.code - 1 + 1 - start = hexValue r.code - start := by omega
  rw [points, e3]
  rfl

/-- the entries made from an item -/
def itemEntries (i : Item) : List Entry := match i with
  | .single code name f => if IsScalar (hexValue code) then [entry f name (hexValue code)] else []
  | .range first last label f =>
    if IsScalar (hexValue first) then
      [entry f (60 :: (label ++ [62])) (hexValue first)] ++ (points (hexValue first) (hexValue last - 1)).map (entry f (60 :: (label ++ [62]))) ++
        [entry f (60 :: (label ++ [62])) (hexValue last)]
    else []

theorem item_rows_ok (i : Item) (h : i.Ok) : ∀ r ∈ i.rows, RowOk r := by
  cases i with
  | single code name f =>
    obtain ⟨h1, h2, _, _, h5⟩ := h
    intro r hr
    rw [Item.rows, List.mem_singleton] at hr
    subst hr
    exact ⟨h1, h2, h5⟩
  | range first last label f =>
    obtain ⟨h1, h2, _, _, h5, h6⟩ := h
    intro r hr
    simp only [Item.rows, List.mem_cons, List.not_mem_nil, or_false] at hr
    have hn : ∀ s : String, IsField (TableText.text s) → IsField (60 :: (label ++ TableText.text s)) := by
      intro s hs
      refine ⟨?_, ?_⟩
      · simp only [List.mem_cons, List.mem_append, not_or]
        exact ⟨by omega, h5.1.1, hs.1⟩
      · simp only [List.mem_cons, List.mem_append, not_or]
        exact ⟨by omega, h5.1.2, hs.2⟩
    rcases hr with rfl | rfl
    · exact ⟨h1, ⟨by simp, hn _ ⟨by decide, by decide⟩⟩, h6⟩
    · exact ⟨h2, ⟨by simp, hn _ ⟨by decide, by decide⟩⟩, h6⟩

theorem foldOutcome_append {α σ : Type} (f : σ → α → Outcome σ) : ∀ (a b : List α) (s : σ), foldOutcome f s (a ++ b) = (foldOutcome f s a).bind fun s => foldOutcome f s b
  | [], _, _ => rfl
  | x :: a, b, s => by
    rw [List.cons_append, foldOutcome, foldOutcome]
    cases f s x with
    | ok s' => exact foldOutcome_append f a b s'
    | panic => rfl

theorem item_step (i : Item) (h : i.Ok) (es : List Entry) (st : Option Nat) : ∃ st', foldOutcome unicodeStep (es, st) (i.rows.map rowCaps) = .ok (es ++ itemEntries i, st') := by
  have hrows := item_rows_ok i h
  cases i with
  | single code name f =>
    obtain ⟨h1, h2, h3, h4, h5⟩ := h
    have hr := hrows ⟨code, name, f⟩ (by simp [Item.rows])
    refine ⟨st, ?_⟩
    by_cases hc : IsScalar (hexValue code)
    · rw [itemEntries, if_pos hc]
      simp only [Item.rows, List.map_cons, List.map_nil, foldOutcome]
      rw [step_single ⟨code, name, f⟩ hr hc]
      · rfl
      · rw [Bool.eq_false_iff, ne_eq, List.isSuffixOf_iff_suffix]
        exact h3
      · rw [Bool.eq_false_iff, ne_eq, List.isSuffixOf_iff_suffix]
        exact h4
    · rw [itemEntries, if_neg hc, List.append_nil]
      simp only [Item.rows, List.map_cons, List.map_nil, foldOutcome]
      rw [step_skip ⟨code, name, f⟩ hr hc]
      rfl
  | range first last label f =>
    obtain ⟨h1, h2, h3, h4, ⟨_, h5, h6⟩, h7⟩ := h
    have hr1 := hrows ⟨first, 60 :: (label ++ TableText.text ", First>"), f⟩ (by simp [Item.rows])
    have hr2 := hrows ⟨last, 60 :: (label ++ TableText.text ", Last>"), f⟩ (by simp [Item.rows])
    have d1 : drainName (60 :: (label ++ TableText.text ", First>")) = .ok (60 :: (label ++ [62])) := drain_ok label (TableText.text " First") h5 h6 (by decide)
    have d2 : drainName (60 :: (label ++ TableText.text ", Last>")) = .ok (60 :: (label ++ [62])) := drain_ok label (TableText.text " Last") h5 h6 (by decide)
    rcases h4 with ⟨h4, h4'⟩ | ⟨h4, h4'⟩
    · refine ⟨some (hexValue first), ?_⟩
      rw [itemEntries, if_pos h4]
      simp only [Item.rows, List.map_cons, List.map_nil, foldOutcome]
      rw [step_first _ hr1 h4 (first_suffix label) _ d1, bind_ok', step_last _ hr2 h4' (last_not_first label) (last_suffix label) _ d2 _ _ h3, bind_ok']
      simp
    · have n1 : ¬ IsScalar (hexValue first) := by unfold IsScalar; omega
      have n2 : ¬ IsScalar (hexValue last) := by unfold IsScalar; omega
      refine ⟨st, ?_⟩
      rw [itemEntries, if_neg n1, List.append_nil]
      simp only [Item.rows, List.map_cons, List.map_nil, foldOutcome]
      rw [step_skip _ hr1 n1, bind_ok', step_skip _ hr2 n2]
      rfl

theorem items_fold (items : List Item) (h : ∀ i ∈ items, i.Ok) : ∀ (es : List Entry) (st : Option Nat),
    ∃ st', foldOutcome unicodeStep (es, st) ((items.flatMap Item.rows).map rowCaps) = .ok (es ++ items.flatMap itemEntries, st') := by
  induction items with
  | nil => intro es st; exact ⟨st, by simp [foldOutcome]⟩
  | cons i items ih =>
    intro es st
    obtain ⟨st1, h1⟩ := item_step i (h i (by simp)) es st
    obtain ⟨st2, h2⟩ := ih (fun i hi => h i (by simp [hi])) (es ++ itemEntries i) st1
    refine ⟨st2, ?_⟩
    rw [List.flatMap_cons, List.map_append, foldOutcome_append, h1, bind_ok', h2, List.flatMap_cons, List.append_assoc]

theorem parse_ok (items : List Item) (h : ∀ i ∈ items, i.Ok) : unicodeDataFromStr (UnicodeData.fileText items) = .ok (items.flatMap itemEntries) := by
  obtain ⟨st, h1⟩ := items_fold items h [] none
  rw [unicodeDataFromStr, UnicodeData.fileText, rows_captures _ (by
    intro r hr
    rw [List.mem_flatMap] at hr
    obtain ⟨i, hi, hr⟩ := hr
    exact item_rows_ok i (h i hi) r hr), h1]
  rfl

theorem mem_itemEntries (i : Item) (h : i.Ok) (e : Entry) : e ∈ itemEntries i ↔
    IsScalar e.character ∧ i.first ≤ e.character ∧ e.character ≤ i.last ∧ e = entry i.fields i.name e.character := by
  cases i with
  | single code name f =>
    rw [itemEntries]
    simp only [Item.first, Item.last, Item.fields, Item.name]
    split
    · rename_i hc
      rw [List.mem_singleton]
      constructor
      · rintro rfl
        exact ⟨hc, Nat.le_refl _, Nat.le_refl _, rfl⟩
      · rintro ⟨_, h1, h2, h3⟩
        have : e.character = hexValue code := by omega
        rw [h3, this]
    · rename_i hc
      simp only [List.not_mem_nil, false_iff]
      rintro ⟨h0, h1, h2, _⟩
      have : e.character = hexValue code := by omega
      rw [this] at h0
      exact hc h0
  | range first last label f =>
    obtain ⟨h1, h2, h3, h4, _, _⟩ := h
    rw [itemEntries]
    simp only [Item.first, Item.last, Item.fields, Item.name]
    rcases h4 with ⟨h4, h4'⟩ | ⟨h4, h4'⟩
    · rw [if_pos h4]
      simp only [List.mem_append, List.mem_singleton, List.mem_map, mem_points]
      constructor
      · rintro ((rfl | ⟨p, hp, rfl⟩) | rfl)
        · exact ⟨h4, Nat.le_refl _, Nat.le_of_lt h3, rfl⟩
        · exact ⟨hp.1, hp.2.1, by have := hp.2.2; show p ≤ _; omega, rfl⟩
        · exact ⟨h4', Nat.le_of_lt h3, Nat.le_refl _, rfl⟩
      · rintro ⟨h5, h6, h7, h8⟩
        by_cases he : e.character = hexValue last
        · right
          rw [h8, he]
        · left
          right
          exact ⟨e.character, ⟨h5, h6, by omega⟩, h8.symm⟩
    · rw [if_neg (by unfold IsScalar; omega)]
      simp only [List.not_mem_nil, false_iff]
      rintro ⟨h0, h5, h6, _⟩
      unfold IsScalar at h0
      omega

theorem itemOf_eq_some (items : List Item) (h : items.Pairwise fun a b => a.last < b.first) (hle : ∀ i ∈ items, i.first ≤ i.last) (c : Nat) (i : Item) :
    itemOf items c = some i ↔ IsScalar c ∧ i ∈ items ∧ i.first ≤ c ∧ c ≤ i.last := by
  rw [itemOf]
  split
  · rename_i hc
    simp only [hc, true_and]
    induction items with
    | nil => simp
    | cons a items ih =>
      obtain ⟨h1, h2⟩ := List.pairwise_cons.1 h
      have ih := ih h2 fun i hi => hle i (by simp [hi])
      rw [List.find?_cons]
      by_cases ha : a.first ≤ c ∧ c ≤ a.last
      · simp only [decide_eq_true ha]
        constructor
        · intro he
          cases he
          exact ⟨by simp, ha⟩
        · rintro ⟨hi, hci⟩
          rcases List.mem_cons.1 hi with rfl | hi
          · rfl
          · have := h1 i hi
            omega
      · simp only [decide_eq_false ha]
        rw [ih, List.mem_cons]
        constructor
        · rintro ⟨hi, hci⟩
          exact ⟨.inr hi, hci⟩
        · rintro ⟨rfl | hi, hci⟩
          · exact absurd hci ha
          · exact ⟨hi, hci⟩
  · rename_i hc
    simp [hc]

theorem first_le_last (i : Item) (h : i.Ok) : i.first ≤ i.last := by
  cases i with
  | single code name f => exact Nat.le_refl _
  | range first last label f => exact Nat.le_of_lt h.2.2.1

/-- **The entries made from a file** are those of the items that cover a character. -/
theorem mem_entries (items : List Item) (h : FileOk items) (e : Entry) : e ∈ items.flatMap itemEntries ↔ ∃ i, itemOf items e.character = some i ∧ e = entry i.fields i.name e.character := by
  rw [List.mem_flatMap]
  constructor
  · rintro ⟨i, hi, he⟩
    obtain ⟨h1, h2, h3, h4⟩ := (mem_itemEntries i (h.ok i hi) e).1 he
    exact ⟨i, (itemOf_eq_some items h.ascending (fun i hi => first_le_last i (h.ok i hi)) _ _).2 ⟨h1, hi, h2, h3⟩, h4⟩
  · rintro ⟨i, hi, he⟩
    obtain ⟨h1, h2, h3, h4⟩ := (itemOf_eq_some items h.ascending (fun i hi => first_le_last i (h.ok i hi)) _ _).1 hi
    exact ⟨i, h2, (mem_itemEntries i (h.ok i h2) e).2 ⟨h1, h3, h4, he⟩⟩

/-- the entry of a character -/
theorem entry_of (items : List Item) (h : FileOk items) (c : Nat) (e : Entry) (hc : e.character = c) : e ∈ items.flatMap itemEntries ↔
    (itemOf items c).map (fun i => entry i.fields i.name c) = some e := by
  subst hc
  rw [mem_entries items h, Option.map_eq_some_iff]
  refine exists_congr fun i => and_congr_right fun _ => ⟨fun h => h.symm, fun h => h.symm⟩

end Proofs.GenUnicodeData
