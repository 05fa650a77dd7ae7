import Verif.Proofs.WordReplace
import Verif.Proofs.WordCutInsert
import Verif.Proofs.SegmentData
import Verif.Proofs.NfdSteps
import Verif.Props.Word

/-! # C71: words of canonically equivalent texts -/
namespace Props.WordNormal
open Data Spec.Segment Spec.Normal Model Model.UcdNormal Model.Normal Model.Word Props.Grapheme Props.Normal Props.Word
open Proofs.Word Proofs.SegReplace Proofs.SegmentData Proofs.NfdSteps

local notation "wb" => Ucd.wordBreak

theorem okW_cases {w : WordBreak} {ws : List WordBreak} (h : okW w ws = true) :
    isNl w = false ∧ w ≠ .ZWJ ∧ (ws = [w] ∨ ws = [w, .Extend]) := by
  have hd : ∀ w, decW w = true → isNl w = false ∧ w ≠ .ZWJ := by intro w; cases w <;> simp [decW, isNl]
  unfold okW at h
  split at h
  · simp only [Bool.and_eq_true, beq_iff_eq] at h
    exact ⟨(hd w h.1).1, (hd w h.1).2, .inl (by rw [h.2])⟩
  · rename_i a b
    simp only [Bool.and_eq_true, beq_iff_eq] at h
    refine ⟨(hd w h.1.1).1, (hd w h.1.1).2, .inr ?_⟩
    have : b = .Extend := by revert h; cases b <;> simp [isExtW]
    rw [h.1.2, this]
  · cases h

theorem mapping_alike {c : Nat} {m : List Nat} (h : mappingWith canonicalDecomposition c = some m) : AlikeW ([c].map wb) (m.map wb) := by
  rw [List.map_cons, List.map_nil]
  rcases mapping_wb h with h | ⟨h1, h2⟩
  · obtain ⟨h1, h2, h3⟩ := okW_cases h
    rcases h3 with h3 | h3
    · rw [h3]; exact alikeW_same _
    · rw [h3]; exact alikeW_extend h1 h2
  · rw [h1, h2]; exact alikeW_letters

/-- **C71.** Canonically equivalent texts are divided by rules WB1–WB999 into equally many pieces, and these are canonically
equivalent one by one. -/
theorem c71_equivalent (s t : List Nat) (h : nfd s = nfd t) (ps qs : List (List Nat)) (hp : Segmentation (Boundary wb) s ps)
    (hq : Segmentation (Boundary wb) t qs) : List.Forall₂ (fun p q => nfd p = nfd q) ps qs := by
  refine (seg_equivalent (fun s => seg_exists wb _ s (Nat.le_refl _)) ?_ ?_ ((c18_equivalent s t).mpr h) ps qs hp hq).imp
    fun p q h => (c18_equivalent p q).mp h
  · intro c m hm
    exact alikeW_spec (mapping_alike hm)
  · intro a b ha hb
    refine alikeW_spec ?_
    simp only [List.map_cons, List.map_nil]
    rw [nonstarter_wb a ha, nonstarter_wb b hb]
    exact alikeW_marks

/-- **C71.** The pieces of the NFD of a text are the NFD of its pieces. -/
theorem c71_nfd (s : List Nat) (ps : List (List Nat)) (hp : Segmentation (Boundary wb) s ps) :
    Segmentation (Boundary wb) (nfd s) (ps.map nfd) := by
  obtain ⟨qs, hq⟩ := seg_exists wb _ (nfd s) (Nat.le_refl _)
  have := c71_equivalent s (nfd s) (c15_idempotent s).1.symm ps qs hp hq
  rw [map_eq_of_forall₂ this (nfd_pieces hq.1)]; exact hq

/-- what NFD keeps: a property kept by inserting Extend, or a letter after a letter -/
theorem keep (P : List WB → Prop) (hins : ∀ {l1 l2 : List WB} {e : WB}, Insertable l1 e → P (l1 ++ l2) → P (l1 ++ e :: l2))
    (s : List Nat) (h : P (s.map wb)) : P ((nfd s).map wb) := by
  refine nfd_preserves (fun s => P (s.map wb)) ?_ ?_ s h
  · intro x y c m hm h
    simp only [List.map_append, List.map_cons, List.map_nil] at h ⊢
    rcases mapping_wb hm with h' | ⟨h1, h2⟩
    · rcases (okW_cases h').2.2 with h3 | h3
      · rw [h3]; exact h
      · rw [h3]
        have := hins (l1 := x.map wb ++ [wb c]) (l2 := y.map wb) (.inl rfl) h
        simpa using this
    · rw [h2]; rw [h1] at h
      have := hins (l1 := x.map wb ++ [.ALetter]) (l2 := y.map wb) (.inr ⟨rfl, _, rfl⟩) h
      simpa using this
  · intro x y a b ha hb h
    simp only [List.map_append, List.map_cons, List.map_nil] at h ⊢
    rw [nonstarter_wb a ha, nonstarter_wb b hb] at h ⊢
    exact h

theorem FwdClean.next {k : List WB} (h : FwdClean k) : NextClean k := by
  refine ⟨?_, ?_, ?_⟩
  · intro p m J g q e hm hJ
    exact h.1 p m J g q (by rw [e]; simp) ((mid_iff m).mpr hm) (fun i hi => (skipped_iff i).mpr (hJ i hi))
  · intro p J x q e hJ
    exact (joins_iff x).mp (h.2.1 p J x q (by rw [e]; simp) (fun i hi => (skipped_iff i).mpr (hJ i hi)))
  · intro p J q e hJ
    exact h.2.2 p J q (by rw [e]; simp) (fun i hi => (skipped_iff i).mpr (hJ i hi))

theorem BwdClean.back {k : List WB} (h : BwdClean k) : NextBackClean k := by
  intro p J q e hJ
  exact h p J q (by rw [e]; simp) (fun i hi => (skipped_iff i).mpr (hJ i hi))

/-- NFD does not introduce the sequences that the iterators mishandle (C39). -/
theorem c71_clean (s : List Nat) : (NextClean (s.map wb) → NextClean ((nfd s).map wb)) ∧
    (NextBackClean (s.map wb) → NextBackClean ((nfd s).map wb)) :=
  ⟨fun h => FwdClean.next (keep FwdClean fwdClean_insert s h.fwd), fun h => BwdClean.back (keep BwdClean bwdClean_insert s h.bwd)⟩

/-- a cut that an inserted Extend, or a letter after a letter, only moves -/
def Resp (cut : List WB → Nat) : Prop := ∀ {w e : WB}, Ins w e → ∀ a b : List WB, cut (a ++ w :: e :: b) = upF (a.length + 1) (cut (a ++ w :: b))

local notation "Eqv" => Equivalent Ucd.combiningClass (mappingWith canonicalDecomposition)

theorem cut_equiv {cut : List WB → Nat} (hc : Resp cut) {s t : List Nat} (h : Eqv s t) :
    Eqv (s.take (cut (s.map wb))) (t.take (cut (t.map wb))) ∧ Eqv (s.drop (cut (s.map wb))) (t.drop (cut (t.map wb))) := by
  induction h with
  | refl s => exact ⟨.refl _, .refl _⟩
  | symm _ ih => exact ⟨.symm ih.1, .symm ih.2⟩
  | trans _ _ ih1 ih2 => exact ⟨.trans ih1.1 ih2.1, .trans ih1.2 ih2.2⟩
  | expand x y c m hm =>
    have e1 : (x ++ c :: y).map wb = x.map wb ++ wb c :: y.map wb := by simp
    -- cutting before the character or after it
    have key : ∀ n, (n ≤ x.length → Eqv ((x ++ c :: y).take n) ((x ++ m ++ y).take n) ∧ Eqv ((x ++ c :: y).drop n) ((x ++ m ++ y).drop n)) ∧
        (x.length < n → Eqv ((x ++ c :: y).take n) ((x ++ m ++ y).take (n + m.length - 1)) ∧
          Eqv ((x ++ c :: y).drop n) ((x ++ m ++ y).drop (n + m.length - 1))) := by
      intro n
      constructor
      · intro hn
        rw [List.append_assoc, List.take_append_of_le_length hn, List.take_append_of_le_length hn, List.drop_append_of_le_length hn,
          List.drop_append_of_le_length hn, ← List.append_assoc]
        exact ⟨.refl _, .expand _ _ _ _ hm⟩
      · intro hn
        obtain ⟨k, rfl⟩ : ∃ k, n = x.length + (k + 1) := ⟨n - x.length - 1, by omega⟩
        have hk : x.length + (k + 1) + m.length - 1 = (x ++ m).length + k := by rw [List.length_append]; omega
        rw [hk, List.take_length_add_append, List.drop_length_add_append, List.take_length_add_append, List.drop_length_add_append,
          List.take_succ_cons, List.drop_succ_cons]
        exact ⟨.expand _ _ _ _ hm, .refl _⟩
    have one : m.map wb = [wb c] → cut ((x ++ m ++ y).map wb) = cut ((x ++ c :: y).map wb) := by
      intro h; rw [List.map_append, List.map_append, h, e1]; simp
    have two : ∀ e, Ins (wb c) e → m.map wb = [wb c, e] → cut ((x ++ m ++ y).map wb) = upF (x.length + 1) (cut ((x ++ c :: y).map wb)) := by
      intro e he h
      have := hc he (x.map wb) (y.map wb)
      rw [List.length_map] at this
      rw [List.map_append, List.map_append, h, e1, ← this]; simp
    have fin2 : ∀ e, Ins (wb c) e → m.map wb = [wb c, e] →
        Eqv ((x ++ c :: y).take (cut ((x ++ c :: y).map wb))) ((x ++ m ++ y).take (cut ((x ++ m ++ y).map wb))) ∧
        Eqv ((x ++ c :: y).drop (cut ((x ++ c :: y).map wb))) ((x ++ m ++ y).drop (cut ((x ++ m ++ y).map wb))) := fun e he h => by
      have hl : m.length = 2 := by have := congrArg List.length h; simpa using this
      have h2 := two e he h
      have hk := key (cut ((x ++ c :: y).map wb))
      rw [h2, upF]
      split
      · exact hk.1 (by omega)
      · have := hk.2 (by omega)
        rw [hl] at this; exact this
    rcases mapping_wb hm with h' | ⟨h1, h2⟩
    · obtain ⟨h1, h2, h3 | h3⟩ := okW_cases h'
      · have hl : m.length = 1 := by have := congrArg List.length h3; simpa using this
        have hk := key (cut ((x ++ c :: y).map wb))
        rw [one h3]
        rw [hl] at hk
        rcases Nat.lt_or_ge x.length (cut ((x ++ c :: y).map wb)) with h | h
        · exact hk.2 h
        · exact hk.1 h
      · exact fin2 .Extend ⟨h1, .inl ⟨rfl, h2⟩⟩ h3
    · exact fin2 .ALetter ⟨by rw [h1]; rfl, .inr ⟨h1, rfl⟩⟩ (by rw [h2, h1])
  | reorder h =>
    obtain ⟨x, y, a, b, h, hb⟩ := h
    have ha := nonstarter_wb a (by omega)
    have hb' := nonstarter_wb b hb
    have e1 : (x ++ a :: b :: y).map wb = x.map wb ++ .Extend :: .Extend :: y.map wb := by simp [ha, hb']
    have e2 : (x ++ b :: a :: y).map wb = x.map wb ++ .Extend :: .Extend :: y.map wb := by simp [ha, hb']
    have hi : Ins .Extend .Extend := ⟨rfl, .inl ⟨rfl, by decide⟩⟩
    have hn : cut (x.map wb ++ .Extend :: .Extend :: y.map wb) ≠ x.length + 1 := by
      rw [hc hi, List.length_map]; exact upF_ne _ _
    rw [e1, e2]
    generalize cut (x.map wb ++ .Extend :: .Extend :: y.map wb) = n at hn
    rcases Nat.lt_or_ge x.length n with h' | h'
    · obtain ⟨k, rfl⟩ : ∃ k, n = x.length + (k + 2) := ⟨n - x.length - 2, by omega⟩
      rw [List.take_length_add_append, List.drop_length_add_append, List.take_length_add_append, List.drop_length_add_append]
      simp only [List.take_succ_cons, List.drop_succ_cons]
      exact ⟨.reorder (.swap _ _ _ _ h hb), .refl _⟩
    · rw [List.take_append_of_le_length h', List.take_append_of_le_length h', List.drop_append_of_le_length h',
        List.drop_append_of_le_length h']
      exact ⟨.refl _, .reorder (.swap _ _ _ _ h hb)⟩

theorem cut_nfd {cut : List WB → Nat} (hc : Resp cut) {s t : List Nat} (h : nfd s = nfd t) :
    nfd (s.take (cut (s.map wb))) = nfd (t.take (cut (t.map wb))) ∧ nfd (s.drop (cut (s.map wb))) = nfd (t.drop (cut (t.map wb))) := by
  obtain ⟨h1, h2⟩ := cut_equiv hc ((c18_equivalent s t).mpr h)
  exact ⟨(c18_equivalent _ _).mp h1, (c18_equivalent _ _).mp h2⟩

theorem nextBack_cutL {b : WordBounds} (hs : b.string ≠ []) (hg : Good2 wb b) :
    ∃ b', b.nextBack wb = .ok (b', some (b.string.drop (cutL (b.string.map wb)))) ∧ Good2 wb b' ∧
      b'.string = b.string.take (cutL (b.string.map wb)) := by
  obtain ⟨b', w, h1, h2, h3, h4⟩ := nextBack_cut ucd_cr hs hg
  have hl : cutL (b.string.map wb) = b'.string.length := by
    rw [cutL, ← h4, List.length_map, h3, List.length_append]; omega
  rw [hl]
  exact ⟨b', by rw [h1]; conv => rhs; rw [h3, List.drop_left], h2, by conv => rhs; rw [h3, List.take_left]⟩

/-- one call -/
def call (b : WordBounds) : End → Outcome (WordBounds × Option (List Nat))
  | .front => b.next wb
  | .back => b.nextBack wb

/-- One call on two iterators over canonically equivalent texts. -/
theorem step_equivalent (e : End) {b c : WordBounds} (hb : Good2 wb b) (hc : Good2 wb c) (h : nfd b.string = nfd c.string) :
    ∃ b' c' r r', call b e = .ok (b', r) ∧ call c e = .ok (c', r') ∧ Good2 wb b' ∧ Good2 wb c' ∧
      nfd b'.string = nfd c'.string ∧ r.map nfd = r'.map nfd ∧
      (nfd c.string = c.string → nfd c'.string = c'.string ∧ r'.map nfd = r') := by
  by_cases hs : b.string = []
  · have hs' : c.string = [] := by rw [← (c19_nonempty c.string).1, ← h, (c19_nonempty b.string).1]; exact hs
    cases e with
    | front => exact ⟨b, c, none, none, by rw [call, WordBounds.next, if_pos hs], by rw [call, WordBounds.next, if_pos hs'], hb, hc, h, rfl, fun h => ⟨h, rfl⟩⟩
    | back => exact ⟨b, c, none, none, by rw [call, WordBounds.nextBack, if_pos hs], by rw [call, WordBounds.nextBack, if_pos hs'], hb, hc, h, rfl, fun h => ⟨h, rfl⟩⟩
  · have hs' : c.string ≠ [] := by
      intro h'; apply hs; rw [← (c19_nonempty b.string).1, h, (c19_nonempty c.string).1]; exact h'
    cases e with
    | front =>
      obtain ⟨b', h1, h2, h3⟩ := next_cut ucd_cr hs hb
      obtain ⟨c', g1, g2, g3⟩ := next_cut ucd_cr hs' hc
      obtain ⟨k1, k2⟩ := cut_nfd cutF_ins h
      refine ⟨b', c', _, _, h1, g1, h2, g2, by rw [h3, g3, k2], congrArg some k1, fun hn => ⟨?_, congrArg some ?_⟩⟩
      · rw [g3]; exact nfd_part (s := c.string) (x := c.string.take _) (y := []) (by rw [hn, List.append_nil, List.take_append_drop])
      · exact nfd_part (s := c.string) (x := []) (y := c.string.drop _) (by rw [hn, List.nil_append, List.take_append_drop])
    | back =>
      obtain ⟨b', h1, h2, h3⟩ := nextBack_cutL hs hb
      obtain ⟨c', g1, g2, g3⟩ := nextBack_cutL hs' hc
      obtain ⟨k1, k2⟩ := cut_nfd cutL_ins h
      refine ⟨b', c', _, _, h1, g1, h2, g2, by rw [h3, g3, k1], congrArg some k2, fun hn => ⟨?_, congrArg some ?_⟩⟩
      · rw [g3]; exact nfd_part (s := c.string) (x := []) (y := c.string.drop _) (by rw [hn, List.nil_append, List.take_append_drop])
      · exact nfd_part (s := c.string) (x := c.string.take _) (y := []) (by rw [hn, List.append_nil, List.take_append_drop])

theorem okb {α β : Type} (a : α) (f : α → Outcome β) : (Outcome.ok a >>= f) = f a := rfl

theorem calls_equivalent (ops : List End) : ∀ (b c : WordBounds), Good2 wb b → Good2 wb c → nfd b.string = nfd c.string →
    ∃ rs rs' b' c', calls (·.next wb) (·.nextBack wb) b ops = .ok (rs, b') ∧ calls (·.next wb) (·.nextBack wb) c ops = .ok (rs', c') ∧
      List.Forall₂ (fun p q => p.map nfd = q.map nfd) rs rs' ∧ nfd b'.string = nfd c'.string ∧
      (nfd c.string = c.string → nfd c'.string = c'.string ∧ rs' = rs.map (Option.map nfd)) := by
  induction ops with
  | nil => intro b c _ _ h; exact ⟨[], [], b, c, rfl, rfl, .nil, h, fun h => ⟨h, rfl⟩⟩
  | cons e ops ih =>
    intro b c hb hc h
    obtain ⟨b1, c1, r, r', h1, h2, h3, h4, h5, h6, h7⟩ := step_equivalent e hb hc h
    obtain ⟨rs, rs', b', c', g1, g2, g3, g4, g5⟩ := ih b1 c1 h3 h4 h5
    refine ⟨r :: rs, r' :: rs', b', c', ?_, ?_, .cons h6 g3, g4, fun hn => ⟨(g5 (h7 hn).1).1, ?_⟩⟩
    · cases e <;> (rw [Props.Grapheme.calls]; simp only [call] at h1; rw [h1]; simp only [okb, g1]; rfl)
    · cases e <;> (rw [Props.Grapheme.calls]; simp only [call] at h2; rw [h2]; simp only [okb, g2]; rfl)
    · rw [List.map_cons, ← (g5 (h7 hn).1).2, h6, (h7 hn).2]

/-- **C71.** In terms of the iterators: whatever calls of `next` and `next_back` are made, in whatever order, on
`split_word_bounds(s)` and on `split_word_bounds(t)` for canonically equivalent `s` and `t`, the answers are canonically
equivalent one by one, and so is what remains. -/
theorem c71_iteration (s t : List Nat) (h : nfd s = nfd t) (ops : List End) :
    ∃ rs rs' b b', calls (·.next wb) (·.nextBack wb) (WordBounds.new s) ops = .ok (rs, b) ∧
      calls (·.next wb) (·.nextBack wb) (WordBounds.new t) ops = .ok (rs', b') ∧
      List.Forall₂ (fun p q => p.map nfd = q.map nfd) rs rs' ∧ nfd b.string = nfd b'.string := by
  obtain ⟨rs, rs', b, b', h1, h2, h3, h4, -⟩ := calls_equivalent ops (.new s) (.new t) (good_new wb s) (good_new wb t) h
  exact ⟨rs, rs', b, b', h1, h2, h3, h4⟩

/-- **C71.** On `nfd(s)` the answers are the NFD of the answers on `s`. -/
theorem c71_iteration_nfd (s : List Nat) (ops : List End) :
    ∃ rs b b', calls (·.next wb) (·.nextBack wb) (WordBounds.new s) ops = .ok (rs, b) ∧
      calls (·.next wb) (·.nextBack wb) (WordBounds.new (nfd s)) ops = .ok (rs.map (Option.map nfd), b') ∧ b'.string = nfd b.string := by
  have hi := (c15_idempotent s).1
  obtain ⟨rs, rs', b, b', h1, h2, -, h4, h5⟩ := calls_equivalent ops (.new s) (.new (nfd s)) (good_new wb s) (good_new wb _) hi.symm
  obtain ⟨h6, rfl⟩ := h5 hi
  exact ⟨rs, b, b', h1, h2, by rw [h4, h6]⟩

/-- **C71.** Without U+11A7 (the defect of C17), also between a text and its NFC. -/
theorem c71_iteration_nfc_partial (s : List Nat) (h0 : 0x11A7 ∉ s) (ops : List End) :
    ∃ rs rs' b b', calls (·.next wb) (·.nextBack wb) (WordBounds.new s) ops = .ok (rs, b) ∧
      calls (·.next wb) (·.nextBack wb) (WordBounds.new (nfc s)) ops = .ok (rs', b') ∧
      List.Forall₂ (fun p q => p.map nfd = q.map nfd) rs rs' ∧ nfd b.string = nfd b'.string :=
  c71_iteration s (nfc s) (c17_partial s h0).1.symm ops

/-- Non-vacuity of `c71_iteration`: texts that `next` cuts against the rules (C39), "é" composed and decomposed with another
mark, in two orders, then ZWJ, a heart and "é". -/
example : nfd [0xE9, 0x316, 0x200D, 0x2764, 0xE9] = nfd [0x65, 0x316, 0x301, 0x200D, 0x2764, 0x65, 0x301] ∧
    (calls (·.next wb) (·.nextBack wb) (WordBounds.new [0xE9, 0x316, 0x200D, 0x2764, 0xE9]) [.front]).map Prod.fst =
      .ok [some [0xE9, 0x316, 0x200D, 0x2764, 0xE9]] ∧
    (calls (·.next wb) (·.nextBack wb) (WordBounds.new [0x65, 0x316, 0x301, 0x200D, 0x2764, 0x65, 0x301]) [.front]).map Prod.fst =
      .ok [some [0x65, 0x316, 0x301, 0x200D, 0x2764, 0x65, 0x301]] ∧
    Boundary wb [0xE9, 0x316, 0x200D, 0x2764] [0xE9] := by
  refine ⟨?_, by decide +kernel, by decide +kernel, ?_⟩
  · rw [nfd_lookup, nfd_lookup]; decide +kernel
  · exact (Bd_iff wb _ _).mp (by decide +kernel)

/-- **C71.** NFC does not move words either, except for the defect of C17 (U+11A7). -/
theorem c71_nfc_partial (s : List Nat) (h0 : 0x11A7 ∉ s) (ps qs : List (List Nat)) (hp : Segmentation (Boundary wb) s ps)
    (hq : Segmentation (Boundary wb) (nfc s) qs) : List.Forall₂ (fun p q => nfd p = nfd q) ps qs :=
  c71_equivalent s (nfc s) (c17_partial s h0).1.symm ps qs hp hq

/-- Non-vacuity: words with a syllable, a Katakana letter with a voiced mark and letters with marks in any order. -/
example : Segmentation (Boundary wb) [0xAC01, 0xAC00, 0x20, 0x30AC, 0x30A2, 0x2260, 0x61, 0x301, 0x316, 0x2019, 0xE9]
      [[0xAC01, 0xAC00], [0x20], [0x30AC, 0x30A2], [0x2260], [0x61, 0x301, 0x316, 0x2019, 0xE9]] ∧
    nfd [0xAC01, 0xAC00] = [0x1100, 0x1161, 0x11A8, 0x1100, 0x1161] ∧ nfd [0x30AC, 0x30A2] = [0x30AB, 0x3099, 0x30A2] ∧
    nfd [0x61, 0x301, 0x316, 0x2019, 0xE9] = [0x61, 0x316, 0x301, 0x2019, 0x65, 0x301] := by
  refine ⟨seg_of_check (by decide +kernel), ?_, ?_, ?_⟩
  · rw [nfd_lookup]; decide +kernel
  · rw [nfd_lookup]; decide +kernel
  · rw [nfd_lookup]; decide +kernel

/-- Texts without ZWJ and emoji modifiers satisfy the hypotheses of `c71_clean`. -/
theorem clean_of (s : List Nat) (h : ∀ c ∈ s, wb c ≠ .ZWJ ∧ wb c ≠ .EModifier) : NextClean (s.map wb) ∧ NextBackClean (s.map wb) := by
  have hm : ∀ k ∈ s.map wb, k ≠ .ZWJ ∧ k ≠ .EModifier := by
    intro k hk; obtain ⟨c, hc, rfl⟩ := List.mem_map.mp hk; exact h c hc
  refine ⟨⟨?_, ?_, ?_⟩, ?_⟩
  · intro p m J g q e _ _; exact absurd rfl (hm .ZWJ (by rw [e]; simp)).1
  · intro p J x q e _; exact absurd rfl (hm .ZWJ (by rw [e]; simp)).1
  · intro p J q e _; exact (hm .EModifier (by rw [e]; simp)).2 rfl
  · intro p J q e _; exact (hm .EModifier (by rw [e]; simp)).2 rfl

end Props.WordNormal
