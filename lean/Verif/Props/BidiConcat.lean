import Verif.Props.Bidi

/-! # C77: a text is analysed paragraph by paragraph -/
namespace Props.BidiConcat
open Model Model.Bidi Data Model.Grapheme Spec.Bidi Proofs.Bidi Proofs.Grapheme Props.Bidi
open Model.Ucd (bidiClass)

/-- a paragraph `n` bytes further on -/
def shift (n : Nat) (p : Para) : Para := ⟨⟨n + p.range.start, n + p.range.stop⟩, p.level⟩

/-- the text is empty or its last character is a paragraph separator -/
def Ended (s : List Nat) : Prop := s = [] ∨ ∃ c, s.getLast? = some c ∧ bidiClass c = .ParagraphSeparator

theorem infos_shift (cls : Nat → BC) (dflt : Option Nat) (n : Nat) : ∀ (ps : List (List Nat)) (k : Nat),
    paragraphInfos cls dflt (n + k) ps = (paragraphInfos cls dflt k ps).map (shift n)
  | [], _ => rfl
  | p :: ps, k => by
    rw [paragraphInfos, paragraphInfos, List.map_cons, Nat.add_assoc, infos_shift cls dflt n ps (k + blen p)]
    rfl

theorem infos_append (cls : Nat → BC) (dflt : Option Nat) : ∀ (ps qs : List (List Nat)) (k : Nat),
    paragraphInfos cls dflt k (ps ++ qs) = paragraphInfos cls dflt k ps ++ paragraphInfos cls dflt (k + blen ps.flatten) qs
  | [], qs, k => by simp [paragraphInfos, blen]
  | p :: ps, qs, k => by
    rw [List.cons_append, paragraphInfos, paragraphInfos, infos_append cls dflt ps qs, List.flatten_cons, blen_append, List.cons_append,
      Nat.add_assoc]

/-- the paragraphs of two texts, the first of which ends a paragraph -/
theorem paragraphs_append {s t : List Nat} {ps qs : List (List Nat)} (hs : Ended s) (hp : IsParagraphs bidiClass s ps)
    (hq : IsParagraphs bidiClass t qs) : IsParagraphs bidiClass (s ++ t) (ps ++ qs) := by
  obtain ⟨p1, p2, p3⟩ := hp
  obtain ⟨q1, q2, q3⟩ := hq
  refine ⟨by rw [List.flatten_append, p1, q1], ?_, ?_⟩
  · intro p h
    rcases List.mem_append.mp h with h | h
    · exact p2 p h
    · exact q2 p h
  · intro p h
    cases qs with
    | nil => rw [List.append_nil] at h; exact p3 p h
    | cons q qs =>
      rw [List.dropLast_append_of_ne_nil (by simp)] at h
      rcases List.mem_append.mp h with h | h
      · rcases List.eq_nil_or_concat ps with rfl | ⟨ps', x, rfl⟩
        · cases h
        · rw [List.concat_eq_append] at *
          rcases List.mem_append.mp h with h | h
          · exact p3 p (by rw [List.dropLast_concat]; exact h)
          · rw [List.mem_singleton] at h
            subst h
            rw [List.flatten_append, List.flatten_singleton] at p1
            have hx : p ≠ [] := (p2 p (by simp)).1
            have hl : s.getLast? = p.getLast? := by
              rw [← p1, List.getLast?_append, List.getLast?_eq_some_getLast hx]; rfl
            rcases hs with rfl | ⟨c, hc, hb⟩
            · rw [List.append_eq_nil_iff] at p1; exact absurd p1.2 hx
            · exact ⟨c, by rw [← hl]; exact hc, hb⟩
      · exact q3 p h

/-- **C77.** If `s` ends a paragraph, `BidiInfo::new(s ++ t)` is `BidiInfo::new(s)` followed by `BidiInfo::new(t)`, with the
offsets of the second moved on by the length of `s`: classes, levels and paragraphs of each do not depend on the other, whatever isolates or
embeddings are open at the end of `s`. -/
theorem c77_concat (s t : List Nat) (dflt : Option Nat) (hd : ∀ d, dflt = some d → d ≤ 125) (hs : Ended s) :
    ∃ i j, bidiInfo s dflt = .ok i ∧ bidiInfo t dflt = .ok j ∧
      bidiInfo (s ++ t) dflt = .ok ⟨s ++ t, i.classes ++ j.classes, i.levels ++ j.levels, i.paras ++ j.paras.map (shift (blen s))⟩ := by
  refine ⟨_, _, new_ok fsi_len hd s, new_ok fsi_len hd t, ?_⟩
  have h0 := new_ok fsi_len hd (s ++ t)
  have hp := splitParas_ok bidiClass s
  have hsplit : splitParas bidiClass (s ++ t) = splitParas bidiClass s ++ splitParas bidiClass t :=
    splitParas_unique (paragraphs_append hs hp (splitParas_ok bidiClass t))
  have hcl : initialClasses ((s ++ t).map bidiClass) = initialClasses (s.map bidiClass) ++ initialClasses (t.map bidiClass) := by
    rw [List.map_append]
    rcases hs with rfl | ⟨c, hc, hb⟩
    · rfl
    · exact initialClasses_append _ (.inr ⟨bidiClass c, by rw [List.getLast?_map, hc]; rfl, hb⟩)
  have hlv : textLevels bidiClass dflt (s ++ t) = textLevels bidiClass dflt s ++ textLevels bidiClass dflt t := by
    unfold textLevels; rw [hsplit, List.flatMap_append]
  have hlc : (initialClasses (s.map bidiClass)).length = s.length := by rw [initialClasses_length, List.length_map]
  rw [bidiInfo, h0, hcl, hlv, expand_append _ _ _ _ hlc, expand_append _ _ _ _ (textLevels_length hd s), hsplit, infos_append, hp.1, Nat.zero_add]
  have := infos_shift bidiClass dflt (blen s) (splitParas bidiClass t) 0
  rw [Nat.add_zero] at this
  rw [this]

/-- The analyses of the texts of a list, one after the other. -/
def joined (dflt : Option Nat) : List (List Nat) → Outcome BidiInfo
  | [] => .ok ⟨[], [], [], []⟩
  | p :: ps => do
    let i ← bidiInfo p dflt
    let j ← joined dflt ps
    return ⟨p ++ j.text, i.classes ++ j.classes, i.levels ++ j.levels, i.paras ++ j.paras.map (shift (blen p))⟩

/-- **C77.** `BidiInfo::new` of a text is that of its paragraphs (rule P1) one by one. -/
theorem c77_paragraphs (text : List Nat) (dflt : Option Nat) (hd : ∀ d, dflt = some d → d ≤ 125) (ps : List (List Nat))
    (hps : IsParagraphs bidiClass text ps) : bidiInfo text dflt = joined dflt ps := by
  induction ps generalizing text with
  | nil =>
    obtain rfl : [] = text := hps.1
    exact new_ok fsi_len hd []
  | cons p ps ih =>
    obtain ⟨h1, h2, h3⟩ := hps
    have ht : IsParagraphs bidiClass ps.flatten ps := ⟨rfl, fun q hq => h2 q (by simp [hq]), by
      intro q hq
      cases ps with
      | nil => simp at hq
      | cons a as => exact h3 q (by rw [List.dropLast_cons_cons]; simp [hq])⟩
    have ih := ih ps.flatten ht
    cases ps with
    | nil =>
      obtain rfl : p = text := by simpa using h1
      obtain ⟨i, hi⟩ : ∃ i, bidiInfo p dflt = .ok i ∧ i.text = p := ⟨_, new_ok fsi_len hd p, rfl⟩
      simp only [joined, hi.1, Proofs.Punycode.bind_ok, Proofs.Punycode.pure_eq, List.append_nil, List.map_nil]
      rw [← hi.2]
    | cons q qs =>
      have he : Ended p := .inr (h3 p (by rw [List.dropLast_cons_cons]; simp))
      obtain ⟨i, j, e1, e2, e3⟩ := c77_concat p (q :: qs).flatten dflt hd he
      rw [ih] at e2
      rw [← h1, List.flatten_cons, e3, joined, e1, Proofs.Punycode.bind_ok, e2, Proofs.Punycode.bind_ok]
      have : j.text = (q :: qs).flatten := by
        rw [← ih] at e2
        obtain ⟨k, hk⟩ : ∃ k, bidiInfo (q :: qs).flatten dflt = .ok k ∧ k.text = (q :: qs).flatten := ⟨_, new_ok fsi_len hd _, rfl⟩
        rw [e2] at hk
        obtain rfl := Outcome.ok.inj hk.1
        exact hk.2
      rw [this]
      rfl

/-- an embedding and an isolate left open at the end of a paragraph, and a paragraph that starts with a closing sign -/
example : Ended [0x202E, 0x2067, 0x61, 0x2029] ∧
    ∃ i, bidiInfo ([0x202E, 0x2067, 0x61, 0x2029] ++ [0x2069, 0x61, 0x31]) none = .ok i ∧ i.levels = [0, 0, 0, 1, 1, 1, 4, 0, 0, 0, 0, 0, 0, 0, 0] := by
  refine ⟨.inr ⟨0x2029, rfl, ?_⟩, ?_⟩
  · rw [sample_ok (text := [0x2029]) (by decide) _ (by simp)]; decide
  · rw [bidiInfo, new_sample (by decide)]
    exact ⟨_, rfl, by decide +kernel⟩

/-- without a separator between them the texts do depend on each other: the level of "1" after a Hebrew letter -/
example : ∃ i j k, bidiInfo [0x5D0] none = .ok i ∧ bidiInfo [0x31] none = .ok j ∧ bidiInfo ([0x5D0] ++ [0x31]) none = .ok k ∧ k.levels ≠ i.levels ++ j.levels := by
  rw [bidiInfo, bidiInfo, bidiInfo, new_sample (by decide), new_sample (by decide), new_sample (by decide)]
  exact ⟨_, _, _, rfl, rfl, rfl, by decide +kernel⟩

end Props.BidiConcat
