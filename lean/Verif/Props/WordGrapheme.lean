import Verif.Props.Word
import Verif.Props.Relations

/-! # Property C61: words are made of whole grapheme clusters -/
namespace Props.WordGrapheme
open Data Spec.Segment Model Model.Word Model.Grapheme Model.Ucd Proofs.StepFn Proofs.UcdSF
open Props.Word (NextClean NextBackClean)
open Props.Grapheme (calls)

/-- what the two tables have in common -/
def Compat (g : GCB) (w : WB) : Prop :=
  (w = .CR ↔ g = .CR) ∧ (w = .LF ↔ g = .LF) ∧ (w = .ZWJ ↔ g = .ZWJ) ∧ (w = .EBase ↔ g = .EBase) ∧ (w = .EModifier ↔ g = .EModifier) ∧
  (w = .GlueAfterZwj ↔ g = .GlueAfterZwj) ∧ (w = .EBaseGAZ ↔ g = .EBaseGAZ) ∧ (w = .RegionalIndicator ↔ g = .RegionalIndicator) ∧
  (w = .Newline → g = .Control) ∧ (g ∈ [GraphemeClusterBreak.L, .V, .T, .LV, .LVT] → w = .ALetter) ∧ (g = .Extend → w = .Extend)

instance (g : GCB) (w : WB) : Decidable (Compat g w) := by unfold Compat; infer_instance

theorem compat (c : Nat) : Compat (graphemeClusterBreak c) (wordBreak c) := by
  have h := SF.zip₂ (fun x0 x1 => decide (Compat x0 x1)) graphemeClusterBreakSF wordBreakSF (by decide +kernel) c
  rw [graphemeClusterBreak_sf, wordBreak_sf]
  exact of_decide_eq_true h

/-- The pairs the grapheme cluster rules keep together. -/
theorem pairs (ext : Bool) (x y : GCB) (h : checkPair x y = .NotBreak ∨ (checkPair x y = .Extended ∧ ext = true)) (hp : ext = true → x ≠ .Prepend) :
    (x = .CR ∧ y = .LF) ∨ ((x ≠ .Control ∧ x ≠ .CR ∧ x ≠ .LF) ∧ (y = .Extend ∨ y = .ZWJ ∨ (y = .SpacingMark ∧ ext = true))) ∨
      (x ∈ [GraphemeClusterBreak.L, .V, .T, .LV, .LVT] ∧ y ∈ [GraphemeClusterBreak.L, .V, .T, .LV, .LVT]) ∨
      (x = .ZWJ ∧ (y = .GlueAfterZwj ∨ y = .EBaseGAZ)) ∨ ((x = .EBase ∨ x = .EBaseGAZ) ∧ y = .EModifier) := by
  revert h hp
  cases ext <;> cases x <;> cases y <;> simp [checkPair]

/-- no regional indicator directly before a character that WB4 skips; the text is given reversed -/
def RiFree : List Nat → Prop
  | [] => True
  | [_] => True
  | x :: y :: l => (wordBreak y = .RegionalIndicator → Model.Word.isIgn (wordBreak x) = false) ∧ RiFree (y :: l)

theorem RiFree.tail {x : Nat} {l : List Nat} (h : RiFree (x :: l)) : RiFree l := by
  cases l with
  | nil => trivial
  | cons y l => exact h.2

theorem ri_w {x : WB} {l : List WB} : Proofs.Word.riCount (x :: l) = if x = .RegionalIndicator then Proofs.Word.riCount l + 1 else 0 := by
  cases x <;> simp [Proofs.Word.riCount]
theorem ri_g {x : GCB} {l : List GCB} : Proofs.Grapheme.riCount (x :: l) = if x = .RegionalIndicator then Proofs.Grapheme.riCount l + 1 else 0 := by
  cases x <;> simp [Proofs.Grapheme.riCount]

theorem compat_ri (c : Nat) : wordBreak c = .RegionalIndicator ↔ graphemeClusterBreak c = .RegionalIndicator := (compat c).2.2.2.2.2.2.2.1

theorem ri_eq : ∀ (l : List Nat), RiFree l →
    Proofs.Word.riCount (Proofs.Word.eff (l.map wordBreak)) = Proofs.Grapheme.riCount (l.map graphemeClusterBreak)
  | [], _ => rfl
  | x :: l, h => by
    have ih := ri_eq l h.tail
    simp only [List.map_cons, Proofs.Word.eff]
    rw [ri_g]
    by_cases hi : Model.Word.isIgn (wordBreak x) = true
    · have hx : wordBreak x ≠ .RegionalIndicator := by intro e; rw [e] at hi; simp [Model.Word.isIgn] at hi
      rw [if_neg (fun e => hx ((compat_ri x).2 e))]
      split
      · rw [ih]
        cases l with
        | nil => rfl
        | cons y l =>
          rw [List.map_cons, ri_g, if_neg]
          intro e
          have := h.1 ((compat_ri y).2 e)
          rw [hi] at this; simp at this
      · rw [ri_w, if_neg hx]
    · have hi : Model.Word.isIgn (wordBreak x) = false := by simpa using hi
      simp only [hi, Bool.false_and, Bool.false_eq_true, if_false]
      rw [ri_w, ih]
      simp only [compat_ri x]

theorem emoji_e1 (l : List Nat) : Proofs.Grapheme.emojiBase (l.map graphemeClusterBreak) = true →
    (Proofs.Word.ctx (l.map wordBreak)).e1 = some .EBase ∨ (Proofs.Word.ctx (l.map wordBreak)).e1 = some .EBaseGAZ := by
  induction l with
  | nil => intro h; simp [Proofs.Grapheme.emojiBase] at h
  | cons x l ih =>
    intro h
    have hc := compat x
    simp only [List.map_cons, Proofs.Word.ctx, Proofs.Word.Ctx.push]
    by_cases he : graphemeClusterBreak x = .Extend
    · rw [List.map_cons, he, Proofs.Grapheme.emojiBase] at h
      have ih := ih h
      rw [hc.2.2.2.2.2.2.2.2.2.2 he]
      have ho : (Proofs.Word.ctx (l.map wordBreak)).open = true := by
        rcases ih with e | e <;> simp [Proofs.Word.Ctx.open, e, Proofs.Word.isNl]
      rw [if_pos (by simp [Model.Word.isIgn, ho])]
      exact ih
    · have : graphemeClusterBreak x = .EBase ∨ graphemeClusterBreak x = .EBaseGAZ := by
        rw [List.map_cons] at h
        revert h he
        generalize graphemeClusterBreak x = g
        cases g <;> simp [Proofs.Grapheme.emojiBase]
      rcases this with e | e
      · rw [hc.2.2.2.1.2 e]; simp [Model.Word.isIgn]
      · rw [hc.2.2.2.2.2.2.1.2 e]; simp [Model.Word.isIgn]

theorem e1_of {x : WB} {l : List WB} (h : Model.Word.isIgn x = false) : (Proofs.Word.ctx (x :: l)).e1 = some x := by
  simp [Proofs.Word.ctx, Proofs.Word.Ctx.push, h]

theorem z_of {x : WB} {l : List WB} : (Proofs.Word.ctx (x :: l)).z = (x == .ZWJ) := by
  simp only [Proofs.Word.ctx, Proofs.Word.Ctx.push]
  split <;> rfl

theorem nl_of {x : WB} {l : List WB} {e : WB} (h : (Proofs.Word.ctx (x :: l)).e1 = some e) : Proofs.Word.isNl e = Proofs.Word.isNl x := by
  have := Proofs.Word.ctx_open_cons x l
  rw [Proofs.Word.Ctx.open, h] at this
  simpa using this

theorem e1_some (x : WB) (l : List WB) : ∃ e, (Proofs.Word.ctx (x :: l)).e1 = some e := by
  simp only [Proofs.Word.ctx, Proofs.Word.Ctx.push]
  split
  · rename_i h
    simp only [Bool.and_eq_true, Proofs.Word.Ctx.open] at h
    cases he : (Proofs.Word.ctx l).e1 with
    | none => rw [he] at h; simp at h
    | some e => exact ⟨e, rfl⟩
  · exact ⟨x, rfl⟩

/-- Where the grapheme cluster rules allow no boundary, the word rules allow none. -/
theorem no_word (ext : Bool) (rl r : List Nat) (hp : ext = true → ∀ c ∈ rl, graphemeClusterBreak c ≠ .Prepend)
    (hs : ext = true → ∀ c ∈ r, c ≠ 0xE33 ∧ c ≠ 0xEB3) (hr : RiFree rl)
    (hg : Proofs.Grapheme.bnd ext (rl.map graphemeClusterBreak) (r.map graphemeClusterBreak) = false) :
    Proofs.Word.bw (rl.map wordBreak) (r.map wordBreak) = false := by
  cases rl with
  | nil => simp [Proofs.Grapheme.bnd] at hg
  | cons x rl =>
  cases r with
  | nil => simp [Proofs.Grapheme.bnd] at hg
  | cons y r =>
  have cx := compat x
  have cy := compat y
  obtain ⟨e, he⟩ := e1_some (wordBreak x) (rl.map wordBreak)
  have hnl := nl_of he
  have hz := z_of (x := wordBreak x) (l := rl.map wordBreak)
  simp only [List.map_cons, Proofs.Word.bw, Proofs.Word.bnd]
  rw [he]
  simp only
  by_cases hcl : (e == .CR && wordBreak y == .LF) = true
  · rw [if_pos hcl]
  rw [if_neg hcl]
  have hcase : (∃ k, checkPair (graphemeClusterBreak x) (graphemeClusterBreak y) = k ∧ (k = .NotBreak ∨ (k = .Extended ∧ ext = true))) ∨
      (graphemeClusterBreak x = .RegionalIndicator ∧ graphemeClusterBreak y = .RegionalIndicator ∧
        Proofs.Grapheme.riCount ((x :: rl).map graphemeClusterBreak) % 2 = 1) ∨
      (graphemeClusterBreak x = .Extend ∧ graphemeClusterBreak y = .EModifier ∧ Proofs.Grapheme.emojiBase ((x :: rl).map graphemeClusterBreak) = true) := by
    have hreg : ∀ a b, checkPair a b = .Regional → a = .RegionalIndicator ∧ b = .RegionalIndicator := by
      intro a b; cases a <;> cases b <;> simp [checkPair]
    have hemo : ∀ a b, checkPair a b = .Emoji → a = .Extend ∧ b = .EModifier := by
      intro a b; cases a <;> cases b <;> simp [checkPair]
    simp only [List.map_cons, Proofs.Grapheme.bnd] at hg
    split at hg
    · rename_i h; exact .inl ⟨_, h, .inl rfl⟩
    · simp at hg
    · rename_i h; exact .inl ⟨_, h, .inr ⟨rfl, by simpa using hg⟩⟩
    · rename_i h
      obtain ⟨h1, h2⟩ := hreg _ _ h
      refine .inr (.inl ⟨h1, h2, ?_⟩)
      simp only [List.map_cons]
      have : ¬ (Proofs.Grapheme.riCount (graphemeClusterBreak x :: rl.map graphemeClusterBreak) % 2 = 0) := by simpa using hg
      omega
    · rename_i h
      obtain ⟨h1, h2⟩ := hemo _ _ h
      exact .inr (.inr ⟨h1, h2, by simpa using hg⟩)
  have hnlw : ∀ c, Proofs.Word.isNl (wordBreak c) = true → graphemeClusterBreak c = .Control ∨ graphemeClusterBreak c = .CR ∨ graphemeClusterBreak c = .LF := by
    intro c h
    have cc := compat c
    have : wordBreak c = .CR ∨ wordBreak c = .LF ∨ wordBreak c = .Newline := by
      revert h; cases wordBreak c <;> simp [Proofs.Word.isNl]
    rcases this with h | h | h
    · exact .inr (.inl (cc.1.1 h))
    · exact .inr (.inr (cc.2.1.1 h))
    · exact .inl (cc.2.2.2.2.2.2.2.2.1 h)
  have fin : graphemeClusterBreak x ≠ .Control ∧ graphemeClusterBreak x ≠ .CR ∧ graphemeClusterBreak x ≠ .LF →
      graphemeClusterBreak y ≠ .Control ∧ graphemeClusterBreak y ≠ .CR ∧ graphemeClusterBreak y ≠ .LF →
      (Proofs.Word.isNl e || Proofs.Word.isNl (wordBreak y)) = false := by
    intro h1 h2
    rw [hnl, Bool.or_eq_false_iff]
    constructor
    · cases h : Proofs.Word.isNl (wordBreak x) with
      | false => rfl
      | true => rcases hnlw x h with h | h | h <;> simp [h] at h1
    · cases h : Proofs.Word.isNl (wordBreak y) with
      | false => rfl
      | true => rcases hnlw y h with h | h | h <;> simp [h] at h2
  rcases hcase with ⟨k, hk, hkk⟩ | ⟨h1, h2, h3⟩ | ⟨h1, h2, h3⟩
  · rcases pairs ext _ _ (by rw [hk]; exact hkk) (fun h => hp h x (by simp)) with ⟨h1, h2⟩ | ⟨h1, h2⟩ | ⟨h1, h2⟩ | ⟨h1, h2⟩ | ⟨h1, h2⟩
    · have hw := cx.1.2 h1
      have : e = .CR := by
        have := e1_of (x := wordBreak x) (l := rl.map wordBreak) (by rw [hw]; rfl)
        rw [he, hw] at this; simpa using this
      rw [this, cy.2.1.2 h2] at hcl; simp at hcl
    · have hy : Model.Word.isIgn (wordBreak y) = true := by
        rcases h2 with h2 | h2 | ⟨h2, h3⟩
        · rw [cy.2.2.2.2.2.2.2.2.2.2 h2]; rfl
        · rw [cy.2.2.1.2 h2]; rfl
        · have hm := (Relations.c60_gcb_marks y).2 h2
          have hn := hs h3 y (by simp)
          have : generalCategory y = .SpacingMark := by
            rcases hm with h | h
            · exact h
            · simp [Spec.inRanges] at h; omega
          rw [(Relations.c60_wb_extend y).2 (.inr this)]; rfl
      have hny : graphemeClusterBreak y ≠ .Control ∧ graphemeClusterBreak y ≠ .CR ∧ graphemeClusterBreak y ≠ .LF := by
        rcases h2 with h2 | h2 | ⟨h2, _⟩ <;> simp [h2]
      rw [fin h1 hny]
      simp [hy]
    · have hwx := cx.2.2.2.2.2.2.2.2.2.1 h1
      have hwy := cy.2.2.2.2.2.2.2.2.2.1 h2
      have : e = .ALetter := by
        have := e1_of (x := wordBreak x) (l := rl.map wordBreak) (by rw [hwx]; rfl)
        rw [he, hwx] at this; simpa using this
      rw [this, hwy]
      simp [Proofs.Word.isNl, Model.Word.isIgn, Proofs.Word.joins, Proofs.Word.ahl]
    · rw [fin (by simp [h1]) (by rcases h2 with h | h <;> simp [h])]
      have hwx := cx.2.2.1.2 h1
      have hwy : wordBreak y = .GlueAfterZwj ∨ wordBreak y = .EBaseGAZ := by
        rcases h2 with h | h
        · exact .inl (cy.2.2.2.2.2.1.2 h)
        · exact .inr (cy.2.2.2.2.2.2.1.2 h)
      rw [hz, hwx]
      rcases hwy with h | h <;> simp [h]
    · rw [fin (by rcases h1 with h | h <;> simp [h]) (by simp [h2])]
      have hwx : wordBreak x = .EBase ∨ wordBreak x = .EBaseGAZ := by
        rcases h1 with h | h
        · exact .inl (cx.2.2.2.1.2 h)
        · exact .inr (cx.2.2.2.2.2.2.1.2 h)
      have hwy := cy.2.2.2.2.1.2 h2
      have : e = wordBreak x := by
        have := e1_of (x := wordBreak x) (l := rl.map wordBreak) (by rcases hwx with h | h <;> rw [h] <;> rfl)
        rw [he] at this; simpa using this
      rw [this, hwy]
      rcases hwx with h | h <;> simp [h, Model.Word.isIgn, Proofs.Word.joins, Proofs.Word.ahl]
  · have hwx := (compat_ri x).2 h1
    have hwy := (compat_ri y).2 h2
    have : e = .RegionalIndicator := by
      have := e1_of (x := wordBreak x) (l := rl.map wordBreak) (by rw [hwx]; rfl)
      rw [he, hwx] at this; simpa using this
    have ho : (Proofs.Word.ctx (wordBreak x :: rl.map wordBreak)).odd = true := by
      rw [(Proofs.Word.ctx_eff _).2.2, ← List.map_cons, ri_eq _ hr, h3]; rfl
    rw [ho, this, hwy]
    simp [Proofs.Word.isNl, Model.Word.isIgn, Proofs.Word.joins, Proofs.Word.ahl]
  · have hwy := cy.2.2.2.2.1.2 h2
    have := emoji_e1 _ h3
    rw [List.map_cons, he] at this
    rw [fin (by simp [h1]) (by simp [h2]), hwy]
    rcases this with h | h <;> simp at h <;> simp [h, Model.Word.isIgn, Proofs.Word.joins, Proofs.Word.ahl]

/-- **C61, in terms of the rules.** Every word boundary of a text is a grapheme cluster boundary (legacy: `ext = false`; extended:
`ext = true`), if no regional indicator stands directly before a character that rule WB4 skips and, for extended clusters, the text
has no prepended character and neither of the two letters U+0E33 and U+0EB3. -/
theorem c61_boundaries_partial (ext : Bool) (a b : List Nat)
    (hp : ext = true → ∀ c ∈ a ++ b, graphemeClusterBreak c ≠ .Prepend ∧ c ≠ 0xE33 ∧ c ≠ 0xEB3)
    (hr : ∀ p r c q, a ++ b = p ++ r :: c :: q → wordBreak r = .RegionalIndicator → ¬ Ignored (wordBreak c))
    (h : WordBoundary (a.map wordBreak) (b.map wordBreak)) :
    GraphemeBoundary ext (a.map graphemeClusterBreak) (b.map graphemeClusterBreak) := by
  have e1 : a.map wordBreak = (a.reverse.map wordBreak).reverse := by simp
  have e2 : a.map graphemeClusterBreak = (a.reverse.map graphemeClusterBreak).reverse := by simp
  rw [e1, Proofs.Word.wordBoundary_iff] at h
  rw [e2, Proofs.Grapheme.bnd_spec]
  cases hg : Proofs.Grapheme.bnd ext (a.reverse.map graphemeClusterBreak) (b.map graphemeClusterBreak) with
  | true => rfl
  | false =>
    rw [no_word ext a.reverse b (fun he c hc => (hp he c (by simp at hc; simp [hc])).1)
      (fun he c hc => (hp he c (by simp [hc])).2) ?_ hg] at h
    · simp at h
    · have key : ∀ (l : List Nat) (t : List Nat), (∀ p r c q, l.reverse ++ t = p ++ r :: c :: q → wordBreak r = .RegionalIndicator → ¬ Ignored (wordBreak c)) →
          RiFree l := by
        intro l
        induction l with
        | nil => intro _ _; trivial
        | cons x l ih =>
          intro t ht
          cases l with
          | nil => trivial
          | cons y l =>
            refine ⟨fun hy => ?_, ih (x :: t) (fun p r c q e => ht p r c q (by rw [← e]; simp))⟩
            have := ht l.reverse y x t (by simp) hy
            rw [← Proofs.Word.isIgn_iff] at this
            simpa using this
      exact key a.reverse b (by simpa using hr)

/-- Pieces whose ends are ends of finer pieces are made of whole finer pieces. -/
theorem group : ∀ (ps gs : List (List Nat)), (∀ g ∈ gs, g ≠ []) → ps.flatten = gs.flatten →
    (∀ j, ∃ k, (ps.take j).flatten = (gs.take k).flatten) → ∃ groups : List (List (List Nat)), groups.map List.flatten = ps ∧ groups.flatten = gs
  | [], gs, hg, e, _ => by
    cases gs with
    | nil => exact ⟨[], rfl, rfl⟩
    | cons g gs => simp at e; exact absurd e.1 (hg g (by simp))
  | p :: ps, gs, hg, e, hk => by
    obtain ⟨k, hk1⟩ := hk 1
    simp only [List.take_succ_cons, List.take_zero, List.flatten_cons, List.flatten_nil, List.append_nil] at hk1
    have hsplit : gs = gs.take k ++ gs.drop k := (List.take_append_drop k gs).symm
    have e' : ps.flatten = (gs.drop k).flatten := by
      rw [List.flatten_cons, hsplit, List.flatten_append, ← hk1] at e
      exact List.append_cancel_left e
    obtain ⟨groups, h1, h2⟩ := group ps (gs.drop k) (fun g h => hg g (List.mem_of_mem_drop h)) e' (by
      intro j
      obtain ⟨k', hk'⟩ := hk (j + 1)
      rw [List.take_succ_cons, List.flatten_cons, hk1] at hk'
      by_cases hle : k ≤ k'
      · refine ⟨k' - k, ?_⟩
        obtain ⟨d, rfl⟩ := Nat.exists_eq_add_of_le hle
        rw [List.take_add, List.flatten_append] at hk'
        rw [Nat.add_sub_cancel_left]
        exact List.append_cancel_left hk'
      · refine ⟨0, ?_⟩
        obtain ⟨d, rfl⟩ := Nat.exists_eq_add_of_le (show k' ≤ k by omega)
        rw [List.take_add, List.flatten_append, List.append_assoc] at hk'
        have := congrArg List.length hk'
        simp only [List.length_append] at this
        simp only [List.take_zero, List.flatten_nil]
        exact List.eq_nil_of_length_eq_zero (by omega))
    exact ⟨gs.take k :: groups, by rw [List.map_cons, h1, ← hk1], by rw [List.flatten_cons, h2, List.take_append_drop]⟩

/-- **C61, in part.** The pieces that `split_word_bounds` returns are made of whole grapheme clusters: there are groups of clusters
such that the calls to `Graphemes` (`ext`: extended or legacy) answer with the clusters and the calls to `WordBounds` with the text of
the groups, from either end. Missing: texts in which a regional indicator stands directly before a character that rule WB4 skips and,
for extended clusters, texts with prepended characters, U+0E33 or U+0EB3; for them the claim is false (`c61_not_prepend`,
`c61_not_vowel`, `c61_not_flags`), with the rules of UAX #29 as well. Texts on which the word iterators depart from UAX #29 (see C39)
are left out too. -/
theorem c61_words_partial (ext : Bool) (s : List Nat)
    (hp : ext = true → ∀ c ∈ s, graphemeClusterBreak c ≠ .Prepend ∧ c ≠ 0xE33 ∧ c ≠ 0xEB3)
    (hr : ∀ p r c q, s = p ++ r :: c :: q → wordBreak r = .RegionalIndicator → ¬ Ignored (wordBreak c)) :
    ∃ groups : List (List (List Nat)),
      (∀ ops : List End, ∃ g, calls (·.next graphemeClusterBreak) (·.nextBack graphemeClusterBreak) (Graphemes.new ext s) ops =
        .ok ((deque groups.flatten ops).1, g)) ∧
      ∀ ops : List End, (.front ∈ ops → NextClean (s.map wordBreak)) → (.back ∈ ops → NextBackClean (s.map wordBreak)) →
        ∃ b, calls (·.next wordBreak) (·.nextBack wordBreak) (WordBounds.new s) ops = .ok ((deque (groups.map List.flatten) ops).1, b) := by
  obtain ⟨gs, hgs, hgc⟩ := Props.Grapheme.c35_iteration graphemeClusterBreak ext s
  obtain ⟨ps, hps, -, hpc⟩ := Props.Word.c39_boundaries_partial wordBreak Props.Word.c38_table s
  obtain ⟨groups, h1, h2⟩ := group ps gs hgs.2.1 (hps.1.trans hgs.1.symm) (by
    intro j
    have hs : s = (ps.take j).flatten ++ (ps.drop j).flatten := by
      rw [← List.flatten_append, List.take_append_drop]; exact hps.1.symm
    have hw := (hps.2.2 _ _ hs).2 ⟨j, rfl⟩
    have := c61_boundaries_partial ext _ _ (by rw [← hs]; exact hp) (by rw [← hs]; exact hr) hw
    exact (hgs.2.2 _ _ hs).1 this)
  refine ⟨groups, fun ops => ?_, fun ops hF hB => ?_⟩
  · obtain ⟨g, hg, -⟩ := hgc ops
    exact ⟨g, by rw [h2]; exact hg⟩
  · obtain ⟨b, -, hb, -⟩ := hpc ops hF hB
    exact ⟨b, by rw [h1]; exact hb⟩

/-- **C61 fails** with a prepended character: U+0600 and "a" are one extended cluster and two pieces. -/
theorem c61_not_prepend :
    (calls (·.next graphemeClusterBreak) (·.nextBack graphemeClusterBreak) (Graphemes.new true [0x600, 0x61]) [.front, .front]).map Prod.fst =
      .ok [some [0x600, 0x61], none] ∧
    (calls (·.next wordBreak) (·.nextBack wordBreak) (WordBounds.new [0x600, 0x61]) [.front, .front, .front]).map Prod.fst =
      .ok [some [0x600], some [0x61], none] := by decide +kernel

/-- **C61 fails** with the Thai vowel U+0E33 (and its Lao counterpart): it extends the cluster of the consonant but is a piece of its own. -/
theorem c61_not_vowel :
    (calls (·.next graphemeClusterBreak) (·.nextBack graphemeClusterBreak) (Graphemes.new true [0xE01, 0xE33]) [.front, .front]).map Prod.fst =
      .ok [some [0xE01, 0xE33], none] ∧
    (calls (·.next wordBreak) (·.nextBack wordBreak) (WordBounds.new [0xE01, 0xE33]) [.front, .front, .front]).map Prod.fst =
      .ok [some [0xE01], some [0xE33], none] := by decide +kernel

/-- **C61 fails** with three regional indicators and a mark after the first: clusters pair the last two, words the first two. -/
theorem c61_not_flags :
    (calls (·.next graphemeClusterBreak) (·.nextBack graphemeClusterBreak) (Graphemes.new false [0x1F1E6, 0x301, 0x1F1E6, 0x1F1E6])
      [.front, .front, .front]).map Prod.fst = .ok [some [0x1F1E6, 0x301], some [0x1F1E6, 0x1F1E6], none] ∧
    (calls (·.next wordBreak) (·.nextBack wordBreak) (WordBounds.new [0x1F1E6, 0x301, 0x1F1E6, 0x1F1E6]) [.front, .front, .front]).map Prod.fst =
      .ok [some [0x1F1E6, 0x301, 0x1F1E6], some [0x1F1E6], none] := by decide +kernel

/-- Non-vacuity: "né 🇷🇸 한" with a combining accent and a syllable in jamo meets the hypotheses, and has clusters of several characters. -/
example : (∀ c ∈ [0x6E, 0x65, 0x301, 0x20, 0x1F1F7, 0x1F1F8, 0x20, 0x1112, 0x1161, 0x11AB],
      graphemeClusterBreak c ≠ .Prepend ∧ c ≠ 0xE33 ∧ c ≠ 0xEB3) ∧
    (∀ k, k < 9 → wordBreak ([0x6E, 0x65, 0x301, 0x20, 0x1F1F7, 0x1F1F8, 0x20, 0x1112, 0x1161, 0x11AB].getD k 0) = .RegionalIndicator →
      ¬ Ignored (wordBreak ([0x6E, 0x65, 0x301, 0x20, 0x1F1F7, 0x1F1F8, 0x20, 0x1112, 0x1161, 0x11AB].getD (k + 1) 0))) ∧
    (calls (·.next graphemeClusterBreak) (·.nextBack graphemeClusterBreak)
      (Graphemes.new true [0x6E, 0x65, 0x301, 0x20, 0x1F1F7, 0x1F1F8, 0x20, 0x1112, 0x1161, 0x11AB]) [.front, .front, .back]).map Prod.fst =
      .ok [some [0x6E], some [0x65, 0x301], some [0x1112, 0x1161, 0x11AB]] := by decide +kernel

end Props.WordGrapheme
