import Verif.Props.WordNormal

/-! # C87: segmentation sees classes, not characters -/
namespace Props.SegmentShape
open Data Spec.Segment Model Model.Grapheme Model.Word Props.Grapheme Props.Word Props.Normal Model.Normal
open Proofs.Word List

/-- two iterators called alike -/
theorem calls_rel {S T α β : Type} {fr bk : S → Outcome (S × Option α)} {fr' bk' : T → Outcome (T × Option β)} (Sim : S → T → Prop)
    (Q : Option α → Option β → Prop)
    (hf : ∀ b c, Sim b c → ∃ b' c' r r', fr b = .ok (b', r) ∧ fr' c = .ok (c', r') ∧ Sim b' c' ∧ Q r r')
    (hb : ∀ b c, Sim b c → ∃ b' c' r r', bk b = .ok (b', r) ∧ bk' c = .ok (c', r') ∧ Sim b' c' ∧ Q r r') (ops : List End) :
    ∀ b c, Sim b c → ∃ rs rs' b' c', calls fr bk b ops = .ok (rs, b') ∧ calls fr' bk' c ops = .ok (rs', c') ∧ Forall₂ Q rs rs' ∧ Sim b' c' := by
  induction ops with
  | nil => intro b c h; exact ⟨[], [], b, c, rfl, rfl, .nil, h⟩
  | cons e ops ih =>
    intro b c h
    cases e with
    | front =>
      obtain ⟨b1, c1, r, r', h1, h2, h3, h4⟩ := hf b c h
      obtain ⟨rs, rs', b', c', g1, g2, g3, g4⟩ := ih b1 c1 h3
      refine ⟨r :: rs, r' :: rs', b', c', ?_, ?_, .cons h4 g3, g4⟩
      · rw [Props.Grapheme.calls, h1]; change (calls fr bk b1 ops >>= _) = _; rw [g1]; rfl
      · rw [Props.Grapheme.calls, h2]; change (calls fr' bk' c1 ops >>= _) = _; rw [g2]; rfl
    | back =>
      obtain ⟨b1, c1, r, r', h1, h2, h3, h4⟩ := hb b c h
      obtain ⟨rs, rs', b', c', g1, g2, g3, g4⟩ := ih b1 c1 h3
      refine ⟨r :: rs, r' :: rs', b', c', ?_, ?_, .cons h4 g3, g4⟩
      · rw [Props.Grapheme.calls, h1]; change (calls fr bk b1 ops >>= _) = _; rw [g1]; rfl
      · rw [Props.Grapheme.calls, h2]; change (calls fr' bk' c1 ops >>= _) = _; rw [g2]; rfl

/-- two filtered iterators -/
theorem filter_rel {Sim : WordBounds → WordBounds → Prop} {Q : List Nat → List Nat → Prop}
    {step step' : WordBounds → Outcome (WordBounds × Option (List Nat))} {keep keep' : List Nat → Bool}
    (hs : ∀ b c, Sim b c → ∃ b' c' r r', step b = .ok (b', r) ∧ step' c = .ok (c', r') ∧ Sim b' c' ∧ Option.Rel Q r r' ∧
      (r ≠ none → b'.string.length < b.string.length) ∧ (r' ≠ none → c'.string.length < c.string.length))
    (hk : ∀ p q, Q p q → keep p = keep' q) : ∀ n m b c, b.string.length < n → c.string.length < m → Sim b c →
      ∃ b' c' r r', filterLoop step keep n b = .ok (b', r) ∧ filterLoop step' keep' m c = .ok (c', r') ∧ Sim b' c' ∧ Option.Rel Q r r' := by
  intro n
  induction n with
  | zero => intro m b c h; omega
  | succ n ih =>
    intro m b c h1 h2 h3
    cases m with
    | zero => omega
    | succ m =>
      obtain ⟨b', c', r, r', e1, e2, e3, e4, e5, e6⟩ := hs b c h3
      rw [filterLoop, filterLoop, e1, e2]
      cases e4 with
      | none => exact ⟨b', c', none, none, rfl, rfl, e3, .none⟩
      | @some p q hpq =>
        have hk := hk p q hpq
        change ∃ x y r r', (if keep p then Outcome.ok (b', some p) else filterLoop step keep n b') = .ok (x, r) ∧
          (if keep' q then Outcome.ok (c', some q) else filterLoop step' keep' m c') = .ok (y, r') ∧ _
        rw [← hk]
        split
        · exact ⟨b', c', some p, some q, rfl, rfl, e3, .some hpq⟩
        · exact ih m b' c' (by have := e5 (by simp); omega) (by have := e6 (by simp); omega) e3

theorem words_rel {Sim : WordBounds → WordBounds → Prop} {Q : List Nat → List Nat → Prop} {keep keep' : List Nat → Bool} {wb : Nat → WB}
    (hf : ∀ b c, Sim b c → ∃ b' c' r r', b.next wb = .ok (b', r) ∧ c.next wb = .ok (c', r') ∧ Sim b' c' ∧ Option.Rel Q r r' ∧
      (r ≠ none → b'.string.length < b.string.length) ∧ (r' ≠ none → c'.string.length < c.string.length))
    (hb : ∀ b c, Sim b c → ∃ b' c' r r', b.nextBack wb = .ok (b', r) ∧ c.nextBack wb = .ok (c', r') ∧ Sim b' c' ∧ Option.Rel Q r r' ∧
      (r ≠ none → b'.string.length < b.string.length) ∧ (r' ≠ none → c'.string.length < c.string.length))
    (hk : ∀ p q, Q p q → keep p = keep' q) (b c : WordBounds) (h : Sim b c) (ops : List End) :
    ∃ rs rs' w w', calls (·.next wb keep) (·.nextBack wb keep) (⟨b⟩ : Words) ops = .ok (rs, w) ∧
      calls (·.next wb keep') (·.nextBack wb keep') (⟨c⟩ : Words) ops = .ok (rs', w') ∧ Forall₂ (Option.Rel Q) rs rs' ∧ Sim w.inner w'.inner := by
  refine calls_rel (S := Words) (T := Words) (fun v w => Sim v.inner w.inner) _ ?_ ?_ ops ⟨b⟩ ⟨c⟩ h
  · intro v w h
    obtain ⟨b', c', r, r', h1, h2, h3, h4⟩ := filter_rel hf hk (v.inner.string.length + 1) (w.inner.string.length + 1) _ _ (by omega) (by omega) h
    refine ⟨⟨b'⟩, ⟨c'⟩, r, r', ?_, ?_, h3, h4⟩
    · rw [Words.next, h1]; rfl
    · rw [Words.next, h2]; rfl
  · intro v w h
    obtain ⟨b', c', r, r', h1, h2, h3, h4⟩ := filter_rel hb hk (v.inner.string.length + 1) (w.inner.string.length + 1) _ _ (by omega) (by omega) h
    refine ⟨⟨b'⟩, ⟨c'⟩, r, r', ?_, ?_, h3, h4⟩
    · rw [Words.nextBack, h1]; rfl
    · rw [Words.nextBack, h2]; rfl

section
variable {R : Nat → Nat → Prop}
local notation "wb" => Ucd.wordBreak

theorem map_same {α : Type} {f : Nat → α} (hR : ∀ c d, R c d → f c = f d) {s t : List Nat} (h : Forall₂ R s t) : s.map f = t.map f := by
  induction h with
  | nil => rfl
  | cons h _ ih => rw [List.map_cons, List.map_cons, hR _ _ h, ih]

theorem take_same {α β : Type} {R : α → β → Prop} {s : List α} {t : List β} (h : Forall₂ R s t) : ∀ n, Forall₂ R (s.take n) (t.take n) := by
  induction h with
  | nil => intro n; simp
  | cons h h' ih =>
    intro n
    cases n with
    | zero => simp
    | succ n => exact .cons h (ih n)
theorem drop_same {α β : Type} {R : α → β → Prop} {s : List α} {t : List β} (h : Forall₂ R s t) : ∀ n, Forall₂ R (s.drop n) (t.drop n) := by
  induction h with
  | nil => intro n; simp
  | cons h h' ih =>
    intro n
    cases n with
    | zero => exact .cons h h'
    | succ n => exact ih n

/-- iterators over related texts -/
structure Sim (R : Nat → Nat → Prop) (b c : WordBounds) : Prop where
  left : Good2 wb b
  right : Good2 wb c
  rel : Forall₂ R b.string c.string

theorem next_same (hR : ∀ c d, R c d → wb c = wb d) (b c : WordBounds) (h : Sim R b c) :
    ∃ b' c' r r', b.next wb = .ok (b', r) ∧ c.next wb = .ok (c', r') ∧ Sim R b' c' ∧ Option.Rel (Forall₂ R) r r' ∧
      (r ≠ none → b'.string.length < b.string.length) ∧ (r' ≠ none → c'.string.length < c.string.length) := by
  have hl := h.rel.length_eq
  by_cases hs : b.string = []
  · have hs' : c.string = [] := by rw [hs] at hl; simpa using hl.symm
    exact ⟨b, c, none, none, by rw [WordBounds.next, if_pos hs], by rw [WordBounds.next, if_pos hs'], h, .none, by simp, by simp⟩
  · have hs' : c.string ≠ [] := fun e => hs (by rw [e] at hl; simpa using hl)
    obtain ⟨b', h1, h2, h3⟩ := next_cut ucd_cr hs h.left
    obtain ⟨c', g1, g2, g3⟩ := next_cut ucd_cr hs' h.right
    obtain ⟨u, b2, k1, k2, k3, -, -⟩ := next_step ucd_cr hs h.left
    rw [← map_same hR h.rel] at g1 g3
    have e : b2 = b' := by rw [h1] at k3; cases k3; rfl
    subst e
    have hlt : b2.string.length < b.string.length := by
      rw [k1, List.length_append]
      have := List.length_pos_iff.2 k2
      omega
    have hd := drop_same h.rel (cutF (b.string.map wb))
    rw [← h3, ← g3] at hd
    refine ⟨b2, c', _, _, h1, g1, ⟨h2, g2, hd⟩, .some (take_same h.rel _), fun _ => hlt, fun _ => ?_⟩
    rw [← hd.length_eq, ← hl]; exact hlt

theorem nextBack_same (hR : ∀ c d, R c d → wb c = wb d) (b c : WordBounds) (h : Sim R b c) :
    ∃ b' c' r r', b.nextBack wb = .ok (b', r) ∧ c.nextBack wb = .ok (c', r') ∧ Sim R b' c' ∧ Option.Rel (Forall₂ R) r r' ∧
      (r ≠ none → b'.string.length < b.string.length) ∧ (r' ≠ none → c'.string.length < c.string.length) := by
  have hl := h.rel.length_eq
  by_cases hs : b.string = []
  · have hs' : c.string = [] := by rw [hs] at hl; simpa using hl.symm
    exact ⟨b, c, none, none, by rw [WordBounds.nextBack, if_pos hs], by rw [WordBounds.nextBack, if_pos hs'], h, .none, by simp, by simp⟩
  · have hs' : c.string ≠ [] := fun e => hs (by rw [e] at hl; simpa using hl)
    obtain ⟨b', h1, h2, h3⟩ := Props.WordNormal.nextBack_cutL hs h.left
    obtain ⟨c', g1, g2, g3⟩ := Props.WordNormal.nextBack_cutL hs' h.right
    obtain ⟨u, b2, k1, k2, k3, -, -⟩ := nextBack_step ucd_cr hs h.left
    rw [← map_same hR h.rel] at g1 g3
    have e : b2 = b' := by rw [h1] at k3; cases k3; rfl
    subst e
    have hlt : b2.string.length < b.string.length := by
      rw [k1, List.length_append]
      have := List.length_pos_iff.2 k2
      omega
    have hd := take_same h.rel (cutL (b.string.map wb))
    rw [← h3, ← g3] at hd
    refine ⟨b2, c', _, _, h1, g1, ⟨h2, g2, hd⟩, .some (drop_same h.rel _), fun _ => hlt, fun _ => ?_⟩
    rw [← hd.length_eq, ← hl]; exact hlt

/-- **C87, words.** For any relation of characters that keeps the class: whatever calls of `next` and `next_back` are made, in whatever
order, on `split_word_bounds` of two texts related character by character, the answers are related one by one, and so is what remains.
In particular the pieces have the same numbers of characters, whatever the characters and their lengths in UTF-8 are. -/
theorem c87_word_bounds (hR : ∀ c d, R c d → wb c = wb d) (s t : List Nat) (h : Forall₂ R s t) (ops : List End) :
    ∃ rs rs' b b', calls (·.next wb) (·.nextBack wb) (WordBounds.new s) ops = .ok (rs, b) ∧
      calls (·.next wb) (·.nextBack wb) (WordBounds.new t) ops = .ok (rs', b') ∧
      Forall₂ (Option.Rel (Forall₂ R)) rs rs' ∧ Forall₂ R b.asStr b'.asStr := by
  obtain ⟨rs, rs', b, b', h1, h2, h3, h4⟩ := calls_rel (Sim R) (Option.Rel (Forall₂ R))
    (fun b c hs => by obtain ⟨b', c', r, r', h1, h2, h3, h4, -, -⟩ := next_same hR b c hs; exact ⟨b', c', r, r', h1, h2, h3, h4⟩)
    (fun b c hs => by obtain ⟨b', c', r, r', h1, h2, h3, h4, -, -⟩ := nextBack_same hR b c hs; exact ⟨b', c', r, r', h1, h2, h3, h4⟩)
    ops (WordBounds.new s) (WordBounds.new t) ⟨good_new wb s, good_new wb t, h⟩
  exact ⟨rs, rs', b, b', h1, h2, h3, h4.rel⟩

/-- **C87, words.** The same of `words` with filters that accept related pieces alike. -/
theorem c87_words (hR : ∀ c d, R c d → wb c = wb d) (keep keep' : List Nat → Bool) (hk : ∀ p q, Forall₂ R p q → keep p = keep' q)
    (s t : List Nat) (h : Forall₂ R s t) (ops : List End) :
    ∃ rs rs' w w', calls (·.next wb keep) (·.nextBack wb keep) (Words.new s) ops = .ok (rs, w) ∧
      calls (·.next wb keep') (·.nextBack wb keep') (Words.new t) ops = .ok (rs', w') ∧ Forall₂ (Option.Rel (Forall₂ R)) rs rs' := by
  obtain ⟨rs, rs', w, w', h1, h2, h3, -⟩ := words_rel (next_same hR) (nextBack_same hR) hk (WordBounds.new s) (WordBounds.new t)
    ⟨good_new wb s, good_new wb t, h⟩ ops
  exact ⟨rs, rs', w, w', h1, h2, h3⟩

end

/-- **C71.** Whatever calls are made on `words(s, keep)` and `words(t, keep')` for canonically equivalent `s` and `t`, with filters that
accept canonically equivalent pieces alike, the answers are canonically equivalent one by one. -/
theorem c71_words (keep keep' : List Nat → Bool) (hk : ∀ p q, nfd p = nfd q → keep p = keep' q) (s t : List Nat) (h : nfd s = nfd t)
    (ops : List End) :
    ∃ rs rs' w w', calls (·.next Ucd.wordBreak keep) (·.nextBack Ucd.wordBreak keep) (Words.new s) ops = .ok (rs, w) ∧
      calls (·.next Ucd.wordBreak keep') (·.nextBack Ucd.wordBreak keep') (Words.new t) ops = .ok (rs', w') ∧
      Forall₂ (Option.Rel fun p q => nfd p = nfd q) rs rs' := by
  have rel : ∀ r r' : Option (List Nat), r.map nfd = r'.map nfd → Option.Rel (fun p q => nfd p = nfd q) r r' := by
    intro r r' h
    cases r <;> cases r' <;> simp at h
    · exact .none
    · exact .some h
  have shorter : ∀ {b b' : WordBounds} {r : Option (List Nat)}, Good2 Ucd.wordBreak b →
      (b.next Ucd.wordBreak = .ok (b', r) ∨ b.nextBack Ucd.wordBreak = .ok (b', r)) → r ≠ none → b'.string.length < b.string.length := by
    intro b b' r hg h hr
    by_cases hs : b.string = []
    · rw [WordBounds.next, WordBounds.nextBack, if_pos hs, if_pos hs] at h
      rcases h with h | h <;> cases h <;> exact absurd rfl hr
    · rcases h with h | h
      · obtain ⟨u, b2, k1, k2, k3, -, -⟩ := next_step ucd_cr hs hg
        rw [h] at k3; cases k3
        rw [k1, List.length_append]
        have := List.length_pos_iff.2 k2
        omega
      · obtain ⟨u, b2, k1, k2, k3, -, -⟩ := nextBack_step ucd_cr hs hg
        rw [h] at k3; cases k3
        rw [k1, List.length_append]
        have := List.length_pos_iff.2 k2
        omega
  obtain ⟨rs, rs', w, w', h1, h2, h3, -⟩ := words_rel (Sim := fun b c => Good2 Ucd.wordBreak b ∧ Good2 Ucd.wordBreak c ∧ nfd b.string = nfd c.string)
    (wb := Ucd.wordBreak) (Q := fun p q => nfd p = nfd q) (keep := keep) (keep' := keep')
    (fun b c hs => by
      obtain ⟨b', c', r, r', h1, h2, h3, h4, h5, h6, -⟩ := Props.WordNormal.step_equivalent .front hs.1 hs.2.1 hs.2.2
      exact ⟨b', c', r, r', h1, h2, ⟨h3, h4, h5⟩, rel _ _ h6, shorter hs.1 (.inl h1), shorter hs.2.1 (.inl h2)⟩)
    (fun b c hs => by
      obtain ⟨b', c', r, r', h1, h2, h3, h4, h5, h6, -⟩ := Props.WordNormal.step_equivalent .back hs.1 hs.2.1 hs.2.2
      exact ⟨b', c', r, r', h1, h2, ⟨h3, h4, h5⟩, rel _ _ h6, shorter hs.1 (.inr h1), shorter hs.2.1 (.inr h2)⟩)
    hk (WordBounds.new s) (WordBounds.new t) ⟨good_new _ s, good_new _ t, h⟩ ops
  exact ⟨rs, rs', w, w', h1, h2, h3⟩

/-! ## grapheme clusters -/

theorem split_same {α β : Type} {R : α → β → Prop} : ∀ {a b : List α} {t : List β}, Forall₂ R (a ++ b) t →
    Forall₂ R a (t.take a.length) ∧ Forall₂ R b (t.drop a.length) := by
  intro a
  induction a with
  | nil => intro b t h; exact ⟨by simp, by simpa using h⟩
  | cons x a ih =>
    intro b t h
    cases h with
    | cons h h' =>
      obtain ⟨h1, h2⟩ := ih h'
      exact ⟨.cons h h1, h2⟩

theorem pieces_same {R : Nat → Nat → Prop} : ∀ (ps : List (List Nat)) (t : List Nat), Forall₂ R ps.flatten t →
    ∃ qs, qs.flatten = t ∧ Forall₂ (Forall₂ R) ps qs := by
  intro ps
  induction ps with
  | nil =>
    intro t h
    cases h
    exact ⟨[], rfl, .nil⟩
  | cons p ps ih =>
    intro t h
    rw [List.flatten_cons] at h
    obtain ⟨h1, h2⟩ := split_same h
    obtain ⟨qs, e, h3⟩ := ih _ h2
    exact ⟨t.take p.length :: qs, by rw [List.flatten_cons, e, List.take_append_drop], .cons h1 h3⟩

theorem flatten_rel {R : Nat → Nat → Prop} {l l' : List (List Nat)} (h : Forall₂ (Forall₂ R) l l') : Forall₂ R l.flatten l'.flatten := by
  induction h with
  | nil => exact .nil
  | cons h _ ih => simp only [List.flatten_cons]; exact List.rel_append h ih

theorem symm_rel {R : Nat → Nat → Prop} {s t : List Nat} (h : Forall₂ R s t) : Forall₂ (fun a b => R b a) t s := by
  induction h with
  | nil => exact .nil
  | cons h _ ih => exact .cons h ih

/-- clusters of related texts -/
theorem segmentation_same {R : Nat → Nat → Prop} {B : List Nat → List Nat → Prop} (hB : ∀ a a' b b', Forall₂ R a a' → Forall₂ R b b' → (B a b ↔ B a' b'))
    {s t : List Nat} (h : Forall₂ R s t) {ps : List (List Nat)} (hp : Segmentation B s ps) :
    ∃ qs, Segmentation B t qs ∧ Forall₂ (Forall₂ R) ps qs := by
  obtain ⟨h1, h2, h3⟩ := hp
  obtain ⟨qs, e, hq⟩ := pieces_same ps t (h1 ▸ h)
  refine ⟨qs, ⟨e, ?_, ?_⟩, hq⟩
  · clear h1 h3 e
    induction hq with
    | nil => simp
    | cons hpq _ ih =>
      intro q hq'
      rcases List.mem_cons.1 hq' with rfl | hq'
      · intro e
        subst e
        have := hpq.length_eq
        exact h2 _ (List.mem_cons_self ..) (by simpa using this)
      · exact ih (fun p hp => h2 p (by simp [hp])) q hq'
  · intro a b hab
    have hs := symm_rel h
    rw [hab] at hs
    obtain ⟨k1, k2⟩ := split_same hs
    have k1 := symm_rel k1
    have k2 := symm_rel k2
    rw [← hB _ _ _ _ k1 k2, h3 _ _ (List.take_append_drop a.length s).symm]
    have key : ∀ k, (s.take a.length = (ps.take k).flatten ↔ a = (qs.take k).flatten) := by
      intro k
      have hl := (flatten_rel (take_same hq k)).length_eq
      have e1 : s = (ps.take k).flatten ++ (ps.drop k).flatten := by rw [← List.flatten_append, List.take_append_drop, h1]
      have e2 : t = (qs.take k).flatten ++ (qs.drop k).flatten := by rw [← List.flatten_append, List.take_append_drop, e]
      have hal : a.length ≤ s.length := by rw [h.length_eq, hab, List.length_append]; omega
      constructor
      · intro hx
        have : a.length = (qs.take k).flatten.length := by
          rw [← hl, ← hx, List.length_take]; omega
        exact (List.append_inj (hab.symm.trans e2) this).1
      · intro hx
        have : a.length = (ps.take k).flatten.length := by rw [hl, ← hx]
        rw [this, e1, List.take_left' rfl]
    exact exists_congr key

theorem deque_same {α β : Type} {R : α → β → Prop} (ops : List End) : ∀ {l : List α} {l' : List β}, Forall₂ R l l' →
    Forall₂ (Option.Rel R) (deque l ops).1 (deque l' ops).1 ∧ Forall₂ R (deque l ops).2 (deque l' ops).2 := by
  induction ops with
  | nil => intro l l' h; exact ⟨.nil, h⟩
  | cons e ops ih =>
    intro l l' h
    cases e with
    | front =>
      have ht : Forall₂ R l.tail l'.tail := by cases h with | nil => exact .nil | cons _ h => exact h
      obtain ⟨h1, h2⟩ := ih ht
      refine ⟨.cons ?_ h1, h2⟩
      cases h with
      | nil => exact .none
      | cons h _ => exact .some h
    | back =>
      have ht : Forall₂ R l.dropLast l'.dropLast := by
        rw [List.dropLast_eq_take, List.dropLast_eq_take, ← h.length_eq]
        exact take_same h _
      obtain ⟨h1, h2⟩ := ih ht
      refine ⟨.cons ?_ h1, h2⟩
      clear ih ht h1 h2
      induction h with
      | nil => exact .none
      | @cons x y l l' h h' ih =>
        cases h' with
        | nil => exact .some h
        | cons g g' =>
          rw [List.getLast?_cons_cons, List.getLast?_cons_cons]
          exact ih

/-- **C87, grapheme clusters.** For any relation of characters that keeps the class: whatever calls of `next` and `next_back` are made, in
whatever order, on `Graphemes` of two texts related character by character, extended or legacy, the answers are related one by one, and so
is what remains. -/
theorem c87_graphemes {R : Nat → Nat → Prop} (hR : ∀ c d, R c d → Ucd.graphemeClusterBreak c = Ucd.graphemeClusterBreak d) (ext : Bool)
    (s t : List Nat) (h : Forall₂ R s t) (ops : List End) :
    ∃ rs rs' g g' x x', calls (·.next Ucd.graphemeClusterBreak) (·.nextBack Ucd.graphemeClusterBreak) (Graphemes.new ext s) ops = .ok (rs, g) ∧
      calls (·.next Ucd.graphemeClusterBreak) (·.nextBack Ucd.graphemeClusterBreak) (Graphemes.new ext t) ops = .ok (rs', g') ∧
      Forall₂ (Option.Rel (Forall₂ R)) rs rs' ∧ g.asStr = .ok x ∧ g'.asStr = .ok x' ∧ Forall₂ R x x' := by
  obtain ⟨ps, hp, hs⟩ := c35_iteration Ucd.graphemeClusterBreak ext s
  obtain ⟨qs, hq, ht⟩ := c35_iteration Ucd.graphemeClusterBreak ext t
  obtain ⟨qs', hq', hr⟩ := segmentation_same (B := Boundary Ucd.graphemeClusterBreak ext)
    (fun a a' b b' ha hb => by rw [Props.Grapheme.Boundary, Props.Grapheme.Boundary, map_same hR ha, map_same hR hb]) h hp
  have e := c35_unique _ _ _ _ _ hq' hq
  subst e
  obtain ⟨g, h1, -, h2, -⟩ := hs ops
  obtain ⟨g', h1', -, h2', -⟩ := ht ops
  obtain ⟨d1, d2⟩ := deque_same ops hr
  exact ⟨_, _, g, g', _, _, h1, h1', d1, h2, h2', flatten_rel d2⟩

/-- answers of a mapped text -/
theorem rel_map {f : Nat → Nat} {s t : List Nat} : Forall₂ (fun c d => d = f c) s t ↔ t = s.map f := by
  constructor
  · intro h
    induction h with
    | nil => rfl
    | cons h _ ih => rw [List.map_cons, h, ih]
  · rintro rfl
    induction s with
    | nil => exact .nil
    | cons c s ih => exact .cons rfl ih
theorem answers_map {f : Nat → Nat} {rs rs' : List (Option (List Nat))} (h : Forall₂ (Option.Rel (Forall₂ fun c d => d = f c)) rs rs') :
    rs' = rs.map (Option.map (List.map f)) := by
  induction h with
  | nil => rfl
  | cons h _ ih =>
    rw [List.map_cons, ← ih]
    cases h with
    | none => rfl
    | some h => rw [rel_map.1 h]; rfl

/-- **C87, read on maps.** A map of characters that keeps the classes can be applied before or after cutting: the answers of every
sequence of calls on the mapped text are the mapped answers. -/
theorem c87_map (f : Nat → Nat) (s : List Nat) (ops : List End) :
    ((∀ c, Ucd.wordBreak (f c) = Ucd.wordBreak c) →
      ∃ rs b b', calls (·.next Ucd.wordBreak) (·.nextBack Ucd.wordBreak) (WordBounds.new s) ops = .ok (rs, b) ∧
        calls (·.next Ucd.wordBreak) (·.nextBack Ucd.wordBreak) (WordBounds.new (s.map f)) ops =
          .ok (rs.map (Option.map (List.map f)), b')) ∧
    ((∀ c, Ucd.graphemeClusterBreak (f c) = Ucd.graphemeClusterBreak c) → ∀ ext,
      ∃ rs g g', calls (·.next Ucd.graphemeClusterBreak) (·.nextBack Ucd.graphemeClusterBreak) (Graphemes.new ext s) ops = .ok (rs, g) ∧
        calls (·.next Ucd.graphemeClusterBreak) (·.nextBack Ucd.graphemeClusterBreak) (Graphemes.new ext (s.map f)) ops =
          .ok (rs.map (Option.map (List.map f)), g')) := by
  constructor
  · intro hf
    obtain ⟨rs, rs', b, b', h1, h2, h3, -⟩ := c87_word_bounds (R := fun c d => d = f c) (fun c d h => by subst h; exact (hf c).symm) s (s.map f)
      (rel_map.2 rfl) ops
    rw [answers_map h3] at h2
    exact ⟨rs, b, b', h1, h2⟩
  · intro hf ext
    obtain ⟨rs, rs', g, g', x, x', h1, h2, h3, -⟩ := c87_graphemes (R := fun c d => d = f c) (fun c d h => by subst h; exact (hf c).symm) ext
      s (s.map f) (rel_map.2 rfl) ops
    rw [answers_map h3] at h2
    exact ⟨rs, g, g', h1, h2⟩

/-- the pieces with their offsets -/
theorem indexed_same {R : Nat → Nat → Prop} (hl : ∀ c d, R c d → Utf.lenUtf8 c = Utf.lenUtf8 d) {ps qs : List (List Nat)} (h : Forall₂ (Forall₂ R) ps qs) :
    ∀ n, Forall₂ (fun x y => x.1 = y.1 ∧ Forall₂ R x.2 y.2) (indexed blen n ps) (indexed blen n qs) := by
  induction h with
  | nil => intro n; exact .nil
  | @cons p q ps qs h _ ih =>
    intro n
    have e : blen p = blen q := by rw [blen, blen, map_same hl h]
    refine .cons ⟨rfl, h⟩ ?_
    rw [e]
    exact ih _

/-- **C87, offsets.** When the relation also keeps the lengths in UTF-8, `grapheme_indices` answers with the same offsets. -/
theorem c87_grapheme_indices {R : Nat → Nat → Prop} (hR : ∀ c d, R c d → Ucd.graphemeClusterBreak c = Ucd.graphemeClusterBreak d)
    (hl : ∀ c d, R c d → Utf.lenUtf8 c = Utf.lenUtf8 d) (ext : Bool) (s t : List Nat) (h : Forall₂ R s t) (ops : List End) :
    ∃ rs rs' g g', calls (·.nextIndexed Ucd.graphemeClusterBreak) (·.nextBackIndexed Ucd.graphemeClusterBreak) (Graphemes.new ext s) ops = .ok (rs, g) ∧
      calls (·.nextIndexed Ucd.graphemeClusterBreak) (·.nextBackIndexed Ucd.graphemeClusterBreak) (Graphemes.new ext t) ops = .ok (rs', g') ∧
      Forall₂ (Option.Rel fun x y => x.1 = y.1 ∧ Forall₂ R x.2 y.2) rs rs' := by
  obtain ⟨ps, hp, hs⟩ := c35_iteration Ucd.graphemeClusterBreak ext s
  obtain ⟨qs, hq, ht⟩ := c35_iteration Ucd.graphemeClusterBreak ext t
  obtain ⟨qs', hq', hr⟩ := segmentation_same (B := Boundary Ucd.graphemeClusterBreak ext)
    (fun a a' b b' ha hb => by rw [Props.Grapheme.Boundary, Props.Grapheme.Boundary, map_same hR ha, map_same hR hb]) h hp
  have e := c35_unique _ _ _ _ _ hq' hq
  subst e
  obtain ⟨g, -, h1, -⟩ := hs ops
  obtain ⟨g', -, h1', -⟩ := ht ops
  exact ⟨_, _, g, g', h1, h1', (deque_same ops (indexed_same hl hr 0)).1⟩

/-- capital letters of the first 128 characters -/
def upper (c : Nat) : Nat := if 97 ≤ c ∧ c ≤ 122 then c - 32 else c

/-- Changing the case of the letters a to z keeps the classes of both segmentations, so it can be done before or after cutting. -/
theorem c87_upper (c : Nat) : Ucd.wordBreak (upper c) = Ucd.wordBreak c ∧ Ucd.graphemeClusterBreak (upper c) = Ucd.graphemeClusterBreak c := by
  unfold upper
  split
  · rename_i h
    have : ∀ k < 26, Ucd.wordBreak (65 + k) = Ucd.wordBreak (97 + k) ∧ Ucd.graphemeClusterBreak (65 + k) = Ucd.graphemeClusterBreak (97 + k) := by
      decide +kernel
    have h2 := this (c - 97) (by omega)
    rw [show 65 + (c - 97) = c - 32 by omega, show 97 + (c - 97) = c by omega] at h2
    exact h2
  · exact ⟨rfl, rfl⟩

/-- The relation need not keep the lengths: `a` and `ж` have the same classes. -/
example : Ucd.wordBreak 0x61 = Ucd.wordBreak 0x436 ∧ Ucd.graphemeClusterBreak 0x61 = Ucd.graphemeClusterBreak 0x436 := by decide +kernel

/-- Filters that look at classes, or at normal forms, meet the conditions. -/
example (f : WB → Bool) (R : Nat → Nat → Prop) (hR : ∀ c d, R c d → Ucd.wordBreak c = Ucd.wordBreak d) (p q : List Nat) (h : Forall₂ R p q) :
    (fun p : List Nat => (p.map Ucd.wordBreak).any f) p = (fun p : List Nat => (p.map Ucd.wordBreak).any f) q := by
  simp only [map_same hR h]
example (f : List Nat → Bool) (p q : List Nat) (h : nfd p = nfd q) : (fun p => f (nfd p)) p = (fun p => f (nfd p)) q := by simp only [h]

end Props.SegmentShape
