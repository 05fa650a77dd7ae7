import Verif.Spec.BidiImplicit
import Mathlib.Tactic.SplitIfs

/-! # Levels between an isolate initiator and its matching PDI (X5a-X6a against BD9) -/
namespace Proofs.BidiW
open Data Spec.Bidi

/-- a condition on the states between an isolate initiator and its matching PDI, where the counter of BD9 is `d` -/
def Zone (pl : Nat) (F : X → Nat → Prop) (Q : Nat → Prop) (lc : Nat) : Prop :=
  ∀ s d c, F s d → c ≠ .ParagraphSeparator → 1 ≤ d →
    (isInitiator c = true → ∃ l x, (s.step pl c).2 = some (l, x) ∧ Q l ∧ F (s.step pl c).1 (d + 1)) ∧
    (c = .PopDirectionalIsolate → ∃ l x, (s.step pl c).2 = some (l, x) ∧ (d = 1 → l = lc) ∧ (1 < d → Q l ∧ F (s.step pl c).1 (d - 1))) ∧
    (isInitiator c = false → c ≠ .PopDirectionalIsolate → ((s.step pl c).2 = none ∨ ∃ l x, (s.step pl c).2 = some (l, x) ∧ Q l) ∧ F (s.step pl c).1 d)

theorem keep_none {pl k : Nat} {s : X} {c : BidiClass} {cs : List BidiClass} (h : (s.step pl c).2 = none) :
    keepFrom k (c :: cs) (X.run pl s (c :: cs)) = keepFrom (k + 1) cs (X.run pl (s.step pl c).1 cs) := by
  rw [X.run, h, keepFrom]

theorem keep_some {pl k : Nat} {s : X} {c : BidiClass} {cs : List BidiClass} {l : Nat} {x : BidiClass} (h : (s.step pl c).2 = some (l, x)) :
    keepFrom k (c :: cs) (X.run pl s (c :: cs)) = ⟨k, l, x, c⟩ :: keepFrom (k + 1) cs (X.run pl (s.step pl c).1 cs) := by
  rw [X.run, h, keepFrom]

theorem dropLast_tail {α : Type} {p : α → Prop} {c : α} {cs : List α} (h : ∀ x ∈ (c :: cs).dropLast, p x) : ∀ x ∈ cs.dropLast, p x := by
  intro x hx
  cases cs with
  | nil => simp at hx
  | cons a b => exact h x (by rw [List.dropLast_cons_cons]; exact List.mem_cons_of_mem _ hx)

theorem matching_map_some {d m : Nat} {cs : List BidiClass} (h : (matchingPdi d cs).map (· + 1) = some m) : ∃ n, matchingPdi d cs = some n ∧ m = n + 1 := by
  cases hm : matchingPdi d cs with
  | none => rw [hm] at h; simp at h
  | some n => rw [hm] at h; simp at h; exact ⟨n, rfl, h.symm⟩

/-- the levels in a zone -/
theorem zone_levels {pl : Nat} {F : X → Nat → Prop} {Q : Nat → Prop} {lc : Nat} (hz : Zone pl F Q lc) : ∀ (cs : List BidiClass) (s : X) (d k : Nat), F s d → 1 ≤ d →
    (∀ c ∈ cs.dropLast, c ≠ .ParagraphSeparator) → ∀ m, matchingPdi d ((keepFrom k cs (X.run pl s cs)).map Kept.orig) = some m →
    (∀ q, q < m → ∃ u, (keepFrom k cs (X.run pl s cs))[q]? = some u ∧ Q u.level) ∧ ∃ u, (keepFrom k cs (X.run pl s cs))[m]? = some u ∧ u.level = lc
  | [], s, d, k, _, _, _, m, hm => by simp [X.run, keepFrom, matchingPdi] at hm
  | c :: cs, s, d, k, hF, hd, hB, m, hm => by
    by_cases hc : c = .ParagraphSeparator
    · subst hc
      have : cs = [] := by
        cases cs with
        | nil => rfl
        | cons a b => exact absurd rfl (hB _ (by simp))
      subst this
      simp [X.run, keepFrom, matchingPdi, X.step, isInitiator] at hm
    · obtain ⟨z1, z2, z3⟩ := hz s d c hF hc hd
      have hB' := dropLast_tail hB
      by_cases hi : isInitiator c = true
      · obtain ⟨l, x, e, hq, hF'⟩ := z1 hi
        rw [keep_some e] at hm ⊢
        rw [List.map_cons, matchingPdi, if_pos hi] at hm
        obtain ⟨n, hn, rfl⟩ := matching_map_some hm
        obtain ⟨i1, i2⟩ := zone_levels hz cs _ _ (k + 1) hF' (by omega) hB' n hn
        refine ⟨?_, by simpa using i2⟩
        intro q hq'
        cases q with
        | zero => exact ⟨_, rfl, hq⟩
        | succ q => simpa using i1 q (by omega)
      · by_cases hp : c = .PopDirectionalIsolate
        · obtain ⟨l, x, e, h1, h2⟩ := z2 hp
          rw [keep_some e] at hm ⊢
          rw [List.map_cons, matchingPdi, if_neg hi, if_pos hp] at hm
          by_cases hd1 : d = 1
          · rw [if_pos hd1] at hm
            cases hm
            exact ⟨by intro q hq; omega, _, rfl, h1 hd1⟩
          · rw [if_neg hd1] at hm
            obtain ⟨n, hn, rfl⟩ := matching_map_some hm
            obtain ⟨hq, hF'⟩ := h2 (by omega)
            obtain ⟨i1, i2⟩ := zone_levels hz cs _ _ (k + 1) hF' (by omega) hB' n hn
            refine ⟨?_, by simpa using i2⟩
            intro q hq'
            cases q with
            | zero => exact ⟨_, rfl, hq⟩
            | succ q => simpa using i1 q (by omega)
        · obtain ⟨h1, hF'⟩ := z3 (by simpa using hi) hp
          rcases h1 with e | ⟨l, x, e, hq⟩
          · rw [keep_none e] at hm ⊢
            exact zone_levels hz cs _ _ (k + 1) hF' hd hB' m hm
          · rw [keep_some e] at hm ⊢
            rw [List.map_cons, matchingPdi, if_neg hi, if_neg hp] at hm
            obtain ⟨n, hn, rfl⟩ := matching_map_some hm
            obtain ⟨i1, i2⟩ := zone_levels hz cs _ _ (k + 1) hF' hd hB' n hn
            refine ⟨?_, by simpa using i2⟩
            intro q hq'
            cases q with
            | zero => exact ⟨_, rfl, hq⟩
            | succ q => simpa using i1 q (by omega)

/-- the number of isolate entries -/
def iso (st : List Entry) : Nat := st.countP (fun e => e.isolate)

/-- the directional status stack counts its isolates -/
def WF (s : X) : Prop := s.validIsolates = iso s.stack

theorem iso_pop : ∀ st : List Entry, iso (st.dropWhile (fun e => !e.isolate)).tail = iso st - 1
  | [] => rfl
  | e :: st => by
    rw [List.dropWhile_cons]
    cases he : e.isolate with
    | true => simp [iso, he]
    | false =>
      simp only [Bool.not_false, if_true]
      rw [iso_pop st]
      simp [iso, he]

theorem wf_embed {s : X} (h : WF s) (n : Nat) (o : Option BidiClass) : WF (s.embed n o) := by
  unfold X.embed WF at *
  split_ifs
  · simp [iso] at h ⊢; exact h
  · exact h
  · exact h

theorem wf_isolate {s : X} (h : WF s) (n : Nat) : WF (s.isolate n) := by
  unfold X.isolate WF at *
  split_ifs
  · simp [iso] at h ⊢; exact h
  · exact h

theorem wf_popIsolate {s : X} (h : WF s) : WF s.popIsolate := by
  unfold X.popIsolate WF at *
  split_ifs
  · exact h
  · exact h
  · simp only; rw [iso_pop, h]

theorem wf_popEmbedding {s : X} (h : WF s) : WF s.popEmbedding := by
  unfold X.popEmbedding WF at *
  split_ifs with h1 h2 h3
  · exact h
  · exact h
  · simp only
    cases hs : s.stack with
    | nil => rw [hs] at h; exact h
    | cons e st =>
      rw [hs] at h
      have : e.isolate = false := by have := h3.1; simpa [X.last, hs] using this
      simpa [iso, this] using h
  · exact h

theorem wf_init (pl : Nat) : WF (X.init pl) := rfl

theorem wf_step {pl : Nat} {s : X} (h : WF s) (c : BidiClass) : WF (s.step pl c).1 := by
  cases c <;> first | exact h | exact wf_init pl | exact wf_embed h _ _ | exact wf_isolate h _ | exact wf_popIsolate h | exact wf_popEmbedding h

/-- inside a valid isolate -/
def InValid (lv : Nat) (S : List Entry) (s : X) (d : Nat) : Prop :=
  WF s ∧ ∃ P, s.stack = P ++ ⟨lv, none, true⟩ :: S ∧ (∀ e ∈ P, lv ≤ e.level) ∧ d = 1 + s.overflowIsolates + iso P

theorem InValid.last {lv : Nat} {S : List Entry} {s : X} {d : Nat} (h : InValid lv S s d) : lv ≤ s.last.level := by
  obtain ⟨_, P, h1, h2, _⟩ := h
  unfold X.last
  rw [h1]
  cases P with
  | nil => simp
  | cons e P => exact h2 e (by simp)

theorem lt_nextOdd (l : Nat) : l < nextOdd l := by unfold nextOdd; split_ifs <;> omega
theorem lt_nextEven (l : Nat) : l < nextEven l := by unfold nextEven; split_ifs <;> omega

theorem InValid.embed {lv : Nat} {S : List Entry} {s : X} {d : Nat} (h : InValid lv S s d) {n : Nat} (hn : s.last.level < n) (o : Option BidiClass) :
    InValid lv S (s.embed n o) d := by
  have hl := h.last
  obtain ⟨hw, P, h1, h2, h3⟩ := h
  refine ⟨wf_embed hw _ _, ?_⟩
  unfold X.embed
  split_ifs
  · refine ⟨⟨n, o, false⟩ :: P, by simp [h1], ?_, by simpa [iso] using h3⟩
    intro e he
    rcases List.mem_cons.1 he with rfl | he
    · show lv ≤ n; omega
    · exact h2 e he
  · exact ⟨P, h1, h2, h3⟩
  · exact ⟨P, h1, h2, h3⟩

theorem InValid.isolate {lv : Nat} {S : List Entry} {s : X} {d : Nat} (h : InValid lv S s d) {n : Nat} (hn : s.last.level < n) :
    InValid lv S (s.isolate n) (d + 1) := by
  have hl := h.last
  obtain ⟨hw, P, h1, h2, h3⟩ := h
  refine ⟨wf_isolate hw _, ?_⟩
  unfold X.isolate
  split_ifs
  · refine ⟨⟨n, none, true⟩ :: P, by simp [h1], ?_, by simp [iso] at h3 ⊢; omega⟩
    intro e he
    rcases List.mem_cons.1 he with rfl | he
    · show lv ≤ n; omega
    · exact h2 e he
  · exact ⟨P, h1, h2, by simp; omega⟩

theorem InValid.popEmbedding {lv : Nat} {S : List Entry} {s : X} {d : Nat} (h : InValid lv S s d) : InValid lv S s.popEmbedding d := by
  obtain ⟨hw, P, h1, h2, h3⟩ := h
  refine ⟨wf_popEmbedding hw, ?_⟩
  unfold X.popEmbedding
  split_ifs with a b e
  · exact ⟨P, h1, h2, h3⟩
  · exact ⟨P, h1, h2, h3⟩
  · cases P with
    | nil => have := e.1; simp [X.last, h1] at this
    | cons x P =>
      have hx : x.isolate = false := by have := e.1; simpa [X.last, h1] using this
      exact ⟨P, by simp [h1], fun e he => h2 e (by simp [he]), by simpa [iso, hx] using h3⟩
  · exact ⟨P, h1, h2, h3⟩

theorem dropWhile_iso {P T : List Entry} (h : iso P ≠ 0) : ∃ P1 e P2, P = P1 ++ e :: P2 ∧ iso P = iso P2 + 1 ∧
    ((P ++ T).dropWhile (fun e => !e.isolate)).tail = P2 ++ T := by
  induction P with
  | nil => simp [iso] at h
  | cons a P ih =>
    cases ha : a.isolate with
    | true => exact ⟨[], a, P, rfl, by simp [iso, ha], by simp [ha]⟩
    | false =>
      obtain ⟨P1, e, P2, e1, e2, e3⟩ := ih (by simpa [iso, ha] using h)
      exact ⟨a :: P1, e, P2, by rw [e1]; rfl, by rw [← e2]; simp [iso, ha], by rw [← e3]; simp [ha]⟩

theorem dropWhile_noiso {P T : List Entry} (h : iso P = 0) : (P ++ T).dropWhile (fun e => !e.isolate) = T.dropWhile (fun e => !e.isolate) := by
  induction P with
  | nil => rfl
  | cons a P ih =>
    have ha : a.isolate = false := by
      cases ha : a.isolate with
      | false => rfl
      | true => simp [iso, ha] at h
    rw [List.cons_append, List.dropWhile_cons, ha]
    simp only [Bool.not_false, if_true]
    exact ih (by simpa [iso, ha] using h)

theorem InValid.popIsolate {lv : Nat} {S : List Entry} {s : X} {d : Nat} (h : InValid lv S s d) :
    (d = 1 → s.popIsolate.last.level = (S.headD ⟨0, none, false⟩).level) ∧ (1 < d → InValid lv S s.popIsolate (d - 1)) := by
  obtain ⟨hw, P, h1, h2, h3⟩ := h
  have hv : s.validIsolates ≠ 0 := by
    have : s.validIsolates = iso s.stack := hw
    rw [this, h1]; simp [iso]
  constructor
  · intro hd
    unfold X.popIsolate X.last
    rw [if_neg (by omega), if_neg hv]
    simp only
    rw [h1, dropWhile_noiso (by omega)]
    simp
  · intro hd
    refine ⟨wf_popIsolate hw, ?_⟩
    unfold X.popIsolate
    split_ifs with ho
    · exact ⟨P, h1, h2, by simp only; omega⟩
    · obtain ⟨P1, e, P2, e1, e2, e3⟩ := dropWhile_iso (T := ⟨lv, none, true⟩ :: S) (show iso P ≠ 0 by omega)
      refine ⟨P2, by simp only; rw [h1, e3], fun x hx => h2 x (by rw [e1]; simp [hx]), by simp only; omega⟩

theorem valid_zone (pl lv : Nat) (S : List Entry) : Zone pl (InValid lv S) (fun l => lv ≤ l) (S.headD ⟨0, none, false⟩).level := by
  intro s d c h hB hd
  have hl := h.last
  have ho := lt_nextOdd s.last.level
  have he := lt_nextEven s.last.level
  refine ⟨?_, ?_, ?_⟩
  · intro hi
    cases c <;> first | exact absurd hi (by decide) | exact ⟨_, _, rfl, hl, h.isolate (by assumption)⟩
  · rintro rfl
    exact ⟨_, _, rfl, h.popIsolate.1, fun hd => ⟨(h.popIsolate.2 hd).last, h.popIsolate.2 hd⟩⟩
  · intro hi hp
    cases c <;> first
      | exact absurd rfl hB
      | exact absurd rfl hp
      | exact absurd hi (by decide)
      | exact ⟨Or.inr ⟨_, _, rfl, hl⟩, h⟩
      | exact ⟨Or.inl rfl, h⟩
      | exact ⟨Or.inl rfl, h.popEmbedding⟩
      | exact ⟨Or.inl rfl, h.embed (by assumption) _⟩

/-- inside an overflow isolate -/
def InOverflow (T : List Entry) (o : Nat) (s : X) (d : Nat) : Prop := s.stack = T ∧ s.overflowIsolates = o + d

theorem InOverflow.embed {T : List Entry} {o : Nat} {s : X} {d : Nat} (h : InOverflow T o s d) (hd : 1 ≤ d) (n : Nat) (x : Option BidiClass) :
    InOverflow T o (s.embed n x) d := by
  unfold InOverflow X.embed at *
  rw [if_neg (by omega), if_neg (by omega)]; exact h

theorem InOverflow.isolate {T : List Entry} {o : Nat} {s : X} {d : Nat} (h : InOverflow T o s d) (hd : 1 ≤ d) (n : Nat) :
    InOverflow T o (s.isolate n) (d + 1) := by
  unfold InOverflow X.isolate at *
  rw [if_neg (by omega)]; exact ⟨h.1, by simp only; omega⟩

theorem InOverflow.popEmbedding {T : List Entry} {o : Nat} {s : X} {d : Nat} (h : InOverflow T o s d) (hd : 1 ≤ d) : InOverflow T o s.popEmbedding d := by
  unfold InOverflow X.popEmbedding at *
  rw [if_pos (by omega)]; exact h

theorem InOverflow.popIsolate {T : List Entry} {o : Nat} {s : X} {d : Nat} (h : InOverflow T o s d) (hd : 1 ≤ d) :
    s.popIsolate.stack = T ∧ InOverflow T o s.popIsolate (d - 1) := by
  unfold InOverflow X.popIsolate at *
  rw [if_pos (by omega)]; exact ⟨h.1, h.1, by simp only; omega⟩

theorem overflow_zone (pl o : Nat) (T : List Entry) : Zone pl (InOverflow T o) (fun l => l = (T.headD ⟨0, none, false⟩).level) (T.headD ⟨0, none, false⟩).level := by
  intro s d c h hB hd
  have hl : s.last.level = (T.headD ⟨0, none, false⟩).level := by unfold X.last; rw [h.1]
  refine ⟨?_, ?_, ?_⟩
  · intro hi
    cases c <;> first | exact absurd hi (by decide) | exact ⟨_, _, rfl, hl, h.isolate hd _⟩
  · rintro rfl
    have hp : s.popIsolate.last.level = (T.headD ⟨0, none, false⟩).level := by unfold X.last; rw [(h.popIsolate hd).1]
    exact ⟨_, _, rfl, fun _ => hp, fun _ => ⟨hp, (h.popIsolate hd).2⟩⟩
  · intro hi hp
    cases c <;> first
      | exact absurd rfl hB
      | exact absurd rfl hp
      | exact absurd hi (by decide)
      | exact ⟨Or.inr ⟨_, _, rfl, hl⟩, h⟩
      | exact ⟨Or.inl rfl, h⟩
      | exact ⟨Or.inl rfl, h.popEmbedding hd⟩
      | exact ⟨Or.inl rfl, h.embed hd _ _⟩

/-- the levels after an isolate initiator -/
theorem initiator_levels {pl : Nat} {s : X} (hw : WF s) {c : BidiClass} (hi : isInitiator c = true) {cs : List BidiClass} (hB : ∀ c ∈ cs.dropLast, c ≠ .ParagraphSeparator)
    (k m : Nat) (hm : matchingPdi 1 ((keepFrom k cs (X.run pl (s.step pl c).1 cs)).map Kept.orig) = some m) :
    ∃ x, (s.step pl c).2 = some (s.last.level, x) ∧
    (∃ u, (keepFrom k cs (X.run pl (s.step pl c).1 cs))[m]? = some u ∧ u.level = s.last.level) ∧
    ((∀ q, q < m → ∃ u, (keepFrom k cs (X.run pl (s.step pl c).1 cs))[q]? = some u ∧ s.last.level < u.level) ∨
      ∀ q, q < m → ∃ u, (keepFrom k cs (X.run pl (s.step pl c).1 cs))[q]? = some u ∧ u.level = s.last.level) := by
  have hstep : ∃ n, s.last.level < n ∧ (s.step pl c).1 = s.isolate n ∧ ∃ x, (s.step pl c).2 = some (s.last.level, x) := by
    cases c <;> first
      | exact absurd hi (by decide)
      | exact ⟨_, lt_nextOdd _, rfl, _, rfl⟩
      | exact ⟨_, lt_nextEven _, rfl, _, rfl⟩
  obtain ⟨n, hn, e, x, hx⟩ := hstep
  refine ⟨x, hx, ?_⟩
  rw [e] at hm ⊢
  by_cases hv : n ≤ maxDepth ∧ s.overflowIsolates = 0 ∧ s.overflowEmbeddings = 0
  · have hF : InValid n s.stack (s.isolate n) 1 := by
      refine ⟨wf_isolate hw _, [], ?_, by simp, ?_⟩
      · unfold X.isolate; rw [if_pos hv]; rfl
      · unfold X.isolate; rw [if_pos hv]; simp [hv.2.1, iso]
    obtain ⟨a, b⟩ := zone_levels (valid_zone pl n s.stack) cs _ 1 k hF (by omega) hB m hm
    refine ⟨b, Or.inl fun q hq => ?_⟩
    obtain ⟨u, h1, h2⟩ := a q hq
    exact ⟨u, h1, by omega⟩
  · have hF : InOverflow s.stack s.overflowIsolates (s.isolate n) 1 := by
      unfold InOverflow X.isolate; rw [if_neg hv]; exact ⟨rfl, rfl⟩
    obtain ⟨a, b⟩ := zone_levels (overflow_zone pl s.overflowIsolates s.stack) cs _ 1 k hF (by omega) hB m hm
    exact ⟨b, Or.inr a⟩

/-- between a matched isolate initiator and its PDI all levels are higher, or all are the same -/
def Nested (us : List Kept) : Prop :=
  ∀ i j, Matches us i j → ∃ u v, us[i]? = some u ∧ us[j]? = some v ∧ v.level = u.level ∧
    ((∀ q, i < q → q < j → ∃ w, us[q]? = some w ∧ u.level < w.level) ∨ ∀ q, i < q → q < j → ∃ w, us[q]? = some w ∧ w.level = u.level)

theorem nested_cons {u : Kept} {us : List Kept} (h : Nested us)
    (h0 : isInitiator u.orig = true → ∀ m, matchingPdi 1 (us.map Kept.orig) = some m → (∃ v, us[m]? = some v ∧ v.level = u.level) ∧
      ((∀ q, q < m → ∃ w, us[q]? = some w ∧ u.level < w.level) ∨ ∀ q, q < m → ∃ w, us[q]? = some w ∧ w.level = u.level)) : Nested (u :: us) := by
  intro i j hm
  obtain ⟨a, ha, hi, m, hm, rfl⟩ := hm
  cases i with
  | zero =>
    simp only [List.getElem?_cons_zero, Option.some.injEq] at ha
    subst ha
    obtain ⟨⟨v, h1, h2⟩, h3⟩ := h0 hi m (by simpa using hm)
    refine ⟨u, v, rfl, by rw [Nat.zero_add, Nat.add_comm, List.getElem?_cons_succ]; exact h1, h2, ?_⟩
    rcases h3 with h3 | h3
    · left
      intro q q1 q2
      obtain ⟨q, rfl⟩ : ∃ r, q = r + 1 := ⟨q - 1, by omega⟩
      simpa using h3 q (by omega)
    · right
      intro q q1 q2
      obtain ⟨q, rfl⟩ : ∃ r, q = r + 1 := ⟨q - 1, by omega⟩
      simpa using h3 q (by omega)
  | succ i =>
    rw [List.getElem?_cons_succ] at ha
    obtain ⟨x, v, h1, h2, h3, h4⟩ := h i (i + 1 + m) ⟨a, ha, hi, m, by simpa using hm, rfl⟩
    refine ⟨x, v, by simpa using h1, by rw [show i + 1 + 1 + m = (i + 1 + m) + 1 by omega, List.getElem?_cons_succ]; exact h2, h3, ?_⟩
    rcases h4 with h4 | h4
    · left
      intro q q1 q2
      obtain ⟨q, rfl⟩ : ∃ r, q = r + 1 := ⟨q - 1, by omega⟩
      simpa using h4 q (by omega) (by omega)
    · right
      intro q q1 q2
      obtain ⟨q, rfl⟩ : ∃ r, q = r + 1 := ⟨q - 1, by omega⟩
      simpa using h4 q (by omega) (by omega)

theorem nested_run {pl : Nat} : ∀ (cs : List BidiClass) (s : X) (k : Nat), WF s → (∀ c ∈ cs.dropLast, c ≠ .ParagraphSeparator) →
    Nested (keepFrom k cs (X.run pl s cs))
  | [], s, k, _, _ => by
    intro i j h
    obtain ⟨u, hu, _⟩ := h
    simp [X.run, keepFrom] at hu
  | c :: cs, s, k, hw, hB => by
    have hB' := dropLast_tail hB
    have ih := nested_run (pl := pl) cs (s.step pl c).1 (k + 1) (wf_step hw c) hB'
    cases hx : (s.step pl c).2 with
    | none => rw [keep_none hx]; exact ih
    | some v =>
      obtain ⟨l, x⟩ := v
      rw [keep_some hx]
      refine nested_cons ih ?_
      intro hi m hm
      simp only at hi
      obtain ⟨x', h1, h2, h3⟩ := initiator_levels hw hi hB' (k + 1) m hm
      rw [hx] at h1
      have : l = s.last.level := by simp at h1; exact h1.1
      subst this
      exact ⟨h2, h3⟩

/-- the characters of a paragraph -/
theorem nested_afterX9 {pl : Nat} {cs : List BidiClass} (hB : ∀ c ∈ cs.dropLast, c ≠ .ParagraphSeparator) : Nested (afterX9 pl cs) :=
  nested_run cs _ 0 (wf_init pl) hB

end Proofs.BidiW
