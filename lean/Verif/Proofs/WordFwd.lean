import Verif.Proofs.WordFwdStep
import Verif.Proofs.Grapheme
import Verif.Proofs.PunycodeShape

/-! The forward scan `next`: it returns a non-empty prefix, and on texts without the sequences it mishandles the first
piece of the rules. -/
namespace Proofs.Word
open Data Spec.Segment Model Model.Word Model.Grapheme Proofs.Grapheme Proofs.Punycode

/-- summary of a text -/
def C (wb : Nat → WB) (M : List Nat) : Ctx := ctx ((M.map wb).reverse)
def NS (wb : Nat → WB) (R : List Nat) : Option WB := nextSig (R.map wb)
/-- boundary between two texts, as a function -/
def Bd (wb : Nat → WB) (u w : List Nat) : Bool := bw ((u.map wb).reverse) (w.map wb)

theorem C_snoc (wb : Nat → WB) (M : List Nat) (x : Nat) : C wb (M ++ [x]) = (C wb M).push (wb x) := by
  simp [C, ctx]
theorem Bd_cons (wb : Nat → WB) (u : List Nat) (x : Nat) (w : List Nat) : Bd wb u (x :: w) = bnd (C wb u) (wb x) (NS wb w) := rfl
theorem Bd_nil (wb : Nat → WB) (u : List Nat) : Bd wb u [] = true := rfl
theorem NS_ign (wb : Nat → WB) (J R : List Nat) (h : ∀ x ∈ J, isIgn (wb x) = true) : NS wb (J ++ R) = NS wb R := by
  rw [NS, List.map_append, nextSig_append_ign _ _ (by simpa using h)]; rfl
theorem NS_cons (wb : Nat → WB) (x : Nat) (R : List Nat) : NS wb (x :: R) = if isIgn (wb x) then NS wb R else some (wb x) := rfl

/-- `u` is the first piece of `u ++ w` -/
structure First (wb : Nat → WB) (u w : List Nat) : Prop where
  bd : Bd wb u w = true
  inner : ∀ u1 u2, u = u1 ++ u2 → u1 ≠ [] → u2 ≠ [] → Bd wb u1 (u2 ++ w) = false

/-- The text has none of the sequences the forward scan mishandles. -/
def FwdClean (k : List WB) : Prop :=
  (∀ p m J g q, k = p ++ m :: (J ++ .ZWJ :: g :: q) → midQ m = true → (∀ i ∈ J, isIgn i = true) → g ≠ .GlueAfterZwj ∧ g ≠ .EBaseGAZ) ∧
  (∀ p J x q, k = p ++ .ZWJ :: .GlueAfterZwj :: (J ++ x :: q) → (∀ i ∈ J, isIgn i = true) → joiner x = false) ∧
  (∀ p J q, k = p ++ .EModifier :: (J ++ .EModifier :: q) → (∀ i ∈ J, isIgn i = true) → False)

theorem e1_split (l : List WB) (m : WB) (h : (ctx l).e1 = some m) : ∃ J p, l = J ++ m :: p ∧ ∀ i ∈ J, isIgn i = true := by
  induction l with
  | nil => cases h
  | cons x l ih =>
    simp only [ctx, Ctx.push] at h
    split at h
    · rename_i hc
      simp only [Bool.and_eq_true] at hc
      obtain ⟨J, p, rfl, hJ⟩ := ih h
      refine ⟨x :: J, p, rfl, ?_⟩
      intro i hi
      rcases List.mem_cons.mp hi with rfl | hi
      · exact hc.1
      · exact hJ i hi
    · cases h; exact ⟨[], l, rfl, fun _ h => (by cases h)⟩

theorem e1_text (wb : Nat → WB) (M : List Nat) (m : WB) (h : (C wb M).e1 = some m) :
    ∃ p J, M.map wb = p ++ m :: J ∧ ∀ i ∈ J, isIgn i = true := by
  obtain ⟨J, p, hl, hJ⟩ := e1_split _ m h
  refine ⟨p.reverse, J.reverse, ?_, by simpa using hJ⟩
  have := congrArg List.reverse hl
  simpa using this

theorem C_z (wb : Nat → WB) (Mi : List Nat) (x : Nat) : (C wb (Mi ++ [x])).z = (wb x == .ZWJ) := by
  rw [C_snoc, Ctx.push]; split <;> rfl

theorem nextSig_split (r : List WB) (x : WB) (h : nextSig r = some x) : ∃ J q, r = J ++ x :: q ∧ (∀ i ∈ J, isIgn i = true) ∧ isIgn x = false := by
  induction r with
  | nil => cases h
  | cons y r ih =>
    rw [nextSig] at h
    split at h
    · rename_i hy
      obtain ⟨J, q, rfl, hJ, hx⟩ := ih h
      refine ⟨y :: J, q, rfl, ?_, hx⟩
      intro i hi
      rcases List.mem_cons.mp hi with rfl | hi
      · exact hy
      · exact hJ i hi
    · rename_i hy
      cases h
      exact ⟨[], r, rfl, fun _ h => (by cases h), by simpa using hy⟩

/-- what the conditions on the text say at one step -/
theorem clean_step {wb : Nat → WB} {s Mi R : List Nat} {l x : Nat} (hs : s = (Mi ++ [l]) ++ x :: R) (hc : FwdClean (s.map wb)) :
    ((C wb (Mi ++ [l])).z = true → optB midQ (C wb (Mi ++ [l])).e1 = true → wb x ≠ .GlueAfterZwj ∧ wb x ≠ .EBaseGAZ) ∧
    ¬ ((C wb (Mi ++ [l])).e1 = some .EModifier ∧ wb x = .EModifier) ∧
    ((C wb (Mi ++ [l])).z = true → wb x = .GlueAfterZwj → optB joiner (NS wb R) = false) := by
  obtain ⟨h1, h2, h3⟩ := hc
  have hmap : s.map wb = (Mi ++ [l]).map wb ++ wb x :: R.map wb := by rw [hs]; simp
  refine ⟨?_, ?_, ?_⟩
  · intro hz hm
    obtain ⟨m, he, hm⟩ := (optB_iff _ _).mp hm
    obtain ⟨p, J, hM, hJ⟩ := e1_text wb _ m he
    rw [C_z] at hz
    rcases List.eq_nil_or_concat J with rfl | ⟨J', z, rfl⟩
    · rw [List.map_append] at hM
      have := (List.append_inj' hM rfl).2
      simp only [List.map_cons, List.map_nil, List.cons.injEq, and_true] at this
      rw [this] at hz; revert hm hz; cases m <;> simp [midQ]
    · rw [List.concat_eq_append] at hM hJ
      have hM' : Mi.map wb ++ [wb l] = (p ++ m :: J') ++ [z] := by simpa using hM
      have hz' := (List.append_inj' hM' rfl).2
      simp only [List.cons.injEq, and_true] at hz'
      subst hz'
      simp only [beq_iff_eq] at hz
      refine h1 p m J' (wb x) (R.map wb) ?_ hm (fun i hi => hJ i (by simp [hi]))
      rw [hmap, hM, hz]; simp
  · rintro ⟨he, hx⟩
    obtain ⟨p, J, hM, hJ⟩ := e1_text wb _ _ he
    exact h3 p J (R.map wb) (by rw [hmap, hM, hx]; simp) hJ
  · intro hz hx
    rw [C_z] at hz
    simp only [beq_iff_eq] at hz
    cases hn : NS wb R with
    | none => rfl
    | some y =>
      obtain ⟨J, q, hR, hJ, _⟩ := nextSig_split _ _ hn
      exact h2 (Mi.map wb) J y q (by rw [hmap, hx, hR]; simp [hz]) hJ

/-- the state of the forward loop after the characters `M`, with `R` to come -/
structure FInv (wb : Nat → WB) (s M R : List Nat) (v : Fwd) : Prop where
  split : s = M ++ R
  last : ∃ Mi x, M = Mi ++ [x] ∧ v.idx = blen Mi ∧ v.cat = wb x
  tc : v.takeCurr = true
  cache : v.selfCat = none ∨ ∃ y R', R = y :: R' ∧ v.selfCat = some (wb y)
  ok : okState v.state = true
  st : FwdClean (s.map wb) → inv v.state (C wb M) = true ∨ (shadow v.state (C wb M) = true ∧ optB joiner (NS wb R) = false)
  plain : pending v.state = none → FwdClean (s.map wb) →
    ∀ u1 u2, M = u1 ++ u2 → u1 ≠ [] → u2 ≠ [] → Bd wb u1 (u2 ++ R) = false
  pend : ∀ t, pending v.state = some t → ∃ M0 m J, M = M0 ++ m :: J ∧ M0 ≠ [] ∧ v.saveidx = blen M0 ∧ v.savecat = wb m ∧
    (FwdClean (s.map wb) → Bd wb M0 (m :: J ++ R) = (!resolves t (NS wb R)) ∧
      ∀ u1 u2, M = u1 ++ u2 → u1 ≠ [] → u2 ≠ [] → u1 ≠ M0 → Bd wb u1 (u2 ++ R) = false)

/-- the result of the loop: `u` is returned, `w` is left, and the cache is right -/
def FRes (wb : Nat → WB) (s : List Nat) (v : Fwd) : Prop :=
  ∃ u w cat, s = u ++ w ∧ u ≠ [] ∧ fwdFinish s (fwdRewind v) = .ok (blen u, cat) ∧
    (cat = none ∨ ∃ y w', w = y :: w' ∧ cat = some (wb y)) ∧ (FwdClean (s.map wb) → First wb u w)

theorem rewind_plain {v : Fwd} (h : pending v.state = none) : fwdRewind v = v := by
  unfold fwdRewind; split <;> simp_all [pending]
theorem rewind_pend {v : Fwd} {t : FE} (h : pending v.state = some t) :
    fwdRewind v = { v with idx := v.saveidx, cat := v.savecat, takeCurr := false } := by
  unfold fwdRewind; split
  · rfl
  · rfl
  · rfl
  · rename_i h1 h2 h3
    match hs : v.state with
    | .FormatExtend .RequireLetter => exact absurd hs h1
    | .FormatExtend .RequireHLetter => exact absurd hs h2
    | .FormatExtend .RequireNumeric => exact absurd hs h3
    | .FormatExtend .AcceptAny => rw [hs] at h; cases h
    | .FormatExtend .AcceptNone => rw [hs] at h; cases h
    | .FormatExtend .AcceptQLetter => rw [hs] at h; cases h
    | .Start => rw [hs] at h; cases h
    | .Letter => rw [hs] at h; cases h
    | .HLetter => rw [hs] at h; cases h
    | .Numeric => rw [hs] at h; cases h
    | .Katakana => rw [hs] at h; cases h
    | .ExtendNumLet => rw [hs] at h; cases h
    | .Zwj => rw [hs] at h; cases h
    | .Emoji => rw [hs] at h; cases h
    | .Regional _ => rw [hs] at h; cases h

theorem finish_take (s Mi w : List Nat) (x : Nat) (v : Fwd) (hs : s = Mi ++ x :: w) (ht : v.takeCurr = true) (hi : v.idx = blen Mi) :
    fwdFinish s v = .ok (blen (Mi ++ [x]), none) := by
  rw [fwdFinish, if_pos ht, hi, hs, sliceFrom_append]
  simp [firstChar, bind_ok, pure_eq, blen_append, blen_cons, blen_nil]

theorem finish_leave (s : List Nat) (v : Fwd) (ht : v.takeCurr = false) :
    fwdFinish s v = .ok (v.idx, if v.takeCat then some v.cat else none) := by
  rw [fwdFinish, if_neg (by simp [ht])]
  split <;> rename_i h <;> simp [h, pure_eq]

/-- appending a character to a text without inner boundaries -/
theorem plain_snoc {wb : Nat → WB} {M R : List Nat} {x : Nat} (hM : M ≠ [])
    (h : ∀ u1 u2, M = u1 ++ u2 → u1 ≠ [] → u2 ≠ [] → Bd wb u1 (u2 ++ x :: R) = false) (hb : Bd wb M (x :: R) = false) :
    ∀ u1 u2, M ++ [x] = u1 ++ u2 → u1 ≠ [] → u2 ≠ [] → Bd wb u1 (u2 ++ R) = false := by
  intro u1 u2 he h1 h2
  rcases List.eq_nil_or_concat u2 with rfl | ⟨u2', z, rfl⟩
  · exact absurd rfl h2
  · rw [List.concat_eq_append, ← List.append_assoc] at he
    obtain ⟨e1, e2⟩ := List.append_inj' he rfl
    simp only [List.cons.injEq, and_true] at e2
    subst e2
    rw [List.concat_eq_append, List.append_assoc, List.singleton_append]
    by_cases hu : u2' = []
    · subst hu; rw [List.append_nil] at e1; subst e1; exact hb
    · exact h u1 u2' e1 h1 hu

/-- what a step does, whatever the text -/
def Act.facts (st : Word.State) : Act → Bool
  | .stay => true
  | .goto st' => okState st' && (pending st').isNone
  | .save t => okState (.FormatExtend t) && pending (.FormatExtend t) == some t && (pending st).isNone
  | .leave => (pending st).isNone
  | .leaveNC => (pending st).isNone
  | .brk => (pending st).isSome

theorem act1_facts (st : Word.State) (cat : WB) (h : okState st = true) : (act1 st cat).facts st = true := by
  match st, h with
  | .Letter, _ => cases cat <;> rfl
  | .HLetter, _ => cases cat <;> rfl
  | .Numeric, _ => cases cat <;> rfl
  | .Katakana, _ => cases cat <;> rfl
  | .ExtendNumLet, _ => cases cat <;> rfl
  | .Regional .Half, _ => cases cat <;> rfl
  | .Regional .Full, _ => cases cat <;> rfl
  | .Zwj, _ => cases cat <;> rfl
  | .Emoji, _ => cases cat <;> rfl
  | .FormatExtend .AcceptNone, _ => cases cat <;> rfl
  | .FormatExtend .RequireLetter, _ => cases cat <;> rfl
  | .FormatExtend .RequireHLetter, _ => cases cat <;> rfl
  | .FormatExtend .AcceptQLetter, _ => cases cat <;> rfl
  | .FormatExtend .RequireNumeric, _ => cases cat <;> rfl

theorem act_facts (z : Bool) (st : Word.State) (cat : WB) (h : okState st = true) : (act z st cat).facts st = true := by
  rw [act]
  split
  · rfl
  split
  · rfl
  split
  · rfl
  exact act1_facts st cat h

theorem inv_pending_gaz {st : Word.State} {c : Ctx} {t : FE} (hp : pending st = some t) (h : inv st c = true) :
    c.e1 ≠ some .GlueAfterZwj := by
  intro e
  match st, hp with
  | .FormatExtend .RequireLetter, _ => simp [inv, e] at h
  | .FormatExtend .RequireHLetter, _ => simp [inv, e] at h
  | .FormatExtend .RequireNumeric, _ => simp [inv, e, optB, midN] at h

theorem act1_ne_stay (st : Word.State) (cat : WB) : act1 st cat ≠ .stay := by
  unfold act1; split <;> simp

theorem inv_push_ign {st : Word.State} {c : Ctx} {cat : WB} (h : inv st c = true) (hi : isIgn cat = true) : inv st (c.push cat) = true := by
  have ho : c.open = true := by
    unfold inv at h
    split at h <;> simp_all [Ctx.open, optB, midN, isNl]
    · rcases h with (h | h) | h <;> simp [h, isNl]
    · obtain ⟨_, h⟩ := h
      cases he : c.e1 with
      | none => rw [he] at h; cases h
      | some e => rw [he] at h; cases e <;> simp_all [others, isNl]
    · rcases h with (h | h) | h <;> simp [h.1, isNl]
    · obtain ⟨h, _⟩ := h
      cases he : c.e1 with
      | none => rw [he] at h; cases h
      | some e => rw [he] at h; cases e <;> simp_all [isNl]
  have hp : c.push cat = { c with z := cat == .ZWJ } := by rw [Ctx.push, if_pos (by simp [hi, ho])]
  rw [hp]
  unfold inv at h ⊢
  split at h <;> simp_all

theorem push_gaz (c : Ctx) : (c.push .GlueAfterZwj).e1 = some .GlueAfterZwj := by simp [Ctx.push, isIgn]

/-- the pending cut after one more character -/
theorem pend_snoc {wb : Nat → WB} {M R M0 : List Nat} {x : Nat} {m : Nat} {J : List Nat} (hM : M = M0 ++ m :: J)
    (h : ∀ u1 u2, M = u1 ++ u2 → u1 ≠ [] → u2 ≠ [] → u1 ≠ M0 → Bd wb u1 (u2 ++ x :: R) = false) (hb : Bd wb M (x :: R) = false) :
    ∀ u1 u2, M ++ [x] = u1 ++ u2 → u1 ≠ [] → u2 ≠ [] → u1 ≠ M0 → Bd wb u1 (u2 ++ R) = false := by
  intro u1 u2 he h1 h2 h3
  rcases List.eq_nil_or_concat u2 with rfl | ⟨u2', z, rfl⟩
  · exact absurd rfl h2
  · rw [List.concat_eq_append, ← List.append_assoc] at he
    obtain ⟨e1, e2⟩ := List.append_inj' he rfl
    simp only [List.cons.injEq, and_true] at e2
    subst e2
    rw [List.concat_eq_append, List.append_assoc, List.singleton_append]
    by_cases hu : u2' = []
    · subst hu; rw [List.append_nil] at e1; subst e1; exact hb
    · exact h u1 u2' e1 h1 hu h3

theorem fwd_loop (wb : Nat → WB) (s : List Nat) (R : List Nat) : ∀ (M : List Nat) (v : Fwd), FInv wb s M R v →
    ∃ v', fwdLoop wb s R (blen M) v = .ok v' ∧ FRes wb s v' := by
  induction R with
  | nil =>
    intro M v h
    refine ⟨v, rfl, ?_⟩
    have hs : s = M := by simpa using h.split
    cases hp : pending v.state with
    | none =>
      obtain ⟨Mi, x, hM, hi, _⟩ := h.last
      refine ⟨M, [], none, by simpa using hs, by simp [hM], ?_, .inl rfl, fun hc => ⟨Bd_nil _ _, h.plain hp hc⟩⟩
      rw [rewind_plain hp, finish_take s Mi [] x v (by rw [hs, hM]) h.tc hi, hM]
    | some t =>
      obtain ⟨M0, m, J, hM, h0, hi, hcat, hg⟩ := h.pend t hp
      refine ⟨M0, m :: J, if v.takeCat then some (wb m) else none, by rw [hs, hM], h0, ?_, ?_, ?_⟩
      · rw [rewind_pend hp, finish_leave _ _ rfl]; simp only [hi, hcat]
      · by_cases hv : v.takeCat = true
        · rw [if_pos hv]; exact .inr ⟨m, J, rfl, rfl⟩
        · rw [if_neg hv]; exact .inl rfl
      · intro hc
        obtain ⟨g1, g2⟩ := hg hc
        refine ⟨?_, ?_⟩
        · rw [List.append_nil] at g1; rw [g1]
          cases t <;> simp [resolves, NS, nextSig, optB]
        · intro u1 u2 he h1 h2
          have := g2 u1 (u2 ++ m :: J) (by rw [hM, he]; simp) h1 (by simp) (by
            intro e; rw [e] at he; exact h2 (by simpa using he))
          simpa using this
  | cons x R ih =>
    intro M v h
    obtain ⟨Mi, l, hM, hi, hcat⟩ := h.last
    have hcache : v.selfCat.getD (wb x) = wb x := by
      rcases h.cache with hn | ⟨y, R', he, hy⟩
      · rw [hn]; rfl
      · cases he; rw [hy]; rfl
    generalize hv1 : ({ v with idx := blen M, cat := v.selfCat.getD (wb x), selfCat := none, takeCat := true } : Fwd) = v1
    have hst : v1.state = v.state := by rw [← hv1]
    have hc1 : v1.cat = wb x := by rw [← hv1]; exact hcache
    have hi1 : v1.idx = blen M := by rw [← hv1]
    have htc : v1.takeCurr = true := by rw [← hv1]; exact h.tc
    have hsc : v1.selfCat = none := by rw [← hv1]
    have hsi : v1.saveidx = v.saveidx := by rw [← hv1]
    have hsv : v1.savecat = v.savecat := by rw [← hv1]
    have htk : v1.takeCat = true := by rw [← hv1]
    have hz : (C wb M).z = decide (v.cat = .ZWJ) := by rw [hM, C_z, hcat]; rfl
    have hMne : M ≠ [] := by simp [hM]
    have hstep : FwdClean (s.map wb) → Good v.state (C wb M) (wb x) (NS wb R) := by
      intro hc
      obtain ⟨cA, cC, _⟩ := clean_step (Mi := Mi) (l := l) (by rw [h.split, hM]) hc
      rw [← hM] at cA cC
      rcases h.st hc with hinv | ⟨hsh, hj⟩
      · exact step_inv _ _ _ _ hinv cA cC
      · refine step_shadow _ _ _ _ hsh ?_
        intro hig
        rw [NS_cons, if_neg (by simp [hig])] at hj
        exact hj
    have hbody : fwdBody wb s (decide (v.cat = .ZWJ)) v1 = .ok ((act (C wb M).z v.state (wb x)).apply v1) := by
      rw [fwdBody_act wb s _ v1 (by rw [hst]; exact h.ok), hst, hc1, hz]
    have hloop : fwdLoop wb s (x :: R) (blen M) v =
        match (act (C wb M).z v.state (wb x)).apply v1 with
        | .brk v => .ok v
        | .cont v => fwdLoop wb s R (blen M + Utf.lenUtf8 x) v := by
      rw [fwdLoop, hv1, hbody, bind_ok]; rfl
    have hlen : blen M + Utf.lenUtf8 x = blen (M ++ [x]) := by rw [blen_append, blen_cons, blen_nil]; rfl
    rw [hlen] at hloop
    have hsplit : s = (M ++ [x]) ++ R := by rw [h.split]; simp
    rw [hloop]
    cases ha : act (C wb M).z v.state (wb x) with
    | stay =>
      have hgood : FwdClean (s.map wb) → _ := hstep
      simp only [Good, ha] at hgood
      show ∃ v', fwdLoop wb s R (blen (M ++ [x])) v1 = .ok v' ∧ _
      refine ih (M ++ [x]) v1 ⟨hsplit, ⟨M, x, rfl, hi1, hc1⟩, htc, .inl hsc, by rw [hst]; exact h.ok, ?_, ?_, ?_⟩
      · intro hc
        rw [hst, C_snoc]
        by_cases hig : isIgn (wb x) = true
        · rcases h.st hc with hinv | ⟨_, hj⟩
          · exact .inl (inv_push_ign hinv hig)
          · rw [NS_cons, if_pos hig] at hj
            rcases (hgood hc).2 with g | ⟨g1, _⟩
            · exact .inl g
            · exact .inr ⟨g1, hj⟩
        · rcases (hgood hc).2 with g | ⟨g1, g2, g3⟩
          · exact .inl g
          · obtain ⟨k1, k2⟩ := g3 (by simpa using hig)
            rw [hM] at k1
            exact .inr ⟨g1, (clean_step (Mi := Mi) (l := l) (by rw [h.split, hM]) hc).2.2 k1 k2⟩
      · intro hp hc
        rw [hst] at hp
        exact plain_snoc hMne (h.plain hp hc) (by rw [Bd_cons]; exact (hgood hc).1)
      · intro t hp
        rw [hst] at hp
        obtain ⟨M0, m, J, e, h0, p1, p2, p3⟩ := h.pend t hp
        refine ⟨M0, m, J ++ [x], by rw [e]; simp, h0, by rw [hsi, p1], by rw [hsv, p2], ?_⟩
        intro hc
        obtain ⟨q1, q2⟩ := p3 hc
        refine ⟨?_, pend_snoc e q2 (by rw [Bd_cons]; exact (hgood hc).1)⟩
        have hig : isIgn (wb x) = true := by
          by_cases hig : isIgn (wb x) = true
          · exact hig
          exfalso
          rcases (hgood hc).2 with g | ⟨g1, _⟩
          · have hx : wb x = .GlueAfterZwj := by
              have ha' := ha
              rw [act, if_neg hig] at ha'
              split at ha'
              · rename_i hh; exact eq_of_beq (Bool.and_eq_true _ _ ▸ hh).2
              · split at ha'
                · cases ha'
                · exact absurd ha' (act1_ne_stay _ _)
            rw [hx] at g
            exact inv_pending_gaz hp g (push_gaz _)
          · have : (pending v.state) = none := by
              simp only [shadow, Bool.and_eq_true] at g1
              simpa using g1.1.2
            rw [this] at hp; cases hp
        rw [NS_cons, if_pos hig] at q1
        simpa using q1
    | goto st' =>
      have hgood : FwdClean (s.map wb) → _ := hstep
      simp only [Good, ha] at hgood
      have hf := act_facts (C wb M).z v.state (wb x) h.ok
      rw [ha] at hf
      simp only [Act.facts, Bool.and_eq_true, Option.isNone_iff_eq_none] at hf
      show ∃ v', fwdLoop wb s R (blen (M ++ [x])) { v1 with state := st' } = .ok v' ∧ _
      refine ih (M ++ [x]) _ ⟨hsplit, ⟨M, x, rfl, hi1, hc1⟩, htc, .inl hsc, hf.1, ?_, ?_, ?_⟩
      · intro hc
        rw [C_snoc]
        exact .inl (hgood hc).2.1
      · intro _ hc
        obtain ⟨b1, _, _, _, b5⟩ := hgood hc
        cases hp : pending v.state with
        | none => exact plain_snoc hMne (h.plain hp hc) (by rw [Bd_cons]; exact b1)
        | some t =>
          obtain ⟨M0, m, J, e, h0, p1, p2, p3⟩ := h.pend t hp
          obtain ⟨q1, q2⟩ := p3 hc
          refine plain_snoc hMne ?_ (by rw [Bd_cons]; exact b1)
          intro u1 u2 hu h1 h2
          by_cases hu0 : u1 = M0
          · subst hu0
            have hu2 : u2 = m :: J := by
              have := hu.symm.trans e; exact List.append_cancel_left this
            have hr := b5 t hp
            have hig : isIgn (wb x) = false := by
              revert hr; cases hw : wb x <;> cases t <;> simp [resolves, optB, ahl, isIgn]
            rw [NS_cons, if_neg (by simp [hig]), hr] at q1
            rw [hu2]; simpa using q1
          · exact q2 u1 u2 hu h1 h2 hu0
      · intro t hp
        rw [hf.2] at hp; cases hp
    | save t =>
      have hgood : FwdClean (s.map wb) → _ := hstep
      simp only [Good, ha] at hgood
      have hf := act_facts (C wb M).z v.state (wb x) h.ok
      rw [ha] at hf
      simp only [Act.facts, Bool.and_eq_true, Option.isNone_iff_eq_none, beq_iff_eq] at hf
      show ∃ v', fwdLoop wb s R (blen (M ++ [x])) { v1 with savecat := v1.cat, saveidx := v1.idx, state := .FormatExtend t } = .ok v' ∧ _
      refine ih (M ++ [x]) _ ⟨hsplit, ⟨M, x, rfl, hi1, hc1⟩, htc, .inl hsc, hf.1.1, ?_, ?_, ?_⟩
      · intro hc
        rw [C_snoc]
        exact .inl (hgood hc).2.1
      · intro hp
        have := hf.1.2.symm.trans hp
        cases this
      · intro t' hp
        obtain rfl : t = t' := by simpa using hf.1.2.symm.trans hp
        refine ⟨M, x, [], rfl, hMne, hi1, hc1, ?_⟩
        intro hc
        refine ⟨by rw [List.cons_append, List.nil_append, Bd_cons]; exact (hgood hc).1, ?_⟩
        intro u1 u2 he h1 h2 h3
        rcases List.eq_nil_or_concat u2 with rfl | ⟨u2', z, rfl⟩
        · exact absurd rfl h2
        · rw [List.concat_eq_append, ← List.append_assoc] at he
          obtain ⟨e1, e2⟩ := List.append_inj' he rfl
          simp only [List.cons.injEq, and_true] at e2
          subst e2
          rw [List.concat_eq_append, List.append_assoc, List.singleton_append]
          refine h.plain hf.2 hc u1 u2' e1 h1 ?_
          rintro rfl
          exact h3 (by simpa using e1.symm)
    | leave =>
      have hgood : FwdClean (s.map wb) → _ := hstep
      simp only [Good, ha] at hgood
      have hf := act_facts (C wb M).z v.state (wb x) h.ok
      rw [ha] at hf
      simp only [Act.facts, Option.isNone_iff_eq_none] at hf
      refine ⟨{ v1 with takeCurr := false }, rfl, M, x :: R, some (wb x), h.split, hMne, ?_, .inr ⟨x, R, rfl, rfl⟩, ?_⟩
      · rw [rewind_plain (by rw [← hst] at hf; exact hf), finish_leave _ _ rfl]
        simp only [hi1, htk, hc1, if_true]
      · intro hc
        exact ⟨by rw [Bd_cons]; exact (hgood hc).1, h.plain hf hc⟩
    | leaveNC =>
      have hgood : FwdClean (s.map wb) → _ := hstep
      simp only [Good, ha] at hgood
      have hf := act_facts (C wb M).z v.state (wb x) h.ok
      rw [ha] at hf
      simp only [Act.facts, Option.isNone_iff_eq_none] at hf
      refine ⟨{ v1 with takeCurr := false, takeCat := false }, rfl, M, x :: R, none, h.split, hMne, ?_, .inl rfl, ?_⟩
      · rw [rewind_plain (by rw [← hst] at hf; exact hf), finish_leave _ _ rfl]
        simp only [hi1]
        rfl
      · intro hc
        exact ⟨by rw [Bd_cons]; exact (hgood hc).1, h.plain hf hc⟩
    | brk =>
      have hgood : FwdClean (s.map wb) → _ := hstep
      simp only [Good, ha] at hgood
      have hf := act_facts (C wb M).z v.state (wb x) h.ok
      rw [ha] at hf
      simp only [Act.facts, Option.isSome_iff_exists] at hf
      obtain ⟨t, hp⟩ := hf
      obtain ⟨M0, m, J, e, h0, p1, p2, p3⟩ := h.pend t hp
      refine ⟨v1, rfl, M0, m :: (J ++ x :: R), some (wb m), by rw [h.split, e]; simp, h0, ?_, .inr ⟨m, _, rfl, rfl⟩, ?_⟩
      · rw [rewind_pend (by rw [hst]; exact hp), finish_leave _ _ rfl]
        simp only [hsi, p1, htk, hsv, p2, if_true]
      · intro hc
        obtain ⟨q1, q2⟩ := p3 hc
        obtain ⟨b1, t', b2, b3⟩ := hgood hc
        rw [hp] at b2
        cases b2
        rw [NS_cons, if_neg (by simp [b1]), b3] at q1
        refine ⟨by simpa using q1, ?_⟩
        intro u1 u2 he h1 h2
        have := q2 u1 (u2 ++ m :: J) (by rw [e, he]; simp) h1 (by simp) (by
          intro e; rw [e] at he; exact h2 (by simpa using he))
        simpa using this

/-- characters of class CR take one byte, as U+000D does -/
def CrOneByte (wb : Nat → WB) : Prop := ∀ c, wb c = .CR → Utf.lenUtf8 c = 1

theorem getNextCat_cons (wb : Nat → WB) (x : Nat) (R : List Nat) : getNextCat wb (x :: R) 0 = .ok ((R.map wb).head?) := by
  have h0 : sliceFrom (x :: R) 0 = .ok (x :: R) := sliceFrom_append [] (x :: R)
  have h1 : sliceFrom (x :: R) (Utf.lenUtf8 x) = .ok R := by
    have := sliceFrom_append [x] R
    rwa [blen_cons, blen_nil, Nat.add_zero] at this
  rw [getNextCat, h0, bind_ok, firstChar, bind_ok]
  simp only [Nat.zero_add]
  rw [blen_cons]
  cases R with
  | nil => rw [if_neg (by simp [blen_nil])]; rfl
  | cons y R =>
    have := blen_pos y R
    rw [if_pos (by omega), h1, bind_ok, firstChar, bind_ok]; rfl

theorem C_one (wb : Nat → WB) (x : Nat) : C wb [x] = (Ctx.nil).push (wb x) := rfl

/-- a text that starts with a character after which there always is a boundary -/
theorem first_one {wb : Nat → WB} {x : Nat} {R : List Nat} (h : Bd wb [x] R = true) : First wb [x] R := by
  refine ⟨h, ?_⟩
  intro u1 u2 he h1 h2
  have := congrArg List.length he
  simp only [List.length_append, List.length_cons, List.length_nil] at this
  have p1 := List.length_pos_iff.mpr h1
  have p2 := List.length_pos_iff.mpr h2
  omega

/-- the state after the first character -/
theorem finv_start {wb : Nat → WB} {x : Nat} {R : List Nat} {st : Word.State} {sc : Option WB} {si : Nat} {svc : WB} (hok : okState st = true)
    (hp : pending st = none) (hinv : inv st ((Ctx.nil).push (wb x)) = true) (hsc : sc = none ∨ ∃ y R', R = y :: R' ∧ sc = some (wb y)) :
    FInv wb (x :: R) [x] R { takeCurr := true, takeCat := true, idx := 0, saveidx := si, state := st, cat := wb x, savecat := svc, selfCat := sc } where
  split := rfl
  last := ⟨[], x, rfl, rfl, rfl⟩
  tc := rfl
  cache := hsc
  ok := hok
  st := fun _ => .inl hinv
  plain := by
    intro _ _ u1 u2 he h1 h2
    have := congrArg List.length he
    simp only [List.length_append, List.length_cons, List.length_nil] at this
    have p1 := List.length_pos_iff.mpr h1
    have p2 := List.length_pos_iff.mpr h2
    omega
  pend := by intro t ht; rw [hp] at ht; cases ht

/-- the first character alone is the piece -/
theorem fres_one {wb : Nat → WB} {x : Nat} {R : List Nat} {v : Fwd} (ht : v.takeCurr = true) (hi : v.idx = 0) (hp : pending v.state = none)
    (h : Bd wb [x] R = true) : FRes wb (x :: R) v := by
  refine ⟨[x], R, none, rfl, by simp, ?_, .inl rfl, fun _ => first_one h⟩
  rw [rewind_plain hp, finish_take (x :: R) [] R x v rfl ht (by rw [hi]; rfl)]; rfl

/-- the local variables at the first character -/
def v0 (k : WB) : Fwd :=
  { takeCurr := true, takeCat := true, idx := 0, saveidx := 0, state := .Start, cat := k, savecat := .Other, selfCat := none }

theorem fwdLoop_first (wb : Nat → WB) (x : Nat) (R : List Nat) (cat : Option WB) (hc : cat.getD (wb x) = wb x) {r : Flow Fwd}
    (hr : fwdMatch wb (x :: R) (v0 (wb x)) = .ok r) : fwdLoop wb (x :: R) (x :: R) 0 (Fwd.init cat) =
      match r with
      | .brk v => .ok v
      | .cont v => fwdLoop wb (x :: R) R (blen [x]) v := by
  have hl : blen [x] = 0 + Utf.lenUtf8 x := by rw [blen_cons, blen_nil]; omega
  rw [hl, fwdLoop, Fwd.init]
  simp only [hc]
  rw [fwdBody, if_neg (by simp), if_neg (by simp), if_neg (by simp)]
  unfold v0 at hr
  rw [hr, bind_ok]
  cases r <;> rfl

theorem start_goto {wb : Nat → WB} {x : Nat} {R : List Nat} {cat : Option WB} (hc : cat.getD (wb x) = wb x) {st : Word.State} {k : WB}
    (hk : wb x = k) (hr : fwdMatch wb (x :: R) (v0 k) = .ok (.cont { v0 k with state := st }))
    (h1 : okState st = true) (h2 : pending st = none) (h3 : inv st ((Ctx.nil).push k) = true) :
    ∃ v, fwdLoop wb (x :: R) (x :: R) 0 (Fwd.init cat) = .ok v ∧ FRes wb (x :: R) v := by
  subst hk
  rw [fwdLoop_first wb x R cat hc hr]
  exact fwd_loop wb (x :: R) R [x] _ (finv_start h1 h2 h3 (.inl rfl))

theorem start_brk {wb : Nat → WB} {x : Nat} {R : List Nat} {cat : Option WB} (hc : cat.getD (wb x) = wb x) {k : WB}
    (hk : wb x = k) (hr : fwdMatch wb (x :: R) (v0 k) = .ok (.brk (v0 k))) (hb : Bd wb [x] R = true) :
    ∃ v, fwdLoop wb (x :: R) (x :: R) 0 (Fwd.init cat) = .ok v ∧ FRes wb (x :: R) v := by
  subst hk
  rw [fwdLoop_first wb x R cat hc hr]
  exact ⟨_, rfl, fres_one rfl rfl rfl hb⟩

theorem bnd_nl (a b : WB) (n : Option WB) (h : isNl a = true) (h' : a = .CR → b ≠ .LF) : bnd ((Ctx.nil).push a) b n = true := by
  revert h h'
  cases a <;> simp [isNl, bnd, Ctx.push, isIgn, Ctx.nil, Ctx.open, opt_beq, wb_beq]

theorem bnd_others (a b : WB) (n : Option WB) (h : others a = true) (h' : isIgn b = false) : bnd ((Ctx.nil).push a) b n = true := by
  revert h h'
  cases a <;> simp [others] <;> cases b <;> simp [bnd, joins, Ctx.push, Ctx.nil, optB, Ctx.open, isIgn, isNl, ahl, midL, midN, opt_beq, wb_beq]

theorem inv_others (a : WB) (h : others a = true) : inv (.FormatExtend .AcceptNone) ((Ctx.nil).push a) = true := by
  revert h; cases a <;> simp [others, inv, Ctx.push, Ctx.nil, optB, Ctx.open, isIgn]

theorem start_other {wb : Nat → WB} {x : Nat} {R : List Nat} {cat : Option WB} (hc : cat.getD (wb x) = wb x) {k : WB}
    (hk : wb x = k) (hr : fwdMatch wb (x :: R) (v0 k) = (do return fwdOther (v0 k) (← getNextCat wb (x :: R) 0))) (ho : others k = true) :
    ∃ v, fwdLoop wb (x :: R) (x :: R) 0 (Fwd.init cat) = .ok v ∧ FRes wb (x :: R) v := by
  rw [getNextCat_cons, bind_ok, pure_eq] at hr
  cases R with
  | nil => exact start_brk hc hk hr rfl
  | cons y R =>
    simp only [List.map_cons, List.head?_cons, fwdOther] at hr
    by_cases hy : wb y = .Format ∨ wb y = .Extend ∨ wb y = .ZWJ
    · rw [if_pos hy] at hr
      subst hk
      rw [fwdLoop_first wb x _ cat hc hr]
      exact fwd_loop wb (x :: y :: R) (y :: R) [x] _ (finv_start rfl rfl (inv_others _ ho) (.inr ⟨y, R, rfl, rfl⟩))
    · rw [if_neg hy] at hr
      refine start_brk hc hk hr ?_
      rw [Bd_cons, C_one, hk]
      refine bnd_others _ _ _ ho ?_
      revert hy; cases wb y <;> simp [isIgn]

theorem fwd_next (wb : Nat → WB) (hcr : CrOneByte wb) (s : List Nat) (hs : s ≠ []) (cat : Option WB)
    (hcat : cat = none ∨ ∃ y R, s = y :: R ∧ cat = some (wb y)) :
    ∃ v, fwdLoop wb s s 0 (Fwd.init cat) = .ok v ∧ FRes wb s v := by
  obtain ⟨x, R, rfl⟩ : ∃ x R, s = x :: R := by cases s with | nil => exact absurd rfl hs | cons x R => exact ⟨x, R, rfl⟩
  have hc : cat.getD (wb x) = wb x := by
    rcases hcat with rfl | ⟨y, R', he, rfl⟩
    · rfl
    · cases he; rfl
  cases hx : wb x with
  | CR =>
    have hr : fwdMatch wb (x :: R) (v0 .CR) = (do return fwdCR (v0 .CR) (← getNextCat wb (x :: R) 0)) := rfl
    rw [getNextCat_cons, bind_ok, pure_eq] at hr
    cases R with
    | nil => exact start_brk hc hx hr rfl
    | cons y R =>
      simp only [List.map_cons, List.head?_cons] at hr
      by_cases hy : wb y = .LF
      · rw [hy] at hr
        have hr' : fwdMatch wb (x :: y :: R) (v0 (wb x)) = .ok (.brk { v0 (wb x) with idx := 1 }) := by rw [hx]; exact hr
        rw [fwdLoop_first wb x _ cat hc hr']
        have h1 := hcr x hx
        refine ⟨_, rfl, [x, y], R, none, rfl, by simp, ?_, .inl rfl, fun _ => ⟨?_, ?_⟩⟩
        · rw [rewind_plain rfl, finish_take (x :: y :: R) [x] R y _ rfl rfl (by rw [blen_cons, blen_nil, h1])]; rfl
        · cases R with
          | nil => rfl
          | cons z R =>
            rw [Bd_cons]
            have : C wb [x, y] = ((Ctx.nil).push (wb x)).push (wb y) := rfl
            rw [this, hx, hy]; rfl
        · intro u1 u2 he h1 h2
          have hl := congrArg List.length he
          simp only [List.length_append, List.length_cons, List.length_nil] at hl
          have p1 := List.length_pos_iff.mpr h1
          have p2 := List.length_pos_iff.mpr h2
          obtain ⟨a, rfl⟩ := List.length_eq_one_iff.mp (by omega : u1.length = 1)
          obtain ⟨b, rfl⟩ := List.length_eq_one_iff.mp (by omega : u2.length = 1)
          cases he
          rw [List.singleton_append, Bd_cons, C_one, hx, hy]; rfl
      · have hr' : fwdMatch wb (x :: y :: R) (v0 .CR) = .ok (.brk (v0 .CR)) := by
          rw [hr]; revert hy; cases wb y <;> simp [fwdCR]
        refine start_brk hc hx hr' ?_
        rw [Bd_cons, C_one]
        exact bnd_nl _ _ _ (by rw [hx]; rfl) (fun _ => hy)
  | LF =>
    refine start_brk hc hx rfl ?_
    cases R with
    | nil => rfl
    | cons y R => rw [Bd_cons, C_one]; exact bnd_nl _ _ _ (by rw [hx]; rfl) (by rw [hx]; intro h; cases h)
  | Newline =>
    refine start_brk hc hx rfl ?_
    cases R with
    | nil => rfl
    | cons y R => rw [Bd_cons, C_one]; exact bnd_nl _ _ _ (by rw [hx]; rfl) (by rw [hx]; intro h; cases h)
  | ALetter => exact start_goto hc hx (st := .Letter) rfl rfl rfl rfl
  | HebrewLetter => exact start_goto hc hx (st := .HLetter) rfl rfl rfl rfl
  | Numeric => exact start_goto hc hx (st := .Numeric) rfl rfl rfl rfl
  | Katakana => exact start_goto hc hx (st := .Katakana) rfl rfl rfl rfl
  | ExtendNumLet => exact start_goto hc hx (st := .ExtendNumLet) rfl rfl rfl rfl
  | RegionalIndicator => exact start_goto hc hx (st := .Regional .Half) rfl rfl rfl rfl
  | ZWJ => exact start_goto hc hx (st := .Zwj) rfl rfl rfl rfl
  | EBase => exact start_goto hc hx (st := .Emoji) rfl rfl rfl rfl
  | EBaseGAZ => exact start_goto hc hx (st := .Emoji) rfl rfl rfl rfl
  | _ => exact start_other hc hx rfl rfl

/-- the cache of the class of the first character -/
def CacheF (wb : Nat → WB) (b : WordBounds) : Prop := b.cat = none ∨ ∃ y w, b.string = y :: w ∧ b.cat = some (wb y)

/-- `next` on a non-empty text -/
theorem next_spec (wb : Nat → WB) (hcr : CrOneByte wb) (b : WordBounds) (hs : b.string ≠ []) (hc : CacheF wb b) :
    ∃ u w cat, b.string = u ++ w ∧ u ≠ [] ∧ b.next wb = .ok ({ b with string := w, cat := cat }, some u) ∧
      CacheF wb { b with string := w, cat := cat } ∧ (FwdClean (b.string.map wb) → First wb u w) := by
  obtain ⟨v, hv, u, w, cat, hsp, hu, hf, hcache, hfirst⟩ := fwd_next wb hcr b.string hs b.cat hc
  refine ⟨u, w, cat, hsp, hu, ?_, hcache, hfirst⟩
  have e1 : sliceTo b.string (blen u) = .ok u := by rw [hsp]; exact sliceTo_append u w
  have e2 : sliceFrom b.string (blen u) = .ok w := by rw [hsp]; exact sliceFrom_append u w
  rw [WordBounds.next, if_neg hs, hv, bind_ok, hf, bind_ok]
  simp only [e1, e2, bind_ok, pure_eq]

end Proofs.Word
