import Verif.Proofs.WordFwd
import Verif.Proofs.WordBwdStep

/-! The backward scan `next_back`: it returns a non-empty suffix, and on texts without the sequence it mishandles the
last piece of the rules. -/
namespace Proofs.Word
open Data Spec.Segment Model Model.Word Model.Grapheme Proofs.Grapheme Proofs.Punycode

/-- `w` is the last piece of `u ++ w` -/
structure Last (wb : Nat → WB) (u w : List Nat) : Prop where
  bd : Bd wb u w = true
  inner : ∀ w1 w2, w = w1 ++ w2 → w1 ≠ [] → w2 ≠ [] → Bd wb (u ++ w1) w2 = false

/-- The text does not have the sequence the backward scan mishandles. -/
def BwdClean (k : List WB) : Prop :=
  ∀ p J q, k = p ++ .ZWJ :: .EBase :: (J ++ .EModifier :: q) → (∀ i ∈ J, isIgn i = true) → False

/-- the states that `bwdRewind` backs up from -/
def rewinds : Word.State → Bool
  | .FormatExtend .AcceptAny => false
  | .FormatExtend _ => true
  | _ => false

def Ign (wb : Nat → WB) (A : List Nat) : Prop := ∀ i ∈ A, isIgn (wb i) = true

/-- what the state says of the text `A ++ t :: T` consumed -/
def Desc (wb : Nat → WB) (P A : List Nat) (t : Nat) (T : List Nat) (st sst : Word.State) : Prop :=
  match pending st with
  | some r => ∃ J0 m J, A = J0 ++ m :: J ∧ Ign wb J0 ∧ Ign wb J ∧ isIgn (wb m) = false ∧ reqOK r (wb m) (wb t) = true
  | none =>
    if st = .FormatExtend .AcceptNone then
      Ign wb A ∧ A ≠ [] ∧ D sst (C wb (P ++ A)) (wb t) (NS wb T) = true ∧ (sst = .Zwj → (C wb (P ++ A)).z = false)
    else Ign wb A ∧ D st (C wb (P ++ A)) (wb t) (NS wb T) = true

/-- the state of the backward loop with `P` to come -/
structure BInv (wb : Nat → WB) (s P A : List Nat) (t : Nat) (T : List Nat) (v : Bwd) : Prop where
  split : s = (P ++ A) ++ t :: T
  idx : v.idx = blen P
  tc : v.takeCurr = true
  cache : v.selfCatb = none
  ns : v.state ≠ .Start
  plainA : rewinds v.state = false → A = []
  save : rewinds v.state = true → v.saveidx = blen (P ++ A)
  fold : v.state = .FormatExtend .AcceptNone → v.savestate.folds = true
  inner : BwdClean (s.map wb) → ∀ t1 t2, t :: T = t1 ++ t2 → t1 ≠ [] → t2 ≠ [] → Bd wb ((P ++ A) ++ t1) t2 = false
  desc : BwdClean (s.map wb) → Desc wb P A t T v.state v.savestate

def BRes (wb : Nat → WB) (s : List Nat) (v : Bwd) : Prop :=
  ∃ u w cat, s = u ++ w ∧ w ≠ [] ∧ bwdFinish (bwdRewind v) = (blen u, cat) ∧
    (cat = none ∨ ∃ ui y, u = ui ++ [y] ∧ cat = some (wb y)) ∧ (BwdClean (s.map wb) → Last wb u w)

/-- the result of one pass with `P` left -/
def BStep (wb : Nat → WB) (s P : List Nat) : Flow Bwd → Prop
  | .brk v => BRes wb s v
  | .cont v => ∃ A t T, BInv wb s P A t T v

theorem brewind_plain {v : Bwd} (h : rewinds v.state = false) : bwdRewind v = v := by
  unfold bwdRewind; split <;> simp_all [rewinds]

theorem brewind_back {v : Bwd} (h : rewinds v.state = true) :
    bwdRewind v = { v with previdx := v.saveidx, takeCat := false, takeCurr := false } := by
  unfold bwdRewind
  match hs : v.state with
  | .FormatExtend .RequireLetter => rfl
  | .FormatExtend .RequireHLetter => rfl
  | .FormatExtend .RequireNumeric => rfl
  | .FormatExtend .AcceptNone => rfl
  | .FormatExtend .AcceptQLetter => rfl
  | .FormatExtend .AcceptAny => rw [hs] at h; cases h
  | .Start => rw [hs] at h; cases h
  | .Letter => rw [hs] at h; cases h
  | .HLetter => rw [hs] at h; cases h
  | .Numeric => rw [hs] at h; cases h
  | .Katakana => rw [hs] at h; cases h
  | .ExtendNumLet => rw [hs] at h; cases h
  | .Zwj => rw [hs] at h; cases h
  | .Emoji => rw [hs] at h; cases h
  | .Regional _ => rw [hs] at h; cases h

theorem finish_back {v : Bwd} (h : rewinds v.state = true) : bwdFinish (bwdRewind v) = (v.saveidx, none) := by
  rw [brewind_back h]; rfl
theorem bfinish_take {v : Bwd} (h : rewinds v.state = false) (ht : v.takeCurr = true) : bwdFinish (bwdRewind v) = (v.idx, none) := by
  rw [brewind_plain h, bwdFinish, if_pos ht]
theorem bfinish_leave {v : Bwd} (h : rewinds v.state = false) (ht : v.takeCurr = false) :
    bwdFinish (bwdRewind v) = (v.previdx, if v.takeCat then some v.cat else none) := by
  rw [brewind_plain h, bwdFinish, if_neg (by simp [ht])]; split <;> rfl

/-! ### summaries -/

theorem push_ign_open (c : Ctx) (k : WB) (h : isIgn k = true) : (c.push k).open = true := by
  rw [Ctx.push]
  by_cases ho : c.open = true
  · rw [if_pos (by simp [h, ho])]; exact ho
  · rw [if_neg (by simp [ho])]
    cases k <;> first | (cases h; done) | rfl

theorem push_open (c : Ctx) (k : WB) (h : isNl k = false) : (c.push k).open = true := by
  rw [Ctx.push]
  split
  · rename_i ho
    simp only [Bool.and_eq_true] at ho
    exact ho.2
  · simp [Ctx.open, h]

theorem link (wb : Nat → WB) (P : List Nat) (x : Nat) (hx : isIgn (wb x) = false) (A : List Nat) (hA : Ign wb A) :
    Link (C wb P) (C wb (P ++ x :: A)) (wb x) := by
  have hrev : ∀ B : List Nat, Ign wb B → Link (C wb P) (C wb (P ++ x :: B.reverse)) (wb x) := by
    intro B
    induction B with
    | nil =>
      intro _
      have : C wb (P ++ x :: ([] : List Nat).reverse) = (C wb P).push (wb x) := C_snoc wb P x
      rw [this, Ctx.push, if_neg (by simp [hx])]
      exact ⟨fun _ => ⟨rfl, rfl, rfl⟩, fun h => ⟨by revert h; cases wb x <;> simp [isNl, wb_beq], _, rfl, by simp [h]⟩⟩
    | cons y B ih =>
      intro hB
      have hy : isIgn (wb y) = true := hB y (by simp)
      obtain ⟨i1, i2⟩ := ih (fun i hi => hB i (by simp [hi]))
      have e : P ++ x :: (y :: B).reverse = (P ++ x :: B.reverse) ++ [y] := by simp
      rw [e, C_snoc]
      generalize C wb (P ++ x :: B.reverse) = c at i1 i2
      refine ⟨?_, ?_⟩
      · intro h
        obtain ⟨h1, h2, h3⟩ := i1 h
        rw [Ctx.push, if_pos (by simp [hy, Ctx.open, h1, h])]
        exact ⟨h1, h2, h3⟩
      · intro h
        obtain ⟨h1, e1, h2, h3⟩ := i2 h
        rw [Ctx.push]
        split
        · exact ⟨h1, e1, h2, h3⟩
        · refine ⟨?_, wb y, rfl, by simp [hy]⟩
          revert hy; cases wb y <;> simp [isIgn, wb_beq]
  have := hrev A.reverse (fun i hi => hA i (by simpa using hi))
  rwa [List.reverse_reverse] at this

theorem C_ign (wb : Nat → WB) (A : List Nat) (hA : Ign wb A) :
    (C wb A).odd = false ∧ ((C wb A).e1 = none ∨ optB isIgn (C wb A).e1 = true) ∧ (A ≠ [] → optB isIgn (C wb A).e1 = true) := by
  have hrev : ∀ B : List Nat, Ign wb B → (C wb B.reverse).odd = false ∧
      ((C wb B.reverse).e1 = none ∨ optB isIgn (C wb B.reverse).e1 = true) ∧ (B ≠ [] → optB isIgn (C wb B.reverse).e1 = true) := by
    intro B
    induction B with
    | nil => intro _; exact ⟨rfl, .inl rfl, fun h => absurd rfl h⟩
    | cons y B ih =>
      intro hB
      have hy : isIgn (wb y) = true := hB y (by simp)
      obtain ⟨i1, i2, _⟩ := ih (fun i hi => hB i (by simp [hi]))
      have e : (y :: B).reverse = B.reverse ++ [y] := by simp
      rw [e, C_snoc, Ctx.push]
      split
      · rename_i ho
        have : optB isIgn (C wb B.reverse).e1 = true := by
          rcases i2 with h | h
          · simp only [Ctx.open, h, Bool.and_false] at ho; cases ho
          · exact h
        exact ⟨i1, .inr this, fun _ => this⟩
      · exact ⟨by revert hy; cases wb y <;> simp [isIgn, wb_beq], .inr hy, fun _ => hy⟩
  have := hrev A.reverse (fun i hi => hA i (by simpa using hi))
  rw [List.reverse_reverse] at this
  exact ⟨this.1, this.2.1, fun h => this.2.2 (by simpa using h)⟩

/-- after a character that is not skipped -/
theorem C_last (wb : Nat → WB) (P : List Nat) (x : Nat) (hx : isIgn (wb x) = false) (hn : isNl (wb x) = false) (A : List Nat) (hA : Ign wb A) :
    (C wb (P ++ x :: A)).e1 = some (wb x) ∧ (C wb (P ++ x :: A)).e2 = (C wb P).e1 :=
  let h := (link wb P x hx A hA).plain hn
  ⟨h.1, h.2.1⟩

theorem riBefore_spec (wb : Nat → WB) (u w : List Nat) :
    ∃ n, riBefore wb (u ++ w) (blen u) = .ok n ∧ decide (n % 2 = 1) = (C wb u).odd := by
  refine ⟨_, by rw [riBefore, sliceTo_append, bind_ok, pure_eq], ?_⟩
  rw [C, List.map_reverse]
  generalize (u.map wb).reverse = l
  induction l with
  | nil => rfl
  | cons x l ih =>
    simp only [ctx, List.filter_cons]
    have hi : (!(x == .ZWJ || x == .Extend || x == .Format)) = !isIgn x := by cases x <;> rfl
    rw [hi]
    by_cases hx : isIgn x = true
    · rw [if_neg (by simp [hx]), ih, Ctx.push]
      split
      · rfl
      · rename_i ho
        have hx' : (x == .RegionalIndicator) = false := by revert hx; cases x <;> simp [isIgn, wb_beq]
        show (ctx l).odd = (x == .RegionalIndicator && !(ctx l).odd)
        rw [hx', Bool.false_and]
        cases hod : (ctx l).odd with
        | false => rfl
        | true =>
          exfalso
          have := ctx_odd l hod
          exact ho (by simp [hx, Ctx.open, this, isNl])
    · rw [if_pos (by simp [hx]), Ctx.push, if_neg (by simp [hx])]
      show _ = (x == .RegionalIndicator && !(ctx l).odd)
      by_cases hr : x = .RegionalIndicator
      · subst hr
        rw [List.takeWhile_cons, if_pos (by rfl), List.length_cons, ← ih]
        generalize ((l.filter _).takeWhile _).length = n
        rcases Nat.mod_two_eq_zero_or_one n with h | h
        · have : (n + 1) % 2 = 1 := by omega
          simp [h, this]
        · have : (n + 1) % 2 = 0 := by omega
          simp [h, this]
      · rw [List.takeWhile_cons, if_neg (by simpa using hr)]
        have : (x == .RegionalIndicator) = false := by simpa using hr
        rw [this]; rfl

/-! ### the pieces of the invariant -/

/-- a text extended to the left by a character and skipped characters -/
theorem ext_inner {wb : Nat → WB} {P A : List Nat} {x t : Nat} {T : List Nat} (hA : Ign wb A) (hx : isNl (wb x) = false)
    (h : ∀ t1 t2, t :: T = t1 ++ t2 → t1 ≠ [] → t2 ≠ [] → Bd wb ((P ++ [x] ++ A) ++ t1) t2 = false)
    (hb : Bd wb (P ++ [x] ++ A) (t :: T) = false) :
    ∀ t1 t2, x :: (A ++ t :: T) = t1 ++ t2 → t1 ≠ [] → t2 ≠ [] → Bd wb ((P ++ []) ++ t1) t2 = false := by
  intro t1 t2 he h1 h2
  rw [List.append_nil]
  cases t1 with
  | nil => exact absurd rfl h1
  | cons x' r1 =>
    rw [List.cons_append, List.cons.injEq] at he
    obtain ⟨rfl, he⟩ := he
    have ea : P ++ x :: r1 = P ++ [x] ++ r1 := by simp
    rw [ea]
    rcases List.append_eq_append_iff.mp he with ⟨a, e1, e2⟩ | ⟨a, e1, e2⟩
    · -- the cut is in `t :: T`
      subst e1
      by_cases ha : a = []
      · subst ha
        rw [List.nil_append] at e2
        rw [List.append_nil, ← e2]; exact hb
      · rw [← List.append_assoc]; exact h a t2 e2 ha h2
    · -- the cut is in the skipped characters
      subst e2
      cases a with
      | nil =>
        rw [List.append_nil] at e1; subst e1
        exact hb
      | cons y a =>
        rw [List.cons_append, Bd_cons]
        refine bnd_ign (hA y (by simp [e1])) ?_
        have hr : Ign wb r1 := fun i hi => hA i (by simp [e1, hi])
        rcases List.eq_nil_or_concat r1 with rfl | ⟨r, z, rfl⟩
        · rw [List.append_nil, C_snoc]; exact push_open _ _ hx
        · rw [List.concat_eq_append, ← List.append_assoc, C_snoc]
          exact push_ign_open _ _ (hr z (by simp))

/-- what a step does, whatever the text -/
def BAct.facts (st : Word.State) : BAct → Bool
  | .goto st' => !rewinds st' && st' != .Start && st' != .FormatExtend .AcceptNone && (pending st').isNone
  | .save t => (pending (.FormatExtend t)) == some t && st.folds
  | .saveQ => st == .FormatExtend .AcceptAny
  | .leave => !rewinds st
  | .brk => rewinds st || st == .FormatExtend .AcceptAny

theorem bact_facts (odd : Bool) (st : Word.State) (k : WB) (h : st ≠ .Start) : (bact odd st k).facts st = true := by
  match st, h with
  | .Start, h => exact absurd rfl h
  | .Letter, _ => cases k <;> rfl
  | .HLetter, _ => cases k <;> rfl
  | .Numeric, _ => cases k <;> rfl
  | .Katakana, _ => cases k <;> rfl
  | .ExtendNumLet, _ => cases k <;> rfl
  | .Regional .Half, _ => cases k <;> rfl
  | .Regional .Full, _ => cases k <;> rfl
  | .Regional .Unknown, _ => cases odd <;> cases k <;> rfl
  | .Zwj, _ => cases k <;> rfl
  | .Emoji, _ => cases k <;> rfl
  | .FormatExtend .AcceptAny, _ => cases k <;> rfl
  | .FormatExtend .AcceptNone, _ => cases k <;> rfl
  | .FormatExtend .RequireLetter, _ => cases k <;> rfl
  | .FormatExtend .RequireHLetter, _ => cases k <;> rfl
  | .FormatExtend .AcceptQLetter, _ => cases k <;> rfl
  | .FormatExtend .RequireNumeric, _ => cases k <;> rfl

theorem desc_plain {wb : Nat → WB} {P A : List Nat} {t : Nat} {T : List Nat} {st sst : Word.State} (hp : pending st = none)
    (hn : st ≠ .FormatExtend .AcceptNone) :
    Desc wb P A t T st sst ↔ Ign wb A ∧ D st (C wb (P ++ A)) (wb t) (NS wb T) = true := by
  rw [Desc, hp]; simp only [if_neg hn]

theorem ign_nil (wb : Nat → WB) : Ign wb [] := fun _ h => (by cases h)

theorem D_folds {st : Word.State} {c : Ctx} {h : WB} {ns : Option WB} (hD : D st c h ns = true) (hf : st.folds = true) : isIgn h = false := by
  unfold D at hD
  split at hD <;> first | (cases hf; done) | (cases hD; done) | skip
  all_goals (cases h <;> simp_all [isIgn, wb_beq])

theorem NS_sig {wb : Nat → WB} {A T : List Nat} {t : Nat} (hA : Ign wb A) (ht : isIgn (wb t) = false) :
    NS wb (A ++ t :: T) = some (wb t) := by
  rw [NS_ign wb A _ hA, NS_cons, if_neg (by simp [ht])]

/-- the invariant after a step to a state that does not back up -/
theorem binv_goto {wb : Nat → WB} {s P A : List Nat} {x t : Nat} {T : List Nat} {v : Bwd} {st : Word.State}
    (hs : s = (P ++ [x] ++ A) ++ t :: T) (hidx : v.idx = blen P) (htc : v.takeCurr = true) (hca : v.selfCatb = none)
    (hf : (BAct.goto st).facts v.state = true)
    (hin : BwdClean (s.map wb) → ∀ t1 t2, x :: (A ++ t :: T) = t1 ++ t2 → t1 ≠ [] → t2 ≠ [] → Bd wb ((P ++ []) ++ t1) t2 = false)
    (hd : BwdClean (s.map wb) → D st (C wb P) (wb x) (NS wb (A ++ t :: T)) = true) :
    BStep wb s P ((BAct.goto st).apply v) := by
  simp only [BAct.facts, Bool.and_eq_true, Bool.not_eq_true', bne_iff_ne, Option.isNone_iff_eq_none] at hf
  obtain ⟨⟨⟨f1, f2⟩, f3⟩, f4⟩ := hf
  refine ⟨[], x, A ++ t :: T, ?_⟩
  exact {
    split := by rw [hs]; simp
    idx := hidx
    tc := htc
    cache := hca
    ns := f2
    plainA := fun _ => rfl
    save := fun h => by rw [f1] at h; cases h
    fold := fun h => absurd h f3
    inner := hin
    desc := fun hc => (desc_plain f4 f3).mpr ⟨ign_nil wb, by rw [List.append_nil]; exact hd hc⟩ }

/-- One step in a state that describes the text `t :: T`, skipped characters `A` and `x` before it. -/
theorem step_fold {wb : Nat → WB} {s P A : List Nat} {x t : Nat} {T : List Nat} {v : Bwd}
    (hs : s = (P ++ [x] ++ A) ++ t :: T) (hcat : v.cat = wb x) (hidx : v.idx = blen P) (hprev : v.previdx = blen (P ++ [x] ++ A))
    (htc : v.takeCurr = true) (hca : v.selfCatb = none) (hf : v.state.folds = true) (htk : v.takeCat = true → A = [])
    (hk : isIgn (wb x) = true → wb x = .ZWJ ∧ v.state = .Zwj ∧ A = [])
    (hin : BwdClean (s.map wb) → ∀ t1 t2, t :: T = t1 ++ t2 → t1 ≠ [] → t2 ≠ [] → Bd wb ((P ++ [x] ++ A) ++ t1) t2 = false)
    (hd : BwdClean (s.map wb) → Ign wb A ∧ D v.state (C wb (P ++ [x] ++ A)) (wb t) (NS wb T) = true ∧
      (isIgn (wb x) = false → v.state = .Zwj → (C wb (P ++ [x] ++ A)).z = false)) :
    ∃ r, bwdMatch wb s v = .ok r ∧ BStep wb s P r := by
  obtain ⟨n, hn, hodd⟩ := riBefore_spec wb (P ++ [x] ++ A) (t :: T)
  rw [← hs, ← hprev] at hn
  have hst : v.state ≠ .Start := by intro e; rw [e] at hf; cases hf
  refine ⟨_, bwdMatch_act wb s v hst n hn, ?_⟩
  rw [hodd, hcat]
  have hfacts := bact_facts (C wb (P ++ [x] ++ A)).odd v.state (wb x) hst
  have hrw : rewinds v.state = false := by
    match hv : v.state with
    | .FormatExtend _ => rw [hv] at hf; cases hf
    | .Start => rfl
    | .Letter => rfl
    | .HLetter => rfl
    | .Numeric => rfl
    | .Katakana => rfl
    | .ExtendNumLet => rfl
    | .Zwj => rfl
    | .Emoji => rfl
    | .Regional _ => rfl
  have hgood : BwdClean (s.map wb) → isIgn (wb x) = false → BGood (bact (C wb (P ++ [x] ++ A)).odd v.state (wb x)) (C wb P) (C wb (P ++ [x] ++ A)) (wb x) (wb t) (NS wb T) := by
    intro hc hig
    obtain ⟨h1, h2, h3⟩ := hd hc
    have hl := link wb P x hig A h1
    have e : P ++ x :: A = P ++ [x] ++ A := by simp
    rw [e] at hl
    exact bstep v.state _ _ _ _ _ h2 hf hig hl (h3 hig)
  by_cases hig : isIgn (wb x) = true
  · obtain ⟨k1, k2, rfl⟩ := hk hig
    have hb : bact (C wb (P ++ [x] ++ [])).odd v.state (wb x) = .goto (.FormatExtend .AcceptAny) := by rw [k1, k2]; rfl
    rw [hb] at hfacts ⊢
    have key : BwdClean (s.map wb) → Bd wb (P ++ [x]) (t :: T) = false ∧ D (.FormatExtend .AcceptAny) (C wb P) (wb x) (some (wb t)) = true := by
      intro hc
      obtain ⟨_, h2, _⟩ := hd hc
      rw [k2, List.append_nil, C_snoc, k1] at h2
      have hne : wb t ≠ .EBase := by
        intro e
        rw [e] at h2
        have hns : NS wb T = some .EModifier := by simpa [D, wb_beq] using h2
        obtain ⟨J, q, hJ, hi, _⟩ := nextSig_split _ _ hns
        refine hc (P.map wb) J q ?_ hi
        rw [hs]
        simp [k1, e, hJ]
      obtain ⟨g1, g2⟩ := bstep_zwj h2 hne
      rw [Bd_cons, C_snoc, k1]
      exact ⟨g1, g2⟩
    refine binv_goto (A := []) (x := x) (t := t) (T := T) hs hidx htc hca hfacts ?_ ?_
    · intro hc
      refine ext_inner (A := []) (ign_nil wb) (by rw [k1]; rfl) (hin hc) ?_
      rw [List.append_nil]; exact (key hc).1
    · intro hc
      have ht : isIgn (wb t) = false := D_folds (hd hc).2.1 hf
      rw [NS_sig (ign_nil wb) ht]
      exact (key hc).2
  · have hig' : isIgn (wb x) = false := by simpa using hig
    have hgood' : BwdClean (s.map wb) → _ := fun hc => hgood hc hig'
    cases ha : bact (C wb (P ++ [x] ++ A)).odd v.state (wb x) with
    | goto st =>
      rw [ha] at hfacts
      simp only [ha, BGood] at hgood'
      refine binv_goto (A := A) (x := x) (t := t) (T := T) hs hidx htc hca hfacts ?_ ?_
      · intro hc
        exact ext_inner (hd hc).1 (hgood' hc).2.2 (hin hc) (by rw [Bd_cons]; exact (hgood' hc).1)
      · intro hc
        have ht : isIgn (wb t) = false := D_folds (hd hc).2.1 hf
        rw [NS_sig (hd hc).1 ht]
        exact (hgood' hc).2.1
    | save r =>
      rw [ha] at hfacts
      simp only [ha, BGood] at hgood'
      simp only [BAct.facts, Bool.and_eq_true, beq_iff_eq] at hfacts
      have hrw' : rewinds (.FormatExtend r) = true := by
        cases r <;> first | rfl | (cases hfacts.1)
      have hna : Word.State.FormatExtend r ≠ .FormatExtend .AcceptNone := by
        intro e; rw [e] at hfacts; cases hfacts.1
      refine ⟨x :: A, t, T, ?_⟩
      exact {
        split := by rw [hs]; simp
        idx := hidx
        tc := htc
        cache := hca
        ns := by intro e; cases e
        plainA := fun h => by rw [hrw'] at h; cases h
        save := fun _ => by show v.previdx = _; rw [hprev]; simp
        fold := fun h => absurd h hna
        inner := fun hc => by
          have := hin hc
          simpa using this
        desc := fun hc => by
          show Desc wb P (x :: A) t T (.FormatExtend r) v.savestate
          rw [Desc, hfacts.1]
          exact ⟨[], x, A, rfl, ign_nil wb, (hd hc).1, hig', hgood' hc⟩ }
    | saveQ =>
      rw [ha] at hfacts
      simp only [BAct.facts, beq_iff_eq] at hfacts
      rw [hfacts] at hf; cases hf
    | leave =>
      simp only [ha, BGood] at hgood'
      refine ⟨P ++ [x] ++ A, t :: T, if v.takeCat then some (wb x) else none, hs, by simp, ?_, ?_, ?_⟩
      · rw [bfinish_leave (v := { v with takeCurr := false }) hrw rfl]
        simp only [hprev, hcat]
      · by_cases hv : v.takeCat = true
        · obtain rfl := htk hv
          rw [if_pos hv]; exact .inr ⟨P, x, by simp, rfl⟩
        · rw [if_neg hv]; exact .inl rfl
      · intro hc
        exact ⟨by rw [Bd_cons]; exact hgood' hc, hin hc⟩
    | brk =>
      rw [ha] at hfacts
      simp only [BAct.facts, Bool.or_eq_true, beq_iff_eq, hrw] at hfacts
      rcases hfacts with h | h
      · cases h
      · rw [h] at hf; cases hf

theorem any_act {odd : Bool} {k : WB} {ns : Option WB} (p : Ctx) (hk : isIgn k = false) (hn : nsOK ns = true) :
    match bact odd (.FormatExtend .AcceptAny) k with
    | .goto st => D st p k ns = true ∧ isNl k = false
    | .save _ => False
    | .saveQ => k = .SingleQuote
    | .leave => isNl k = true
    | .brk => bact false (.FormatExtend .AcceptAny) k = .brk := by
  cases k <;> first | (cases hk; done) | simp [bact, D, isNl, wb_beq]

/-- One step in a state that accepts anything. -/
theorem step_any {wb : Nat → WB} {s P : List Nat} {x t : Nat} {T : List Nat} {v : Bwd}
    (hs : s = (P ++ [x]) ++ t :: T) (hcat : v.cat = wb x) (hidx : v.idx = blen P) (hprev : v.previdx = blen (P ++ [x]))
    (htc : v.takeCurr = true) (hca : v.selfCatb = none) (hst : v.state = .FormatExtend .AcceptAny) (htk : v.takeCat = true)
    (hk : isIgn (wb x) = false)
    (hin : BwdClean (s.map wb) → ∀ t1 t2, t :: T = t1 ++ t2 → t1 ≠ [] → t2 ≠ [] → Bd wb ((P ++ [x]) ++ t1) t2 = false)
    (hd : BwdClean (s.map wb) → isIgn (wb t) = true ∧ nsOK (NS wb T) = true) :
    ∃ r, bwdMatch wb s v = .ok r ∧ BStep wb s P r := by
  obtain ⟨n, hn, hodd⟩ := riBefore_spec wb (P ++ [x]) (t :: T)
  rw [← hs, ← hprev] at hn
  have hst' : v.state ≠ .Start := by rw [hst]; intro e; cases e
  refine ⟨_, bwdMatch_act wb s v hst' n hn, ?_⟩
  rw [hodd, hcat, hst]
  have hfacts := bact_facts (C wb (P ++ [x])).odd v.state (wb x) hst'
  rw [hst] at hfacts
  have hgood : BwdClean (s.map wb) → _ := fun hc => any_act (odd := (C wb (P ++ [x])).odd) (k := wb x) (C wb P) hk (hd hc).2
  have hns : BwdClean (s.map wb) → NS wb (t :: T) = NS wb T := fun hc => by rw [NS_cons, if_pos (hd hc).1]
  have hs' : s = (P ++ [x] ++ []) ++ t :: T := by rw [hs]; simp
  cases ha : bact (C wb (P ++ [x])).odd (.FormatExtend .AcceptAny) (wb x) with
  | goto st =>
    rw [ha] at hfacts
    simp only [ha] at hgood
    refine binv_goto (A := []) (x := x) (t := t) (T := T) hs' hidx htc hca (by rw [hst]; exact hfacts) ?_ ?_
    · intro hc
      refine ext_inner (A := []) (ign_nil wb) (hgood hc).2 (by rw [List.append_nil]; exact hin hc) ?_
      rw [List.append_nil, Bd_cons, C_snoc]
      exact bnd_ign (hd hc).1 (push_open _ _ (hgood hc).2)
    · intro hc
      rw [List.nil_append, hns hc]
      exact (hgood hc).1
  | save r =>
    rw [ha] at hfacts
    simp only [BAct.facts, Bool.and_eq_true] at hfacts
    cases hfacts.2
  | saveQ =>
    simp only [ha] at hgood
    refine ⟨[], x, t :: T, ?_⟩
    exact {
      split := by rw [hs]; simp
      idx := hidx
      tc := htc
      cache := hca
      ns := by intro e; cases e
      plainA := fun _ => rfl
      save := fun _ => by show v.idx = _; rw [hidx, List.append_nil]
      fold := fun h => by cases h
      inner := fun hc => by
        refine ext_inner (A := []) (ign_nil wb) (by rw [hgood hc]; rfl) (by rw [List.append_nil]; exact hin hc) ?_
        rw [List.append_nil, Bd_cons, C_snoc]
        exact bnd_ign (hd hc).1 (push_open _ _ (by rw [hgood hc]; rfl))
      desc := fun hc => (desc_plain rfl (by intro e; cases e)).mpr ⟨ign_nil wb, by
        rw [hgood hc, hns hc]
        simp [D, (hd hc).2]⟩ }
  | leave =>
    simp only [ha] at hgood
    refine ⟨P ++ [x], t :: T, some (wb x), hs, by simp, ?_, .inr ⟨P, x, rfl, rfl⟩, ?_⟩
    · rw [bfinish_leave (v := { v with takeCurr := false }) (by show rewinds v.state = false; rw [hst]; rfl) rfl]
      simp only [hprev, hcat, htk, if_true]
    · intro hc
      refine ⟨?_, hin hc⟩
      rw [Bd_cons, C_snoc]
      refine bnd_closed (hd hc).1 ?_
      rw [Ctx.push, if_neg (by simp [hk])]
      simp [Ctx.open, hgood hc]
  | brk =>
    simp only [ha] at hgood
    refine ⟨P, x :: t :: T, none, by rw [hs]; simp, by simp, ?_, .inl rfl, ?_⟩
    · rw [bfinish_take (by rw [hst]; rfl) htc, hidx]
    · intro hc
      have hnl : isNl (wb x) = false := by
        have := hgood hc
        revert this; cases wb x <;> simp [bact, isNl]
      refine ⟨?_, ?_⟩
      · rw [Bd_cons, hns hc]
        exact bnd_loose (hgood hc) (hd hc).2
      · have := ext_inner (P := P) (x := x) (A := []) (ign_nil wb) hnl (by rw [List.append_nil]; exact hin hc) (by
          rw [List.append_nil, Bd_cons, C_snoc]
          exact bnd_ign (hd hc).1 (push_open _ _ hnl))
        simpa using this

/-- One step in a state that waits for a character. -/
theorem step_wait {wb : Nat → WB} {s P A : List Nat} {x t : Nat} {T : List Nat} {v : Bwd}
    (hs : s = (P ++ [x] ++ A) ++ t :: T) (hcat : v.cat = wb x) (hidx : v.idx = blen P) (hprev : v.previdx = blen (P ++ [x]))
    (htc : v.takeCurr = true) (hca : v.selfCatb = none) (hst : rewinds v.state = true) (hna : v.state ≠ .FormatExtend .AcceptNone)
    (hsave : v.saveidx = blen (P ++ [x] ++ A)) (hk : isIgn (wb x) = false)
    (hin : BwdClean (s.map wb) → ∀ t1 t2, t :: T = t1 ++ t2 → t1 ≠ [] → t2 ≠ [] → Bd wb ((P ++ [x] ++ A) ++ t1) t2 = false)
    (hd : BwdClean (s.map wb) → Desc wb (P ++ [x]) A t T v.state v.savestate) :
    ∃ r, bwdMatch wb s v = .ok r ∧ BStep wb s P r := by
  obtain ⟨n, hn, hodd⟩ := riBefore_spec wb (P ++ [x]) (A ++ t :: T)
  have hs1 : s = (P ++ [x]) ++ (A ++ t :: T) := by rw [hs]; simp
  rw [← hs1, ← hprev] at hn
  have hst' : v.state ≠ .Start := by intro e; rw [e] at hst; cases hst
  refine ⟨_, bwdMatch_act wb s v hst' n hn, ?_⟩
  rw [hcat]
  have hfacts := bact_facts (decide (n % 2 = 1)) v.state (wb x) hst'
  -- the cut is made
  have cut : (BwdClean (s.map wb) → Bd wb (P ++ [x] ++ A) (t :: T) = true) → BRes wb s v := fun hb =>
    ⟨P ++ [x] ++ A, t :: T, none, hs, by simp, by rw [finish_back hst, hsave], .inl rfl, fun hc => ⟨hb hc, hin hc⟩⟩
  cases hp : pending v.state with
  | some r =>
    -- `MidLetter` and the like: the character before decides
    have hact : bact (decide (n % 2 = 1)) v.state (wb x) =
        if resolves r (some (wb x)) then .goto (if wb x = .ALetter then .Letter else if wb x = .HebrewLetter then .HLetter else .Numeric) else .brk := by
      match hv : v.state with
      | .FormatExtend .RequireLetter => rw [hv] at hp; cases hp; cases wb x <;> simp [bact, resolves, optB, ahl]
      | .FormatExtend .RequireHLetter => rw [hv] at hp; cases hp; cases wb x <;> simp [bact, resolves]
      | .FormatExtend .RequireNumeric => rw [hv] at hp; cases hp; cases wb x <;> simp [bact, resolves]
      | .FormatExtend .AcceptAny => rw [hv] at hst; cases hst
      | .FormatExtend .AcceptNone => exact absurd hv hna
      | .FormatExtend .AcceptQLetter => rw [hv] at hp; cases hp
      | .Start => rw [hv] at hst; cases hst
      | .Letter => rw [hv] at hst; cases hst
      | .HLetter => rw [hv] at hst; cases hst
      | .Numeric => rw [hv] at hst; cases hst
      | .Katakana => rw [hv] at hst; cases hst
      | .ExtendNumLet => rw [hv] at hst; cases hst
      | .Zwj => rw [hv] at hst; cases hst
      | .Emoji => rw [hv] at hst; cases hst
      | .Regional _ => rw [hv] at hst; cases hst
    have hdesc : BwdClean (s.map wb) → ∃ J0 m J, A = J0 ++ m :: J ∧ Ign wb J0 ∧ Ign wb J ∧ isIgn (wb m) = false ∧ reqOK r (wb m) (wb t) = true := by
      intro hc
      have := hd hc
      rw [Desc, hp] at this
      exact this
    have hreq : ∀ m h, reqOK r m h = true → isNl m = false ∧ isIgn h = false := by
      intro m h hr
      cases r <;> simp only [reqOK, Bool.and_eq_true] at hr <;> first | (cases hr; done) | skip
      · obtain ⟨h1, h2⟩ := hr
        constructor
        · revert h1; cases m <;> simp [midL, isNl]
        · revert h2; cases h <;> simp [ahl, isIgn]
      · simp only [beq_iff_eq] at hr; rw [hr.1, hr.2]; exact ⟨rfl, rfl⟩
      · obtain ⟨h1, h2⟩ := hr
        constructor
        · revert h1; cases m <;> simp [midN, isNl]
        · simp only [beq_iff_eq] at h2; rw [h2]; rfl
    -- the boundary at the saved position
    have hcut : BwdClean (s.map wb) → Bd wb (P ++ [x] ++ A) (t :: T) = !resolves r (some (wb x)) := by
      intro hc
      obtain ⟨J0, m, J, rfl, j1, j2, j3, j4⟩ := hdesc hc
      have e : P ++ [x] ++ (J0 ++ m :: J) = (P ++ [x] ++ J0) ++ m :: J := by simp
      have hm := hreq _ _ j4
      rw [Bd_cons, e]
      obtain ⟨c1, c2⟩ := C_last wb (P ++ [x] ++ J0) m j3 hm.1 J j2
      rw [req_cut j4 c1, c2]
      have hl := link wb P x hk J0 j1
      have e2 : P ++ x :: J0 = P ++ [x] ++ J0 := by simp
      rw [e2] at hl
      by_cases hnl : isNl (wb x) = true
      · obtain ⟨_, e, h1, h2⟩ := hl.nl hnl
        rw [h1]
        congr 1
        have r1 : resolves r (some (wb x)) = false := by
          revert hnl; cases wb x <;> simp [isNl] <;> (cases r <;> simp [resolves, optB, ahl])
        rw [r1]
        revert h2; cases e <;> simp [isNl, isIgn] <;> (cases r <;> simp [resolves, optB, ahl])
      · rw [(hl.plain (by simpa using hnl)).1]
    by_cases hr : resolves r (some (wb x)) = true
    · rw [hact, if_pos hr] at hfacts ⊢
      have hnl : isNl (wb x) = false := by
        revert hr; cases wb x <;> simp [isNl] <;> (cases r <;> simp [resolves, optB, ahl])
      refine binv_goto (A := A) (x := x) (t := t) (T := T) hs hidx htc hca hfacts ?_ ?_
      · intro hc
        obtain ⟨J0, m, J, rfl, j1, j2, j3, j4⟩ := hdesc hc
        have hm := hreq _ _ j4
        have hb := hcut hc
        rw [hr, Bool.not_true] at hb
        have hl := (link wb P x hk J0 j1).plain hnl
        have e2 : P ++ x :: J0 = P ++ [x] ++ J0 := by simp
        rw [e2] at hl
        -- first the text from `m` on
        have i1 : ∀ t1 t2, m :: (J ++ t :: T) = t1 ++ t2 → t1 ≠ [] → t2 ≠ [] → Bd wb (((P ++ [x] ++ J0) ++ []) ++ t1) t2 = false := by
          refine ext_inner j2 hm.1 ?_ ?_
          · have := hin hc; simpa using this
          · simpa using hb
        have i2 : ∀ t1 t2, x :: (J0 ++ m :: (J ++ t :: T)) = t1 ++ t2 → t1 ≠ [] → t2 ≠ [] → Bd wb ((P ++ []) ++ t1) t2 = false := by
          refine ext_inner j1 hnl ?_ ?_
          · intro t1 t2 h1 h2 h3
            have := i1 t1 t2 h1 h2 h3
            rwa [List.append_nil] at this
          · rw [Bd_cons, NS_sig j2 hm.2]
            exact req_join j4 (by rw [hl.1]; exact hr)
        simpa using i2
      · intro hc
        have : ∀ (p : Ctx) ns, D (if wb x = .ALetter then .Letter else if wb x = .HebrewLetter then .HLetter else .Numeric) p (wb x) ns = true := by
          intro p ns
          revert hr
          cases r <;> simp only [resolves, optB] <;> (cases wb x <;> simp [ahl, D])
        exact this _ _
    · rw [hact, if_neg hr]
      refine cut (fun hc => ?_)
      rw [hcut hc]; simpa using hr
  | none =>
    have hv : v.state = .FormatExtend .AcceptQLetter := by
      match hv : v.state with
      | .FormatExtend .AcceptQLetter => rfl
      | .FormatExtend .AcceptNone => exact absurd hv hna
      | .FormatExtend .AcceptAny => rw [hv] at hst; cases hst
      | .FormatExtend .RequireLetter => rw [hv] at hp; cases hp
      | .FormatExtend .RequireHLetter => rw [hv] at hp; cases hp
      | .FormatExtend .RequireNumeric => rw [hv] at hp; cases hp
      | .Start => rw [hv] at hst; cases hst
      | .Letter => rw [hv] at hst; cases hst
      | .HLetter => rw [hv] at hst; cases hst
      | .Numeric => rw [hv] at hst; cases hst
      | .Katakana => rw [hv] at hst; cases hst
      | .ExtendNumLet => rw [hv] at hst; cases hst
      | .Zwj => rw [hv] at hst; cases hst
      | .Emoji => rw [hv] at hst; cases hst
      | .Regional _ => rw [hv] at hst; cases hst
    have hact : bact (decide (n % 2 = 1)) v.state (wb x) = if wb x = .HebrewLetter then .goto .HLetter else .brk := by
      rw [hv]; cases wb x <;> rfl
    have hdesc : BwdClean (s.map wb) → Ign wb A ∧ wb t = .SingleQuote ∧ nsOK (NS wb T) = true := by
      intro hc
      have := (desc_plain hp hna).mp (hd hc)
      rw [hv] at this
      refine ⟨this.1, ?_⟩
      have h2 := this.2
      simp only [D, Bool.and_eq_true, beq_iff_eq] at h2
      exact h2
    have hl : BwdClean (s.map wb) → Link (C wb P) (C wb (P ++ [x] ++ A)) (wb x) := by
      intro hc
      have := link wb P x hk A (hdesc hc).1
      rwa [show P ++ x :: A = P ++ [x] ++ A by simp] at this
    by_cases hr : wb x = .HebrewLetter
    · rw [hact, if_pos hr] at hfacts ⊢
      refine binv_goto (A := A) (x := x) (t := t) (T := T) hs hidx htc hca hfacts ?_ ?_
      · intro hc
        refine ext_inner (hdesc hc).1 (by rw [hr]; rfl) (hin hc) ?_
        rw [Bd_cons, (hdesc hc).2.1]
        refine bnd_quote_join ?_
        rw [((hl hc).plain (by rw [hr]; rfl)).1, hr]
      · intro hc
        rw [hr]; rfl
    · rw [hact, if_neg hr]
      refine cut (fun hc => ?_)
      rw [Bd_cons, (hdesc hc).2.1]
      refine bnd_quote (hdesc hc).2.2 ?_
      by_cases hnl : isNl (wb x) = true
      · obtain ⟨_, e, h1, h2⟩ := (hl hc).nl hnl
        rw [h1]
        intro h; cases h; cases h2
      · rw [((hl hc).plain (by simpa using hnl)).1]
        intro h; exact hr (by simpa using h)

theorem folds_plain {st : Word.State} (h : st.folds = true) : rewinds st = false ∧ pending st = none ∧ st ≠ .FormatExtend .AcceptNone ∧ st ≠ .Start := by
  cases st with
  | FormatExtend _ => cases h
  | Start => cases h
  | _ => exact ⟨rfl, rfl, (by intro e; cases e), (by intro e; cases e)⟩

/-- A skipped character. -/
theorem step_ign {wb : Nat → WB} {s P A : List Nat} {x t : Nat} {T : List Nat} {v w : Bwd} (h : BInv wb s (P ++ [x]) A t T v)
    (hw : w = { v with previdx := v.idx, idx := blen P, cat := wb x, selfCatb := none, takeCat := true })
    (hig : isIgn (wb x) = true) (hz : wb x = .ZWJ → v.state ≠ .Zwj) :
    w.fold.state ≠ .Start ∧ ∃ A t T, BInv wb s P A t T w.fold := by
  subst hw
  by_cases hf : v.state.folds = true
  · obtain ⟨f1, f2, f3, f4⟩ := folds_plain hf
    have hA := h.plainA f1
    subst hA
    rw [Bwd.fold, if_pos hf]
    refine ⟨(by intro e; cases e), [x], t, T, ?_⟩
    exact {
      split := by rw [h.split]; simp
      idx := rfl
      tc := h.tc
      cache := rfl
      ns := by intro e; cases e
      plainA := fun h => by cases h
      save := fun _ => h.idx
      fold := fun _ => hf
      inner := fun hc => by simpa using h.inner hc
      desc := fun hc => by
        have hd := (desc_plain f2 f3).mp (h.desc hc)
        rw [List.append_nil] at hd
        show _ ∧ _
        refine ⟨fun i hi => by rw [List.mem_singleton.mp hi]; exact hig, by simp, hd.2, ?_⟩
        intro e
        rw [C_z]
        have : wb x ≠ .ZWJ := fun k => hz k e
        simpa using this }
  · rw [Bwd.fold, if_neg hf]
    refine ⟨h.ns, ?_⟩
    by_cases hr : rewinds v.state = true
    · refine ⟨x :: A, t, T, ?_⟩
      exact {
        split := by rw [h.split]; simp
        idx := rfl
        tc := h.tc
        cache := rfl
        ns := h.ns
        plainA := fun h => by rw [hr] at h; cases h
        save := fun _ => by
          show v.saveidx = _
          rw [h.save hr]; simp
        fold := h.fold
        inner := fun hc => by simpa using h.inner hc
        desc := fun hc => by
          have hd := h.desc hc
          show Desc wb P (x :: A) t T v.state v.savestate
          have e : P ++ x :: A = P ++ [x] ++ A := by simp
          have hig' : ∀ B, Ign wb B → Ign wb (x :: B) := by
            intro B hB i hi
            rcases List.mem_cons.mp hi with rfl | hi
            · exact hig
            · exact hB i hi
          rw [Desc] at hd ⊢
          rw [e]
          cases hp : pending v.state with
          | some r =>
            rw [hp] at hd
            obtain ⟨J0, m, J, rfl, j1, j2⟩ := hd
            exact ⟨x :: J0, m, J, rfl, hig' _ j1, j2⟩
          | none =>
            rw [hp] at hd
            simp only at hd ⊢
            split
            · rename_i hn
              rw [if_pos hn] at hd
              exact ⟨hig' _ hd.1, by simp, hd.2.2⟩
            · rename_i hn
              rw [if_neg hn] at hd
              exact ⟨hig' _ hd.1, hd.2⟩ }
    · -- anything is accepted
      have hr' : rewinds v.state = false := by simpa using hr
      have hA := h.plainA hr'
      subst hA
      have hst : v.state = .FormatExtend .AcceptAny := by
        match hv : v.state with
        | .FormatExtend .AcceptAny => rfl
        | .FormatExtend .AcceptNone => rw [hv] at hr'; cases hr'
        | .FormatExtend .AcceptQLetter => rw [hv] at hr'; cases hr'
        | .FormatExtend .RequireLetter => rw [hv] at hr'; cases hr'
        | .FormatExtend .RequireHLetter => rw [hv] at hr'; cases hr'
        | .FormatExtend .RequireNumeric => rw [hv] at hr'; cases hr'
        | .Start => exact absurd hv h.ns
        | .Letter => rw [hv] at hf; exact absurd rfl hf
        | .HLetter => rw [hv] at hf; exact absurd rfl hf
        | .Numeric => rw [hv] at hf; exact absurd rfl hf
        | .Katakana => rw [hv] at hf; exact absurd rfl hf
        | .ExtendNumLet => rw [hv] at hf; exact absurd rfl hf
        | .Zwj => rw [hv] at hf; exact absurd rfl hf
        | .Emoji => rw [hv] at hf; exact absurd rfl hf
        | .Regional _ => rw [hv] at hf; exact absurd rfl hf
      have hd : BwdClean (s.map wb) → isIgn (wb t) = true ∧ nsOK (NS wb T) = true := by
        intro hc
        have := h.desc hc
        rw [hst] at this
        have h2 := ((desc_plain rfl (by intro e; cases e)).mp this).2
        simpa [D] using h2
      refine ⟨[], x, t :: T, ?_⟩
      exact {
        split := by rw [h.split]; simp
        idx := rfl
        tc := h.tc
        cache := rfl
        ns := h.ns
        plainA := fun _ => rfl
        save := fun h => by rw [hr'] at h; cases h
        fold := h.fold
        inner := fun hc => by
          refine ext_inner (A := []) (ign_nil wb) (by revert hig; cases wb x <;> simp [isIgn, isNl]) (h.inner hc) ?_
          rw [List.append_nil, Bd_cons, C_snoc]
          exact bnd_ign (hd hc).1 (push_ign_open _ _ hig)
        desc := fun hc => by
          show Desc wb P [] x (t :: T) v.state v.savestate
          rw [hst]
          refine (desc_plain rfl (by intro e; cases e)).mpr ⟨ign_nil wb, ?_⟩
          rw [NS_cons, if_pos (hd hc).1]
          simp [D, hig, (hd hc).2] }

theorem bwd_body {wb : Nat → WB} {s P A : List Nat} {x t : Nat} {T : List Nat} {v : Bwd} (h : BInv wb s (P ++ [x]) A t T v) :
    ∃ r, bwdBody wb s { v with previdx := v.idx, idx := blen P, cat := wb x, selfCatb := none, takeCat := true } = .ok r ∧ BStep wb s P r := by
  by_cases hi : bwdIgn { v with previdx := v.idx, idx := blen P, cat := wb x, selfCatb := none, takeCat := true } = true
  · have hig : isIgn (wb x) = true ∧ (wb x = .ZWJ → v.state ≠ .Zwj) := by
      simp only [bwdIgn, Bool.or_eq_true, Bool.and_eq_true, beq_iff_eq, bne_iff_ne] at hi
      rcases hi with (h | h) | ⟨h, h'⟩
      · rw [h]; exact ⟨rfl, fun e => by cases e⟩
      · rw [h]; exact ⟨rfl, fun e => by cases e⟩
      · rw [h]; exact ⟨rfl, fun _ => h'⟩
    obtain ⟨h1, h2⟩ := step_ign h rfl hig.1 hig.2
    rw [bwdBody, if_pos hi, if_pos h1]
    exact ⟨_, rfl, h2⟩
  · have hig : isIgn (wb x) = true → wb x = .ZWJ ∧ v.state = .Zwj := by
      intro hg
      simp only [bwdIgn, Bool.or_eq_true, Bool.and_eq_true, beq_iff_eq, bne_iff_ne, not_or, not_and, ne_eq, Decidable.not_not] at hi
      obtain ⟨⟨i1, i2⟩, i3⟩ := hi
      have hz : wb x = .ZWJ := by revert hg i1 i2; cases wb x <;> simp [isIgn]
      exact ⟨hz, i3 hz⟩
    rw [bwdBody, if_neg hi]
    by_cases hn : v.state = .FormatExtend .AcceptNone
    · rw [if_pos hn]
      have hx : isIgn (wb x) = false := by
        cases hg : isIgn (wb x) with
        | false => rfl
        | true => have := (hig hg).2; rw [hn] at this; cases this
      have hsave := h.save (by rw [hn]; rfl)
      refine step_fold (A := A) (t := t) (T := T) h.split rfl rfl hsave h.tc rfl (h.fold hn) (fun e => by cases e) (fun e => by rw [hx] at e; cases e) h.inner ?_
      intro hc
      have := h.desc hc
      rw [hn] at this
      simp only [Desc, pending, if_true] at this
      exact ⟨this.1, this.2.2.1, fun _ => this.2.2.2⟩
    · rw [if_neg hn]
      by_cases hf : v.state.folds = true
      · obtain ⟨f1, f2, f3, f4⟩ := folds_plain hf
        have hA := h.plainA f1
        subst hA
        refine step_fold (A := []) (t := t) (T := T) h.split rfl rfl (by rw [List.append_nil]; exact h.idx) h.tc rfl hf (fun _ => rfl) (fun e => ⟨(hig e).1, (hig e).2, rfl⟩) h.inner ?_
        intro hc
        have := (desc_plain f2 f3).mp (h.desc hc)
        refine ⟨this.1, this.2, ?_⟩
        intro hg _
        rw [List.append_nil, C_z]
        revert hg; cases wb x <;> simp [isIgn]
      · have hx : isIgn (wb x) = false := by
          cases hg : isIgn (wb x) with
          | false => rfl
          | true => have := (hig hg).2; rw [this] at hf; exact absurd rfl hf
        by_cases hr : rewinds v.state = true
        · exact step_wait (A := A) (t := t) (T := T) h.split rfl rfl h.idx h.tc rfl hr hn (h.save hr) hx h.inner h.desc
        · have hr' : rewinds v.state = false := by simpa using hr
          have hA := h.plainA hr'
          subst hA
          have hst : v.state = .FormatExtend .AcceptAny := by
            match hv : v.state with
            | .FormatExtend .AcceptAny => rfl
            | .FormatExtend .AcceptNone => rw [hv] at hr'; cases hr'
            | .FormatExtend .AcceptQLetter => rw [hv] at hr'; cases hr'
            | .FormatExtend .RequireLetter => rw [hv] at hr'; cases hr'
            | .FormatExtend .RequireHLetter => rw [hv] at hr'; cases hr'
            | .FormatExtend .RequireNumeric => rw [hv] at hr'; cases hr'
            | .Start => exact absurd hv h.ns
            | .Letter => rw [hv] at hf; exact absurd rfl hf
            | .HLetter => rw [hv] at hf; exact absurd rfl hf
            | .Numeric => rw [hv] at hf; exact absurd rfl hf
            | .Katakana => rw [hv] at hf; exact absurd rfl hf
            | .ExtendNumLet => rw [hv] at hf; exact absurd rfl hf
            | .Zwj => rw [hv] at hf; exact absurd rfl hf
            | .Emoji => rw [hv] at hf; exact absurd rfl hf
            | .Regional _ => rw [hv] at hf; exact absurd rfl hf
          have hs : s = (P ++ [x]) ++ t :: T := by have := h.split; rwa [List.append_nil] at this
          refine step_any (t := t) (T := T) hs rfl rfl h.idx h.tc rfl hst rfl hx (fun hc => by simpa using h.inner hc) ?_
          intro hc
          have := h.desc hc
          rw [hst] at this
          have h2 := ((desc_plain rfl (by intro e; cases e)).mp this).2
          simpa [D] using h2

/-- the start of the text is reached -/
theorem bwd_end {wb : Nat → WB} {s A : List Nat} {t : Nat} {T : List Nat} {v : Bwd} (h : BInv wb s [] A t T v) : BRes wb s v := by
  by_cases hr : rewinds v.state = true
  · refine ⟨A, t :: T, none, by simpa using h.split, by simp, by rw [finish_back hr, h.save hr]; simp, .inl rfl, ?_⟩
    intro hc
    refine ⟨?_, by simpa using h.inner hc⟩
    rw [Bd_cons]
    have hd := h.desc hc
    rw [Desc, List.nil_append] at hd
    cases hp : pending v.state with
    | some r =>
      rw [hp] at hd
      obtain ⟨J0, m, J, rfl, j1, j2, j3, j4⟩ := hd
      have hm : isNl (wb m) = false := by
        cases r <;> simp only [reqOK, Bool.and_eq_true] at j4 <;> first | (cases j4; done) | skip
        · revert j4; cases wb m <;> simp [midL, isNl]
        · simp only [beq_iff_eq] at j4; rw [j4.1]; rfl
        · revert j4; cases wb m <;> simp [midN, isNl]
      obtain ⟨c1, c2⟩ := C_last wb J0 m j3 hm J j2
      rw [req_cut j4 c1, c2]
      rcases (C_ign wb J0 j1).2.1 with e | e
      · rw [e]; cases r <;> rfl
      · obtain ⟨k, e1, e2⟩ := (optB_iff _ _).mp e
        rw [e1]; cases k <;> first | (cases e2; done) | (cases r <;> rfl)
    | none =>
      rw [hp] at hd
      simp only at hd
      by_cases hn : v.state = .FormatExtend .AcceptNone
      · rw [if_pos hn] at hd
        obtain ⟨d1, d2, d3, d4⟩ := hd
        obtain ⟨c1, _, c3⟩ := C_ign wb A d1
        exact bnd_free d3 (h.fold hn) (c3 d2) c1 d4
      · rw [if_neg hn] at hd
        have hv : D v.state (C wb A) (wb t) (NS wb T) = true → wb t = .SingleQuote ∧ nsOK (NS wb T) = true := by
          match hv : v.state with
          | .FormatExtend .AcceptQLetter => intro h; simpa [D] using h
          | .FormatExtend .AcceptNone => exact absurd hv hn
          | .FormatExtend .AcceptAny => rw [hv] at hr; cases hr
          | .FormatExtend .RequireLetter => rw [hv] at hp; cases hp
          | .FormatExtend .RequireHLetter => rw [hv] at hp; cases hp
          | .FormatExtend .RequireNumeric => rw [hv] at hp; cases hp
          | .Start => rw [hv] at hr; cases hr
          | .Letter => rw [hv] at hr; cases hr
          | .HLetter => rw [hv] at hr; cases hr
          | .Numeric => rw [hv] at hr; cases hr
          | .Katakana => rw [hv] at hr; cases hr
          | .ExtendNumLet => rw [hv] at hr; cases hr
          | .Zwj => rw [hv] at hr; cases hr
          | .Emoji => rw [hv] at hr; cases hr
          | .Regional _ => rw [hv] at hr; cases hr
        obtain ⟨q1, q2⟩ := hv hd.2
        rw [q1]
        refine bnd_quote q2 ?_
        rcases (C_ign wb A hd.1).2.1 with e | e
        · rw [e]; intro h; cases h
        · intro e'; rw [e'] at e; cases e
  · have hr' : rewinds v.state = false := by simpa using hr
    have hA := h.plainA hr'
    subst hA
    refine ⟨[], t :: T, none, by simpa using h.split, by simp, by rw [bfinish_take hr' h.tc, h.idx], .inl rfl, ?_⟩
    intro hc
    exact ⟨rfl, by simpa using h.inner hc⟩

theorem bwd_loop (wb : Nat → WB) (s : List Nat) (rest : List Nat) : ∀ (A : List Nat) (t : Nat) (T : List Nat) (v : Bwd),
    BInv wb s rest.reverse A t T v → ∃ v', bwdLoop wb s rest (blen rest.reverse) v = .ok v' ∧ BRes wb s v' := by
  induction rest with
  | nil => intro A t T v h; exact ⟨v, rfl, bwd_end h⟩
  | cons x rest ih =>
    intro A t T v h
    rw [List.reverse_cons] at h ⊢
    obtain ⟨r, h1, h2⟩ := bwd_body h
    have hl : blen (rest.reverse ++ [x]) - Utf.lenUtf8 x = blen rest.reverse := by
      rw [blen_append, blen_cons, blen_nil]; omega
    rw [bwdLoop, hl, h.cache]
    have hg : (none : Option WB).getD (wb x) = wb x := rfl
    rw [hg, h1, bind_ok]
    cases r with
    | brk v' => exact ⟨v', rfl, h2⟩
    | cont v' =>
      obtain ⟨A', t', T', h3⟩ := h2
      exact ih A' t' T' v' h3

theorem getPrevCat_snoc (wb : Nat → WB) (P : List Nat) (w : List Nat) :
    getPrevCat wb (P ++ w) (blen P) = .ok ((P.map wb).getLast?) := by
  rw [getPrevCat]
  rcases List.eq_nil_or_concat P with rfl | ⟨Pi, l, rfl⟩
  · rfl
  · rw [List.concat_eq_append]
    have : 0 < blen (Pi ++ [l]) := by
      have := blen_pos l []
      rw [blen_append]; omega
    rw [if_pos this, sliceTo_append, bind_ok, lastChar, List.reverse_append]
    simp [firstChar, bind_ok, pure_eq]

theorem C_cr (wb : Nat → WB) (P : List Nat) (k : WB) (hk : isNl k = true) (h : (C wb P).e1 = some k) : (P.map wb).getLast? = some k := by
  rcases List.eq_nil_or_concat P with rfl | ⟨Pi, l, rfl⟩
  · cases h
  · rw [List.concat_eq_append] at h ⊢
    rw [C_snoc, Ctx.push] at h
    split at h
    · rename_i ho
      simp only [Bool.and_eq_true] at ho
      have h' : (C wb Pi).e1 = some k := h
      have := ho.2
      rw [Ctx.open, h'] at this
      simp [hk] at this
    · simpa using h

theorem last_one {wb : Nat → WB} {P : List Nat} {x : Nat} (h : Bd wb P [x] = true) : Last wb P [x] := by
  refine ⟨h, ?_⟩
  intro u1 u2 he h1 h2
  have := congrArg List.length he
  simp only [List.length_append, List.length_cons, List.length_nil] at this
  have p1 := List.length_pos_iff.mpr h1
  have p2 := List.length_pos_iff.mpr h2
  omega

/-- the local variables at the last character -/
def b0 (i : Nat) (k : WB) : Bwd :=
  { takeCurr := true, takeCat := true, idx := i, previdx := i, saveidx := i, state := .Start, savestate := .Start, cat := k, selfCatb := none }

theorem bstart_goto {wb : Nat → WB} {P : List Nat} {x : Nat} {k : WB} (hx : wb x = k) (st : Word.State) (hf : (BAct.goto st).facts .Start = true)
    (hd : D st (C wb P) k none = true) : BStep wb (P ++ [x]) P (.cont { b0 (blen P) k with state := st }) := by
  subst hx
  simp only [BAct.facts, Bool.and_eq_true, Bool.not_eq_true', bne_iff_ne, Option.isNone_iff_eq_none] at hf
  obtain ⟨⟨⟨f1, f2⟩, f3⟩, f4⟩ := hf
  refine ⟨[], x, [], ?_⟩
  exact {
    split := by simp
    idx := rfl
    tc := rfl
    cache := rfl
    ns := f2
    plainA := fun _ => rfl
    save := fun h => by rw [f1] at h; cases h
    fold := fun h => absurd h f3
    inner := fun _ t1 t2 he h1 h2 => by
      have := congrArg List.length he
      simp only [List.length_append, List.length_cons, List.length_nil] at this
      have p1 := List.length_pos_iff.mpr h1
      have p2 := List.length_pos_iff.mpr h2
      omega
    desc := fun _ => (desc_plain f4 f3).mpr ⟨ign_nil wb, by rw [List.append_nil]; exact hd⟩ }

theorem bstart_brk {wb : Nat → WB} {P : List Nat} {x : Nat} {k : WB} (hb : Bd wb P [x] = true) : BStep wb (P ++ [x]) P (.brk (b0 (blen P) k)) :=
  ⟨P, [x], none, rfl, by simp, rfl, .inl rfl, fun _ => last_one hb⟩

theorem bnd_nl_right (c : Ctx) (b : WB) (n : Option WB) (h : isNl b = true) (h' : b = .LF → c.e1 ≠ some .CR) : bnd c b n = true := by
  rcases c with ⟨e1, e2, odd, z⟩
  cases e1 with
  | none => rfl
  | some e => revert h h'; cases b <;> cases e <;> simp [isNl, bnd, wb_beq, opt_beq]

theorem bwd_first (wb : Nat → WB) (hcr : CrOneByte wb) (P : List Nat) (x : Nat) :
    ∃ r, bwdBody wb (P ++ [x]) (b0 (blen P) (wb x)) = .ok r ∧ BStep wb (P ++ [x]) P r := by
  have hbody : bwdBody wb (P ++ [x]) (b0 (blen P) (wb x)) = bwdStart wb (P ++ [x]) (b0 (blen P) (wb x)) := by
    rw [bwdBody]
    split
    · have : ¬ ((b0 (blen P) (wb x)).fold.state ≠ .Start) := fun h => h rfl
      rw [if_neg this]; rfl
    · rw [if_neg (by intro e; cases e)]; rfl
  rw [hbody]
  cases hx : wb x with
  | LF =>
    have hr : bwdStart wb (P ++ [x]) (b0 (blen P) .LF) = (do return bwdLF (b0 (blen P) .LF) (← getPrevCat wb (P ++ [x]) (blen P))) := rfl
    rw [hr, getPrevCat_snoc, bind_ok, pure_eq]
    refine ⟨_, rfl, ?_⟩
    by_cases hl : (P.map wb).getLast? = some .CR
    · rw [hl]
      rcases List.eq_nil_or_concat P with rfl | ⟨Pi, l, rfl⟩
      · cases hl
      · rw [List.concat_eq_append] at hl ⊢
        have hl' : wb l = .CR := by simpa using hl
        have h1 := hcr l hl'
        refine ⟨Pi, [l, x], none, by simp, by simp, ?_, .inl rfl, fun _ => ⟨?_, ?_⟩⟩
        · show (blen (Pi ++ [l]) - 1, none) = _
          rw [blen_append, blen_cons, blen_nil, h1]; simp
        · rw [Bd_cons, hl']; exact bnd_nl_right _ _ _ rfl (fun h => by cases h)
        · intro u1 u2 he h1 h2
          have hl := congrArg List.length he
          simp only [List.length_append, List.length_cons, List.length_nil] at hl
          have p1 := List.length_pos_iff.mpr h1
          have p2 := List.length_pos_iff.mpr h2
          obtain ⟨a, rfl⟩ := List.length_eq_one_iff.mp (by omega : u1.length = 1)
          obtain ⟨b, rfl⟩ := List.length_eq_one_iff.mp (by omega : u2.length = 1)
          cases he
          rw [Bd_cons, C_snoc, hl', hx, Ctx.push, if_neg (by simp [isIgn])]; rfl
    · have : bwdLF (b0 (blen P) .LF) ((P.map wb).getLast?) = .brk (b0 (blen P) .LF) := by
        cases hg : (P.map wb).getLast? with
        | none => rfl
        | some k => rw [hg] at hl; cases k <;> first | rfl | exact absurd rfl hl
      rw [this]
      refine bstart_brk ?_
      rw [Bd_cons, hx]
      exact bnd_nl_right _ _ _ rfl (fun _ he => hl (C_cr wb P .CR rfl he))
  | CR => exact ⟨_, rfl, bstart_brk (by rw [Bd_cons, hx]; exact bnd_nl_right _ _ _ rfl (fun h => by cases h))⟩
  | Newline => exact ⟨_, rfl, bstart_brk (by rw [Bd_cons, hx]; exact bnd_nl_right _ _ _ rfl (fun h => by cases h))⟩
  | SingleQuote =>
    refine ⟨_, rfl, [], x, [], ?_⟩
    exact {
      split := by simp
      idx := rfl
      tc := rfl
      cache := rfl
      ns := by intro e; cases e
      plainA := fun _ => rfl
      save := fun _ => by rw [List.append_nil]; rfl
      fold := fun h => by cases h
      inner := fun _ t1 t2 he h1 h2 => by
        have := congrArg List.length he
        simp only [List.length_append, List.length_cons, List.length_nil] at this
        have p1 := List.length_pos_iff.mpr h1
        have p2 := List.length_pos_iff.mpr h2
        omega
      desc := fun _ => (desc_plain rfl (by intro e; cases e)).mpr ⟨ign_nil wb, by rw [hx]; rfl⟩ }
  | ALetter => exact ⟨_, rfl, bstart_goto hx (.Letter) rfl rfl⟩
  | HebrewLetter => exact ⟨_, rfl, bstart_goto hx (.HLetter) rfl rfl⟩
  | Numeric => exact ⟨_, rfl, bstart_goto hx (.Numeric) rfl rfl⟩
  | Katakana => exact ⟨_, rfl, bstart_goto hx (.Katakana) rfl rfl⟩
  | ExtendNumLet => exact ⟨_, rfl, bstart_goto hx (.ExtendNumLet) rfl rfl⟩
  | RegionalIndicator => exact ⟨_, rfl, bstart_goto hx (.Regional .Unknown) rfl rfl⟩
  | GlueAfterZwj => exact ⟨_, rfl, bstart_goto hx (.Zwj) rfl rfl⟩
  | EBaseGAZ => exact ⟨_, rfl, bstart_goto hx (.Zwj) rfl rfl⟩
  | EModifier => exact ⟨_, rfl, bstart_goto hx (.Emoji) rfl rfl⟩
  | Extend => exact ⟨_, rfl, bstart_goto hx (.FormatExtend .AcceptAny) rfl rfl⟩
  | Format => exact ⟨_, rfl, bstart_goto hx (.FormatExtend .AcceptAny) rfl rfl⟩
  | ZWJ => exact ⟨_, rfl, bstart_goto hx (.FormatExtend .AcceptAny) rfl rfl⟩
  | _ => exact ⟨_, rfl, bstart_brk (by rw [Bd_cons, hx]; exact bnd_loose rfl rfl)⟩

/-- the cache of the class of the last character -/
def CacheB (wb : Nat → WB) (b : WordBounds) : Prop := b.catb = none ∨ ∃ u y, b.string = u ++ [y] ∧ b.catb = some (wb y)

/-- `next_back` on a non-empty text -/
theorem nextBack_spec (wb : Nat → WB) (hcr : CrOneByte wb) (b : WordBounds) (hs : b.string ≠ []) (hc : CacheB wb b) :
    ∃ u w cat, b.string = u ++ w ∧ w ≠ [] ∧ b.nextBack wb = .ok ({ b with string := u, catb := cat }, some w) ∧
      CacheB wb { b with string := u, catb := cat } ∧ (BwdClean (b.string.map wb) → Last wb u w) := by
  rcases b with ⟨s, cat, catb⟩
  simp only at hs hc ⊢
  rcases List.eq_nil_or_concat s with rfl | ⟨P, x, rfl⟩
  · exact absurd rfl hs
  rw [List.concat_eq_append] at *
  have hcat : catb.getD (wb x) = wb x := by
    rcases hc with h | ⟨u, y, h1, h2⟩
    · simp only at h; rw [h]; rfl
    · simp only at h1 h2
      have := (List.append_inj' h1 rfl).2
      cases this
      rw [h2]; rfl
  have hl : blen (P ++ [x]) - Utf.lenUtf8 x = blen P := by rw [blen_append, blen_cons, blen_nil]; omega
  have hlast : lastChar (P ++ [x]) = .ok x := by simp [lastChar, firstChar]
  have hloop : ∃ v', bwdLoop wb (P ++ [x]) (P ++ [x]).reverse (blen (P ++ [x])) (Bwd.init (blen P) catb) = .ok v' ∧ BRes wb (P ++ [x]) v' := by
    rw [List.reverse_append, List.reverse_singleton, List.singleton_append, bwdLoop, hl]
    obtain ⟨r, h1, h2⟩ := bwd_first wb hcr P x
    have hv : ({ Bwd.init (blen P) catb with previdx := (Bwd.init (blen P) catb).idx, idx := blen P, cat := (Bwd.init (blen P) catb).selfCatb.getD (wb x), selfCatb := none, takeCat := true } : Bwd) = b0 (blen P) (wb x) := by
      simp only [Bwd.init, b0, hcat]
    rw [hv, h1, bind_ok]
    cases r with
    | brk v' => exact ⟨v', rfl, h2⟩
    | cont v' =>
      obtain ⟨A, t, T, h3⟩ := h2
      have := bwd_loop wb (P ++ [x]) P.reverse A t T v' (by rw [List.reverse_reverse]; exact h3)
      rwa [List.reverse_reverse] at this
  obtain ⟨v', hv, u, w, cat', hsp, hw, hf, hcache, hla⟩ := hloop
  refine ⟨u, w, cat', hsp, hw, ?_, hcache, hla⟩
  have e1 : sliceTo (P ++ [x]) (blen u) = .ok u := by rw [hsp]; exact sliceTo_append u w
  have e2 : sliceFrom (P ++ [x]) (blen u) = .ok w := by rw [hsp]; exact sliceFrom_append u w
  rw [WordBounds.nextBack]
  simp only
  rw [if_neg hs, hlast, bind_ok, hl, hv, bind_ok, hf]
  simp only [e1, e2, bind_ok, pure_eq]

end Proofs.Word
