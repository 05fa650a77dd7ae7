import Verif.Proofs.WordSeg

/-! What `next` and `next_back` of the word iterator cut off, for every text, as functions of the classes alone. -/
namespace Proofs.Word
open Data Spec.Segment Model Model.Word Model.Grapheme Proofs.Grapheme Proofs.Punycode

/-! ### forward -/

/-- the forward scan after `n` characters: the number of characters of the piece -/
def scanF : List WB → Nat → Nat → Bool → Word.State → Nat
  | [], n, sv, _, st => if (pending st).isSome then sv else n
  | x :: r, n, sv, z, st =>
    match act z st x with
    | .stay => scanF r (n + 1) sv (decide (x = .ZWJ)) st
    | .goto st' => scanF r (n + 1) sv (decide (x = .ZWJ)) st'
    | .save t => scanF r (n + 1) n (decide (x = .ZWJ)) (.FormatExtend t)
    | .leave => n
    | .leaveNC => n
    | .brk => sv

/-- the state after the first character, if it has one of its own -/
def startF : WB → Option Word.State
  | .ALetter => some .Letter
  | .HebrewLetter => some .HLetter
  | .Numeric => some .Numeric
  | .Katakana => some .Katakana
  | .ExtendNumLet => some .ExtendNumLet
  | .RegionalIndicator => some (.Regional .Half)
  | .ZWJ => some .Zwj
  | .EBase => some .Emoji
  | .EBaseGAZ => some .Emoji
  | _ => none

/-- the number of characters of the first piece -/
def cutF : List WB → Nat
  | [] => 0
  | x :: r =>
    if x = .CR then if r.head? = some .LF then 2 else 1
    else if isNl x then 1
    else match startF x with
      | some st => scanF r 1 0 (decide (x = .ZWJ)) st
      | none => if optB isIgn r.head? then scanF r 1 0 false (.FormatExtend .AcceptNone) else 1

/-- the loop after `M`, with `R` to come and `sv` characters before the saved position -/
structure FSim (wb : Nat → WB) (s M R : List Nat) (sv : Nat) (v : Fwd) : Prop where
  split : s = M ++ R
  last : ∃ Mi x, M = Mi ++ [x] ∧ v.idx = blen Mi ∧ v.cat = wb x
  tc : v.takeCurr = true
  cache : v.selfCat = none ∨ ∃ y R', R = y :: R' ∧ v.selfCat = some (wb y)
  ok : okState v.state = true
  save : ∃ u w, s = u ++ w ∧ v.saveidx = blen u ∧ u.length = sv

/-- the loop ends with a piece of `n` characters -/
def FCut (s : List Nat) (v : Fwd) (n : Nat) : Prop :=
  ∃ u w cat, s = u ++ w ∧ fwdFinish s (fwdRewind v) = .ok (blen u, cat) ∧ u.length = n

theorem fcut_saved {wb : Nat → WB} {s M R : List Nat} {sv : Nat} {v v' : Fwd} (h : FSim wb s M R sv v) (hi : v'.saveidx = v.saveidx)
    (hp : (pending v'.state).isSome = true) : FCut s v' sv := by
  obtain ⟨t, ht⟩ := Option.isSome_iff_exists.mp hp
  obtain ⟨u, w, h1, h2, h3⟩ := h.save
  refine ⟨u, w, if v'.takeCat then some v'.savecat else none, h1, ?_, h3⟩
  rw [rewind_pend ht, finish_leave _ _ rfl]
  simp only [hi, h2]

theorem fwd_cut (wb : Nat → WB) (s : List Nat) (R : List Nat) : ∀ (M : List Nat) (sv : Nat) (v : Fwd), FSim wb s M R sv v →
    ∃ v', fwdLoop wb s R (blen M) v = .ok v' ∧ FCut s v' (scanF (R.map wb) M.length sv (decide (v.cat = .ZWJ)) v.state) := by
  induction R with
  | nil =>
    intro M sv v h
    refine ⟨v, rfl, ?_⟩
    have hs : s = M := by simpa using h.split
    show FCut s v (if (pending v.state).isSome then sv else M.length)
    split
    · rename_i hp; exact fcut_saved h rfl hp
    · rename_i hp
      obtain ⟨Mi, x, hM, hi, _⟩ := h.last
      refine ⟨M, [], none, by simpa using hs, ?_, rfl⟩
      rw [rewind_plain (by simpa using hp), finish_take s Mi [] x v (by rw [hs, hM]) h.tc hi, hM]
  | cons x R ih =>
    intro M sv v h
    obtain ⟨Mi, l, hM, hi, hcat⟩ := h.last
    have hcache : v.selfCat.getD (wb x) = wb x := by
      rcases h.cache with hn | ⟨y, R', he, hy⟩
      · rw [hn]; rfl
      · cases he; rw [hy]; rfl
    generalize hv1 : ({ v with idx := blen M, cat := v.selfCat.getD (wb x), selfCat := none, takeCat := true } : Fwd) = v1
    have hst : v1.state = v.state := by rw [← hv1]
    have hc1 : v1.cat = wb x := by rw [← hv1]; exact hcache
    have hi1 : v1.idx = blen M := by rw [← hv1]
    have htc : v1.takeCurr = true := by rw [← hv1]; exact h.tc
    have hsc : v1.selfCat = none := by rw [← hv1]
    have hsi : v1.saveidx = v.saveidx := by rw [← hv1]
    have hbody : fwdBody wb s (decide (v.cat = .ZWJ)) v1 = .ok ((act (decide (v.cat = .ZWJ)) v.state (wb x)).apply v1) := by
      rw [fwdBody_act wb s _ v1 (by rw [hst]; exact h.ok), hst, hc1]
    have hloop : fwdLoop wb s (x :: R) (blen M) v =
        match (act (decide (v.cat = .ZWJ)) v.state (wb x)).apply v1 with
        | .brk v => .ok v
        | .cont v => fwdLoop wb s R (blen M + Utf.lenUtf8 x) v := by
      rw [fwdLoop, hv1, hbody, bind_ok]; rfl
    have hlen : blen M + Utf.lenUtf8 x = blen (M ++ [x]) := by rw [blen_append, blen_cons, blen_nil]; rfl
    rw [hlen] at hloop
    have hsplit : s = (M ++ [x]) ++ R := by rw [h.split]; simp
    have hf := act_facts (decide (v.cat = .ZWJ)) v.state (wb x) h.ok
    have hl1 : (M ++ [x]).length = M.length + 1 := by simp
    have hsave : ∃ u w, s = u ++ w ∧ v1.saveidx = blen u ∧ u.length = sv := by rw [hsi]; exact h.save
    rw [hloop, List.map_cons, scanF]
    cases ha : act (decide (v.cat = .ZWJ)) v.state (wb x) with
    | stay =>
      have := ih (M ++ [x]) sv v1 ⟨hsplit, ⟨M, x, rfl, hi1, hc1⟩, htc, .inl hsc, by rw [hst]; exact h.ok, hsave⟩
      rw [hl1, hc1, hst] at this
      exact this
    | goto st' =>
      rw [ha] at hf
      simp only [Act.facts, Bool.and_eq_true] at hf
      show ∃ v', fwdLoop wb s R _ { v1 with state := st' } = .ok v' ∧ FCut s v' (scanF _ _ _ (decide (wb x = .ZWJ)) st')
      rw [← hc1, ← hl1]
      exact ih (M ++ [x]) sv { v1 with state := st' } ⟨hsplit, ⟨M, x, rfl, hi1, hc1⟩, htc, .inl hsc, hf.1, hsave⟩
    | save t =>
      rw [ha] at hf
      simp only [Act.facts, Bool.and_eq_true] at hf
      show ∃ v', fwdLoop wb s R _ { v1 with savecat := v1.cat, saveidx := v1.idx, state := .FormatExtend t } = .ok v' ∧
        FCut s v' (scanF _ _ _ (decide (wb x = .ZWJ)) (.FormatExtend t))
      rw [← hc1, ← hl1]
      exact ih (M ++ [x]) M.length { v1 with savecat := v1.cat, saveidx := v1.idx, state := .FormatExtend t }
        ⟨hsplit, ⟨M, x, rfl, hi1, hc1⟩, htc, .inl hsc, hf.1.1, M, x :: R, h.split, hi1, rfl⟩
    | leave =>
      rw [ha] at hf
      refine ⟨_, rfl, M, x :: R, some (wb x), h.split, ?_, rfl⟩
      rw [rewind_plain (by simpa [Act.facts, hst] using hf), finish_leave _ _ rfl]
      simp only [hi1, hc1]
      rw [← hv1]; rfl
    | leaveNC =>
      rw [ha] at hf
      refine ⟨_, rfl, M, x :: R, none, h.split, ?_, rfl⟩
      rw [rewind_plain (by simpa [Act.facts, hst] using hf), finish_leave _ _ rfl]
      simp only [hi1]; rfl
    | brk =>
      rw [ha] at hf
      exact ⟨_, rfl, fcut_saved h hsi (by rw [hst]; exact hf)⟩

theorem cutF_start {wb : Nat → WB} {x : Nat} {R : List Nat} {cat : Option WB} (hc : cat.getD (wb x) = wb x) {st : Word.State} {k : WB}
    (hk : wb x = k) (hr : fwdMatch wb (x :: R) (v0 k) = .ok (.cont { v0 k with state := st })) (h1 : okState st = true) :
    ∃ v, fwdLoop wb (x :: R) (x :: R) 0 (Fwd.init cat) = .ok v ∧ FCut (x :: R) v (scanF (R.map wb) 1 0 (decide (k = .ZWJ)) st) := by
  subst hk
  rw [fwdLoop_first wb x R cat hc hr]
  exact fwd_cut wb (x :: R) R [x] 0 _ ⟨rfl, ⟨[], x, rfl, rfl, rfl⟩, rfl, .inl rfl, h1, [], x :: R, rfl, rfl, rfl⟩

theorem cutF_brk {wb : Nat → WB} {x : Nat} {R : List Nat} {cat : Option WB} (hc : cat.getD (wb x) = wb x) {k : WB}
    (hk : wb x = k) (hr : fwdMatch wb (x :: R) (v0 k) = .ok (.brk (v0 k))) :
    ∃ v, fwdLoop wb (x :: R) (x :: R) 0 (Fwd.init cat) = .ok v ∧ FCut (x :: R) v 1 := by
  subst hk
  rw [fwdLoop_first wb x R cat hc hr]
  refine ⟨_, rfl, [x], R, none, rfl, ?_, rfl⟩
  rw [rewind_plain rfl, finish_take (x :: R) [] R x _ rfl rfl rfl]; rfl

theorem cutF_other {wb : Nat → WB} {x : Nat} {R : List Nat} {cat : Option WB} (hc : cat.getD (wb x) = wb x) {k : WB}
    (hk : wb x = k) (hr : fwdMatch wb (x :: R) (v0 k) = (do return fwdOther (v0 k) (← getNextCat wb (x :: R) 0))) (hz : k ≠ .ZWJ) :
    ∃ v, fwdLoop wb (x :: R) (x :: R) 0 (Fwd.init cat) = .ok v ∧
      FCut (x :: R) v (if optB isIgn (R.map wb).head? then scanF (R.map wb) 1 0 false (.FormatExtend .AcceptNone) else 1) := by
  rw [getNextCat_cons, bind_ok, pure_eq] at hr
  cases R with
  | nil => exact cutF_brk hc hk hr
  | cons y R =>
    simp only [List.map_cons, List.head?_cons, fwdOther] at hr ⊢
    by_cases hy : wb y = .Format ∨ wb y = .Extend ∨ wb y = .ZWJ
    · rw [if_pos hy] at hr
      subst hk
      rw [fwdLoop_first wb x _ cat hc hr, if_pos (by rcases hy with h | h | h <;> rw [h] <;> rfl)]
      have := fwd_cut wb (x :: y :: R) (y :: R) [x] 0 { v0 (wb x) with state := .FormatExtend .AcceptNone, selfCat := some (wb y) }
        ⟨rfl, ⟨[], x, rfl, rfl, rfl⟩, rfl, .inr ⟨y, R, rfl, rfl⟩, rfl, [], x :: y :: R, rfl, rfl, rfl⟩
      have hd : decide ((v0 (wb x)).cat = WordBreak.ZWJ) = false := decide_eq_false hz
      have this : ∃ v', _ ∧ FCut _ v' (scanF _ _ _ (decide ((v0 (wb x)).cat = WordBreak.ZWJ)) _) := this
      rw [hd] at this
      exact this
    · rw [if_neg hy] at hr
      rw [if_neg]
      · exact cutF_brk hc hk hr
      · revert hy; cases wb y <;> simp [isIgn, optB]

theorem fwd_cut_next (wb : Nat → WB) (hcr : CrOneByte wb) (s : List Nat) (hs : s ≠ []) (cat : Option WB)
    (hcat : cat = none ∨ ∃ y R, s = y :: R ∧ cat = some (wb y)) :
    ∃ v, fwdLoop wb s s 0 (Fwd.init cat) = .ok v ∧ FCut s v (cutF (s.map wb)) := by
  obtain ⟨x, R, rfl⟩ : ∃ x R, s = x :: R := by cases s with | nil => exact absurd rfl hs | cons x R => exact ⟨x, R, rfl⟩
  have hc : cat.getD (wb x) = wb x := by
    rcases hcat with rfl | ⟨y, R', he, rfl⟩
    · rfl
    · cases he; rfl
  rw [List.map_cons, cutF]
  cases hx : wb x with
  | CR =>
    rw [if_pos rfl]
    have hr : fwdMatch wb (x :: R) (v0 .CR) = (do return fwdCR (v0 .CR) (← getNextCat wb (x :: R) 0)) := rfl
    rw [getNextCat_cons, bind_ok, pure_eq] at hr
    cases R with
    | nil => exact cutF_brk hc hx hr
    | cons y R =>
      simp only [List.map_cons, List.head?_cons] at hr ⊢
      by_cases hy : wb y = .LF
      · rw [hy] at hr
        have hr' : fwdMatch wb (x :: y :: R) (v0 (wb x)) = .ok (.brk { v0 (wb x) with idx := 1 }) := by rw [hx]; exact hr
        rw [fwdLoop_first wb x _ cat hc hr', if_pos (by rw [hy])]
        have h1 := hcr x hx
        refine ⟨_, rfl, [x, y], R, none, rfl, ?_, rfl⟩
        rw [rewind_plain rfl, finish_take (x :: y :: R) [x] R y _ rfl rfl (by rw [blen_cons, blen_nil, h1])]; rfl
      · have hr' : fwdMatch wb (x :: y :: R) (v0 .CR) = .ok (.brk (v0 .CR)) := by
          rw [hr]; revert hy; cases wb y <;> simp [fwdCR]
        rw [if_neg (by simpa using hy)]
        exact cutF_brk hc hx hr'
  | LF => exact cutF_brk hc hx rfl
  | Newline => exact cutF_brk hc hx rfl
  | ALetter => exact cutF_start hc hx (st := .Letter) rfl rfl
  | HebrewLetter => exact cutF_start hc hx (st := .HLetter) rfl rfl
  | Numeric => exact cutF_start hc hx (st := .Numeric) rfl rfl
  | Katakana => exact cutF_start hc hx (st := .Katakana) rfl rfl
  | ExtendNumLet => exact cutF_start hc hx (st := .ExtendNumLet) rfl rfl
  | RegionalIndicator => exact cutF_start hc hx (st := .Regional .Half) rfl rfl
  | ZWJ => exact cutF_start hc hx (st := .Zwj) rfl rfl
  | EBase => exact cutF_start hc hx (st := .Emoji) rfl rfl
  | EBaseGAZ => exact cutF_start hc hx (st := .Emoji) rfl rfl
  | _ => exact cutF_other hc hx rfl (by intro h; cases h)

/-- The piece `next` returns, for every text. -/
theorem next_cut {wb : Nat → WB} (hcr : CrOneByte wb) {b : WordBounds} (hs : b.string ≠ []) (hg : Good2 wb b) :
    ∃ b', b.next wb = .ok (b', some (b.string.take (cutF (b.string.map wb)))) ∧ Good2 wb b' ∧
      b'.string = b.string.drop (cutF (b.string.map wb)) := by
  obtain ⟨u, b', h1, -, h2, h3, -⟩ := next_step hcr hs hg
  obtain ⟨v, hv, u', w, cat, hsp, hf, hl⟩ := fwd_cut_next wb hcr b.string hs b.cat (hg hs).1
  have e1 : sliceTo b.string (blen u') = .ok u' := by rw [hsp]; exact sliceTo_append u' w
  have e2 : sliceFrom b.string (blen u') = .ok w := by rw [hsp]; exact sliceFrom_append u' w
  have h2' := h2
  rw [WordBounds.next, if_neg hs, hv, bind_ok, hf, bind_ok] at h2'
  simp only [e1, e2, bind_ok, pure_eq, Outcome.ok.injEq, Prod.mk.injEq, Option.some.injEq] at h2'
  obtain ⟨h4, rfl⟩ := h2'
  refine ⟨b', ?_, h3, ?_⟩
  · rw [h2, ← hl, hsp, List.take_left]
  · rw [← h4, ← hl]
    conv => rhs; rw [hsp]
    rw [List.drop_left]

/-! ### backward -/

/-- whether an odd number of regional indicators ends the text with these classes, last first -/
def oddRI (l : List WB) : Bool :=
  decide (((l.filter (fun c => !(c == .ZWJ || c == .Extend || c == .Format))).takeWhile (fun c => c == .RegionalIndicator)).length % 2 = 1)

/-- the backward scan after `n` characters; `full` are the classes of the text, last first -/
def scanB (full : List WB) : List WB → Nat → Nat → Word.State → Word.State → Nat
  | [], n, sv, st, _ => if rewinds st then sv else n
  | x :: r, n, sv, st, sst =>
    if x = .Extend ∨ x = .Format ∨ (x = .ZWJ ∧ st ≠ .Zwj) then
      if st.folds then scanB full r (n + 1) n (.FormatExtend .AcceptNone) st
      else scanB full r (n + 1) sv st sst
    else if st = .FormatExtend .AcceptNone then
      match bact (oddRI (full.drop sv)) sst x with
      | .goto st' => scanB full r (n + 1) sv st' sst
      | .save t => scanB full r (n + 1) sv (.FormatExtend t) sst
      | .saveQ => scanB full r (n + 1) (n + 1) (.FormatExtend .AcceptQLetter) sst
      | .leave => sv
      | .brk => n + 1
    else
      match bact (oddRI (full.drop n)) st x with
      | .goto st' => scanB full r (n + 1) sv st' sst
      | .save t => scanB full r (n + 1) n (.FormatExtend t) sst
      | .saveQ => scanB full r (n + 1) (n + 1) (.FormatExtend .AcceptQLetter) sst
      | .leave => n
      | .brk => if rewinds st then sv else n + 1

/-- the number of characters of the last piece, from the classes last first -/
def cutB : List WB → Nat
  | [] => 0
  | x :: r =>
    if x = .LF then if r.head? = some .CR then 2 else 1
    else if isNl x then 1
    else match bact false (.FormatExtend .AcceptAny) x with
      | .goto st => scanB (x :: r) r 1 1 st .Start
      | .saveQ => scanB (x :: r) r 1 1 (.FormatExtend .AcceptQLetter) .Start
      | _ => 1

/-- a position: the offset of the last `n` characters -/
def At (s : List Nat) (i n : Nat) : Prop := ∃ u w, s = u ++ w ∧ i = blen u ∧ w.length = n

/-- the loop with `P` to come and `Q` done -/
structure BSim (wb : Nat → WB) (s P Q : List Nat) (sv : Nat) (v : Bwd) : Prop where
  split : s = P ++ Q
  idx : v.idx = blen P
  tc : v.takeCurr = true
  cache : v.selfCatb = none
  ns : v.state ≠ .Start
  save : At s v.saveidx sv
  fold : v.state = .FormatExtend .AcceptNone → v.savestate.folds = true

def BCut (s : List Nat) (v : Bwd) (n : Nat) : Prop := At s (bwdFinish (bwdRewind v)).1 n

theorem riBefore_at {wb : Nat → WB} {s : List Nat} {i n : Nat} (h : At s i n) :
    ∃ k, riBefore wb s i = .ok k ∧ decide (k % 2 = 1) = oddRI ((s.map wb).reverse.drop n) := by
  obtain ⟨u, w, rfl, rfl, rfl⟩ := h
  refine ⟨_, by rw [riBefore, sliceTo_append, bind_ok, pure_eq], ?_⟩
  rw [oddRI, List.map_append, List.reverse_append]
  have : w.length = (w.map wb).reverse.length := by simp
  rw [this, List.drop_left, List.map_reverse]

/-- the position after an action -/
theorem bwd_apply {wb : Nat → WB} {s P Q : List Nat} {x sv p : Nat} {v : Bwd} {a : BAct} {st sst : Word.State} (hs : s = P ++ [x] ++ Q)
    (hi : v.idx = blen P) (htc : v.takeCurr = true) (hca : v.selfCatb = none) (hsv : At s v.saveidx sv) (hp : At s v.previdx p)
    (hst : v.state = st) (hss : v.savestate = sst) (hf : a.facts st = true) :
    match (a.apply v : Flow Bwd) with
    | .brk v' => BCut s v' (match a with
        | .leave => p
        | _ => if rewinds st then sv else Q.length + 1)
    | .cont v' => v'.savestate = sst ∧ match a with
        | .goto st' => v'.state = st' ∧ BSim wb s P (x :: Q) sv v'
        | .save t => v'.state = .FormatExtend t ∧ BSim wb s P (x :: Q) p v'
        | _ => v'.state = .FormatExtend .AcceptQLetter ∧ BSim wb s P (x :: Q) (Q.length + 1) v' := by
  have hs' : s = P ++ x :: Q := by rw [hs]; simp
  subst hst hss
  cases a with
  | goto st' =>
    simp only [BAct.facts, Bool.and_eq_true, bne_iff_ne] at hf
    exact ⟨rfl, rfl, hs', hi, htc, hca, hf.1.1.2, hsv, fun h => absurd h hf.1.2⟩
  | save t =>
    simp only [BAct.facts, Bool.and_eq_true, beq_iff_eq] at hf
    refine ⟨rfl, rfl, hs', hi, htc, hca, (by intro e; cases e), hp, ?_⟩
    intro h
    have h : Word.State.FormatExtend t = .FormatExtend .AcceptNone := h
    cases h
    cases hf.1
  | saveQ => exact ⟨rfl, rfl, hs', hi, htc, hca, (by intro e; cases e), ⟨P, x :: Q, hs', hi, rfl⟩, fun h => by cases h⟩
  | leave =>
    show BCut s { v with takeCurr := false } p
    rw [BCut, bfinish_leave (by simpa [BAct.facts] using hf) rfl]
    exact hp
  | brk =>
    show BCut s v (if rewinds v.state then sv else Q.length + 1)
    rw [BCut]
    split
    · rename_i h; rw [finish_back h]; exact hsv
    · rename_i h; rw [bfinish_take (by simpa using h) htc]; exact ⟨P, x :: Q, hs', hi, rfl⟩

theorem bwd_cut (wb : Nat → WB) (s : List Nat) (rest : List Nat) : ∀ (Q : List Nat) (sv : Nat) (v : Bwd), BSim wb s rest.reverse Q sv v →
    ∃ v', bwdLoop wb s rest (blen rest.reverse) v = .ok v' ∧
      BCut s v' (scanB ((s.map wb).reverse) (rest.map wb) Q.length sv v.state v.savestate) := by
  induction rest with
  | nil =>
    intro Q sv v h
    refine ⟨v, rfl, ?_⟩
    show At s _ (if rewinds v.state then sv else Q.length)
    split
    · rename_i hr; rw [finish_back hr]; exact h.save
    · rename_i hr; rw [bfinish_take (by simpa using hr) h.tc]; exact ⟨[], Q, h.split, h.idx, rfl⟩
  | cons x rest ih =>
    intro Q sv v h
    have hs : s = rest.reverse ++ [x] ++ Q := by rw [h.split, List.reverse_cons]
    have hl : blen (x :: rest).reverse - Utf.lenUtf8 x = blen rest.reverse := by
      rw [List.reverse_cons, blen_append, blen_cons, blen_nil]; omega
    have hq : At s (blen (x :: rest).reverse) Q.length := ⟨_, Q, h.split, rfl, rfl⟩
    generalize hv1 : ({ v with previdx := v.idx, idx := blen rest.reverse, cat := wb x, selfCatb := none, takeCat := true } : Bwd) = v1
    have a1 : v1.idx = blen rest.reverse := by rw [← hv1]
    have a2 : v1.takeCurr = true := by rw [← hv1]; exact h.tc
    have a3 : v1.selfCatb = none := by rw [← hv1]
    have a4 : At s v1.saveidx sv := by rw [← hv1]; exact h.save
    have a5 : At s v1.previdx Q.length := by rw [← hv1]; show At s v.idx _; rw [h.idx]; exact hq
    have a6 : v1.state = v.state := by rw [← hv1]
    have a7 : v1.savestate = v.savestate := by rw [← hv1]
    have a8 : v1.cat = wb x := by rw [← hv1]
    have hloop : bwdLoop wb s (x :: rest) (blen (x :: rest).reverse) v = (do
        match ← bwdBody wb s v1 with
        | .brk v => return v
        | .cont v => bwdLoop wb s rest (blen rest.reverse) v) := by
      rw [bwdLoop, hl, h.cache, ← hv1]; rfl
    rw [hloop, List.map_cons, scanB]
    by_cases hi : bwdIgn v1 = true
    · have hi' : wb x = .Extend ∨ wb x = .Format ∨ (wb x = .ZWJ ∧ v.state ≠ .Zwj) := by
        simpa [bwdIgn, a8, a6, or_assoc] using hi
      rw [if_pos hi', bwdBody, if_pos hi]
      cases hfo : v.state.folds with
      | true =>
        have e : v1.fold = { v1 with saveidx := v1.previdx, savestate := v1.state, state := .FormatExtend .AcceptNone } := by
          rw [Bwd.fold, if_pos (by rw [a6]; exact hfo)]
        rw [e, if_pos (by intro h; cases h), bind_ok, if_pos rfl]
        have := ih (x :: Q) Q.length { v1 with saveidx := v1.previdx, savestate := v1.state, state := .FormatExtend .AcceptNone }
          ⟨(by rw [hs]; simp), a1, a2, a3, (by intro e; cases e), a5, fun _ => by rw [← a6] at hfo; exact hfo⟩
        simp only [a6] at this ⊢
        exact this
      | false =>
        have e : v1.fold = v1 := by rw [Bwd.fold, if_neg (by rw [a6, hfo]; simp)]
        rw [e, if_pos (by rw [a6]; exact h.ns), bind_ok, if_neg (by simp)]
        have := ih (x :: Q) sv v1 ⟨(by rw [hs]; simp), a1, a2, a3, by rw [a6]; exact h.ns, a4, by rw [a6, a7]; exact h.fold⟩
        rw [a6, a7] at this
        exact this
    · have hi' : ¬ (wb x = .Extend ∨ wb x = .Format ∨ (wb x = .ZWJ ∧ v.state ≠ .Zwj)) := by
        simpa [bwdIgn, a8, a6, or_assoc] using hi
      rw [if_neg hi', bwdBody, if_neg hi]
      by_cases hn : v.state = .FormatExtend .AcceptNone
      · rw [if_pos hn, if_pos (by rw [a6]; exact hn)]
        have hfo := h.fold hn
        have hns : v.savestate ≠ .Start := (folds_plain hfo).2.2.2
        obtain ⟨k, hk1, hk2⟩ := riBefore_at (wb := wb) a4
        rw [bwdMatch_act wb s v1.restore (by rw [Bwd.restore]; simpa [a7] using hns) k hk1, bind_ok, hk2]
        have e1 : v1.restore.state = v.savestate := a7
        have e2 : v1.restore.cat = wb x := a8
        rw [e1, e2]
        have hf := bact_facts (oddRI ((s.map wb).reverse.drop sv)) v.savestate (wb x) hns
        have := bwd_apply (wb := wb) (v := v1.restore) (p := sv) (sv := sv) hs a1 a2 a3 a4 a4 e1 a7 hf
        revert hf
        have hrw : rewinds v.savestate = false := (folds_plain hfo).1
        cases bact (oddRI ((s.map wb).reverse.drop sv)) v.savestate (wb x) with
        | goto st' =>
          rintro - ⟨h1, h2, h3⟩
          obtain ⟨v'', g1, g2⟩ := ih (x :: Q) sv _ h3
          rw [h1, h2] at g2
          exact ⟨v'', g1, g2⟩
        | save t =>
          rintro - ⟨h1, h2, h3⟩
          obtain ⟨v'', g1, g2⟩ := ih (x :: Q) sv _ h3
          rw [h1, h2] at g2
          exact ⟨v'', g1, g2⟩
        | saveQ =>
          rintro - ⟨h1, h2, h3⟩
          obtain ⟨v'', g1, g2⟩ := ih (x :: Q) _ _ h3
          rw [h1, h2] at g2
          exact ⟨v'', g1, g2⟩
        | leave => intro _ h; exact ⟨_, rfl, h⟩
        | brk =>
          intro _ h
          simp only [hrw] at h
          exact ⟨_, rfl, h⟩
      · rw [if_neg hn, if_neg (by rw [a6]; exact hn)]
        obtain ⟨k, hk1, hk2⟩ := riBefore_at (wb := wb) a5
        rw [bwdMatch_act wb s v1 (by rw [a6]; exact h.ns) k hk1, bind_ok, hk2, a6, a8]
        have hf := bact_facts (oddRI ((s.map wb).reverse.drop Q.length)) v.state (wb x) h.ns
        have := bwd_apply (wb := wb) (v := v1) hs a1 a2 a3 a4 a5 a6 a7 hf
        revert hf
        cases bact (oddRI ((s.map wb).reverse.drop Q.length)) v.state (wb x) with
        | goto st' =>
          rintro - ⟨h1, h2, h3⟩
          obtain ⟨v'', g1, g2⟩ := ih (x :: Q) _ _ h3
          rw [h1, h2] at g2
          exact ⟨v'', g1, g2⟩
        | save t =>
          rintro - ⟨h1, h2, h3⟩
          obtain ⟨v'', g1, g2⟩ := ih (x :: Q) _ _ h3
          rw [h1, h2] at g2
          exact ⟨v'', g1, g2⟩
        | saveQ =>
          rintro - ⟨h1, h2, h3⟩
          obtain ⟨v'', g1, g2⟩ := ih (x :: Q) _ _ h3
          rw [h1, h2] at g2
          exact ⟨v'', g1, g2⟩
        | leave => intro _ h; exact ⟨_, rfl, h⟩
        | brk => intro _ h; exact ⟨_, rfl, h⟩

theorem bwd_cut_goto {wb : Nat → WB} {P : List Nat} {x : Nat} {k : WB} (st : Word.State) (hf : (BAct.goto st).facts .Start = true) :
    BSim wb (P ++ [x]) P [x] 1 { b0 (blen P) k with state := st } := by
  simp only [BAct.facts, Bool.and_eq_true, Bool.not_eq_true', bne_iff_ne, Option.isNone_iff_eq_none] at hf
  obtain ⟨⟨⟨f1, f2⟩, f3⟩, f4⟩ := hf
  exact ⟨rfl, rfl, rfl, rfl, f2, ⟨P, [x], rfl, rfl, rfl⟩, fun h => absurd h f3⟩

theorem bwd_cut_brk {P : List Nat} {x : Nat} {k : WB} : BCut (P ++ [x]) (b0 (blen P) k) 1 := ⟨P, [x], rfl, rfl, rfl⟩

/-- what the first pass gives -/
def BFirst (wb : Nat → WB) (P : List Nat) (x : Nat) (n : Nat) : Flow Bwd → Prop
  | .brk v => BCut (P ++ [x]) v n
  | .cont v => BSim wb (P ++ [x]) P [x] 1 v ∧ v.savestate = .Start ∧
      n = scanB (((P ++ [x]).map wb).reverse) ((P.map wb).reverse) 1 1 v.state .Start

theorem bwd_cut_first (wb : Nat → WB) (hcr : CrOneByte wb) (P : List Nat) (x : Nat) :
    ∃ r, bwdBody wb (P ++ [x]) (b0 (blen P) (wb x)) = .ok r ∧ BFirst wb P x (cutB (((P ++ [x]).map wb).reverse)) r := by
  have hbody : bwdBody wb (P ++ [x]) (b0 (blen P) (wb x)) = bwdStart wb (P ++ [x]) (b0 (blen P) (wb x)) := by
    rw [bwdBody]
    split
    · have : ¬ ((b0 (blen P) (wb x)).fold.state ≠ .Start) := fun h => h rfl
      rw [if_neg this]; rfl
    · rw [if_neg (by intro e; cases e)]; rfl
  rw [hbody]
  have hrev : ((P ++ [x]).map wb).reverse = wb x :: (P.map wb).reverse := by simp
  unfold BFirst
  rw [hrev, cutB]
  cases hx : wb x with
  | LF =>
    have hr : bwdStart wb (P ++ [x]) (b0 (blen P) .LF) = (do return bwdLF (b0 (blen P) .LF) (← getPrevCat wb (P ++ [x]) (blen P))) := rfl
    rw [hr, getPrevCat_snoc, bind_ok, pure_eq, if_pos rfl]
    refine ⟨_, rfl, ?_⟩
    rw [List.head?_reverse]
    by_cases hl : (P.map wb).getLast? = some .CR
    · rw [hl, if_pos rfl]
      rcases List.eq_nil_or_concat P with rfl | ⟨Pi, l, rfl⟩
      · cases hl
      · rw [List.concat_eq_append] at hl ⊢
        have hl' : wb l = .CR := by simpa using hl
        have h1 := hcr l hl'
        refine ⟨Pi, [l, x], by simp, ?_, rfl⟩
        show blen (Pi ++ [l]) - 1 = _
        rw [blen_append, blen_cons, blen_nil, h1]; simp
    · have : bwdLF (b0 (blen P) .LF) ((P.map wb).getLast?) = .brk (b0 (blen P) .LF) := by
        cases hg : (P.map wb).getLast? with
        | none => rfl
        | some k => rw [hg] at hl; cases k <;> first | rfl | exact absurd rfl hl
      rw [this, if_neg hl]
      exact bwd_cut_brk
  | CR => exact ⟨_, rfl, bwd_cut_brk⟩
  | Newline => exact ⟨_, rfl, bwd_cut_brk⟩
  | SingleQuote =>
    exact ⟨_, rfl, ⟨rfl, rfl, rfl, rfl, (by intro e; cases e), ⟨P, [x], rfl, rfl, rfl⟩, fun h => by cases h⟩, rfl, rfl⟩
  | ALetter => exact ⟨_, rfl, bwd_cut_goto (.Letter) rfl, rfl, rfl⟩
  | HebrewLetter => exact ⟨_, rfl, bwd_cut_goto (.HLetter) rfl, rfl, rfl⟩
  | Numeric => exact ⟨_, rfl, bwd_cut_goto (.Numeric) rfl, rfl, rfl⟩
  | Katakana => exact ⟨_, rfl, bwd_cut_goto (.Katakana) rfl, rfl, rfl⟩
  | ExtendNumLet => exact ⟨_, rfl, bwd_cut_goto (.ExtendNumLet) rfl, rfl, rfl⟩
  | RegionalIndicator => exact ⟨_, rfl, bwd_cut_goto (.Regional .Unknown) rfl, rfl, rfl⟩
  | GlueAfterZwj => exact ⟨_, rfl, bwd_cut_goto (.Zwj) rfl, rfl, rfl⟩
  | EBaseGAZ => exact ⟨_, rfl, bwd_cut_goto (.Zwj) rfl, rfl, rfl⟩
  | EModifier => exact ⟨_, rfl, bwd_cut_goto (.Emoji) rfl, rfl, rfl⟩
  | Extend => exact ⟨_, rfl, bwd_cut_goto (.FormatExtend .AcceptAny) rfl, rfl, rfl⟩
  | Format => exact ⟨_, rfl, bwd_cut_goto (.FormatExtend .AcceptAny) rfl, rfl, rfl⟩
  | ZWJ => exact ⟨_, rfl, bwd_cut_goto (.FormatExtend .AcceptAny) rfl, rfl, rfl⟩
  | _ => exact ⟨_, rfl, bwd_cut_brk⟩

/-- The piece `next_back` returns, for every text. -/
theorem nextBack_cut {wb : Nat → WB} (hcr : CrOneByte wb) {b : WordBounds} (hs : b.string ≠ []) (hg : Good2 wb b) :
    ∃ b' w, b.nextBack wb = .ok (b', some w) ∧ Good2 wb b' ∧ b.string = b'.string ++ w ∧
      w.length = cutB ((b.string.map wb).reverse) := by
  obtain ⟨w, b', h1, -, h2, h3, -⟩ := nextBack_step hcr hs hg
  refine ⟨b', w, h2, h3, h1, ?_⟩
  have hc := (hg hs).2
  rcases b with ⟨s, cat, catb⟩
  simp only at hs hc h1 ⊢
  rcases List.eq_nil_or_concat s with rfl | ⟨P, x, rfl⟩
  · exact absurd rfl hs
  rw [List.concat_eq_append] at *
  have hcat : catb.getD (wb x) = wb x := by
    rcases hc with h | ⟨u, y, h1, h2⟩
    · simp only at h; rw [h]; rfl
    · simp only at h1 h2
      have := (List.append_inj' h1 rfl).2
      cases this
      rw [h2]; rfl
  have hl : blen (P ++ [x]) - Utf.lenUtf8 x = blen P := by rw [blen_append, blen_cons, blen_nil]; omega
  have hlast : lastChar (P ++ [x]) = .ok x := by simp [lastChar, firstChar]
  have hloop : ∃ v', bwdLoop wb (P ++ [x]) (P ++ [x]).reverse (blen (P ++ [x])) (Bwd.init (blen P) catb) = .ok v' ∧
      BCut (P ++ [x]) v' (cutB (((P ++ [x]).map wb).reverse)) := by
    rw [List.reverse_append, List.reverse_singleton, List.singleton_append, bwdLoop, hl]
    obtain ⟨r, h1, h2⟩ := bwd_cut_first wb hcr P x
    have hv : ({ Bwd.init (blen P) catb with previdx := (Bwd.init (blen P) catb).idx, idx := blen P, cat := (Bwd.init (blen P) catb).selfCatb.getD (wb x), selfCatb := none, takeCat := true } : Bwd) = b0 (blen P) (wb x) := by
      simp only [Bwd.init, b0, hcat]
    rw [hv, h1, bind_ok]
    cases r with
    | brk v' => exact ⟨v', rfl, h2⟩
    | cont v' =>
      obtain ⟨h3, h4, h5⟩ := h2
      have := bwd_cut wb (P ++ [x]) P.reverse [x] 1 v' (by rw [List.reverse_reverse]; exact h3)
      rw [List.reverse_reverse, h4, List.map_reverse] at this
      rw [h5]
      exact this
  obtain ⟨v', hv, u, w', hsp, hf, hlen⟩ := hloop
  have e1 : sliceTo (P ++ [x]) (blen u) = .ok u := by rw [hsp]; exact sliceTo_append u w'
  have e2 : sliceFrom (P ++ [x]) (blen u) = .ok w' := by rw [hsp]; exact sliceFrom_append u w'
  rw [WordBounds.nextBack] at h2
  simp only at h2
  rw [if_neg hs, hlast, bind_ok, hl, hv, bind_ok] at h2
  simp only [hf, e1, e2, bind_ok, pure_eq, Outcome.ok.injEq, Prod.mk.injEq, Option.some.injEq] at h2
  rw [← h2.2]; exact hlen

end Proofs.Word
