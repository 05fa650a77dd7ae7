import Verif.Proofs.WordFwdStep

/-! One step of the backward scan against the rules, on classes. -/
namespace Proofs.Word
open Data Spec.Segment Model.Word

/-- what one pass of the backward loop does after the `Start` state -/
inductive BAct where
  | goto (st : State) | save (t : FE) | saveQ | leave | brk
deriving DecidableEq, Repr

def BAct.apply (v : Bwd) : BAct → Flow Bwd
  | .goto st => v.goto st
  | .save t => v.save t
  | .saveQ => .cont { v with saveidx := v.idx, state := .FormatExtend .AcceptQLetter }
  | .leave => v.leave
  | .brk => .brk v

/-- `bwdMatch` outside `Start`; `odd` says whether an odd number of regional indicators comes before -/
def bact (odd : Bool) : State → WB → BAct
  | .FormatExtend .AcceptAny, .ALetter => .goto .Letter
  | .FormatExtend .AcceptAny, .HebrewLetter => .goto .HLetter
  | .FormatExtend .AcceptAny, .Numeric => .goto .Numeric
  | .FormatExtend .AcceptAny, .Katakana => .goto .Katakana
  | .FormatExtend .AcceptAny, .ExtendNumLet => .goto .ExtendNumLet
  | .FormatExtend .AcceptAny, .RegionalIndicator => .goto (.Regional .Unknown)
  | .FormatExtend .AcceptAny, .GlueAfterZwj => .goto .Zwj
  | .FormatExtend .AcceptAny, .EBaseGAZ => .goto .Zwj
  | .FormatExtend .AcceptAny, .Extend => .goto (.FormatExtend .AcceptAny)
  | .FormatExtend .AcceptAny, .Format => .goto (.FormatExtend .AcceptAny)
  | .FormatExtend .AcceptAny, .ZWJ => .goto (.FormatExtend .AcceptAny)
  | .FormatExtend .AcceptAny, .SingleQuote => .saveQ
  | .FormatExtend .AcceptAny, .EModifier => .goto .Emoji
  | .FormatExtend .AcceptAny, .LF => .leave
  | .FormatExtend .AcceptAny, .CR => .leave
  | .FormatExtend .AcceptAny, .Newline => .leave
  | .FormatExtend .AcceptAny, _ => .brk
  | .Zwj, .ZWJ => .goto (.FormatExtend .AcceptAny)
  | .Letter, .ALetter => .goto .Letter
  | .Letter, .HebrewLetter => .goto .HLetter
  | .Letter, .Numeric => .goto .Numeric
  | .Letter, .ExtendNumLet => .goto .ExtendNumLet
  | .Letter, .MidLetter => .save .RequireLetter
  | .Letter, .MidNumLet => .save .RequireLetter
  | .Letter, .SingleQuote => .save .RequireLetter
  | .HLetter, .ALetter => .goto .Letter
  | .HLetter, .HebrewLetter => .goto .HLetter
  | .HLetter, .Numeric => .goto .Numeric
  | .HLetter, .ExtendNumLet => .goto .ExtendNumLet
  | .HLetter, .DoubleQuote => .save .RequireHLetter
  | .HLetter, .SingleQuote => .save .RequireLetter
  | .HLetter, .MidLetter => .save .RequireLetter
  | .HLetter, .MidNumLet => .save .RequireLetter
  | .Numeric, .Numeric => .goto .Numeric
  | .Numeric, .ALetter => .goto .Letter
  | .Numeric, .HebrewLetter => .goto .HLetter
  | .Numeric, .ExtendNumLet => .goto .ExtendNumLet
  | .Numeric, .MidNum => .save .RequireNumeric
  | .Numeric, .MidNumLet => .save .RequireNumeric
  | .Numeric, .SingleQuote => .save .RequireNumeric
  | .Katakana, .Katakana => .goto .Katakana
  | .Katakana, .ExtendNumLet => .goto .ExtendNumLet
  | .ExtendNumLet, .ExtendNumLet => .goto .ExtendNumLet
  | .ExtendNumLet, .ALetter => .goto .Letter
  | .ExtendNumLet, .HebrewLetter => .goto .HLetter
  | .ExtendNumLet, .Numeric => .goto .Numeric
  | .ExtendNumLet, .Katakana => .goto .Katakana
  | .Regional .Unknown, .RegionalIndicator => if odd then .goto (.Regional .Full) else .leave
  | .Regional .Half, .RegionalIndicator => .goto (.Regional .Full)
  | .Emoji, .EBase => .goto .Zwj
  | .Emoji, .EBaseGAZ => .goto .Zwj
  | .FormatExtend .RequireNumeric, .Numeric => .goto .Numeric
  | .FormatExtend .RequireNumeric, _ => .brk
  | .FormatExtend .RequireLetter, .ALetter => .goto .Letter
  | .FormatExtend .RequireLetter, .HebrewLetter => .goto .HLetter
  | .FormatExtend .RequireLetter, _ => .brk
  | .FormatExtend .AcceptQLetter, .HebrewLetter => .goto .HLetter
  | .FormatExtend .AcceptQLetter, _ => .brk
  | .FormatExtend .RequireHLetter, .HebrewLetter => .goto .HLetter
  | .FormatExtend .RequireHLetter, _ => .brk
  | .FormatExtend .AcceptNone, _ => .brk
  | _, _ => .leave

open Model in
theorem bwdMatch_act (wb : Nat → WB) (s : List Nat) (v : Bwd) (h : v.state ≠ .Start) (n : Nat)
    (hr : riBefore wb s v.previdx = .ok n) : bwdMatch wb s v = .ok ((bact (decide (n % 2 = 1)) v.state v.cat).apply v) := by
  rcases v with ⟨tcur, tcat, idx, pidx, sidx, st, sst, cat, self⟩
  simp only at h hr
  match st, h with
  | .Start, h => exact absurd rfl h
  | .Letter, _ => cases cat <;> rfl
  | .HLetter, _ => cases cat <;> rfl
  | .Numeric, _ => cases cat <;> rfl
  | .Katakana, _ => cases cat <;> rfl
  | .ExtendNumLet, _ => cases cat <;> rfl
  | .Regional .Half, _ => cases cat <;> rfl
  | .Regional .Full, _ => cases cat <;> rfl
  | .Regional .Unknown, _ =>
    cases cat
    case RegionalIndicator =>
      show (riBefore wb s pidx >>= _) = _
      rw [hr]
      show Outcome.ok _ = _
      congr 1
      rcases Nat.mod_two_eq_zero_or_one n with h0 | h0
      · rw [if_pos h0]; simp [bact, h0, BAct.apply]
      · rw [if_neg (by omega)]; simp [bact, h0, BAct.apply]
    all_goals rfl
  | .Zwj, _ => cases cat <;> rfl
  | .Emoji, _ => cases cat <;> rfl
  | .FormatExtend .AcceptAny, _ => cases cat <;> rfl
  | .FormatExtend .AcceptNone, _ => cases cat <;> rfl
  | .FormatExtend .RequireLetter, _ => cases cat <;> rfl
  | .FormatExtend .RequireHLetter, _ => cases cat <;> rfl
  | .FormatExtend .AcceptQLetter, _ => cases cat <;> rfl
  | .FormatExtend .RequireNumeric, _ => cases cat <;> rfl

/-- the classes that do not decide a rule from the right -/
def nsOK : Option WB → Bool
  | none => true
  | some .GlueAfterZwj => true
  | some .EBaseGAZ => true
  | _ => false

/-- what the state says of the text consumed: its first class `h`, the next significant class `ns` after that, and the
text `c` before it -/
def D : State → Ctx → WB → Option WB → Bool
  | .Letter, _, h, _ => h == .ALetter
  | .HLetter, _, h, _ => h == .HebrewLetter
  | .Numeric, _, h, _ => h == .Numeric
  | .Katakana, _, h, _ => h == .Katakana
  | .ExtendNumLet, _, h, _ => h == .ExtendNumLet
  | .Regional .Full, c, h, _ => h == .RegionalIndicator && !c.odd
  | .Regional .Unknown, _, h, _ => h == .RegionalIndicator
  | .Zwj, _, h, ns => h == .GlueAfterZwj || h == .EBaseGAZ || (h == .EBase && ns == some .EModifier)
  | .Emoji, _, h, _ => h == .EModifier
  | .FormatExtend .AcceptAny, _, h, ns => isIgn h && nsOK ns
  | .FormatExtend .AcceptQLetter, _, h, ns => h == .SingleQuote && nsOK ns
  | _, _, _, _ => false

/-- the class `m` between two others that are joined if the one before resolves `t` -/
def reqOK : FE → WB → WB → Bool
  | .RequireLetter, m, h => midL m && ahl h
  | .RequireHLetter, m, h => m == .DoubleQuote && h == .HebrewLetter
  | .RequireNumeric, m, h => midN m && h == .Numeric
  | _, _, _ => false

theorem req_cut {t : FE} {m h : WB} {c : Ctx} {ns : Option WB} (hr : reqOK t m h = true) (he : c.e1 = some m) :
    bnd c h ns = !resolves t c.e2 := by
  rcases c with ⟨e1, e2, odd, z⟩
  simp only at he; subst he
  cases t <;> simp only [reqOK, Bool.and_eq_true] at hr
  all_goals first | (cases hr; done) | skip
  · obtain ⟨h1, h2⟩ := hr
    cases m <;> first | (cases h1; done) | (cases h <;> first | (cases h2; done) |
      (cases z <;> simp [bnd, joins, resolves, isNl, isIgn, ahl, midL, midN, wb_beq, opt_beq]))
  · simp only [beq_iff_eq] at hr
    obtain ⟨rfl, rfl⟩ := hr
    cases z <;> simp [bnd, joins, resolves, isNl, isIgn, ahl, midL, midN, wb_beq, opt_beq]
  · obtain ⟨h1, h2⟩ := hr
    simp only [beq_iff_eq] at h2; subst h2
    cases m <;> first | (cases h1; done) |
      (cases z <;> simp [bnd, joins, resolves, isNl, isIgn, ahl, midL, midN, wb_beq, opt_beq])

theorem req_join {t : FE} {m h : WB} {c : Ctx} (hr : reqOK t m h = true) (he : resolves t c.e1 = true) :
    bnd c m (some h) = false := by
  rcases c with ⟨e1, e2, odd, z⟩
  simp only at he
  cases e1 with
  | none => cases t <;> cases he
  | some e =>
    cases t <;> simp only [reqOK, Bool.and_eq_true] at hr
    all_goals first | (cases hr; done) | skip
    · obtain ⟨h1, h2⟩ := hr
      have he' : ahl e = true := he
      cases e <;> first | (cases he'; done) | (cases m <;> first | (cases h1; done) | (cases h <;> first | (cases h2; done) |
        (cases z <;> simp [bnd, joins, isNl, isIgn, ahl, midL, midN, wb_beq, opt_beq, optB])))
    · simp only [beq_iff_eq] at hr
      obtain ⟨rfl, rfl⟩ := hr
      have he' : e = .HebrewLetter := by simpa [resolves] using he
      subst he'
      cases z <;> simp [bnd, joins, isNl, isIgn, ahl, midL, midN, wb_beq, opt_beq, optB]
    · obtain ⟨h1, h2⟩ := hr
      simp only [beq_iff_eq] at h2; subst h2
      have he' : e = .Numeric := by simpa [resolves] using he
      subst he'
      cases m <;> first | (cases h1; done) |
        (cases z <;> simp [bnd, joins, isNl, isIgn, ahl, midL, midN, wb_beq, opt_beq, optB])

/-- what a step must satisfy: `c` is the text before the one described, `p` the text before the character at hand -/
def BGood (a : BAct) (p c : Ctx) (k h : WB) (ns : Option WB) : Prop :=
  match a with
  | .goto st => bnd c h ns = false ∧ D st p k (some h) = true ∧ isNl k = false
  | .save t => reqOK t k h = true
  | .saveQ => False
  | .leave => bnd c h ns = true
  | .brk => False

macro "bclass_cases" : tactic => `(tactic|
  simp_all [BGood, bact, bnd, joins, Ctx.push, Ctx.open, D, isIgn, isNl, ahl, midL, midN, optB, reqOK, wb_beq, opt_beq])

/-- `c` is the text `p`, then a character of class `k`, then skipped characters -/
structure Link (p c : Ctx) (k : WB) : Prop where
  plain : isNl k = false → c.e1 = some k ∧ c.e2 = p.e1 ∧ c.odd = (k == .RegionalIndicator && !p.odd)
  nl : isNl k = true → c.odd = false ∧ ∃ e, c.e1 = some e ∧ (isNl e || isIgn e) = true

set_option maxHeartbeats 4000000 in
theorem bstep (st : State) (p c : Ctx) (k h : WB) (ns : Option WB) (hD : D st c h ns = true) (hf : st.folds = true)
    (hk : isIgn k = false) (hl : Link p c k) (hz : st = .Zwj → c.z = false) : BGood (bact c.odd st k) p c k h ns := by
  rcases hl with ⟨h1, h2⟩
  by_cases hn : isNl k = true
  · obtain ⟨h3, e, h4, h5⟩ := h2 hn
    rcases c with ⟨e1, e2, odd, z⟩
    simp only at h4 h3 hz; subst h4 h3
    have hb : bact false st k = .leave := by
      cases st with
      | FormatExtend t => cases hf
      | Regional r => cases r <;> cases k <;> first | (cases hn; done) | rfl
      | Start => cases hf
      | _ => cases k <;> first | (cases hn; done) | rfl
    rw [hb]
    show bnd _ h ns = true
    match st, hf with
    | .Letter, _ => obtain rfl : h = .ALetter := by simpa [D] using hD
                    cases e <;> first | (cases h5; done) | (cases z <;> bclass_cases)
    | .HLetter, _ => obtain rfl : h = .HebrewLetter := by simpa [D] using hD
                     cases e <;> first | (cases h5; done) | (cases z <;> bclass_cases)
    | .Numeric, _ => obtain rfl : h = .Numeric := by simpa [D] using hD
                     cases e <;> first | (cases h5; done) | (cases z <;> bclass_cases)
    | .Katakana, _ => obtain rfl : h = .Katakana := by simpa [D] using hD
                      cases e <;> first | (cases h5; done) | (cases z <;> bclass_cases)
    | .ExtendNumLet, _ => obtain rfl : h = .ExtendNumLet := by simpa [D] using hD
                          cases e <;> first | (cases h5; done) | (cases z <;> bclass_cases)
    | .Regional .Full, _ => obtain rfl : h = .RegionalIndicator := by simpa [D] using hD
                            cases e <;> first | (cases h5; done) | (cases z <;> bclass_cases)
    | .Regional .Unknown, _ => obtain rfl : h = .RegionalIndicator := by simpa [D] using hD
                               cases e <;> first | (cases h5; done) | (cases z <;> bclass_cases)
    | .Emoji, _ => obtain rfl : h = .EModifier := by simpa [D] using hD
                   cases e <;> first | (cases h5; done) | (cases z <;> bclass_cases)
    | .Zwj, _ =>
      obtain rfl := hz rfl
      have hD' : (h = .GlueAfterZwj ∨ h = .EBaseGAZ) ∨ (h = .EBase ∧ ns = some .EModifier) := by simpa [D] using hD
      rcases hD' with (rfl | rfl) | ⟨rfl, rfl⟩ <;> (cases e <;> first | (cases h5; done) | bclass_cases)
  · have hn' : isNl k = false := by simpa using hn
    obtain ⟨h3, h4, h5⟩ := h1 hn'
    rcases c with ⟨e1, e2, odd, z⟩
    simp only at h3 h4 h5 hz; subst h3 h4 h5
    match st, hf with
    | .Letter, _ => obtain rfl : h = .ALetter := by simpa [D] using hD
                    cases k <;> first | (cases hk; done) | (cases hn'; done) | (cases z <;> bclass_cases)
    | .HLetter, _ => obtain rfl : h = .HebrewLetter := by simpa [D] using hD
                     cases k <;> first | (cases hk; done) | (cases hn'; done) | (cases z <;> bclass_cases)
    | .Numeric, _ => obtain rfl : h = .Numeric := by simpa [D] using hD
                     cases k <;> first | (cases hk; done) | (cases hn'; done) | (cases z <;> bclass_cases)
    | .Katakana, _ => obtain rfl : h = .Katakana := by simpa [D] using hD
                      cases k <;> first | (cases hk; done) | (cases hn'; done) | (cases z <;> bclass_cases)
    | .ExtendNumLet, _ => obtain rfl : h = .ExtendNumLet := by simpa [D] using hD
                          cases k <;> first | (cases hk; done) | (cases hn'; done) | (cases z <;> bclass_cases)
    | .Regional .Full, _ =>
      simp only [D, Bool.and_eq_true] at hD
      obtain rfl : h = .RegionalIndicator := eq_of_beq hD.1
      cases k <;> first | (cases hk; done) | (cases hn'; done) | (cases z <;> bclass_cases)
    | .Regional .Unknown, _ =>
      obtain rfl : h = .RegionalIndicator := by simpa [D] using hD
      rcases p with ⟨p1, p2, po, pz⟩
      cases k <;> first | (cases hk; done) | (cases hn'; done) | (cases z <;> cases po <;> bclass_cases)
    | .Emoji, _ => obtain rfl : h = .EModifier := by simpa [D] using hD
                   cases k <;> first | (cases hk; done) | (cases hn'; done) | (cases z <;> bclass_cases)
    | .Zwj, _ =>
      obtain rfl := hz rfl
      have hD' : (h = .GlueAfterZwj ∨ h = .EBaseGAZ) ∨ (h = .EBase ∧ ns = some .EModifier) := by simpa [D] using hD
      rcases hD' with (rfl | rfl) | ⟨rfl, rfl⟩ <;> (cases k <;> first | (cases hk; done) | (cases hn'; done) | bclass_cases)

theorem bstep_zwj {p : Ctx} {h : WB} {ns : Option WB} (hD : D .Zwj (p.push .ZWJ) h ns = true) (hh : h ≠ .EBase) :
    bnd (p.push .ZWJ) h ns = false ∧ D (.FormatExtend .AcceptAny) p .ZWJ (some h) = true := by
  have hD' : (h = .GlueAfterZwj ∨ h = .EBaseGAZ) ∨ (h = .EBase ∧ ns = some .EModifier) := by simpa [D] using hD
  have hz : (p.push .ZWJ).z = true := by rw [Ctx.push]; split <;> rfl
  have hn : optB isNl (p.push .ZWJ).e1 = false := by
    rw [Ctx.push]; split
    · rename_i ho
      simp only [Bool.and_eq_true, Ctx.open] at ho
      cases he : p.e1 with
      | none => rfl
      | some e => rw [he] at ho; simpa [optB] using ho.2
    · rfl
  have hs : ∃ e, (p.push .ZWJ).e1 = some e := by
    rw [Ctx.push]; split
    · rename_i ho
      simp only [Bool.and_eq_true, Ctx.open] at ho
      cases he : p.e1 with
      | none => rw [he] at ho; cases ho.2
      | some e => exact ⟨e, rfl⟩
    · exact ⟨_, rfl⟩
  generalize p.push .ZWJ = c at *
  rcases c with ⟨e1, e2, odd, z⟩
  obtain ⟨e, rfl⟩ := hs
  simp only at hz; subst hz
  have hn' : isNl e = false := hn
  rcases hD' with (rfl | rfl) | ⟨rfl, rfl⟩
  · exact ⟨by cases e <;> first | (cases hn'; done) | rfl, rfl⟩
  · exact ⟨by cases e <;> first | (cases hn'; done) | rfl, rfl⟩
  · exact absurd rfl hh

/-- cut before a class that nothing joins -/
theorem bnd_loose {c : Ctx} {k : WB} {ns : Option WB} (hb : bact false (.FormatExtend .AcceptAny) k = .brk) (hn : nsOK ns = true) :
    bnd c k ns = true := by
  rcases c with ⟨e1, e2, odd, z⟩
  cases e1 with
  | none => rfl
  | some e =>
    have h1 : optB ahl ns = false := by
      cases ns with
      | none => rfl
      | some n => cases n <;> first | (cases hn; done) | rfl
    have h2 : ns ≠ some .HebrewLetter := by rintro rfl; cases hn
    have h3 : ns ≠ some .Numeric := by rintro rfl; cases hn
    cases k <;> simp [bact] at hb <;> cases e <;> simp [bnd, joins, isNl, isIgn, ahl, midL, midN, wb_beq, opt_beq, h1, h2, h3]

/-- cut before a quote that no Hebrew letter comes before -/
theorem bnd_quote {c : Ctx} {ns : Option WB} (hn : nsOK ns = true) (he : c.e1 ≠ some .HebrewLetter) : bnd c .SingleQuote ns = true := by
  rcases c with ⟨e1, e2, odd, z⟩
  cases e1 with
  | none => rfl
  | some e =>
    have h1 : optB ahl ns = false := by
      cases ns with
      | none => rfl
      | some n => cases n <;> first | (cases hn; done) | rfl
    have h2 : ns ≠ some .HebrewLetter := by rintro rfl; cases hn
    have h3 : ns ≠ some .Numeric := by rintro rfl; cases hn
    cases e <;> simp_all [bnd, joins, isNl, isIgn, ahl, midL, midN, wb_beq, opt_beq]

theorem bnd_quote_join {c : Ctx} {ns : Option WB} (he : c.e1 = some .HebrewLetter) : bnd c .SingleQuote ns = false := by
  rcases c with ⟨e1, e2, odd, z⟩
  simp only at he; subst he
  simp [bnd, joins, isNl, isIgn, ahl, midL, midN, wb_beq, opt_beq]

/-- nothing is cut before a skipped character, except after a newline -/
theorem bnd_ign {c : Ctx} {k : WB} {ns : Option WB} (hk : isIgn k = true) (hc : c.open = true) : bnd c k ns = false := by
  rcases c with ⟨e1, e2, odd, z⟩
  cases e1 with
  | none => cases hc
  | some e =>
    have : isNl e = false := by simpa [Ctx.open] using hc
    cases k <;> first | (cases hk; done) | (cases e <;> first | (cases this; done) | simp [bnd, isNl, isIgn, wb_beq, opt_beq])

theorem bnd_closed {c : Ctx} {k : WB} {ns : Option WB} (hk : isIgn k = true) (hc : c.open = false) : bnd c k ns = true := by
  rcases c with ⟨e1, e2, odd, z⟩
  cases e1 with
  | none => rfl
  | some e =>
    have : isNl e = true := by simpa [Ctx.open] using hc
    cases k <;> first | (cases hk; done) | (cases e <;> first | (cases this; done) | simp [bnd, isNl, isIgn, wb_beq, opt_beq])

/-- cut after skipped characters at the start of the text or after a newline -/
theorem bnd_free {st : State} {c : Ctx} {h : WB} {ns : Option WB} (hD : D st c h ns = true) (hf : st.folds = true)
    (he : optB isIgn c.e1 = true) (ho : c.odd = false) (hz : st = .Zwj → c.z = false) : bnd c h ns = true := by
  have := bstep st .nil c .LF h ns hD hf rfl ⟨(by intro h; cases h), fun _ => ⟨ho, by
    obtain ⟨e, h1, h2⟩ := (optB_iff _ _).mp he
    exact ⟨e, h1, by simp [h2]⟩⟩⟩ hz
  have hb : bact c.odd st .LF = .leave := by
    cases st with
    | FormatExtend t => cases hf
    | Regional r => cases r <;> rfl
    | Start => cases hf
    | _ => rfl
  rw [hb] at this
  exact this

end Proofs.Word
