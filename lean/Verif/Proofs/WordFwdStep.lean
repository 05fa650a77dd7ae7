import Verif.Proofs.WordLocal

/-! One step of the forward scan against the rules, on classes. -/
namespace Proofs.Word
open Data Spec.Segment Model.Word

/-- what one pass of the forward loop does, in a state other than `Start` -/
inductive Act where
  | goto (st : State) | stay | save (t : FE) | leave | leaveNC | brk
deriving DecidableEq, Repr

def Act.apply (v : Fwd) : Act → Flow Fwd
  | .goto st => v.goto st
  | .stay => .cont v
  | .save t => v.save t
  | .leave => v.leave
  | .leaveNC => .brk { v with takeCurr := false, takeCat := false }
  | .brk => .brk v

/-- `fwdMatch` outside `Start` -/
def act1 : State → WB → Act
  | .Letter, .ALetter => .goto .Letter
  | .Letter, .HebrewLetter => .goto .HLetter
  | .Letter, .Numeric => .goto .Numeric
  | .Letter, .ExtendNumLet => .goto .ExtendNumLet
  | .Letter, .MidLetter => .save .RequireLetter
  | .Letter, .MidNumLet => .save .RequireLetter
  | .Letter, .SingleQuote => .save .RequireLetter
  | .HLetter, .ALetter => .goto .Letter
  | .HLetter, .HebrewLetter => .goto .HLetter
  | .HLetter, .Numeric => .goto .Numeric
  | .HLetter, .ExtendNumLet => .goto .ExtendNumLet
  | .HLetter, .DoubleQuote => .save .RequireHLetter
  | .HLetter, .SingleQuote => .goto (.FormatExtend .AcceptQLetter)
  | .HLetter, .MidLetter => .save .RequireLetter
  | .HLetter, .MidNumLet => .save .RequireLetter
  | .Numeric, .Numeric => .goto .Numeric
  | .Numeric, .ALetter => .goto .Letter
  | .Numeric, .HebrewLetter => .goto .HLetter
  | .Numeric, .ExtendNumLet => .goto .ExtendNumLet
  | .Numeric, .MidNum => .save .RequireNumeric
  | .Numeric, .MidNumLet => .save .RequireNumeric
  | .Numeric, .SingleQuote => .save .RequireNumeric
  | .Katakana, .Katakana => .goto .Katakana
  | .Katakana, .ExtendNumLet => .goto .ExtendNumLet
  | .ExtendNumLet, .ExtendNumLet => .goto .ExtendNumLet
  | .ExtendNumLet, .ALetter => .goto .Letter
  | .ExtendNumLet, .HebrewLetter => .goto .HLetter
  | .ExtendNumLet, .Numeric => .goto .Numeric
  | .ExtendNumLet, .Katakana => .goto .Katakana
  | .Regional .Half, .RegionalIndicator => .goto (.Regional .Full)
  | .Emoji, .EModifier => .goto .Emoji
  | .FormatExtend .RequireNumeric, .Numeric => .goto .Numeric
  | .FormatExtend .RequireNumeric, _ => .brk
  | .FormatExtend .RequireLetter, .ALetter => .goto .Letter
  | .FormatExtend .RequireLetter, .HebrewLetter => .goto .HLetter
  | .FormatExtend .RequireLetter, _ => .brk
  | .FormatExtend .AcceptQLetter, .ALetter => .goto .Letter
  | .FormatExtend .AcceptQLetter, .HebrewLetter => .goto .HLetter
  | .FormatExtend .AcceptQLetter, _ => .leaveNC
  | .FormatExtend .RequireHLetter, .HebrewLetter => .goto .HLetter
  | .FormatExtend .RequireHLetter, _ => .brk
  | .FormatExtend .AcceptNone, _ => .leaveNC
  | _, _ => .leave

def act (pz : Bool) (st : State) (cat : WB) : Act :=
  if isIgn cat then .stay
  else if pz && cat == .GlueAfterZwj then .stay
  else if pz && cat == .EBaseGAZ then .goto .Emoji
  else act1 st cat

/-- the states of the forward loop after the first character -/
def okState : State → Bool
  | .Start => false
  | .Regional .Unknown => false
  | .FormatExtend .AcceptAny => false
  | _ => true

theorem fwdMatch_act (wb : Nat → WB) (s : List Nat) (v : Fwd) (h : okState v.state = true) :
    fwdMatch wb s v = .ok ((act1 v.state v.cat).apply v) := by
  rcases v with ⟨tcur, tcat, idx, sidx, st, cat, scat, self⟩
  simp only at h
  match st, h with
  | .Letter, _ => cases cat <;> rfl
  | .HLetter, _ => cases cat <;> rfl
  | .Numeric, _ => cases cat <;> rfl
  | .Katakana, _ => cases cat <;> rfl
  | .ExtendNumLet, _ => cases cat <;> rfl
  | .Regional .Half, _ => cases cat <;> rfl
  | .Regional .Full, _ => cases cat <;> rfl
  | .Zwj, _ => cases cat <;> rfl
  | .Emoji, _ => cases cat <;> rfl
  | .FormatExtend .AcceptNone, _ => cases cat <;> rfl
  | .FormatExtend .RequireLetter, _ => cases cat <;> rfl
  | .FormatExtend .RequireHLetter, _ => cases cat <;> rfl
  | .FormatExtend .AcceptQLetter, _ => cases cat <;> rfl
  | .FormatExtend .RequireNumeric, _ => cases cat <;> rfl

theorem fwdBody_act (wb : Nat → WB) (s : List Nat) (pz : Bool) (v : Fwd) (h : okState v.state = true) :
    fwdBody wb s pz v = .ok ((act pz v.state v.cat).apply v) := by
  have hs : v.state ≠ .Start := by intro e; rw [e] at h; cases h
  rw [fwdBody, act]
  by_cases h1 : isIgn v.cat = true
  · rw [if_pos ⟨hs, h1⟩, if_pos h1]; rfl
  rw [if_neg (fun x => h1 x.2), if_neg h1]
  by_cases h2 : pz = true ∧ v.cat = .GlueAfterZwj
  · rw [if_pos h2, if_pos (by simp [h2])]; rfl
  have h2' : ¬ (pz && v.cat == .GlueAfterZwj) = true := by simpa using h2
  rw [if_neg h2, if_neg h2']
  by_cases h3 : pz = true ∧ v.cat = .EBaseGAZ
  · rw [if_pos h3, if_pos (by simp [h3])]; rfl
  have h3' : ¬ (pz && v.cat == .EBaseGAZ) = true := by simpa using h3
  rw [if_neg h3, if_neg h3']
  exact fwdMatch_act wb s v h

/-- the state is waiting for a character that joins -/
def pending : State → Option FE
  | .FormatExtend .RequireLetter => some .RequireLetter
  | .FormatExtend .RequireHLetter => some .RequireHLetter
  | .FormatExtend .RequireNumeric => some .RequireNumeric
  | _ => none

def resolves : FE → Option WB → Bool
  | .RequireLetter, o => optB ahl o
  | .RequireHLetter, o => o == some .HebrewLetter
  | .RequireNumeric, o => o == some .Numeric
  | _, _ => false

/-- classes that start a piece without a state of their own -/
def others : WB → Bool
  | .Other => true
  | .MidLetter => true
  | .MidNum => true
  | .MidNumLet => true
  | .SingleQuote => true
  | .DoubleQuote => true
  | .GlueAfterZwj => true
  | .EModifier => true
  | .Extend => true
  | .Format => true
  | _ => false

/-- the state says what the text consumed ends in -/
def inv : State → Ctx → Bool
  | .Letter, c => c.e1 == some .ALetter
  | .HLetter, c => c.e1 == some .HebrewLetter
  | .Numeric, c => c.e1 == some .Numeric
  | .Katakana, c => c.e1 == some .Katakana
  | .ExtendNumLet, c => c.e1 == some .ExtendNumLet
  | .Regional .Half, c => c.e1 == some .RegionalIndicator && c.odd
  | .Regional .Full, c => c.e1 == some .RegionalIndicator && !c.odd
  | .Zwj, c => c.e1 == some .ZWJ
  | .Emoji, c => c.e1 == some .EBase || c.e1 == some .EBaseGAZ || c.e1 == some .EModifier
  | .FormatExtend .AcceptNone, c => c.e2 == none && optB others c.e1
  | .FormatExtend .AcceptQLetter, c => c.e1 == some .SingleQuote && c.e2 == some .HebrewLetter
  | .FormatExtend .RequireLetter, c =>
    (c.e1 == some .MidLetter && optB ahl c.e2) || (c.e1 == some .MidNumLet && optB ahl c.e2)
      || (c.e1 == some .SingleQuote && c.e2 == some .ALetter)
  | .FormatExtend .RequireHLetter, c => c.e1 == some .DoubleQuote && c.e2 == some .HebrewLetter
  | .FormatExtend .RequireNumeric, c => optB midN c.e1 && c.e2 == some .Numeric
  | _, _ => false

/-- after ZWJ × GAZ the state is that of the text before the ZWJ -/
def shadow (st : State) (c : Ctx) : Bool := c.e1 == some .GlueAfterZwj && okState st && pending st == none
  && st != .FormatExtend .AcceptQLetter

/-- the classes MidLetter, MidNum, MidNumLet, Single_Quote, Double_Quote -/
def midQ : WB → Bool
  | .MidLetter => true
  | .MidNum => true
  | .MidNumLet => true
  | .SingleQuote => true
  | .DoubleQuote => true
  | _ => false

/-- the classes some state accepts as a continuation -/
def joiner : WB → Bool
  | .ALetter => true
  | .HebrewLetter => true
  | .Numeric => true
  | .Katakana => true
  | .ExtendNumLet => true
  | .RegionalIndicator => true
  | .EModifier => true
  | b => midQ b

/-- what a step must satisfy -/
def Good (st : State) (c : Ctx) (cat : WB) (b2 : Option WB) : Prop :=
  match act c.z st cat with
  | .stay => bnd c cat b2 = false ∧ (inv st (c.push cat) = true ∨
      (shadow st (c.push cat) = true ∧ (isIgn cat = true → shadow st c = true) ∧ (isIgn cat = false → c.z = true ∧ cat = .GlueAfterZwj)))
  | .goto st' => bnd c cat b2 = false ∧ inv st' (c.push cat) = true ∧ okState st' = true ∧ pending st' = none ∧
      ∀ t, pending st = some t → resolves t (some cat) = true
  | .save t => bnd c cat b2 = !resolves t b2 ∧ inv (.FormatExtend t) (c.push cat) = true ∧ pending (.FormatExtend t) = some t
      ∧ pending st = none ∧ isIgn cat = false
  | .leave => bnd c cat b2 = true ∧ pending st = none
  | .leaveNC => bnd c cat b2 = true ∧ pending st = none
  | .brk => isIgn cat = false ∧ ∃ t, pending st = some t ∧ resolves t (some cat) = false

theorem wb_beq (a b : WB) : (a == b) = decide (a = b) := rfl
theorem opt_beq (a b : Option WB) : (a == b) = decide (a = b) := by
  rw [Bool.eq_iff_iff]; simp

macro "class_cases" : tactic => `(tactic|
  simp_all [Good, act, act1, bnd, joins, Ctx.push, Ctx.open, inv, isIgn, isNl, ahl, midL, midN, optB, pending, resolves, okState, shadow, midQ, wb_beq, opt_beq])

set_option maxHeartbeats 4000000 in
theorem step_inv (st : State) (c : Ctx) (cat : WB) (b2 : Option WB) (h : inv st c = true)
    (hA : c.z = true → optB midQ c.e1 = true → cat ≠ .GlueAfterZwj ∧ cat ≠ .EBaseGAZ)
    (hC : ¬ (c.e1 = some .EModifier ∧ cat = .EModifier)) : Good st c cat b2 := by
  rcases c with ⟨e1, e2, odd, z⟩
  cases st with
  | Start => cases h
  | Letter =>
    obtain rfl : e1 = some .ALetter := by simpa [inv] using h
    cases cat <;> cases z <;> class_cases
  | HLetter =>
    obtain rfl : e1 = some .HebrewLetter := by simpa [inv] using h
    cases cat <;> cases z <;> class_cases
  | Numeric =>
    obtain rfl : e1 = some .Numeric := by simpa [inv] using h
    cases cat <;> cases z <;> class_cases
  | Katakana =>
    obtain rfl : e1 = some .Katakana := by simpa [inv] using h
    cases cat <;> cases z <;> class_cases
  | ExtendNumLet =>
    obtain rfl : e1 = some .ExtendNumLet := by simpa [inv] using h
    cases cat <;> cases z <;> class_cases
  | Zwj =>
    obtain rfl : e1 = some .ZWJ := by simpa [inv] using h
    cases cat <;> cases z <;> class_cases
  | Regional r =>
    cases r with
    | Half =>
      obtain ⟨rfl, rfl⟩ : e1 = some .RegionalIndicator ∧ odd = true := by simpa [inv] using h
      cases cat <;> cases z <;> class_cases
    | Full =>
      obtain ⟨rfl, rfl⟩ : e1 = some .RegionalIndicator ∧ odd = false := by simpa [inv] using h
      cases cat <;> cases z <;> class_cases
    | Unknown => cases h
  | Emoji =>
    have h' : (e1 = some .EBase ∨ e1 = some .EBaseGAZ) ∨ e1 = some .EModifier := by simpa [inv] using h
    rcases h' with (rfl | rfl) | rfl
    · cases cat <;> cases z <;> class_cases
    · cases cat <;> cases z <;> class_cases
    · cases cat <;> cases z <;> class_cases
  | FormatExtend t =>
    cases t with
    | AcceptAny => cases h
    | AcceptNone =>
      obtain ⟨rfl, h'⟩ : e2 = none ∧ optB others e1 = true := by simpa [inv] using h
      cases e1 with
      | none => cases h'
      | some e =>
        cases e <;> first | (cases h'; done) | (cases cat <;> cases z <;> simp_all [others, Good, act, act1, bnd, joins, Ctx.push, Ctx.open, inv, isIgn, isNl, ahl, midL, midN, optB, pending, resolves, okState, shadow, midQ, wb_beq, opt_beq])
    | AcceptQLetter =>
      obtain ⟨rfl, rfl⟩ : e1 = some .SingleQuote ∧ e2 = some .HebrewLetter := by simpa [inv] using h
      cases cat <;> cases z <;> class_cases
    | RequireHLetter =>
      obtain ⟨rfl, rfl⟩ : e1 = some .DoubleQuote ∧ e2 = some .HebrewLetter := by simpa [inv] using h
      cases cat <;> cases z <;> class_cases
    | RequireLetter =>
      have h' : ((e1 = some .MidLetter ∧ optB ahl e2 = true) ∨ (e1 = some .MidNumLet ∧ optB ahl e2 = true)) ∨
          (e1 = some .SingleQuote ∧ e2 = some .ALetter) := by simpa [inv] using h
      rcases h' with (⟨rfl, h'⟩ | ⟨rfl, h'⟩) | ⟨rfl, rfl⟩
      · obtain ⟨d, rfl, hd⟩ := (optB_iff _ _).mp h'
        cases d <;> first | (cases hd; done) | (cases cat <;> cases z <;> class_cases)
      · obtain ⟨d, rfl, hd⟩ := (optB_iff _ _).mp h'
        cases d <;> first | (cases hd; done) | (cases cat <;> cases z <;> class_cases)
      · cases cat <;> cases z <;> class_cases
    | RequireNumeric =>
      obtain ⟨h', rfl⟩ : optB midN e1 = true ∧ e2 = some .Numeric := by simpa [inv] using h
      obtain ⟨d, rfl, hd⟩ := (optB_iff _ _).mp h'
      cases d <;> first | (cases hd; done) | (cases cat <;> cases z <;> class_cases)

set_option maxHeartbeats 4000000 in
theorem step_shadow (st : State) (c : Ctx) (cat : WB) (b2 : Option WB) (h : shadow st c = true)
    (hB : isIgn cat = false → joiner cat = false) : Good st c cat b2 := by
  rcases c with ⟨e1, e2, odd, z⟩
  have h' : ((e1 = some .GlueAfterZwj ∧ okState st = true) ∧ pending st = none) ∧ st ≠ .FormatExtend .AcceptQLetter := by
    simpa [shadow] using h
  obtain ⟨⟨⟨rfl, hok⟩, hp⟩, hq⟩ := h'
  match st, hok, hp, hq with
  | .Letter, _, _, _ => cases cat <;> cases z <;> simp_all [joiner, Good, act, act1, bnd, joins, Ctx.push, Ctx.open, inv, isIgn, isNl, ahl, midL, midN, optB, pending, resolves, okState, shadow, midQ, wb_beq, opt_beq]
  | .HLetter, _, _, _ => cases cat <;> cases z <;> simp_all [joiner, Good, act, act1, bnd, joins, Ctx.push, Ctx.open, inv, isIgn, isNl, ahl, midL, midN, optB, pending, resolves, okState, shadow, midQ, wb_beq, opt_beq]
  | .Numeric, _, _, _ => cases cat <;> cases z <;> simp_all [joiner, Good, act, act1, bnd, joins, Ctx.push, Ctx.open, inv, isIgn, isNl, ahl, midL, midN, optB, pending, resolves, okState, shadow, midQ, wb_beq, opt_beq]
  | .Katakana, _, _, _ => cases cat <;> cases z <;> simp_all [joiner, Good, act, act1, bnd, joins, Ctx.push, Ctx.open, inv, isIgn, isNl, ahl, midL, midN, optB, pending, resolves, okState, shadow, midQ, wb_beq, opt_beq]
  | .ExtendNumLet, _, _, _ => cases cat <;> cases z <;> simp_all [joiner, Good, act, act1, bnd, joins, Ctx.push, Ctx.open, inv, isIgn, isNl, ahl, midL, midN, optB, pending, resolves, okState, shadow, midQ, wb_beq, opt_beq]
  | .Regional .Half, _, _, _ => cases cat <;> cases z <;> simp_all [joiner, Good, act, act1, bnd, joins, Ctx.push, Ctx.open, inv, isIgn, isNl, ahl, midL, midN, optB, pending, resolves, okState, shadow, midQ, wb_beq, opt_beq]
  | .Regional .Full, _, _, _ => cases cat <;> cases z <;> simp_all [joiner, Good, act, act1, bnd, joins, Ctx.push, Ctx.open, inv, isIgn, isNl, ahl, midL, midN, optB, pending, resolves, okState, shadow, midQ, wb_beq, opt_beq]
  | .Zwj, _, _, _ => cases cat <;> cases z <;> simp_all [joiner, Good, act, act1, bnd, joins, Ctx.push, Ctx.open, inv, isIgn, isNl, ahl, midL, midN, optB, pending, resolves, okState, shadow, midQ, wb_beq, opt_beq]
  | .Emoji, _, _, _ => cases cat <;> cases z <;> simp_all [joiner, Good, act, act1, bnd, joins, Ctx.push, Ctx.open, inv, isIgn, isNl, ahl, midL, midN, optB, pending, resolves, okState, shadow, midQ, wb_beq, opt_beq]
  | .FormatExtend .AcceptNone, _, _, _ => cases cat <;> cases z <;> simp_all [joiner, Good, act, act1, bnd, joins, Ctx.push, Ctx.open, inv, isIgn, isNl, ahl, midL, midN, optB, pending, resolves, okState, shadow, midQ, wb_beq, opt_beq]

end Proofs.Word
