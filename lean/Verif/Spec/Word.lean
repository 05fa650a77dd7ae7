import Verif.Spec.Segment

/-! # Specification: word boundaries (UAX #29 section 4.1.1, revision for Unicode 10) -/
namespace Spec.Segment
open Data

/-- the characters WB4 skips -/
def Ignored (c : WordBreak) : Prop := c = .Extend ∨ c = .Format ∨ c = .ZWJ
instance : DecidablePred Ignored := fun _ => inferInstanceAs (Decidable (_ ∨ _ ∨ _))

/-- the characters after which WB4 does not skip -/
def IsNewline (c : WordBreak) : Prop := c = .CR ∨ c = .LF ∨ c = .Newline
instance : DecidablePred IsNewline := fun _ => inferInstanceAs (Decidable (_ ∨ _ ∨ _))

/-- WB4: `X (Extend | Format | ZWJ)*` is treated as `X`, where `X` is any character except CR, LF and Newline. -/
def collapse : List WordBreak → List WordBreak
  | [] => []
  | c :: s => c :: collapse (if IsNewline c then s else s.dropWhile (fun x => decide (Ignored x)))
termination_by s => s.length
decreasing_by
  simp only [List.length_cons]
  split
  · omega
  · have := (List.dropWhile_suffix (l := s) (fun x => decide (Ignored x))).length_le; omega

/-- the text before ends in two characters of these classes -/
def endsIn2 (cs ds : List WordBreak) : List WordBreak → Prop := fun l => ∃ p c d, l = p ++ [c, d] ∧ c ∈ cs ∧ d ∈ ds
/-- the text after begins with two characters of these classes -/
def beginsWith2 (cs ds : List WordBreak) : List WordBreak → Prop := fun l => ∃ c d s, l = c :: d :: s ∧ c ∈ cs ∧ d ∈ ds

def AHLetter : List WordBreak := [.ALetter, .HebrewLetter]
def MidNumLetQ : List WordBreak := [.MidNumLet, .SingleQuote]

/-- rules WB1 to WB4, on the text as it is -/
def wordRules1 : List (Rule WordBreak) :=
  [ ⟨nothing, any, true⟩, -- WB1
    ⟨any, nothing, true⟩, -- WB2
    ⟨endsIn [.CR], beginsWith [.LF], false⟩, -- WB3
    ⟨endsIn [.Newline, .CR, .LF], any, true⟩, -- WB3a
    ⟨any, beginsWith [.Newline, .CR, .LF], true⟩, -- WB3b
    ⟨endsIn [.ZWJ], beginsWith [.GlueAfterZwj, .EBaseGAZ], false⟩, -- WB3c
    ⟨any, beginsWith [.Extend, .Format, .ZWJ], false⟩ ] -- WB4

/-- rules WB5 to WB999 -/
def wordRules2 : List (Rule WordBreak) :=
  [ ⟨endsIn AHLetter, beginsWith AHLetter, false⟩, -- WB5
    ⟨endsIn AHLetter, beginsWith2 (.MidLetter :: MidNumLetQ) AHLetter, false⟩, -- WB6
    ⟨endsIn2 AHLetter (.MidLetter :: MidNumLetQ), beginsWith AHLetter, false⟩, -- WB7
    ⟨endsIn [.HebrewLetter], beginsWith [.SingleQuote], false⟩, -- WB7a
    ⟨endsIn [.HebrewLetter], beginsWith2 [.DoubleQuote] [.HebrewLetter], false⟩, -- WB7b
    ⟨endsIn2 [.HebrewLetter] [.DoubleQuote], beginsWith [.HebrewLetter], false⟩, -- WB7c
    ⟨endsIn [.Numeric], beginsWith [.Numeric], false⟩, -- WB8
    ⟨endsIn AHLetter, beginsWith [.Numeric], false⟩, -- WB9
    ⟨endsIn [.Numeric], beginsWith AHLetter, false⟩, -- WB10
    ⟨endsIn2 [.Numeric] (.MidNum :: MidNumLetQ), beginsWith [.Numeric], false⟩, -- WB11
    ⟨endsIn [.Numeric], beginsWith2 (.MidNum :: MidNumLetQ) [.Numeric], false⟩, -- WB12
    ⟨endsIn [.Katakana], beginsWith [.Katakana], false⟩, -- WB13
    ⟨endsIn ([.Numeric, .Katakana, .ExtendNumLet] ++ AHLetter), beginsWith [.ExtendNumLet], false⟩, -- WB13a
    ⟨endsIn [.ExtendNumLet], beginsWith ([.Numeric, .Katakana] ++ AHLetter), false⟩, -- WB13b
    ⟨endsIn [.EBase, .EBaseGAZ], beginsWith [.EModifier], false⟩, -- WB14
    -- WB15: sot (RI RI)* RI × RI
    ⟨fun l => ∃ k, l = List.replicate (2 * k + 1) .RegionalIndicator, beginsWith [.RegionalIndicator], false⟩,
    -- WB16: [^RI] (RI RI)* RI × RI
    ⟨fun l => ∃ p x k, l = p ++ x :: List.replicate (2 * k + 1) .RegionalIndicator ∧ x ≠ .RegionalIndicator,
      beginsWith [.RegionalIndicator], false⟩,
    ⟨any, any, true⟩ ] -- WB999

/-- the rule, looking at the text with WB4 applied on both sides -/
def Rule.skipping (r : Rule WordBreak) : Rule WordBreak :=
  { left := fun l => r.left (collapse l), right := fun l => r.right (collapse l), brk := r.brk }

/-- UAX #29: the rules WB1 to WB999, in order -/
def wordRules : List (Rule WordBreak) := wordRules1 ++ wordRules2.map Rule.skipping

/-- There is a word boundary between `before` and `after`. -/
def WordBoundary (before after : List WordBreak) : Prop := Breaks wordRules before after

end Spec.Segment
