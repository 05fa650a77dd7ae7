import Verif.Model.Ucd

/-! # Model of the classification methods of `unic/ucd/bidi/src/bidi_class.rs` -/
namespace Model.BidiClass
open Data Model.Ucd

/-- unic/ucd/bidi/src/bidi_class.rs L301-313 (`BidiClassCategory`) -/
inductive Category where
  | Strong | Weak | ExplicitFormatting | Neutral
deriving DecidableEq, Repr

/-- unic/ucd/bidi/src/bidi_class.rs L239-268 (`category`) -/
def category : BidiClass → Category
  | .LeftToRight | .RightToLeft | .ArabicLetter => .Strong
  | .EuropeanNumber | .EuropeanSeparator | .EuropeanTerminator | .ArabicNumber | .CommonSeparator
  | .NonspacingMark | .BoundaryNeutral => .Weak
  | .ParagraphSeparator | .SegmentSeparator | .WhiteSpace | .OtherNeutral => .Neutral
  | .LeftToRightEmbedding | .LeftToRightOverride | .RightToLeftEmbedding | .RightToLeftOverride
  | .PopDirectionalFormat | .LeftToRightIsolate | .RightToLeftIsolate | .FirstStrongIsolate
  | .PopDirectionalIsolate => .ExplicitFormatting

/-- unic/ucd/bidi/src/bidi_class.rs L272-280 (`is_ltr`) -/
def isLtr : BidiClass → Bool
  | .LeftToRight | .LeftToRightEmbedding | .LeftToRightOverride | .LeftToRightIsolate => true
  | _ => false
/-- unic/ucd/bidi/src/bidi_class.rs L284-293 (`is_rtl`) -/
def isRtl : BidiClass → Bool
  | .RightToLeft | .ArabicLetter | .RightToLeftEmbedding | .RightToLeftOverride | .RightToLeftIsolate => true
  | _ => false

/-- unic/ucd/bidi/src/bidi_class.rs L358-361 (`has_bidi_explicit`) -/
def hasBidiExplicit (s : List Nat) : Bool := s.any fun ch => category (bidiClass ch) == .ExplicitFormatting
/-- unic/ucd/bidi/src/bidi_class.rs L364-366 (`has_ltr`) -/
def hasLtr (s : List Nat) : Bool := s.any fun ch => isRtl (bidiClass ch)
/-- unic/ucd/bidi/src/bidi_class.rs L369-371 (`has_rtl`) -/
def hasRtl (s : List Nat) : Bool := s.any fun ch => isRtl (bidiClass ch)

end Model.BidiClass
