import Verif.Spec.Bidi

/-! # Specification: texts in which every isolate is closed (UAX #9, BD8-BD10) -/
namespace Spec.Bidi
open Data

/-- Every isolate initiator has its matching PDI, every PDI matches an initiator, and there is no paragraph separator. -/
inductive Balanced : List BidiClass → Prop
  | nil : Balanced []
  | other (c : BidiClass) (cs : List BidiClass) : isInitiator c = false → c ≠ .PopDirectionalIsolate → c ≠ .ParagraphSeparator → Balanced cs → Balanced (c :: cs)
  | isolate (i : BidiClass) (x y : List BidiClass) : isInitiator i = true → Balanced x → Balanced y → Balanced (i :: x ++ .PopDirectionalIsolate :: y)

end Spec.Bidi
