import Verif.Model.Bidi

/-! # When two calls have the same outcome up to a relation of their results -/
namespace Spec.BidiShape
open Model

/-- Both panic, or both return and the results are related. -/
inductive SameOutcome {α β : Type} (R : α → β → Prop) : Outcome α → Outcome β → Prop
  | ok {a b} : R a b → SameOutcome R (.ok a) (.ok b)
  | panic : SameOutcome R .panic .panic

end Spec.BidiShape
