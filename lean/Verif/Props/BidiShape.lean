import Verif.Proofs.BidiShape
import Verif.Props.Bidi
import Verif.Props.Direction

/-! # C86: the Bidi analysis sees classes, not characters -/
namespace Props.BidiShape
open Data Model Model.Ucd Model.Bidi Model.Grapheme Spec.BidiShape Proofs.BidiShape Props.Bidi

/-- The full claim: the level of a character depends on the classes of the characters only. -/
def ClassesDecide : Prop := ∀ (s t : List Nat) (dflt : Option Nat) (i j : BidiInfo), s.map bidiClass = t.map bidiClass →
  bidiInfo s dflt = .ok i → bidiInfo t dflt = .ok j → ∀ k < s.length, i.levels[blen (s.take k)]? = j.levels[blen (t.take k)]?

/-- **C86, analysis** (missing: texts whose characters differ in their lengths in UTF-8, for which the claim is false). When the characters
of two texts have, one by one, the same class and the same length, then the analyses of the texts have the same classes, levels and
paragraphs, or both panic. -/
theorem c86_analysis_partial (s t : List Nat) (dflt : Option Nat)
    (h : List.Forall₂ (fun c d => bidiClass c = bidiClass d ∧ Utf.lenUtf8 c = Utf.lenUtf8 d) s t) :
    SameOutcome (fun i j => i.text = s ∧ j.text = t ∧ i.classes = j.classes ∧ i.levels = j.levels ∧ i.paras = j.paras ∧ hasRtl i = hasRtl j)
      (bidiInfo s dflt) (bidiInfo t dflt) := by
  have hn := new_same (cls := bidiClass) (fun _ _ h => h.1) (fun _ _ h => h.2) dflt h
  have ht : ∀ s i, BidiInfo.new bidiClass s dflt = .ok i → i.text = s := by
    intro s i hi
    unfold BidiInfo.new at hi
    cases h1 : initialInfo bidiClass s dflt with
    | panic => rw [h1] at hi; cases hi
    | ok p =>
      rw [h1] at hi
      change (paragraphsLoop s p.1 p.2 [] >>= fun levels => Outcome.ok ⟨s, p.1, levels, p.2⟩) = .ok i at hi
      cases h2 : paragraphsLoop s p.1 p.2 [] with
      | panic => rw [h2] at hi; cases hi
      | ok l => rw [h2] at hi; cases hi; rfl
  generalize h1 : BidiInfo.new bidiClass s dflt = x at hn
  generalize h2 : BidiInfo.new bidiClass t dflt = y at hn
  simp only [bidiInfo]
  rw [h1, h2]
  cases hn with
  | panic => exact .panic
  | ok hs => exact .ok ⟨ht _ _ h1, ht _ _ h2, hs.classes, hs.levels, hs.paras, by simp only [hasRtl, hs.levels]⟩

/-- **C86, display** (missing: as above). For any relation of characters that keeps class and length: the analyses of related texts give the
same runs and levels for a line, and related lines are shown as related texts. With the relation `d = f c` this says that replacing the
characters by `f` replaces them in the displayed line, and that each character of a displayed line comes from a place that the classes and
lengths determine. -/
theorem c86_display_partial (R : Nat → Nat → Prop) (hR : ∀ c d, R c d → bidiClass c = bidiClass d ∧ Utf.lenUtf8 c = Utf.lenUtf8 d)
    (s t : List Nat) (h : List.Forall₂ R s t) (dflt : Option Nat) (i j : BidiInfo) (hi : bidiInfo s dflt = .ok i) (hj : bidiInfo t dflt = .ok j)
    (para : Para) (line : Run) :
    visualRuns i para line = visualRuns j para line ∧ reorderedLevels i para line = reorderedLevels j para line ∧
    reorderedLevelsPerChar i para line = reorderedLevelsPerChar j para line ∧
    SameOutcome (List.Forall₂ R) (reorderLine i para line) (reorderLine j para line) := by
  have hl : ∀ c d, R c d → Utf.lenUtf8 c = Utf.lenUtf8 d := fun _ _ h => (hR _ _ h).2
  have hn := new_same (cls := bidiClass) (fun _ _ h => (hR _ _ h).1) hl dflt h
  simp only [bidiInfo] at hi hj
  rw [hi, hj] at hn
  cases hn with
  | ok hs =>
    have hv := visualRuns_same hl hs para line
    exact ⟨hv, by simp only [reorderedLevels, hv], perChar_same hl hs para line, reorderLine_same hl hs para line⟩

/-- **C86, display, for replaced characters** (missing: as above). -/
theorem c86_replace_partial (f : Nat → Nat) (s : List Nat) (hf : ∀ c ∈ s, bidiClass (f c) = bidiClass c ∧ Utf.lenUtf8 (f c) = Utf.lenUtf8 c)
    (dflt : Option Nat) (i j : BidiInfo) (hi : bidiInfo s dflt = .ok i) (hj : bidiInfo (s.map f) dflt = .ok j) (para : Para) (line : Run) :
    reorderLine j para line = (reorderLine i para line).map (List.map f) := by
  have h : List.Forall₂ (fun c d => d = f c ∧ bidiClass c = bidiClass d ∧ Utf.lenUtf8 c = Utf.lenUtf8 d) s (s.map f) := by
    clear hi hj
    induction s with
    | nil => exact .nil
    | cons c s ih =>
      exact .cons ⟨rfl, (hf c (by simp)).1.symm, (hf c (by simp)).2.symm⟩ (ih fun x hx => hf x (by simp [hx]))
  have hr := (c86_display_partial _ (fun _ _ h => h.2) s _ h dflt i j hi hj para line).2.2.2
  generalize reorderLine i para line = x at hr ⊢
  generalize reorderLine j para line = y at hr ⊢
  cases hr with
  | panic => rfl
  | ok h =>
    simp only [Outcome.map, Outcome.ok.injEq]
    induction h with
    | nil => rfl
    | cons h _ ih => rw [List.map_cons, ih, h.1]

def clsC (c : Nat) : BidiClass := (Proofs.Chunked.lookupC Data.bidiClass c).getD .LeftToRight
theorem cls_eq : Ucd.bidiClass = clsC := funext fun c => by rw [Props.Direction.bidi_of]; rfl

/-- Non-vacuity: "אa1" and "בz7" have the same classes and lengths, and are analysed. -/
example : List.Forall₂ (fun c d => bidiClass c = bidiClass d ∧ Utf.lenUtf8 c = Utf.lenUtf8 d) [0x5D0, 0x61, 0x31] [0x5D1, 0x7A, 0x37] ∧
    (∃ i, bidiInfo [0x5D0, 0x61, 0x31] none = .ok i ∧ i.levels = [1, 1, 2, 2]) ∧
    reorderLine ⟨[0x5D0, 0x61, 0x31], [.RightToLeft, .RightToLeft, .LeftToRight, .EuropeanNumber], [1, 1, 2, 2], [⟨⟨0, 4⟩, 1⟩]⟩ ⟨⟨0, 4⟩, 1⟩ ⟨0, 4⟩ =
      .ok [0x61, 0x31, 0x5D0] := by
  refine ⟨?_, ⟨⟨[0x5D0, 0x61, 0x31], [.RightToLeft, .RightToLeft, .LeftToRight, .EuropeanNumber], [1, 1, 2, 2], [⟨⟨0, 4⟩, 1⟩]⟩, ?_, rfl⟩, by decide +kernel⟩
  · rw [cls_eq]; refine .cons ?_ (.cons ?_ (.cons ?_ .nil)) <;> decide +kernel
  · simp only [bidiInfo]; rw [cls_eq]; decide +kernel

/-- **C86 is false of the code**: U+002C and U+00A0 are both common separators, but between two European numbers in a right-to-left
paragraph the first gets level 2 and the second, which has two bytes, gets level 1. -/
theorem c86_false : ¬ ClassesDecide := by
  intro h
  have := h [0x5D0, 0x31, 0x2C, 0x31] [0x5D0, 0x31, 0xA0, 0x31] none
    ⟨[0x5D0, 0x31, 0x2C, 0x31], [.RightToLeft, .RightToLeft, .EuropeanNumber, .CommonSeparator, .EuropeanNumber], [1, 1, 2, 2, 2], [⟨⟨0, 5⟩, 1⟩]⟩
    ⟨[0x5D0, 0x31, 0xA0, 0x31], [.RightToLeft, .RightToLeft, .EuropeanNumber, .CommonSeparator, .CommonSeparator, .EuropeanNumber], [1, 1, 2, 1, 1, 2], [⟨⟨0, 6⟩, 1⟩]⟩
    (by rw [cls_eq]; decide +kernel) (by simp only [bidiInfo]; rw [cls_eq]; decide +kernel) (by simp only [bidiInfo]; rw [cls_eq]; decide +kernel) 2 (by decide)
  exact absurd this (by decide +kernel)

end Props.BidiShape
