import Verif.Spec.BidiShape
import Mathlib.Data.List.Forall2

/-! The Bidi functions look at a text only through the classes and the lengths of its characters. -/
namespace Proofs.BidiShape
open Data Model Model.Bidi Model.Grapheme Spec.BidiShape List

variable {cls : Nat → BC} {R : Nat → Nat → Prop}

theorem bind_same {α β γ δ : Type} {P : α → β → Prop} {Q : γ → δ → Prop} {x : Outcome α} {y : Outcome β} {f : α → Outcome γ} {g : β → Outcome δ}
    (h : SameOutcome P x y) (hf : ∀ a b, P a b → SameOutcome Q (f a) (g b)) : SameOutcome Q (x >>= f) (y >>= g) := by
  cases h with
  | ok h => exact hf _ _ h
  | panic => exact .panic
theorem same_refl {α : Type} (x : Outcome α) : SameOutcome Eq x x := by
  cases x with
  | ok a => exact .ok rfl
  | panic => exact .panic
theorem same_eq {α : Type} {x y : Outcome α} (h : SameOutcome Eq x y) : x = y := by
  cases h with
  | ok h => rw [h]
  | panic => rfl

theorem blen_same (hl : ∀ c d, R c d → Utf.lenUtf8 c = Utf.lenUtf8 d) {s t : List Nat} (h : Forall₂ R s t) : blen s = blen t := by
  induction h with
  | nil => rfl
  | cons h _ ih => simp only [blen, List.map_cons, List.sum_cons, hl _ _ h] at ih ⊢; rw [ih]

theorem sliceFrom_same (hl : ∀ c d, R c d → Utf.lenUtf8 c = Utf.lenUtf8 d) {s t : List Nat} (h : Forall₂ R s t) :
    ∀ i, SameOutcome (Forall₂ R) (sliceFrom s i) (sliceFrom t i) := by
  induction h with
  | nil =>
    intro i
    cases i with
    | zero => exact .ok .nil
    | succ i => exact .panic
  | cons h h' ih =>
    intro i
    cases i with
    | zero => exact .ok (.cons h h')
    | succ i =>
      simp only [sliceFrom, hl _ _ h]
      split
      · exact ih _
      · exact .panic

theorem sliceTo_same (hl : ∀ c d, R c d → Utf.lenUtf8 c = Utf.lenUtf8 d) {s t : List Nat} (h : Forall₂ R s t) :
    ∀ i, SameOutcome (Forall₂ R) (sliceTo s i) (sliceTo t i) := by
  induction h with
  | nil =>
    intro i
    cases i with
    | zero => exact .ok .nil
    | succ i => exact .panic
  | cons h h' ih =>
    intro i
    cases i with
    | zero => exact .ok .nil
    | succ i =>
      simp only [sliceTo, hl _ _ h]
      split
      · exact bind_same (ih _) fun a b hab => .ok (.cons h hab)
      · exact .panic

theorem slice_same (hl : ∀ c d, R c d → Utf.lenUtf8 c = Utf.lenUtf8 d) {s t : List Nat} (h : Forall₂ R s t) (i j : Nat) :
    SameOutcome (Forall₂ R) (slice s i j) (slice t i j) := by
  unfold slice
  split
  · exact .panic
  · exact bind_same (sliceFrom_same hl h i) fun a b hab => sliceTo_same hl hab _

theorem initStep_same (hc : ∀ c d, R c d → cls c = cls d) (hl : ∀ c d, R c d → Utf.lenUtf8 c = Utf.lenUtf8 d) {c d : Nat} (h : R c d)
    (dflt : Option Nat) (st : Init) (i : Nat) : st.step cls dflt i c = st.step cls dflt i d := by
  simp only [Init.step, hc _ _ h, hl _ _ h]

theorem initLoop_same (hc : ∀ c d, R c d → cls c = cls d) (hl : ∀ c d, R c d → Utf.lenUtf8 c = Utf.lenUtf8 d) (dflt : Option Nat)
    {s t : List Nat} (h : Forall₂ R s t) : ∀ (i : Nat) (st : Init), Init.loop cls dflt s i st = Init.loop cls dflt t i st := by
  induction h with
  | nil => intro i st; rfl
  | cons h _ ih =>
    intro i st
    simp only [Init.loop, initStep_same hc hl h, hl _ _ h, ih]

theorem initialInfo_same (hc : ∀ c d, R c d → cls c = cls d) (hl : ∀ c d, R c d → Utf.lenUtf8 c = Utf.lenUtf8 d) (dflt : Option Nat)
    {s t : List Nat} (h : Forall₂ R s t) : initialInfo cls s dflt = initialInfo cls t dflt := by
  simp only [initialInfo, initLoop_same hc hl dflt h, blen_same hl h]

theorem explicitLoop_same (hl : ∀ c d, R c d → Utf.lenUtf8 c = Utf.lenUtf8 d) {s t : List Nat} (h : Forall₂ R s t) :
    ∀ classes levels pcs st, Explicit.loop s classes levels pcs st = Explicit.loop t classes levels pcs st := by
  induction h with
  | nil => intro _ _ _ _; rfl
  | cons h _ ih =>
    intro classes levels pcs st
    simp only [Explicit.loop, hl _ _ h, ih]

theorem paragraphLevels_same (hl : ∀ c d, R c d → Utf.lenUtf8 c = Utf.lenUtf8 d) {s t : List Nat} (h : Forall₂ R s t) (classes : List BC) (para : Para) :
    paragraphLevels s classes para = paragraphLevels t classes para := by
  refine same_eq ?_
  unfold paragraphLevels
  refine bind_same (slice_same hl h _ _) fun a b hab => ?_
  simp only [compute, blen_same hl hab, explicitLoop_same hl hab]
  exact same_refl _

theorem paragraphsLoop_same (hl : ∀ c d, R c d → Utf.lenUtf8 c = Utf.lenUtf8 d) {s t : List Nat} (h : Forall₂ R s t) (classes : List BC) :
    ∀ paras levels, paragraphsLoop s classes paras levels = paragraphsLoop t classes paras levels := by
  intro paras
  induction paras with
  | nil => intro _; rfl
  | cons p ps ih => intro levels; simp only [paragraphsLoop, paragraphLevels_same hl h, ih]

/-- the analyses of related texts -/
structure SameInfo (R : Nat → Nat → Prop) (i j : BidiInfo) : Prop where
  text : Forall₂ R i.text j.text
  classes : i.classes = j.classes
  levels : i.levels = j.levels
  paras : i.paras = j.paras

theorem new_same (hc : ∀ c d, R c d → cls c = cls d) (hl : ∀ c d, R c d → Utf.lenUtf8 c = Utf.lenUtf8 d) (dflt : Option Nat)
    {s t : List Nat} (h : Forall₂ R s t) : SameOutcome (SameInfo R) (BidiInfo.new cls s dflt) (BidiInfo.new cls t dflt) := by
  unfold BidiInfo.new
  rw [initialInfo_same hc hl dflt h]
  refine bind_same (same_refl _) ?_
  rintro ⟨classes, paras⟩ _ rfl
  simp only [paragraphsLoop_same hl h]
  refine bind_same (same_refl _) ?_
  rintro levels _ rfl
  exact .ok ⟨h, rfl, rfl, rfl⟩

theorem l1Loop_same (hl : ∀ c d, R c d → Utf.lenUtf8 c = Utf.lenUtf8 d) (classes : List BC) (level : Nat) {s t : List Nat} (h : Forall₂ R s t) :
    ∀ i st, L1.loop classes level s i st = L1.loop classes level t i st := by
  induction h with
  | nil => intro _ _; rfl
  | cons h _ ih => intro i st; simp only [L1.loop, hl _ _ h, ih]

theorem visualRuns_same (hl : ∀ c d, R c d → Utf.lenUtf8 c = Utf.lenUtf8 d) {i j : BidiInfo} (h : SameInfo R i j) (para : Para) (line : Run) :
    visualRuns i para line = visualRuns j para line := by
  refine same_eq ?_
  unfold visualRuns
  rw [h.levels]
  split
  · refine bind_same (slice_same hl h.text _ _) fun a b hab => ?_
    have hll : lineLevels i para a = lineLevels j para b := by
      simp only [lineLevels, l1Loop_same hl _ _ hab, h.classes, h.levels, blen_same hl hab]
    rw [hll]
    exact same_refl _
  · exact .panic

theorem charIndices_same (hl : ∀ c d, R c d → Utf.lenUtf8 c = Utf.lenUtf8 d) {s t : List Nat} (h : Forall₂ R s t) :
    ∀ i, charIndices s i = charIndices t i := by
  induction h with
  | nil => intro _; rfl
  | cons h _ ih => intro i; simp only [charIndices, hl _ _ h, ih]

theorem perChar_same (hl : ∀ c d, R c d → Utf.lenUtf8 c = Utf.lenUtf8 d) {i j : BidiInfo} (h : SameInfo R i j) (para : Para) (line : Run) :
    reorderedLevelsPerChar i para line = reorderedLevelsPerChar j para line := by
  simp only [reorderedLevelsPerChar, reorderedLevels, visualRuns_same hl h, charIndices_same hl h.text]

theorem mapOutcome_same {α β γ : Type} {Q : β → γ → Prop} {f : α → Outcome β} {g : α → Outcome γ} (h : ∀ a, SameOutcome Q (f a) (g a)) :
    ∀ l : List α, SameOutcome (Forall₂ Q) (mapOutcome f l) (mapOutcome g l) := by
  intro l
  induction l with
  | nil => exact .ok .nil
  | cons a l ih =>
    simp only [mapOutcome]
    exact bind_same (h a) fun b c hbc => bind_same ih fun bs cs hh => .ok (.cons hbc hh)

theorem flatten_same {l l' : List (List Nat)} (h : Forall₂ (Forall₂ R) l l') : Forall₂ R l.flatten l'.flatten := by
  induction h with
  | nil => exact .nil
  | cons h _ ih => simp only [List.flatten_cons]; exact List.rel_append h ih

theorem reverse_same {s t : List Nat} (h : Forall₂ R s t) : Forall₂ R s.reverse t.reverse := by
  induction h with
  | nil => exact .nil
  | cons h _ ih => simp only [List.reverse_cons]; exact List.rel_append ih (.cons h .nil)

theorem reorderLine_same (hl : ∀ c d, R c d → Utf.lenUtf8 c = Utf.lenUtf8 d) {i j : BidiInfo} (h : SameInfo R i j) (para : Para) (line : Run) :
    SameOutcome (Forall₂ R) (reorderLine i para line) (reorderLine j para line) := by
  unfold reorderLine
  rw [visualRuns_same hl h]
  refine bind_same (same_refl _) ?_
  rintro ⟨levels, runs⟩ _ rfl
  refine bind_same (same_refl _) ?_
  rintro b _ rfl
  split
  · exact slice_same hl h.text _ _
  · refine bind_same (mapOutcome_same (Q := Forall₂ R) (fun r => ?_) runs) fun a b hab => .ok (flatten_same hab)
    unfold runText
    refine bind_same (same_refl _) ?_
    rintro x _ rfl
    split
    · exact bind_same (slice_same hl h.text _ _) fun a b hab => .ok (reverse_same hab)
    · exact slice_same hl h.text _ _

end Proofs.BidiShape
