import Verif.Spec.BidiDefaults
import Verif.Props.Relations

/-! # Property C69: the bidirectional class of unassigned characters

The generator knows the defaults R, AL and ET but not BN (gen/src/writer/ucd/bidi.rs L34-48), so that the property fails for the characters whose default is BN. -/
namespace Props.BidiDefaults
open Spec Spec.BidiDefaults Model Model.Ucd Data Proofs.StepFn Proofs.UcdTables Proofs.UcdSF Props.Relations

theorem zip₅ {α β γ δ ε : Type} (p : α → β → γ → δ → ε → Bool) (a : SF α) (b : SF β) (d : SF γ) (e : SF δ) (f : SF ε)
    (h : (SF.zip (fun x y => p x.1.1 x.1.2 x.2.1 x.2.2 y) (SF.zip Prod.mk (SF.zip Prod.mk a b) (SF.zip Prod.mk d e)) f).all id = true) (c : Nat) :
    p (a.eval c) (b.eval c) (d.eval c) (e.eval c) (f.eval c) = true := by
  have := SF.all_eval h c
  rwa [SF.eval_zip, SF.eval_zip, SF.eval_zip, SF.eval_zip] at this

/-- What is shipped for an unassigned character: R, AL or ET where the standard says so, and L elsewhere. -/
theorem unassigned_class (c : Nat) (h : generalCategory c = .Unassigned) :
    bidiClass c = if inRanges defaultR c then .RightToLeft else if inRanges defaultAL c then .ArabicLetter else if inRanges defaultET c then .EuropeanTerminator else .LeftToRight := by
  have := zip₅ (fun x0 x1 x2 x3 x4 => decide (x1 = .Unassigned → x0 = if x2.isSome then BidiClass.RightToLeft else if x3.isSome then .ArabicLetter else if x4.isSome then .EuropeanTerminator else .LeftToRight))
    bidiClassSF generalCategorySF (rangesSF defaultR) (rangesSF defaultAL) (rangesSF defaultET) (by decide +kernel) c
  rw [bidiClass_sf, inRanges_sf _ (by decide), inRanges_sf _ (by decide), inRanges_sf _ (by decide)]
  rw [generalCategory_sf] at h
  exact of_decide_eq_true this h

/-- **C69 (partial)**: an unassigned character that is not a noncharacter and not ignorable by default has the bidirectional class the standard gives it. Missing: the noncharacters and the
default ignorable characters, see `c69_boundary_neutral_false`. -/
theorem c69_unassigned_partial (c : Nat) (h : generalCategory c = .Unassigned) (hb : inRanges noncharacters c = false ∧ inRanges ignorables c = false) : bidiClass c = defaultClass c := by
  rw [unassigned_class c h, defaultClass, hb.1, hb.2]
  rfl

/-- **C69 is false of the code**: an unassigned noncharacter or default ignorable character has the class L, where the standard says BN. -/
theorem c69_boundary_neutral_false (c : Nat) (h : generalCategory c = .Unassigned) (hb : inRanges noncharacters c = true ∨ inRanges ignorables c = true) :
    bidiClass c = .LeftToRight ∧ defaultClass c = .BoundaryNeutral := by
  have := zip₅ (fun x0 x1 x2 x3 x4 => decide ((x3.isSome = true ∨ x4.isSome = true) → x0.isSome = false ∧ x1.isSome = false ∧ x2.isSome = false))
    (rangesSF defaultR) (rangesSF defaultAL) (rangesSF defaultET) (rangesSF noncharacters) (rangesSF ignorables) (by decide +kernel) c
  rw [← inRanges_sf _ (by decide), ← inRanges_sf _ (by decide), ← inRanges_sf _ (by decide), ← inRanges_sf _ (by decide), ← inRanges_sf _ (by decide)] at this
  obtain ⟨h1, h2, h3⟩ := of_decide_eq_true this hb
  refine ⟨by rw [unassigned_class c h, h1, h2, h3]; rfl, ?_⟩
  rw [defaultClass, h1, h2, h3]
  rcases hb with hb | hb <;> simp [hb]

/-- Every noncharacter and every listed ignorable character is unassigned, so all of them have the wrong class. -/
theorem c69_all_wrong (c : Nat) (hb : inRanges noncharacters c = true ∨ inRanges ignorables c = true) : generalCategory c = .Unassigned ∧ bidiClass c ≠ defaultClass c := by
  have := SF.zip₃ (fun x0 x1 x2 => decide (x1.isSome = true ∨ x2.isSome = true → x0 = GeneralCategory.Unassigned)) generalCategorySF (rangesSF noncharacters) (rangesSF ignorables) (by decide +kernel) c
  rw [← inRanges_sf _ (by decide), ← inRanges_sf _ (by decide), ← generalCategory_sf] at this
  have hg := of_decide_eq_true this hb
  obtain ⟨h1, h2⟩ := c69_boundary_neutral_false c hg hb
  refine ⟨hg, ?_⟩
  rw [h1, h2]
  decide

/-- **C69**: the list of noncharacters of this specification is the set of the library. -/
theorem c69_noncharacters (c : Nat) : inRanges noncharacters c = isNoncharacter c := by
  have h := SF.all₂ (fun a b => decide (a.isSome = b.isSome)) (rangesSF noncharacters) isNoncharacterSF (by decide +kernel) c
  rw [inRanges_sf _ (by decide), isNoncharacter_sf]
  exact of_decide_eq_true h

/-- unassigned characters of each kind -/
example : generalCategory 0x5FF = .Unassigned ∧ defaultClass 0x5FF = .RightToLeft ∧ inRanges noncharacters 0x5FF = false ∧ inRanges ignorables 0x5FF = false ∧
    generalCategory 0x1EE04 = .Unassigned ∧ defaultClass 0x1EE04 = .ArabicLetter ∧ defaultClass 0x20C0 = .EuropeanTerminator ∧ generalCategory 0xFFFE = .Unassigned ∧
    bidiClass 0xFFFE = .LeftToRight ∧ bidiClass 0x2065 = .LeftToRight := by decide +kernel

end Props.BidiDefaults
