import Verif.Proofs.BidiKeep
import Verif.Props.Direction

/-! # The shipped Bidi_Class table and the model of the bidirectional algorithm -/
namespace Proofs.Bidi
open Model Model.Bidi Data Proofs.Punycode Model.Grapheme Proofs.Grapheme Spec.Bidi Proofs.StepFn Proofs.UcdSF

def fsiSF : SF Bool := ⟨false, [(0x2068, true), (0x2069, false)]⟩

theorem fsi_chk (c : Nat) : (decide (Ucd.bidiClass c = .FirstStrongIsolate) == fsiSF.eval c) = true := by
  rw [bidiClass_sf]
  exact SF.all₂ (fun a b => decide (a = BidiClass.FirstStrongIsolate) == b) bidiClassSF fsiSF (by decide +kernel) c

/-- the one FSI takes three bytes (bidi_info.rs L108 relies on it) -/
theorem fsi_len (c : Nat) (h : Ucd.bidiClass c = .FirstStrongIsolate) : Utf.lenUtf8 c = 3 := by
  have h1 := fsi_chk c
  rw [decide_eq_true h] at h1
  simp only [fsiSF, SF.eval, evalSF] at h1
  split at h1
  · simp at h1
  · split at h1
    · rename_i h2 h3
      have : c = 0x2068 := by omega
      subst this; rfl
    · simp at h1

/-! ## examples: the program asks for the classes of the characters of the text only -/

theorem initLoop_congr {cls cls' : Nat → BC} {dflt : Option Nat} : ∀ (text : List Nat) (i : Nat) (st : Init), (∀ c ∈ text, cls c = cls' c) →
    Init.loop cls dflt text i st = Init.loop cls' dflt text i st
  | [], _, _, _ => rfl
  | c :: text, i, st, h => by
    rw [Init.loop, Init.loop]
    have : st.step cls dflt i c = st.step cls' dflt i c := by unfold Init.step; rw [h c (by simp)]
    rw [this]
    congr 1
    funext st
    exact initLoop_congr text _ st (fun x hx => h x (by simp [hx]))

theorem new_congr {cls cls' : Nat → BC} {dflt : Option Nat} {text : List Nat} (h : ∀ c ∈ text, cls c = cls' c) :
    BidiInfo.new cls text dflt = BidiInfo.new cls' text dflt := by
  unfold BidiInfo.new initialInfo
  rw [initLoop_congr text 0 _ h]

/-- some characters and their classes -/
def samples : List (Nat × BC) :=
  [(0x61, .LeftToRight), (0x62, .LeftToRight), (0x5D0, .RightToLeft), (0x5D1, .RightToLeft), (0x627, .ArabicLetter), (0x31, .EuropeanNumber), (0x20, .WhiteSpace),
    (0x9, .SegmentSeparator), (0xA, .ParagraphSeparator), (0x2029, .ParagraphSeparator), (0x2066, .LeftToRightIsolate), (0x2067, .RightToLeftIsolate),
    (0x2068, .FirstStrongIsolate), (0x2069, .PopDirectionalIsolate), (0x202A, .LeftToRightEmbedding), (0x202B, .RightToLeftEmbedding),
    (0x202C, .PopDirectionalFormat), (0x202E, .RightToLeftOverride), (0x25, .EuropeanTerminator), (0x2C, .CommonSeparator),
    (0x2B, .EuropeanSeparator), (0x660, .ArabicNumber), (0xAD, .BoundaryNeutral), (0x300, .NonspacingMark), (0xA0, .CommonSeparator), (0x28, .OtherNeutral),
    (0x29, .OtherNeutral), (0x21, .OtherNeutral)]

/-- their classes, L for others -/
def sample (c : Nat) : BC := ((samples.find? (fun p => p.1 == c)).map Prod.snd).getD .LeftToRight

theorem sample_chk : samples.all (fun p => decide ((Proofs.Chunked.lookupC Data.bidiClass p.1).getD .LeftToRight = sample p.1)) = true := by decide +kernel

theorem sample_ok {text : List Nat} (h : text.all (fun c => samples.any (fun p => p.1 == c)) = true) : ∀ c ∈ text, Ucd.bidiClass c = sample c := by
  intro c hc
  rw [List.all_eq_true] at h
  have h1 := h c hc
  rw [List.any_eq_true] at h1
  obtain ⟨p, hp, he⟩ := h1
  have h2 := List.all_eq_true.1 sample_chk p hp
  have h3 : p.1 = c := by simpa using he
  rw [Props.Direction.bidi_of, ← h3]
  simpa using h2

theorem new_sample {text : List Nat} {dflt : Option Nat} (h : text.all (fun c => samples.any (fun p => p.1 == c)) = true) :
    BidiInfo.new Ucd.bidiClass text dflt = BidiInfo.new sample text dflt := new_congr (sample_ok h)

end Proofs.Bidi
