import Verif.Spec.Ranges
import Verif.Data.Enums

/-! # Specification: Bidi_Class of unassigned code points

The header of DerivedBidiClass.txt, Unicode 10: "unassigned code points that default to AL, R, ET"; "unassigned code points that default to BN have one of the following properties:
Default_Ignorable_Code_Point, Noncharacter_Code_Point"; "for all other cases: L". -/
namespace Spec.BidiDefaults
open Spec

def defaultR : List (Nat × Nat) := [(0x590, 0x5FF), (0x7C0, 0x89F), (0xFB1D, 0xFB4F), (0x10800, 0x10FFF), (0x1E800, 0x1EDFF), (0x1EF00, 0x1EFFF)]
def defaultAL : List (Nat × Nat) := [(0x600, 0x7BF), (0x8A0, 0x8FF), (0xFB50, 0xFDCF), (0xFDF0, 0xFDFF), (0xFE70, 0xFEFF), (0x1EE00, 0x1EEFF)]
def defaultET : List (Nat × Nat) := [(0x20A0, 0x20CF)]

/-- the noncharacters -/
def noncharacters : List (Nat × Nat) :=
  [(0xFDD0, 0xFDEF), (0xFFFE, 0xFFFF), (0x1FFFE, 0x1FFFF), (0x2FFFE, 0x2FFFF), (0x3FFFE, 0x3FFFF), (0x4FFFE, 0x4FFFF), (0x5FFFE, 0x5FFFF), (0x6FFFE, 0x6FFFF), (0x7FFFE, 0x7FFFF),
   (0x8FFFE, 0x8FFFF), (0x9FFFE, 0x9FFFF), (0xAFFFE, 0xAFFFF), (0xBFFFE, 0xBFFFF), (0xCFFFE, 0xCFFFF), (0xDFFFE, 0xDFFFF), (0xEFFFE, 0xEFFFF), (0xFFFFE, 0xFFFFF), (0x10FFFE, 0x10FFFF)]

/-- the unassigned code points with the property Default_Ignorable_Code_Point (DerivedCoreProperties.txt, `Cn` rows) -/
def ignorables : List (Nat × Nat) := [(0x2065, 0x2065), (0xFFF0, 0xFFF8), (0xE0000, 0xE0000), (0xE0002, 0xE001F), (0xE0080, 0xE00FF), (0xE01F0, 0xE0FFF)]

/-- the class of an unassigned code point -/
def defaultClass (c : Nat) : Data.BidiClass :=
  if inRanges defaultR c then .RightToLeft
  else if inRanges defaultAL c then .ArabicLetter
  else if inRanges defaultET c then .EuropeanTerminator
  else if inRanges noncharacters c || inRanges ignorables c then .BoundaryNeutral
  else .LeftToRight

end Spec.BidiDefaults
