import Verif.Spec.Ranges

/-! Sets of characters for C91. Only the two Pattern sets come from the standard (from memory, no copy was at hand). The others are lists of exceptions that were read off
the shipped tables: a theorem with such a list fixes the tables to it, and does not show that the list is the standard's. -/
namespace Spec

/-- Pattern_Syntax (UAX #31), written down from memory of the standard, without looking at the tables; the standard guarantees that this set never changes -/
def patternSyntaxSet : List (Nat × Nat) :=
  [(0x21, 0x2F), (0x3A, 0x40), (0x5B, 0x5E), (0x60, 0x60), (0x7B, 0x7E), (0xA1, 0xA7), (0xA9, 0xA9), (0xAB, 0xAC), (0xAE, 0xAE), (0xB0, 0xB1), (0xB6, 0xB6), (0xBB, 0xBB), (0xBF, 0xBF), (0xD7, 0xD7), (0xF7, 0xF7), (0x2010, 0x2027), (0x2030, 0x203E), (0x2041, 0x2053), (0x2055, 0x205E), (0x2190, 0x245F), (0x2500, 0x2775), (0x2794, 0x2BFF), (0x2E00, 0x2E7F), (0x3001, 0x3003), (0x3008, 0x3020), (0x3030, 0x3030), (0xFD3E, 0xFD3F), (0xFE45, 0xFE46)]

/-- Pattern_White_Space (UAX #31), written down from memory of the standard, without looking at the tables; the standard guarantees that this set never changes -/
def patternWhiteSpaceSet : List (Nat × Nat) :=
  [(0x9, 0xD), (0x20, 0x20), (0x85, 0x85), (0x200E, 0x200F), (0x2028, 0x2029)]

/-- the capital digraphs DŽ, LJ, NJ, DZ, which have a titlecase form of their own (exceptions found in the shipped tables) -/
def digraphs : List (Nat × Nat) :=
  [(0x1C4, 0x1C4), (0x1C7, 0x1C7), (0x1CA, 0x1CA), (0x1F1, 0x1F1)]

/-- three nonspacing marks that do not have Bidi_Class NSM (exceptions found in the shipped tables) -/
def strongMarks : List (Nat × Nat) :=
  [(0xCBF, 0xCBF), (0xCC6, 0xCC6), (0x11C3F, 0x11C3F)]

/-- characters that are ALetter and not alphabetic (exceptions found in the shipped tables; not compared with UAX #29) -/
def otherALetter : List (Nat × Nat) :=
  [(0x2C2, 0x2C5), (0x2D2, 0x2D7), (0x2DE, 0x2DF), (0x2ED, 0x2ED), (0x2EF, 0x2FF), (0x5F3, 0x5F3), (0xA720, 0xA721), (0xA789, 0xA78A), (0xAB5B, 0xAB5B)]

/-- the brackets that are not mirrored: low and double prime quotation marks, ornate parentheses, vertical forms (exceptions found in the shipped tables) -/
def unmirrored : List (Nat × Nat) :=
  [(0x201A, 0x201A), (0x201E, 0x201E), (0x2E42, 0x2E42), (0x301D, 0x301F), (0xFD3E, 0xFD3F), (0xFE17, 0xFE18), (0xFE35, 0xFE44), (0xFE47, 0xFE48)]

/-- characters that are Extend and neither nonspacing nor enclosing marks (exceptions found in the shipped tables; the standard calls this Other_Grapheme_Extend, but PropList was not at hand to compare) -/
def otherExtend : List (Nat × Nat) :=
  [(0x9BE, 0x9BE), (0x9D7, 0x9D7), (0xB3E, 0xB3E), (0xB57, 0xB57), (0xBBE, 0xBBE), (0xBD7, 0xBD7), (0xCC2, 0xCC2), (0xCD5, 0xCD6), (0xD3E, 0xD3E), (0xD57, 0xD57), (0xDCF, 0xDCF), (0xDDF, 0xDDF), (0x200C, 0x200C), (0x302E, 0x302F), (0xFF9E, 0xFF9F), (0x1133E, 0x1133E), (0x11357, 0x11357), (0x114B0, 0x114B0), (0x114BD, 0x114BD), (0x115AF, 0x115AF), (0x1D165, 0x1D165), (0x1D16E, 0x1D172), (0xE0020, 0xE007F)]

end Spec
