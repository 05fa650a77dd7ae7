import Verif.Data.Enums
/-! Generated by tools/gen_tables.py: literal translation of data tables. -/
namespace Data

def bidiClass_0 : List (Nat × Nat × BidiClass) := [
  (0, 8, .BoundaryNeutral),
  (9, 9, .SegmentSeparator),
  (0xA, 0xA, .ParagraphSeparator),
  (0xB, 0xB, .SegmentSeparator),
  (0xC, 0xC, .WhiteSpace),
  (0xD, 0xD, .ParagraphSeparator),
  (0xE, 0x1B, .BoundaryNeutral),
  (0x1C, 0x1E, .ParagraphSeparator),
  (0x1F, 0x1F, .SegmentSeparator),
  (0x20, 0x20, .WhiteSpace),
  (0x21, 0x22, .OtherNeutral),
  (0x23, 0x25, .EuropeanTerminator),
  (0x26, 0x2A, .OtherNeutral),
  (0x2B, 0x2B, .EuropeanSeparator),
  (0x2C, 0x2C, .CommonSeparator),
  (0x2D, 0x2D, .EuropeanSeparator),
  (0x2E, 0x2F, .CommonSeparator),
  (0x30, 0x39, .EuropeanNumber),
  (0x3A, 0x3A, .CommonSeparator),
  (0x3B, 0x40, .OtherNeutral),
  (0x41, 0x5A, .LeftToRight),
  (0x5B, 0x60, .OtherNeutral),
  (0x61, 0x7A, .LeftToRight),
  (0x7B, 0x7E, .OtherNeutral),
  (0x7F, 0x84, .BoundaryNeutral),
  (0x85, 0x85, .ParagraphSeparator),
  (0x86, 0x9F, .BoundaryNeutral),
  (0xA0, 0xA0, .CommonSeparator),
  (0xA1, 0xA1, .OtherNeutral),
  (0xA2, 0xA5, .EuropeanTerminator),
  (0xA6, 0xA9, .OtherNeutral),
  (0xAA, 0xAA, .LeftToRight),
  (0xAB, 0xAC, .OtherNeutral),
  (0xAD, 0xAD, .BoundaryNeutral),
  (0xAE, 0xAF, .OtherNeutral),
  (0xB0, 0xB1, .EuropeanTerminator),
  (0xB2, 0xB3, .EuropeanNumber),
  (0xB4, 0xB4, .OtherNeutral),
  (0xB5, 0xB5, .LeftToRight),
  (0xB6, 0xB8, .OtherNeutral),
  (0xB9, 0xB9, .EuropeanNumber),
  (0xBA, 0xBA, .LeftToRight),
  (0xBB, 0xBF, .OtherNeutral),
  (0xC0, 0xD6, .LeftToRight),
  (0xD7, 0xD7, .OtherNeutral),
  (0xD8, 0xF6, .LeftToRight),
  (0xF7, 0xF7, .OtherNeutral),
  (0xF8, 0x2B8, .LeftToRight),
  (0x2B9, 0x2BA, .OtherNeutral),
  (0x2BB, 0x2C1, .LeftToRight),
  (0x2C2, 0x2CF, .OtherNeutral),
  (0x2D0, 0x2D1, .LeftToRight),
  (0x2D2, 0x2DF, .OtherNeutral),
  (0x2E0, 0x2E4, .LeftToRight),
  (0x2E5, 0x2ED, .OtherNeutral),
  (0x2EE, 0x2EE, .LeftToRight),
  (0x2EF, 0x2FF, .OtherNeutral),
  (0x300, 0x36F, .NonspacingMark),
  (0x370, 0x373, .LeftToRight),
  (0x374, 0x375, .OtherNeutral),
  (0x376, 0x377, .LeftToRight),
  (0x37A, 0x37D, .LeftToRight),
  (0x37E, 0x37E, .OtherNeutral),
  (0x37F, 0x37F, .LeftToRight)]
def bidiClass_1 : List (Nat × Nat × BidiClass) := [
  (0x384, 0x385, .OtherNeutral),
  (0x386, 0x386, .LeftToRight),
  (0x387, 0x387, .OtherNeutral),
  (0x388, 0x38A, .LeftToRight),
  (0x38C, 0x38C, .LeftToRight),
  (0x38E, 0x3A1, .LeftToRight),
  (0x3A3, 0x3F5, .LeftToRight),
  (0x3F6, 0x3F6, .OtherNeutral),
  (0x3F7, 0x482, .LeftToRight),
  (0x483, 0x489, .NonspacingMark),
  (0x48A, 0x52F, .LeftToRight),
  (0x531, 0x556, .LeftToRight),
  (0x559, 0x55F, .LeftToRight),
  (0x561, 0x587, .LeftToRight),
  (0x589, 0x589, .LeftToRight),
  (0x58A, 0x58A, .OtherNeutral),
  (0x58D, 0x58E, .OtherNeutral),
  (0x58F, 0x58F, .EuropeanTerminator),
  (0x590, 0x590, .RightToLeft),
  (0x591, 0x5BD, .NonspacingMark),
  (0x5BE, 0x5BE, .RightToLeft),
  (0x5BF, 0x5BF, .NonspacingMark),
  (0x5C0, 0x5C0, .RightToLeft),
  (0x5C1, 0x5C2, .NonspacingMark),
  (0x5C3, 0x5C3, .RightToLeft),
  (0x5C4, 0x5C5, .NonspacingMark),
  (0x5C6, 0x5C6, .RightToLeft),
  (0x5C7, 0x5C7, .NonspacingMark),
  (0x5C8, 0x5FF, .RightToLeft),
  (0x600, 0x605, .ArabicNumber),
  (0x606, 0x607, .OtherNeutral),
  (0x608, 0x608, .ArabicLetter),
  (0x609, 0x60A, .EuropeanTerminator),
  (0x60B, 0x60B, .ArabicLetter),
  (0x60C, 0x60C, .CommonSeparator),
  (0x60D, 0x60D, .ArabicLetter),
  (0x60E, 0x60F, .OtherNeutral),
  (0x610, 0x61A, .NonspacingMark),
  (0x61B, 0x64A, .ArabicLetter),
  (0x64B, 0x65F, .NonspacingMark),
  (0x660, 0x669, .ArabicNumber),
  (0x66A, 0x66A, .EuropeanTerminator),
  (0x66B, 0x66C, .ArabicNumber),
  (0x66D, 0x66F, .ArabicLetter),
  (0x670, 0x670, .NonspacingMark),
  (0x671, 0x6D5, .ArabicLetter),
  (0x6D6, 0x6DC, .NonspacingMark),
  (0x6DD, 0x6DD, .ArabicNumber),
  (0x6DE, 0x6DE, .OtherNeutral),
  (0x6DF, 0x6E4, .NonspacingMark),
  (0x6E5, 0x6E6, .ArabicLetter),
  (0x6E7, 0x6E8, .NonspacingMark),
  (0x6E9, 0x6E9, .OtherNeutral),
  (0x6EA, 0x6ED, .NonspacingMark),
  (0x6EE, 0x6EF, .ArabicLetter),
  (0x6F0, 0x6F9, .EuropeanNumber),
  (0x6FA, 0x710, .ArabicLetter),
  (0x711, 0x711, .NonspacingMark),
  (0x712, 0x72F, .ArabicLetter),
  (0x730, 0x74A, .NonspacingMark),
  (0x74B, 0x7A5, .ArabicLetter),
  (0x7A6, 0x7B0, .NonspacingMark),
  (0x7B1, 0x7BF, .ArabicLetter),
  (0x7C0, 0x7EA, .RightToLeft)]
def bidiClass_2 : List (Nat × Nat × BidiClass) := [
  (0x7EB, 0x7F3, .NonspacingMark),
  (0x7F4, 0x7F5, .RightToLeft),
  (0x7F6, 0x7F9, .OtherNeutral),
  (0x7FA, 0x815, .RightToLeft),
  (0x816, 0x819, .NonspacingMark),
  (0x81A, 0x81A, .RightToLeft),
  (0x81B, 0x823, .NonspacingMark),
  (0x824, 0x824, .RightToLeft),
  (0x825, 0x827, .NonspacingMark),
  (0x828, 0x828, .RightToLeft),
  (0x829, 0x82D, .NonspacingMark),
  (0x82E, 0x858, .RightToLeft),
  (0x859, 0x85B, .NonspacingMark),
  (0x85C, 0x85F, .RightToLeft),
  (0x860, 0x86A, .ArabicLetter),
  (0x86B, 0x89F, .RightToLeft),
  (0x8A0, 0x8D3, .ArabicLetter),
  (0x8D4, 0x8E1, .NonspacingMark),
  (0x8E2, 0x8E2, .ArabicNumber),
  (0x8E3, 0x902, .NonspacingMark),
  (0x903, 0x939, .LeftToRight),
  (0x93A, 0x93A, .NonspacingMark),
  (0x93B, 0x93B, .LeftToRight),
  (0x93C, 0x93C, .NonspacingMark),
  (0x93D, 0x940, .LeftToRight),
  (0x941, 0x948, .NonspacingMark),
  (0x949, 0x94C, .LeftToRight),
  (0x94D, 0x94D, .NonspacingMark),
  (0x94E, 0x950, .LeftToRight),
  (0x951, 0x957, .NonspacingMark),
  (0x958, 0x961, .LeftToRight),
  (0x962, 0x963, .NonspacingMark),
  (0x964, 0x980, .LeftToRight),
  (0x981, 0x981, .NonspacingMark),
  (0x982, 0x983, .LeftToRight),
  (0x985, 0x98C, .LeftToRight),
  (0x98F, 0x990, .LeftToRight),
  (0x993, 0x9A8, .LeftToRight),
  (0x9AA, 0x9B0, .LeftToRight),
  (0x9B2, 0x9B2, .LeftToRight),
  (0x9B6, 0x9B9, .LeftToRight),
  (0x9BC, 0x9BC, .NonspacingMark),
  (0x9BD, 0x9C0, .LeftToRight),
  (0x9C1, 0x9C4, .NonspacingMark),
  (0x9C7, 0x9C8, .LeftToRight),
  (0x9CB, 0x9CC, .LeftToRight),
  (0x9CD, 0x9CD, .NonspacingMark),
  (0x9CE, 0x9CE, .LeftToRight),
  (0x9D7, 0x9D7, .LeftToRight),
  (0x9DC, 0x9DD, .LeftToRight),
  (0x9DF, 0x9E1, .LeftToRight),
  (0x9E2, 0x9E3, .NonspacingMark),
  (0x9E6, 0x9F1, .LeftToRight),
  (0x9F2, 0x9F3, .EuropeanTerminator),
  (0x9F4, 0x9FA, .LeftToRight),
  (0x9FB, 0x9FB, .EuropeanTerminator),
  (0x9FC, 0x9FD, .LeftToRight),
  (0xA01, 0xA02, .NonspacingMark),
  (0xA03, 0xA03, .LeftToRight),
  (0xA05, 0xA0A, .LeftToRight),
  (0xA0F, 0xA10, .LeftToRight),
  (0xA13, 0xA28, .LeftToRight),
  (0xA2A, 0xA30, .LeftToRight),
  (0xA32, 0xA33, .LeftToRight)]
def bidiClass_3 : List (Nat × Nat × BidiClass) := [
  (0xA35, 0xA36, .LeftToRight),
  (0xA38, 0xA39, .LeftToRight),
  (0xA3C, 0xA3C, .NonspacingMark),
  (0xA3E, 0xA40, .LeftToRight),
  (0xA41, 0xA42, .NonspacingMark),
  (0xA47, 0xA48, .NonspacingMark),
  (0xA4B, 0xA4D, .NonspacingMark),
  (0xA51, 0xA51, .NonspacingMark),
  (0xA59, 0xA5C, .LeftToRight),
  (0xA5E, 0xA5E, .LeftToRight),
  (0xA66, 0xA6F, .LeftToRight),
  (0xA70, 0xA71, .NonspacingMark),
  (0xA72, 0xA74, .LeftToRight),
  (0xA75, 0xA75, .NonspacingMark),
  (0xA81, 0xA82, .NonspacingMark),
  (0xA83, 0xA83, .LeftToRight),
  (0xA85, 0xA8D, .LeftToRight),
  (0xA8F, 0xA91, .LeftToRight),
  (0xA93, 0xAA8, .LeftToRight),
  (0xAAA, 0xAB0, .LeftToRight),
  (0xAB2, 0xAB3, .LeftToRight),
  (0xAB5, 0xAB9, .LeftToRight),
  (0xABC, 0xABC, .NonspacingMark),
  (0xABD, 0xAC0, .LeftToRight),
  (0xAC1, 0xAC5, .NonspacingMark),
  (0xAC7, 0xAC8, .NonspacingMark),
  (0xAC9, 0xAC9, .LeftToRight),
  (0xACB, 0xACC, .LeftToRight),
  (0xACD, 0xACD, .NonspacingMark),
  (0xAD0, 0xAD0, .LeftToRight),
  (0xAE0, 0xAE1, .LeftToRight),
  (0xAE2, 0xAE3, .NonspacingMark),
  (0xAE6, 0xAF0, .LeftToRight),
  (0xAF1, 0xAF1, .EuropeanTerminator),
  (0xAF9, 0xAF9, .LeftToRight),
  (0xAFA, 0xAFF, .NonspacingMark),
  (0xB01, 0xB01, .NonspacingMark),
  (0xB02, 0xB03, .LeftToRight),
  (0xB05, 0xB0C, .LeftToRight),
  (0xB0F, 0xB10, .LeftToRight),
  (0xB13, 0xB28, .LeftToRight),
  (0xB2A, 0xB30, .LeftToRight),
  (0xB32, 0xB33, .LeftToRight),
  (0xB35, 0xB39, .LeftToRight),
  (0xB3C, 0xB3C, .NonspacingMark),
  (0xB3D, 0xB3E, .LeftToRight),
  (0xB3F, 0xB3F, .NonspacingMark),
  (0xB40, 0xB40, .LeftToRight),
  (0xB41, 0xB44, .NonspacingMark),
  (0xB47, 0xB48, .LeftToRight),
  (0xB4B, 0xB4C, .LeftToRight),
  (0xB4D, 0xB4D, .NonspacingMark),
  (0xB56, 0xB56, .NonspacingMark),
  (0xB57, 0xB57, .LeftToRight),
  (0xB5C, 0xB5D, .LeftToRight),
  (0xB5F, 0xB61, .LeftToRight),
  (0xB62, 0xB63, .NonspacingMark),
  (0xB66, 0xB77, .LeftToRight),
  (0xB82, 0xB82, .NonspacingMark),
  (0xB83, 0xB83, .LeftToRight),
  (0xB85, 0xB8A, .LeftToRight),
  (0xB8E, 0xB90, .LeftToRight),
  (0xB92, 0xB95, .LeftToRight),
  (0xB99, 0xB9A, .LeftToRight)]
def bidiClass_4 : List (Nat × Nat × BidiClass) := [
  (0xB9C, 0xB9C, .LeftToRight),
  (0xB9E, 0xB9F, .LeftToRight),
  (0xBA3, 0xBA4, .LeftToRight),
  (0xBA8, 0xBAA, .LeftToRight),
  (0xBAE, 0xBB9, .LeftToRight),
  (0xBBE, 0xBBF, .LeftToRight),
  (0xBC0, 0xBC0, .NonspacingMark),
  (0xBC1, 0xBC2, .LeftToRight),
  (0xBC6, 0xBC8, .LeftToRight),
  (0xBCA, 0xBCC, .LeftToRight),
  (0xBCD, 0xBCD, .NonspacingMark),
  (0xBD0, 0xBD0, .LeftToRight),
  (0xBD7, 0xBD7, .LeftToRight),
  (0xBE6, 0xBF2, .LeftToRight),
  (0xBF3, 0xBF8, .OtherNeutral),
  (0xBF9, 0xBF9, .EuropeanTerminator),
  (0xBFA, 0xBFA, .OtherNeutral),
  (0xC00, 0xC00, .NonspacingMark),
  (0xC01, 0xC03, .LeftToRight),
  (0xC05, 0xC0C, .LeftToRight),
  (0xC0E, 0xC10, .LeftToRight),
  (0xC12, 0xC28, .LeftToRight),
  (0xC2A, 0xC39, .LeftToRight),
  (0xC3D, 0xC3D, .LeftToRight),
  (0xC3E, 0xC40, .NonspacingMark),
  (0xC41, 0xC44, .LeftToRight),
  (0xC46, 0xC48, .NonspacingMark),
  (0xC4A, 0xC4D, .NonspacingMark),
  (0xC55, 0xC56, .NonspacingMark),
  (0xC58, 0xC5A, .LeftToRight),
  (0xC60, 0xC61, .LeftToRight),
  (0xC62, 0xC63, .NonspacingMark),
  (0xC66, 0xC6F, .LeftToRight),
  (0xC78, 0xC7E, .OtherNeutral),
  (0xC7F, 0xC80, .LeftToRight),
  (0xC81, 0xC81, .NonspacingMark),
  (0xC82, 0xC83, .LeftToRight),
  (0xC85, 0xC8C, .LeftToRight),
  (0xC8E, 0xC90, .LeftToRight),
  (0xC92, 0xCA8, .LeftToRight),
  (0xCAA, 0xCB3, .LeftToRight),
  (0xCB5, 0xCB9, .LeftToRight),
  (0xCBC, 0xCBC, .NonspacingMark),
  (0xCBD, 0xCC4, .LeftToRight),
  (0xCC6, 0xCC8, .LeftToRight),
  (0xCCA, 0xCCB, .LeftToRight),
  (0xCCC, 0xCCD, .NonspacingMark),
  (0xCD5, 0xCD6, .LeftToRight),
  (0xCDE, 0xCDE, .LeftToRight),
  (0xCE0, 0xCE1, .LeftToRight),
  (0xCE2, 0xCE3, .NonspacingMark),
  (0xCE6, 0xCEF, .LeftToRight),
  (0xCF1, 0xCF2, .LeftToRight),
  (0xD00, 0xD01, .NonspacingMark),
  (0xD02, 0xD03, .LeftToRight),
  (0xD05, 0xD0C, .LeftToRight),
  (0xD0E, 0xD10, .LeftToRight),
  (0xD12, 0xD3A, .LeftToRight),
  (0xD3B, 0xD3C, .NonspacingMark),
  (0xD3D, 0xD40, .LeftToRight),
  (0xD41, 0xD44, .NonspacingMark),
  (0xD46, 0xD48, .LeftToRight),
  (0xD4A, 0xD4C, .LeftToRight),
  (0xD4D, 0xD4D, .NonspacingMark)]
def bidiClass_5 : List (Nat × Nat × BidiClass) := [
  (0xD4E, 0xD4F, .LeftToRight),
  (0xD54, 0xD61, .LeftToRight),
  (0xD62, 0xD63, .NonspacingMark),
  (0xD66, 0xD7F, .LeftToRight),
  (0xD82, 0xD83, .LeftToRight),
  (0xD85, 0xD96, .LeftToRight),
  (0xD9A, 0xDB1, .LeftToRight),
  (0xDB3, 0xDBB, .LeftToRight),
  (0xDBD, 0xDBD, .LeftToRight),
  (0xDC0, 0xDC6, .LeftToRight),
  (0xDCA, 0xDCA, .NonspacingMark),
  (0xDCF, 0xDD1, .LeftToRight),
  (0xDD2, 0xDD4, .NonspacingMark),
  (0xDD6, 0xDD6, .NonspacingMark),
  (0xDD8, 0xDDF, .LeftToRight),
  (0xDE6, 0xDEF, .LeftToRight),
  (0xDF2, 0xDF4, .LeftToRight),
  (0xE01, 0xE30, .LeftToRight),
  (0xE31, 0xE31, .NonspacingMark),
  (0xE32, 0xE33, .LeftToRight),
  (0xE34, 0xE3A, .NonspacingMark),
  (0xE3F, 0xE3F, .EuropeanTerminator),
  (0xE40, 0xE46, .LeftToRight),
  (0xE47, 0xE4E, .NonspacingMark),
  (0xE4F, 0xE5B, .LeftToRight),
  (0xE81, 0xE82, .LeftToRight),
  (0xE84, 0xE84, .LeftToRight),
  (0xE87, 0xE88, .LeftToRight),
  (0xE8A, 0xE8A, .LeftToRight),
  (0xE8D, 0xE8D, .LeftToRight),
  (0xE94, 0xE97, .LeftToRight),
  (0xE99, 0xE9F, .LeftToRight),
  (0xEA1, 0xEA3, .LeftToRight),
  (0xEA5, 0xEA5, .LeftToRight),
  (0xEA7, 0xEA7, .LeftToRight),
  (0xEAA, 0xEAB, .LeftToRight),
  (0xEAD, 0xEB0, .LeftToRight),
  (0xEB1, 0xEB1, .NonspacingMark),
  (0xEB2, 0xEB3, .LeftToRight),
  (0xEB4, 0xEB9, .NonspacingMark),
  (0xEBB, 0xEBC, .NonspacingMark),
  (0xEBD, 0xEBD, .LeftToRight),
  (0xEC0, 0xEC4, .LeftToRight),
  (0xEC6, 0xEC6, .LeftToRight),
  (0xEC8, 0xECD, .NonspacingMark),
  (0xED0, 0xED9, .LeftToRight),
  (0xEDC, 0xEDF, .LeftToRight),
  (0xF00, 0xF17, .LeftToRight),
  (0xF18, 0xF19, .NonspacingMark),
  (0xF1A, 0xF34, .LeftToRight),
  (0xF35, 0xF35, .NonspacingMark),
  (0xF36, 0xF36, .LeftToRight),
  (0xF37, 0xF37, .NonspacingMark),
  (0xF38, 0xF38, .LeftToRight),
  (0xF39, 0xF39, .NonspacingMark),
  (0xF3A, 0xF3D, .OtherNeutral),
  (0xF3E, 0xF47, .LeftToRight),
  (0xF49, 0xF6C, .LeftToRight),
  (0xF71, 0xF7E, .NonspacingMark),
  (0xF7F, 0xF7F, .LeftToRight),
  (0xF80, 0xF84, .NonspacingMark),
  (0xF85, 0xF85, .LeftToRight),
  (0xF86, 0xF87, .NonspacingMark),
  (0xF88, 0xF8C, .LeftToRight)]
def bidiClass_6 : List (Nat × Nat × BidiClass) := [
  (0xF8D, 0xF97, .NonspacingMark),
  (0xF99, 0xFBC, .NonspacingMark),
  (0xFBE, 0xFC5, .LeftToRight),
  (0xFC6, 0xFC6, .NonspacingMark),
  (0xFC7, 0xFCC, .LeftToRight),
  (0xFCE, 0xFDA, .LeftToRight),
  (0x1000, 0x102C, .LeftToRight),
  (0x102D, 0x1030, .NonspacingMark),
  (0x1031, 0x1031, .LeftToRight),
  (0x1032, 0x1037, .NonspacingMark),
  (0x1038, 0x1038, .LeftToRight),
  (0x1039, 0x103A, .NonspacingMark),
  (0x103B, 0x103C, .LeftToRight),
  (0x103D, 0x103E, .NonspacingMark),
  (0x103F, 0x1057, .LeftToRight),
  (0x1058, 0x1059, .NonspacingMark),
  (0x105A, 0x105D, .LeftToRight),
  (0x105E, 0x1060, .NonspacingMark),
  (0x1061, 0x1070, .LeftToRight),
  (0x1071, 0x1074, .NonspacingMark),
  (0x1075, 0x1081, .LeftToRight),
  (0x1082, 0x1082, .NonspacingMark),
  (0x1083, 0x1084, .LeftToRight),
  (0x1085, 0x1086, .NonspacingMark),
  (0x1087, 0x108C, .LeftToRight),
  (0x108D, 0x108D, .NonspacingMark),
  (0x108E, 0x109C, .LeftToRight),
  (0x109D, 0x109D, .NonspacingMark),
  (0x109E, 0x10C5, .LeftToRight),
  (0x10C7, 0x10C7, .LeftToRight),
  (0x10CD, 0x10CD, .LeftToRight),
  (0x10D0, 0x1248, .LeftToRight),
  (0x124A, 0x124D, .LeftToRight),
  (0x1250, 0x1256, .LeftToRight),
  (0x1258, 0x1258, .LeftToRight),
  (0x125A, 0x125D, .LeftToRight),
  (0x1260, 0x1288, .LeftToRight),
  (0x128A, 0x128D, .LeftToRight),
  (0x1290, 0x12B0, .LeftToRight),
  (0x12B2, 0x12B5, .LeftToRight),
  (0x12B8, 0x12BE, .LeftToRight),
  (0x12C0, 0x12C0, .LeftToRight),
  (0x12C2, 0x12C5, .LeftToRight),
  (0x12C8, 0x12D6, .LeftToRight),
  (0x12D8, 0x1310, .LeftToRight),
  (0x1312, 0x1315, .LeftToRight),
  (0x1318, 0x135A, .LeftToRight),
  (0x135D, 0x135F, .NonspacingMark),
  (0x1360, 0x137C, .LeftToRight),
  (0x1380, 0x138F, .LeftToRight),
  (0x1390, 0x1399, .OtherNeutral),
  (0x13A0, 0x13F5, .LeftToRight),
  (0x13F8, 0x13FD, .LeftToRight),
  (0x1400, 0x1400, .OtherNeutral),
  (0x1401, 0x167F, .LeftToRight),
  (0x1680, 0x1680, .WhiteSpace),
  (0x1681, 0x169A, .LeftToRight),
  (0x169B, 0x169C, .OtherNeutral),
  (0x16A0, 0x16F8, .LeftToRight),
  (0x1700, 0x170C, .LeftToRight),
  (0x170E, 0x1711, .LeftToRight),
  (0x1712, 0x1714, .NonspacingMark),
  (0x1720, 0x1731, .LeftToRight),
  (0x1732, 0x1734, .NonspacingMark)]
def bidiClass_7 : List (Nat × Nat × BidiClass) := [
  (0x1735, 0x1736, .LeftToRight),
  (0x1740, 0x1751, .LeftToRight),
  (0x1752, 0x1753, .NonspacingMark),
  (0x1760, 0x176C, .LeftToRight),
  (0x176E, 0x1770, .LeftToRight),
  (0x1772, 0x1773, .NonspacingMark),
  (0x1780, 0x17B3, .LeftToRight),
  (0x17B4, 0x17B5, .NonspacingMark),
  (0x17B6, 0x17B6, .LeftToRight),
  (0x17B7, 0x17BD, .NonspacingMark),
  (0x17BE, 0x17C5, .LeftToRight),
  (0x17C6, 0x17C6, .NonspacingMark),
  (0x17C7, 0x17C8, .LeftToRight),
  (0x17C9, 0x17D3, .NonspacingMark),
  (0x17D4, 0x17DA, .LeftToRight),
  (0x17DB, 0x17DB, .EuropeanTerminator),
  (0x17DC, 0x17DC, .LeftToRight),
  (0x17DD, 0x17DD, .NonspacingMark),
  (0x17E0, 0x17E9, .LeftToRight),
  (0x17F0, 0x17F9, .OtherNeutral),
  (0x1800, 0x180A, .OtherNeutral),
  (0x180B, 0x180D, .NonspacingMark),
  (0x180E, 0x180E, .BoundaryNeutral),
  (0x1810, 0x1819, .LeftToRight),
  (0x1820, 0x1877, .LeftToRight),
  (0x1880, 0x1884, .LeftToRight),
  (0x1885, 0x1886, .NonspacingMark),
  (0x1887, 0x18A8, .LeftToRight),
  (0x18A9, 0x18A9, .NonspacingMark),
  (0x18AA, 0x18AA, .LeftToRight),
  (0x18B0, 0x18F5, .LeftToRight),
  (0x1900, 0x191E, .LeftToRight),
  (0x1920, 0x1922, .NonspacingMark),
  (0x1923, 0x1926, .LeftToRight),
  (0x1927, 0x1928, .NonspacingMark),
  (0x1929, 0x192B, .LeftToRight),
  (0x1930, 0x1931, .LeftToRight),
  (0x1932, 0x1932, .NonspacingMark),
  (0x1933, 0x1938, .LeftToRight),
  (0x1939, 0x193B, .NonspacingMark),
  (0x1940, 0x1940, .OtherNeutral),
  (0x1944, 0x1945, .OtherNeutral),
  (0x1946, 0x196D, .LeftToRight),
  (0x1970, 0x1974, .LeftToRight),
  (0x1980, 0x19AB, .LeftToRight),
  (0x19B0, 0x19C9, .LeftToRight),
  (0x19D0, 0x19DA, .LeftToRight),
  (0x19DE, 0x19FF, .OtherNeutral),
  (0x1A00, 0x1A16, .LeftToRight),
  (0x1A17, 0x1A18, .NonspacingMark),
  (0x1A19, 0x1A1A, .LeftToRight),
  (0x1A1B, 0x1A1B, .NonspacingMark),
  (0x1A1E, 0x1A55, .LeftToRight),
  (0x1A56, 0x1A56, .NonspacingMark),
  (0x1A57, 0x1A57, .LeftToRight),
  (0x1A58, 0x1A5E, .NonspacingMark),
  (0x1A60, 0x1A60, .NonspacingMark),
  (0x1A61, 0x1A61, .LeftToRight),
  (0x1A62, 0x1A62, .NonspacingMark),
  (0x1A63, 0x1A64, .LeftToRight),
  (0x1A65, 0x1A6C, .NonspacingMark),
  (0x1A6D, 0x1A72, .LeftToRight),
  (0x1A73, 0x1A7C, .NonspacingMark),
  (0x1A7F, 0x1A7F, .NonspacingMark)]
def bidiClass_8 : List (Nat × Nat × BidiClass) := [
  (0x1A80, 0x1A89, .LeftToRight),
  (0x1A90, 0x1A99, .LeftToRight),
  (0x1AA0, 0x1AAD, .LeftToRight),
  (0x1AB0, 0x1ABE, .NonspacingMark),
  (0x1B00, 0x1B03, .NonspacingMark),
  (0x1B04, 0x1B33, .LeftToRight),
  (0x1B34, 0x1B34, .NonspacingMark),
  (0x1B35, 0x1B35, .LeftToRight),
  (0x1B36, 0x1B3A, .NonspacingMark),
  (0x1B3B, 0x1B3B, .LeftToRight),
  (0x1B3C, 0x1B3C, .NonspacingMark),
  (0x1B3D, 0x1B41, .LeftToRight),
  (0x1B42, 0x1B42, .NonspacingMark),
  (0x1B43, 0x1B4B, .LeftToRight),
  (0x1B50, 0x1B6A, .LeftToRight),
  (0x1B6B, 0x1B73, .NonspacingMark),
  (0x1B74, 0x1B7C, .LeftToRight),
  (0x1B80, 0x1B81, .NonspacingMark),
  (0x1B82, 0x1BA1, .LeftToRight),
  (0x1BA2, 0x1BA5, .NonspacingMark),
  (0x1BA6, 0x1BA7, .LeftToRight),
  (0x1BA8, 0x1BA9, .NonspacingMark),
  (0x1BAA, 0x1BAA, .LeftToRight),
  (0x1BAB, 0x1BAD, .NonspacingMark),
  (0x1BAE, 0x1BE5, .LeftToRight),
  (0x1BE6, 0x1BE6, .NonspacingMark),
  (0x1BE7, 0x1BE7, .LeftToRight),
  (0x1BE8, 0x1BE9, .NonspacingMark),
  (0x1BEA, 0x1BEC, .LeftToRight),
  (0x1BED, 0x1BED, .NonspacingMark),
  (0x1BEE, 0x1BEE, .LeftToRight),
  (0x1BEF, 0x1BF1, .NonspacingMark),
  (0x1BF2, 0x1BF3, .LeftToRight),
  (0x1BFC, 0x1C2B, .LeftToRight),
  (0x1C2C, 0x1C33, .NonspacingMark),
  (0x1C34, 0x1C35, .LeftToRight),
  (0x1C36, 0x1C37, .NonspacingMark),
  (0x1C3B, 0x1C49, .LeftToRight),
  (0x1C4D, 0x1C88, .LeftToRight),
  (0x1CC0, 0x1CC7, .LeftToRight),
  (0x1CD0, 0x1CD2, .NonspacingMark),
  (0x1CD3, 0x1CD3, .LeftToRight),
  (0x1CD4, 0x1CE0, .NonspacingMark),
  (0x1CE1, 0x1CE1, .LeftToRight),
  (0x1CE2, 0x1CE8, .NonspacingMark),
  (0x1CE9, 0x1CEC, .LeftToRight),
  (0x1CED, 0x1CED, .NonspacingMark),
  (0x1CEE, 0x1CF3, .LeftToRight),
  (0x1CF4, 0x1CF4, .NonspacingMark),
  (0x1CF5, 0x1CF7, .LeftToRight),
  (0x1CF8, 0x1CF9, .NonspacingMark),
  (0x1D00, 0x1DBF, .LeftToRight),
  (0x1DC0, 0x1DF9, .NonspacingMark),
  (0x1DFB, 0x1DFF, .NonspacingMark),
  (0x1E00, 0x1F15, .LeftToRight),
  (0x1F18, 0x1F1D, .LeftToRight),
  (0x1F20, 0x1F45, .LeftToRight),
  (0x1F48, 0x1F4D, .LeftToRight),
  (0x1F50, 0x1F57, .LeftToRight),
  (0x1F59, 0x1F59, .LeftToRight),
  (0x1F5B, 0x1F5B, .LeftToRight),
  (0x1F5D, 0x1F5D, .LeftToRight),
  (0x1F5F, 0x1F7D, .LeftToRight),
  (0x1F80, 0x1FB4, .LeftToRight)]
def bidiClass_9 : List (Nat × Nat × BidiClass) := [
  (0x1FB6, 0x1FBC, .LeftToRight),
  (0x1FBD, 0x1FBD, .OtherNeutral),
  (0x1FBE, 0x1FBE, .LeftToRight),
  (0x1FBF, 0x1FC1, .OtherNeutral),
  (0x1FC2, 0x1FC4, .LeftToRight),
  (0x1FC6, 0x1FCC, .LeftToRight),
  (0x1FCD, 0x1FCF, .OtherNeutral),
  (0x1FD0, 0x1FD3, .LeftToRight),
  (0x1FD6, 0x1FDB, .LeftToRight),
  (0x1FDD, 0x1FDF, .OtherNeutral),
  (0x1FE0, 0x1FEC, .LeftToRight),
  (0x1FED, 0x1FEF, .OtherNeutral),
  (0x1FF2, 0x1FF4, .LeftToRight),
  (0x1FF6, 0x1FFC, .LeftToRight),
  (0x1FFD, 0x1FFE, .OtherNeutral),
  (0x2000, 0x200A, .WhiteSpace),
  (0x200B, 0x200D, .BoundaryNeutral),
  (0x200E, 0x200E, .LeftToRight),
  (0x200F, 0x200F, .RightToLeft),
  (0x2010, 0x2027, .OtherNeutral),
  (0x2028, 0x2028, .WhiteSpace),
  (0x2029, 0x2029, .ParagraphSeparator),
  (0x202A, 0x202A, .LeftToRightEmbedding),
  (0x202B, 0x202B, .RightToLeftEmbedding),
  (0x202C, 0x202C, .PopDirectionalFormat),
  (0x202D, 0x202D, .LeftToRightOverride),
  (0x202E, 0x202E, .RightToLeftOverride),
  (0x202F, 0x202F, .CommonSeparator),
  (0x2030, 0x2034, .EuropeanTerminator),
  (0x2035, 0x2043, .OtherNeutral),
  (0x2044, 0x2044, .CommonSeparator),
  (0x2045, 0x205E, .OtherNeutral),
  (0x205F, 0x205F, .WhiteSpace),
  (0x2060, 0x2064, .BoundaryNeutral),
  (0x2066, 0x2066, .LeftToRightIsolate),
  (0x2067, 0x2067, .RightToLeftIsolate),
  (0x2068, 0x2068, .FirstStrongIsolate),
  (0x2069, 0x2069, .PopDirectionalIsolate),
  (0x206A, 0x206F, .BoundaryNeutral),
  (0x2070, 0x2070, .EuropeanNumber),
  (0x2071, 0x2071, .LeftToRight),
  (0x2074, 0x2079, .EuropeanNumber),
  (0x207A, 0x207B, .EuropeanSeparator),
  (0x207C, 0x207E, .OtherNeutral),
  (0x207F, 0x207F, .LeftToRight),
  (0x2080, 0x2089, .EuropeanNumber),
  (0x208A, 0x208B, .EuropeanSeparator),
  (0x208C, 0x208E, .OtherNeutral),
  (0x2090, 0x209C, .LeftToRight),
  (0x20A0, 0x20CF, .EuropeanTerminator),
  (0x20D0, 0x20F0, .NonspacingMark),
  (0x2100, 0x2101, .OtherNeutral),
  (0x2102, 0x2102, .LeftToRight),
  (0x2103, 0x2106, .OtherNeutral),
  (0x2107, 0x2107, .LeftToRight),
  (0x2108, 0x2109, .OtherNeutral),
  (0x210A, 0x2113, .LeftToRight),
  (0x2114, 0x2114, .OtherNeutral),
  (0x2115, 0x2115, .LeftToRight),
  (0x2116, 0x2118, .OtherNeutral),
  (0x2119, 0x211D, .LeftToRight),
  (0x211E, 0x2123, .OtherNeutral),
  (0x2124, 0x2124, .LeftToRight),
  (0x2125, 0x2125, .OtherNeutral)]
def bidiClass_10 : List (Nat × Nat × BidiClass) := [
  (0x2126, 0x2126, .LeftToRight),
  (0x2127, 0x2127, .OtherNeutral),
  (0x2128, 0x2128, .LeftToRight),
  (0x2129, 0x2129, .OtherNeutral),
  (0x212A, 0x212D, .LeftToRight),
  (0x212E, 0x212E, .EuropeanTerminator),
  (0x212F, 0x2139, .LeftToRight),
  (0x213A, 0x213B, .OtherNeutral),
  (0x213C, 0x213F, .LeftToRight),
  (0x2140, 0x2144, .OtherNeutral),
  (0x2145, 0x2149, .LeftToRight),
  (0x214A, 0x214D, .OtherNeutral),
  (0x214E, 0x214F, .LeftToRight),
  (0x2150, 0x215F, .OtherNeutral),
  (0x2160, 0x2188, .LeftToRight),
  (0x2189, 0x218B, .OtherNeutral),
  (0x2190, 0x2211, .OtherNeutral),
  (0x2212, 0x2212, .EuropeanSeparator),
  (0x2213, 0x2213, .EuropeanTerminator),
  (0x2214, 0x2335, .OtherNeutral),
  (0x2336, 0x237A, .LeftToRight),
  (0x237B, 0x2394, .OtherNeutral),
  (0x2395, 0x2395, .LeftToRight),
  (0x2396, 0x2426, .OtherNeutral),
  (0x2440, 0x244A, .OtherNeutral),
  (0x2460, 0x2487, .OtherNeutral),
  (0x2488, 0x249B, .EuropeanNumber),
  (0x249C, 0x24E9, .LeftToRight),
  (0x24EA, 0x26AB, .OtherNeutral),
  (0x26AC, 0x26AC, .LeftToRight),
  (0x26AD, 0x27FF, .OtherNeutral),
  (0x2800, 0x28FF, .LeftToRight),
  (0x2900, 0x2B73, .OtherNeutral),
  (0x2B76, 0x2B95, .OtherNeutral),
  (0x2B98, 0x2BB9, .OtherNeutral),
  (0x2BBD, 0x2BC8, .OtherNeutral),
  (0x2BCA, 0x2BD2, .OtherNeutral),
  (0x2BEC, 0x2BEF, .OtherNeutral),
  (0x2C00, 0x2C2E, .LeftToRight),
  (0x2C30, 0x2C5E, .LeftToRight),
  (0x2C60, 0x2CE4, .LeftToRight),
  (0x2CE5, 0x2CEA, .OtherNeutral),
  (0x2CEB, 0x2CEE, .LeftToRight),
  (0x2CEF, 0x2CF1, .NonspacingMark),
  (0x2CF2, 0x2CF3, .LeftToRight),
  (0x2CF9, 0x2CFF, .OtherNeutral),
  (0x2D00, 0x2D25, .LeftToRight),
  (0x2D27, 0x2D27, .LeftToRight),
  (0x2D2D, 0x2D2D, .LeftToRight),
  (0x2D30, 0x2D67, .LeftToRight),
  (0x2D6F, 0x2D70, .LeftToRight),
  (0x2D7F, 0x2D7F, .NonspacingMark),
  (0x2D80, 0x2D96, .LeftToRight),
  (0x2DA0, 0x2DA6, .LeftToRight),
  (0x2DA8, 0x2DAE, .LeftToRight),
  (0x2DB0, 0x2DB6, .LeftToRight),
  (0x2DB8, 0x2DBE, .LeftToRight),
  (0x2DC0, 0x2DC6, .LeftToRight),
  (0x2DC8, 0x2DCE, .LeftToRight),
  (0x2DD0, 0x2DD6, .LeftToRight),
  (0x2DD8, 0x2DDE, .LeftToRight),
  (0x2DE0, 0x2DFF, .NonspacingMark),
  (0x2E00, 0x2E49, .OtherNeutral),
  (0x2E80, 0x2E99, .OtherNeutral)]
def bidiClass_11 : List (Nat × Nat × BidiClass) := [
  (0x2E9B, 0x2EF3, .OtherNeutral),
  (0x2F00, 0x2FD5, .OtherNeutral),
  (0x2FF0, 0x2FFB, .OtherNeutral),
  (0x3000, 0x3000, .WhiteSpace),
  (0x3001, 0x3004, .OtherNeutral),
  (0x3005, 0x3007, .LeftToRight),
  (0x3008, 0x3020, .OtherNeutral),
  (0x3021, 0x3029, .LeftToRight),
  (0x302A, 0x302D, .NonspacingMark),
  (0x302E, 0x302F, .LeftToRight),
  (0x3030, 0x3030, .OtherNeutral),
  (0x3031, 0x3035, .LeftToRight),
  (0x3036, 0x3037, .OtherNeutral),
  (0x3038, 0x303C, .LeftToRight),
  (0x303D, 0x303F, .OtherNeutral),
  (0x3041, 0x3096, .LeftToRight),
  (0x3099, 0x309A, .NonspacingMark),
  (0x309B, 0x309C, .OtherNeutral),
  (0x309D, 0x309F, .LeftToRight),
  (0x30A0, 0x30A0, .OtherNeutral),
  (0x30A1, 0x30FA, .LeftToRight),
  (0x30FB, 0x30FB, .OtherNeutral),
  (0x30FC, 0x30FF, .LeftToRight),
  (0x3105, 0x312E, .LeftToRight),
  (0x3131, 0x318E, .LeftToRight),
  (0x3190, 0x31BA, .LeftToRight),
  (0x31C0, 0x31E3, .OtherNeutral),
  (0x31F0, 0x321C, .LeftToRight),
  (0x321D, 0x321E, .OtherNeutral),
  (0x3220, 0x324F, .LeftToRight),
  (0x3250, 0x325F, .OtherNeutral),
  (0x3260, 0x327B, .LeftToRight),
  (0x327C, 0x327E, .OtherNeutral),
  (0x327F, 0x32B0, .LeftToRight),
  (0x32B1, 0x32BF, .OtherNeutral),
  (0x32C0, 0x32CB, .LeftToRight),
  (0x32CC, 0x32CF, .OtherNeutral),
  (0x32D0, 0x32FE, .LeftToRight),
  (0x3300, 0x3376, .LeftToRight),
  (0x3377, 0x337A, .OtherNeutral),
  (0x337B, 0x33DD, .LeftToRight),
  (0x33DE, 0x33DF, .OtherNeutral),
  (0x33E0, 0x33FE, .LeftToRight),
  (0x33FF, 0x33FF, .OtherNeutral),
  (0x3400, 0x4DB5, .LeftToRight),
  (0x4DC0, 0x4DFF, .OtherNeutral),
  (0x4E00, 0x9FEA, .LeftToRight),
  (0xA000, 0xA48C, .LeftToRight),
  (0xA490, 0xA4C6, .OtherNeutral),
  (0xA4D0, 0xA60C, .LeftToRight),
  (0xA60D, 0xA60F, .OtherNeutral),
  (0xA610, 0xA62B, .LeftToRight),
  (0xA640, 0xA66E, .LeftToRight),
  (0xA66F, 0xA672, .NonspacingMark),
  (0xA673, 0xA673, .OtherNeutral),
  (0xA674, 0xA67D, .NonspacingMark),
  (0xA67E, 0xA67F, .OtherNeutral),
  (0xA680, 0xA69D, .LeftToRight),
  (0xA69E, 0xA69F, .NonspacingMark),
  (0xA6A0, 0xA6EF, .LeftToRight),
  (0xA6F0, 0xA6F1, .NonspacingMark),
  (0xA6F2, 0xA6F7, .LeftToRight),
  (0xA700, 0xA721, .OtherNeutral),
  (0xA722, 0xA787, .LeftToRight)]
def bidiClass_12 : List (Nat × Nat × BidiClass) := [
  (0xA788, 0xA788, .OtherNeutral),
  (0xA789, 0xA7AE, .LeftToRight),
  (0xA7B0, 0xA7B7, .LeftToRight),
  (0xA7F7, 0xA801, .LeftToRight),
  (0xA802, 0xA802, .NonspacingMark),
  (0xA803, 0xA805, .LeftToRight),
  (0xA806, 0xA806, .NonspacingMark),
  (0xA807, 0xA80A, .LeftToRight),
  (0xA80B, 0xA80B, .NonspacingMark),
  (0xA80C, 0xA824, .LeftToRight),
  (0xA825, 0xA826, .NonspacingMark),
  (0xA827, 0xA827, .LeftToRight),
  (0xA828, 0xA82B, .OtherNeutral),
  (0xA830, 0xA837, .LeftToRight),
  (0xA838, 0xA839, .EuropeanTerminator),
  (0xA840, 0xA873, .LeftToRight),
  (0xA874, 0xA877, .OtherNeutral),
  (0xA880, 0xA8C3, .LeftToRight),
  (0xA8C4, 0xA8C5, .NonspacingMark),
  (0xA8CE, 0xA8D9, .LeftToRight),
  (0xA8E0, 0xA8F1, .NonspacingMark),
  (0xA8F2, 0xA8FD, .LeftToRight),
  (0xA900, 0xA925, .LeftToRight),
  (0xA926, 0xA92D, .NonspacingMark),
  (0xA92E, 0xA946, .LeftToRight),
  (0xA947, 0xA951, .NonspacingMark),
  (0xA952, 0xA953, .LeftToRight),
  (0xA95F, 0xA97C, .LeftToRight),
  (0xA980, 0xA982, .NonspacingMark),
  (0xA983, 0xA9B2, .LeftToRight),
  (0xA9B3, 0xA9B3, .NonspacingMark),
  (0xA9B4, 0xA9B5, .LeftToRight),
  (0xA9B6, 0xA9B9, .NonspacingMark),
  (0xA9BA, 0xA9BB, .LeftToRight),
  (0xA9BC, 0xA9BC, .NonspacingMark),
  (0xA9BD, 0xA9CD, .LeftToRight),
  (0xA9CF, 0xA9D9, .LeftToRight),
  (0xA9DE, 0xA9E4, .LeftToRight),
  (0xA9E5, 0xA9E5, .NonspacingMark),
  (0xA9E6, 0xA9FE, .LeftToRight),
  (0xAA00, 0xAA28, .LeftToRight),
  (0xAA29, 0xAA2E, .NonspacingMark),
  (0xAA2F, 0xAA30, .LeftToRight),
  (0xAA31, 0xAA32, .NonspacingMark),
  (0xAA33, 0xAA34, .LeftToRight),
  (0xAA35, 0xAA36, .NonspacingMark),
  (0xAA40, 0xAA42, .LeftToRight),
  (0xAA43, 0xAA43, .NonspacingMark),
  (0xAA44, 0xAA4B, .LeftToRight),
  (0xAA4C, 0xAA4C, .NonspacingMark),
  (0xAA4D, 0xAA4D, .LeftToRight),
  (0xAA50, 0xAA59, .LeftToRight),
  (0xAA5C, 0xAA7B, .LeftToRight),
  (0xAA7C, 0xAA7C, .NonspacingMark),
  (0xAA7D, 0xAAAF, .LeftToRight),
  (0xAAB0, 0xAAB0, .NonspacingMark),
  (0xAAB1, 0xAAB1, .LeftToRight),
  (0xAAB2, 0xAAB4, .NonspacingMark),
  (0xAAB5, 0xAAB6, .LeftToRight),
  (0xAAB7, 0xAAB8, .NonspacingMark),
  (0xAAB9, 0xAABD, .LeftToRight),
  (0xAABE, 0xAABF, .NonspacingMark),
  (0xAAC0, 0xAAC0, .LeftToRight),
  (0xAAC1, 0xAAC1, .NonspacingMark)]
def bidiClass_13 : List (Nat × Nat × BidiClass) := [
  (0xAAC2, 0xAAC2, .LeftToRight),
  (0xAADB, 0xAAEB, .LeftToRight),
  (0xAAEC, 0xAAED, .NonspacingMark),
  (0xAAEE, 0xAAF5, .LeftToRight),
  (0xAAF6, 0xAAF6, .NonspacingMark),
  (0xAB01, 0xAB06, .LeftToRight),
  (0xAB09, 0xAB0E, .LeftToRight),
  (0xAB11, 0xAB16, .LeftToRight),
  (0xAB20, 0xAB26, .LeftToRight),
  (0xAB28, 0xAB2E, .LeftToRight),
  (0xAB30, 0xAB65, .LeftToRight),
  (0xAB70, 0xABE4, .LeftToRight),
  (0xABE5, 0xABE5, .NonspacingMark),
  (0xABE6, 0xABE7, .LeftToRight),
  (0xABE8, 0xABE8, .NonspacingMark),
  (0xABE9, 0xABEC, .LeftToRight),
  (0xABED, 0xABED, .NonspacingMark),
  (0xABF0, 0xABF9, .LeftToRight),
  (0xAC00, 0xD7A3, .LeftToRight),
  (0xD7B0, 0xD7C6, .LeftToRight),
  (0xD7CB, 0xD7FB, .LeftToRight),
  (0xE000, 0xFA6D, .LeftToRight),
  (0xFA70, 0xFAD9, .LeftToRight),
  (0xFB00, 0xFB06, .LeftToRight),
  (0xFB13, 0xFB17, .LeftToRight),
  (0xFB1D, 0xFB1D, .RightToLeft),
  (0xFB1E, 0xFB1E, .NonspacingMark),
  (0xFB1F, 0xFB28, .RightToLeft),
  (0xFB29, 0xFB29, .EuropeanSeparator),
  (0xFB2A, 0xFB4F, .RightToLeft),
  (0xFB50, 0xFD3D, .ArabicLetter),
  (0xFD3E, 0xFD3F, .OtherNeutral),
  (0xFD40, 0xFDCF, .ArabicLetter),
  (0xFDF0, 0xFDFC, .ArabicLetter),
  (0xFDFD, 0xFDFD, .OtherNeutral),
  (0xFDFE, 0xFDFF, .ArabicLetter),
  (0xFE00, 0xFE0F, .NonspacingMark),
  (0xFE10, 0xFE19, .OtherNeutral),
  (0xFE20, 0xFE2F, .NonspacingMark),
  (0xFE30, 0xFE4F, .OtherNeutral),
  (0xFE50, 0xFE50, .CommonSeparator),
  (0xFE51, 0xFE51, .OtherNeutral),
  (0xFE52, 0xFE52, .CommonSeparator),
  (0xFE54, 0xFE54, .OtherNeutral),
  (0xFE55, 0xFE55, .CommonSeparator),
  (0xFE56, 0xFE5E, .OtherNeutral),
  (0xFE5F, 0xFE5F, .EuropeanTerminator),
  (0xFE60, 0xFE61, .OtherNeutral),
  (0xFE62, 0xFE63, .EuropeanSeparator),
  (0xFE64, 0xFE66, .OtherNeutral),
  (0xFE68, 0xFE68, .OtherNeutral),
  (0xFE69, 0xFE6A, .EuropeanTerminator),
  (0xFE6B, 0xFE6B, .OtherNeutral),
  (0xFE70, 0xFEFE, .ArabicLetter),
  (0xFEFF, 0xFEFF, .BoundaryNeutral),
  (0xFF01, 0xFF02, .OtherNeutral),
  (0xFF03, 0xFF05, .EuropeanTerminator),
  (0xFF06, 0xFF0A, .OtherNeutral),
  (0xFF0B, 0xFF0B, .EuropeanSeparator),
  (0xFF0C, 0xFF0C, .CommonSeparator),
  (0xFF0D, 0xFF0D, .EuropeanSeparator),
  (0xFF0E, 0xFF0F, .CommonSeparator),
  (0xFF10, 0xFF19, .EuropeanNumber),
  (0xFF1A, 0xFF1A, .CommonSeparator)]
def bidiClass_14 : List (Nat × Nat × BidiClass) := [
  (0xFF1B, 0xFF20, .OtherNeutral),
  (0xFF21, 0xFF3A, .LeftToRight),
  (0xFF3B, 0xFF40, .OtherNeutral),
  (0xFF41, 0xFF5A, .LeftToRight),
  (0xFF5B, 0xFF65, .OtherNeutral),
  (0xFF66, 0xFFBE, .LeftToRight),
  (0xFFC2, 0xFFC7, .LeftToRight),
  (0xFFCA, 0xFFCF, .LeftToRight),
  (0xFFD2, 0xFFD7, .LeftToRight),
  (0xFFDA, 0xFFDC, .LeftToRight),
  (0xFFE0, 0xFFE1, .EuropeanTerminator),
  (0xFFE2, 0xFFE4, .OtherNeutral),
  (0xFFE5, 0xFFE6, .EuropeanTerminator),
  (0xFFE8, 0xFFEE, .OtherNeutral),
  (0xFFF9, 0xFFFD, .OtherNeutral),
  (0x10000, 0x1000B, .LeftToRight),
  (0x1000D, 0x10026, .LeftToRight),
  (0x10028, 0x1003A, .LeftToRight),
  (0x1003C, 0x1003D, .LeftToRight),
  (0x1003F, 0x1004D, .LeftToRight),
  (0x10050, 0x1005D, .LeftToRight),
  (0x10080, 0x100FA, .LeftToRight),
  (0x10100, 0x10100, .LeftToRight),
  (0x10101, 0x10101, .OtherNeutral),
  (0x10102, 0x10102, .LeftToRight),
  (0x10107, 0x10133, .LeftToRight),
  (0x10137, 0x1013F, .LeftToRight),
  (0x10140, 0x1018C, .OtherNeutral),
  (0x1018D, 0x1018E, .LeftToRight),
  (0x10190, 0x1019B, .OtherNeutral),
  (0x101A0, 0x101A0, .OtherNeutral),
  (0x101D0, 0x101FC, .LeftToRight),
  (0x101FD, 0x101FD, .NonspacingMark),
  (0x10280, 0x1029C, .LeftToRight),
  (0x102A0, 0x102D0, .LeftToRight),
  (0x102E0, 0x102E0, .NonspacingMark),
  (0x102E1, 0x102FB, .EuropeanNumber),
  (0x10300, 0x10323, .LeftToRight),
  (0x1032D, 0x1034A, .LeftToRight),
  (0x10350, 0x10375, .LeftToRight),
  (0x10376, 0x1037A, .NonspacingMark),
  (0x10380, 0x1039D, .LeftToRight),
  (0x1039F, 0x103C3, .LeftToRight),
  (0x103C8, 0x103D5, .LeftToRight),
  (0x10400, 0x1049D, .LeftToRight),
  (0x104A0, 0x104A9, .LeftToRight),
  (0x104B0, 0x104D3, .LeftToRight),
  (0x104D8, 0x104FB, .LeftToRight),
  (0x10500, 0x10527, .LeftToRight),
  (0x10530, 0x10563, .LeftToRight),
  (0x1056F, 0x1056F, .LeftToRight),
  (0x10600, 0x10736, .LeftToRight),
  (0x10740, 0x10755, .LeftToRight),
  (0x10760, 0x10767, .LeftToRight),
  (0x10800, 0x1091E, .RightToLeft),
  (0x1091F, 0x1091F, .OtherNeutral),
  (0x10920, 0x10A00, .RightToLeft),
  (0x10A01, 0x10A03, .NonspacingMark),
  (0x10A04, 0x10A04, .RightToLeft),
  (0x10A05, 0x10A06, .NonspacingMark),
  (0x10A07, 0x10A0B, .RightToLeft),
  (0x10A0C, 0x10A0F, .NonspacingMark),
  (0x10A10, 0x10A37, .RightToLeft),
  (0x10A38, 0x10A3A, .NonspacingMark)]
def bidiClass_15 : List (Nat × Nat × BidiClass) := [
  (0x10A3B, 0x10A3E, .RightToLeft),
  (0x10A3F, 0x10A3F, .NonspacingMark),
  (0x10A40, 0x10AE4, .RightToLeft),
  (0x10AE5, 0x10AE6, .NonspacingMark),
  (0x10AE7, 0x10B38, .RightToLeft),
  (0x10B39, 0x10B3F, .OtherNeutral),
  (0x10B40, 0x10E5F, .RightToLeft),
  (0x10E60, 0x10E7E, .ArabicNumber),
  (0x10E7F, 0x10FFF, .RightToLeft),
  (0x11000, 0x11000, .LeftToRight),
  (0x11001, 0x11001, .NonspacingMark),
  (0x11002, 0x11037, .LeftToRight),
  (0x11038, 0x11046, .NonspacingMark),
  (0x11047, 0x1104D, .LeftToRight),
  (0x11052, 0x11065, .OtherNeutral),
  (0x11066, 0x1106F, .LeftToRight),
  (0x1107F, 0x11081, .NonspacingMark),
  (0x11082, 0x110B2, .LeftToRight),
  (0x110B3, 0x110B6, .NonspacingMark),
  (0x110B7, 0x110B8, .LeftToRight),
  (0x110B9, 0x110BA, .NonspacingMark),
  (0x110BB, 0x110C1, .LeftToRight),
  (0x110D0, 0x110E8, .LeftToRight),
  (0x110F0, 0x110F9, .LeftToRight),
  (0x11100, 0x11102, .NonspacingMark),
  (0x11103, 0x11126, .LeftToRight),
  (0x11127, 0x1112B, .NonspacingMark),
  (0x1112C, 0x1112C, .LeftToRight),
  (0x1112D, 0x11134, .NonspacingMark),
  (0x11136, 0x11143, .LeftToRight),
  (0x11150, 0x11172, .LeftToRight),
  (0x11173, 0x11173, .NonspacingMark),
  (0x11174, 0x11176, .LeftToRight),
  (0x11180, 0x11181, .NonspacingMark),
  (0x11182, 0x111B5, .LeftToRight),
  (0x111B6, 0x111BE, .NonspacingMark),
  (0x111BF, 0x111C9, .LeftToRight),
  (0x111CA, 0x111CC, .NonspacingMark),
  (0x111CD, 0x111CD, .LeftToRight),
  (0x111D0, 0x111DF, .LeftToRight),
  (0x111E1, 0x111F4, .LeftToRight),
  (0x11200, 0x11211, .LeftToRight),
  (0x11213, 0x1122E, .LeftToRight),
  (0x1122F, 0x11231, .NonspacingMark),
  (0x11232, 0x11233, .LeftToRight),
  (0x11234, 0x11234, .NonspacingMark),
  (0x11235, 0x11235, .LeftToRight),
  (0x11236, 0x11237, .NonspacingMark),
  (0x11238, 0x1123D, .LeftToRight),
  (0x1123E, 0x1123E, .NonspacingMark),
  (0x11280, 0x11286, .LeftToRight),
  (0x11288, 0x11288, .LeftToRight),
  (0x1128A, 0x1128D, .LeftToRight),
  (0x1128F, 0x1129D, .LeftToRight),
  (0x1129F, 0x112A9, .LeftToRight),
  (0x112B0, 0x112DE, .LeftToRight),
  (0x112DF, 0x112DF, .NonspacingMark),
  (0x112E0, 0x112E2, .LeftToRight),
  (0x112E3, 0x112EA, .NonspacingMark),
  (0x112F0, 0x112F9, .LeftToRight),
  (0x11300, 0x11301, .NonspacingMark),
  (0x11302, 0x11303, .LeftToRight),
  (0x11305, 0x1130C, .LeftToRight),
  (0x1130F, 0x11310, .LeftToRight)]
def bidiClass_16 : List (Nat × Nat × BidiClass) := [
  (0x11313, 0x11328, .LeftToRight),
  (0x1132A, 0x11330, .LeftToRight),
  (0x11332, 0x11333, .LeftToRight),
  (0x11335, 0x11339, .LeftToRight),
  (0x1133C, 0x1133C, .NonspacingMark),
  (0x1133D, 0x1133F, .LeftToRight),
  (0x11340, 0x11340, .NonspacingMark),
  (0x11341, 0x11344, .LeftToRight),
  (0x11347, 0x11348, .LeftToRight),
  (0x1134B, 0x1134D, .LeftToRight),
  (0x11350, 0x11350, .LeftToRight),
  (0x11357, 0x11357, .LeftToRight),
  (0x1135D, 0x11363, .LeftToRight),
  (0x11366, 0x1136C, .NonspacingMark),
  (0x11370, 0x11374, .NonspacingMark),
  (0x11400, 0x11437, .LeftToRight),
  (0x11438, 0x1143F, .NonspacingMark),
  (0x11440, 0x11441, .LeftToRight),
  (0x11442, 0x11444, .NonspacingMark),
  (0x11445, 0x11445, .LeftToRight),
  (0x11446, 0x11446, .NonspacingMark),
  (0x11447, 0x11459, .LeftToRight),
  (0x1145B, 0x1145B, .LeftToRight),
  (0x1145D, 0x1145D, .LeftToRight),
  (0x11480, 0x114B2, .LeftToRight),
  (0x114B3, 0x114B8, .NonspacingMark),
  (0x114B9, 0x114B9, .LeftToRight),
  (0x114BA, 0x114BA, .NonspacingMark),
  (0x114BB, 0x114BE, .LeftToRight),
  (0x114BF, 0x114C0, .NonspacingMark),
  (0x114C1, 0x114C1, .LeftToRight),
  (0x114C2, 0x114C3, .NonspacingMark),
  (0x114C4, 0x114C7, .LeftToRight),
  (0x114D0, 0x114D9, .LeftToRight),
  (0x11580, 0x115B1, .LeftToRight),
  (0x115B2, 0x115B5, .NonspacingMark),
  (0x115B8, 0x115BB, .LeftToRight),
  (0x115BC, 0x115BD, .NonspacingMark),
  (0x115BE, 0x115BE, .LeftToRight),
  (0x115BF, 0x115C0, .NonspacingMark),
  (0x115C1, 0x115DB, .LeftToRight),
  (0x115DC, 0x115DD, .NonspacingMark),
  (0x11600, 0x11632, .LeftToRight),
  (0x11633, 0x1163A, .NonspacingMark),
  (0x1163B, 0x1163C, .LeftToRight),
  (0x1163D, 0x1163D, .NonspacingMark),
  (0x1163E, 0x1163E, .LeftToRight),
  (0x1163F, 0x11640, .NonspacingMark),
  (0x11641, 0x11644, .LeftToRight),
  (0x11650, 0x11659, .LeftToRight),
  (0x11660, 0x1166C, .OtherNeutral),
  (0x11680, 0x116AA, .LeftToRight),
  (0x116AB, 0x116AB, .NonspacingMark),
  (0x116AC, 0x116AC, .LeftToRight),
  (0x116AD, 0x116AD, .NonspacingMark),
  (0x116AE, 0x116AF, .LeftToRight),
  (0x116B0, 0x116B5, .NonspacingMark),
  (0x116B6, 0x116B6, .LeftToRight),
  (0x116B7, 0x116B7, .NonspacingMark),
  (0x116C0, 0x116C9, .LeftToRight),
  (0x11700, 0x11719, .LeftToRight),
  (0x1171D, 0x1171F, .NonspacingMark),
  (0x11720, 0x11721, .LeftToRight),
  (0x11722, 0x11725, .NonspacingMark)]
def bidiClass_17 : List (Nat × Nat × BidiClass) := [
  (0x11726, 0x11726, .LeftToRight),
  (0x11727, 0x1172B, .NonspacingMark),
  (0x11730, 0x1173F, .LeftToRight),
  (0x118A0, 0x118F2, .LeftToRight),
  (0x118FF, 0x118FF, .LeftToRight),
  (0x11A00, 0x11A00, .LeftToRight),
  (0x11A01, 0x11A06, .NonspacingMark),
  (0x11A07, 0x11A08, .LeftToRight),
  (0x11A09, 0x11A0A, .NonspacingMark),
  (0x11A0B, 0x11A32, .LeftToRight),
  (0x11A33, 0x11A38, .NonspacingMark),
  (0x11A39, 0x11A3A, .LeftToRight),
  (0x11A3B, 0x11A3E, .NonspacingMark),
  (0x11A3F, 0x11A46, .LeftToRight),
  (0x11A47, 0x11A47, .NonspacingMark),
  (0x11A50, 0x11A50, .LeftToRight),
  (0x11A51, 0x11A56, .NonspacingMark),
  (0x11A57, 0x11A58, .LeftToRight),
  (0x11A59, 0x11A5B, .NonspacingMark),
  (0x11A5C, 0x11A83, .LeftToRight),
  (0x11A86, 0x11A89, .LeftToRight),
  (0x11A8A, 0x11A96, .NonspacingMark),
  (0x11A97, 0x11A97, .LeftToRight),
  (0x11A98, 0x11A99, .NonspacingMark),
  (0x11A9A, 0x11A9C, .LeftToRight),
  (0x11A9E, 0x11AA2, .LeftToRight),
  (0x11AC0, 0x11AF8, .LeftToRight),
  (0x11C00, 0x11C08, .LeftToRight),
  (0x11C0A, 0x11C2F, .LeftToRight),
  (0x11C30, 0x11C36, .NonspacingMark),
  (0x11C38, 0x11C3D, .NonspacingMark),
  (0x11C3E, 0x11C45, .LeftToRight),
  (0x11C50, 0x11C6C, .LeftToRight),
  (0x11C70, 0x11C8F, .LeftToRight),
  (0x11C92, 0x11CA7, .NonspacingMark),
  (0x11CA9, 0x11CA9, .LeftToRight),
  (0x11CAA, 0x11CB0, .NonspacingMark),
  (0x11CB1, 0x11CB1, .LeftToRight),
  (0x11CB2, 0x11CB3, .NonspacingMark),
  (0x11CB4, 0x11CB4, .LeftToRight),
  (0x11CB5, 0x11CB6, .NonspacingMark),
  (0x11D00, 0x11D06, .LeftToRight),
  (0x11D08, 0x11D09, .LeftToRight),
  (0x11D0B, 0x11D30, .LeftToRight),
  (0x11D31, 0x11D36, .NonspacingMark),
  (0x11D3A, 0x11D3A, .NonspacingMark),
  (0x11D3C, 0x11D3D, .NonspacingMark),
  (0x11D3F, 0x11D45, .NonspacingMark),
  (0x11D46, 0x11D46, .LeftToRight),
  (0x11D47, 0x11D47, .NonspacingMark),
  (0x11D50, 0x11D59, .LeftToRight),
  (0x12000, 0x12399, .LeftToRight),
  (0x12400, 0x1246E, .LeftToRight),
  (0x12470, 0x12474, .LeftToRight),
  (0x12480, 0x12543, .LeftToRight),
  (0x13000, 0x1342E, .LeftToRight),
  (0x14400, 0x14646, .LeftToRight),
  (0x16800, 0x16A38, .LeftToRight),
  (0x16A40, 0x16A5E, .LeftToRight),
  (0x16A60, 0x16A69, .LeftToRight),
  (0x16A6E, 0x16A6F, .LeftToRight),
  (0x16AD0, 0x16AED, .LeftToRight),
  (0x16AF0, 0x16AF4, .NonspacingMark),
  (0x16AF5, 0x16AF5, .LeftToRight)]
def bidiClass_18 : List (Nat × Nat × BidiClass) := [
  (0x16B00, 0x16B2F, .LeftToRight),
  (0x16B30, 0x16B36, .NonspacingMark),
  (0x16B37, 0x16B45, .LeftToRight),
  (0x16B50, 0x16B59, .LeftToRight),
  (0x16B5B, 0x16B61, .LeftToRight),
  (0x16B63, 0x16B77, .LeftToRight),
  (0x16B7D, 0x16B8F, .LeftToRight),
  (0x16F00, 0x16F44, .LeftToRight),
  (0x16F50, 0x16F7E, .LeftToRight),
  (0x16F8F, 0x16F92, .NonspacingMark),
  (0x16F93, 0x16F9F, .LeftToRight),
  (0x16FE0, 0x16FE1, .LeftToRight),
  (0x17000, 0x187EC, .LeftToRight),
  (0x18800, 0x18AF2, .LeftToRight),
  (0x1B000, 0x1B11E, .LeftToRight),
  (0x1B170, 0x1B2FB, .LeftToRight),
  (0x1BC00, 0x1BC6A, .LeftToRight),
  (0x1BC70, 0x1BC7C, .LeftToRight),
  (0x1BC80, 0x1BC88, .LeftToRight),
  (0x1BC90, 0x1BC99, .LeftToRight),
  (0x1BC9C, 0x1BC9C, .LeftToRight),
  (0x1BC9D, 0x1BC9E, .NonspacingMark),
  (0x1BC9F, 0x1BC9F, .LeftToRight),
  (0x1BCA0, 0x1BCA3, .BoundaryNeutral),
  (0x1D000, 0x1D0F5, .LeftToRight),
  (0x1D100, 0x1D126, .LeftToRight),
  (0x1D129, 0x1D166, .LeftToRight),
  (0x1D167, 0x1D169, .NonspacingMark),
  (0x1D16A, 0x1D172, .LeftToRight),
  (0x1D173, 0x1D17A, .BoundaryNeutral),
  (0x1D17B, 0x1D182, .NonspacingMark),
  (0x1D183, 0x1D184, .LeftToRight),
  (0x1D185, 0x1D18B, .NonspacingMark),
  (0x1D18C, 0x1D1A9, .LeftToRight),
  (0x1D1AA, 0x1D1AD, .NonspacingMark),
  (0x1D1AE, 0x1D1E8, .LeftToRight),
  (0x1D200, 0x1D241, .OtherNeutral),
  (0x1D242, 0x1D244, .NonspacingMark),
  (0x1D245, 0x1D245, .OtherNeutral),
  (0x1D300, 0x1D356, .OtherNeutral),
  (0x1D360, 0x1D371, .LeftToRight),
  (0x1D400, 0x1D454, .LeftToRight),
  (0x1D456, 0x1D49C, .LeftToRight),
  (0x1D49E, 0x1D49F, .LeftToRight),
  (0x1D4A2, 0x1D4A2, .LeftToRight),
  (0x1D4A5, 0x1D4A6, .LeftToRight),
  (0x1D4A9, 0x1D4AC, .LeftToRight),
  (0x1D4AE, 0x1D4B9, .LeftToRight),
  (0x1D4BB, 0x1D4BB, .LeftToRight),
  (0x1D4BD, 0x1D4C3, .LeftToRight),
  (0x1D4C5, 0x1D505, .LeftToRight),
  (0x1D507, 0x1D50A, .LeftToRight),
  (0x1D50D, 0x1D514, .LeftToRight),
  (0x1D516, 0x1D51C, .LeftToRight),
  (0x1D51E, 0x1D539, .LeftToRight),
  (0x1D53B, 0x1D53E, .LeftToRight),
  (0x1D540, 0x1D544, .LeftToRight),
  (0x1D546, 0x1D546, .LeftToRight),
  (0x1D54A, 0x1D550, .LeftToRight),
  (0x1D552, 0x1D6A5, .LeftToRight),
  (0x1D6A8, 0x1D6DA, .LeftToRight),
  (0x1D6DB, 0x1D6DB, .OtherNeutral),
  (0x1D6DC, 0x1D714, .LeftToRight),
  (0x1D715, 0x1D715, .OtherNeutral)]
def bidiClass_19 : List (Nat × Nat × BidiClass) := [
  (0x1D716, 0x1D74E, .LeftToRight),
  (0x1D74F, 0x1D74F, .OtherNeutral),
  (0x1D750, 0x1D788, .LeftToRight),
  (0x1D789, 0x1D789, .OtherNeutral),
  (0x1D78A, 0x1D7C2, .LeftToRight),
  (0x1D7C3, 0x1D7C3, .OtherNeutral),
  (0x1D7C4, 0x1D7CB, .LeftToRight),
  (0x1D7CE, 0x1D7FF, .EuropeanNumber),
  (0x1D800, 0x1D9FF, .LeftToRight),
  (0x1DA00, 0x1DA36, .NonspacingMark),
  (0x1DA37, 0x1DA3A, .LeftToRight),
  (0x1DA3B, 0x1DA6C, .NonspacingMark),
  (0x1DA6D, 0x1DA74, .LeftToRight),
  (0x1DA75, 0x1DA75, .NonspacingMark),
  (0x1DA76, 0x1DA83, .LeftToRight),
  (0x1DA84, 0x1DA84, .NonspacingMark),
  (0x1DA85, 0x1DA8B, .LeftToRight),
  (0x1DA9B, 0x1DA9F, .NonspacingMark),
  (0x1DAA1, 0x1DAAF, .NonspacingMark),
  (0x1E000, 0x1E006, .NonspacingMark),
  (0x1E008, 0x1E018, .NonspacingMark),
  (0x1E01B, 0x1E021, .NonspacingMark),
  (0x1E023, 0x1E024, .NonspacingMark),
  (0x1E026, 0x1E02A, .NonspacingMark),
  (0x1E800, 0x1E8CF, .RightToLeft),
  (0x1E8D0, 0x1E8D6, .NonspacingMark),
  (0x1E8D7, 0x1E943, .RightToLeft),
  (0x1E944, 0x1E94A, .NonspacingMark),
  (0x1E94B, 0x1EDFF, .RightToLeft),
  (0x1EE00, 0x1EEEF, .ArabicLetter),
  (0x1EEF0, 0x1EEF1, .OtherNeutral),
  (0x1EEF2, 0x1EEFF, .ArabicLetter),
  (0x1EF00, 0x1EFFF, .RightToLeft),
  (0x1F000, 0x1F02B, .OtherNeutral),
  (0x1F030, 0x1F093, .OtherNeutral),
  (0x1F0A0, 0x1F0AE, .OtherNeutral),
  (0x1F0B1, 0x1F0BF, .OtherNeutral),
  (0x1F0C1, 0x1F0CF, .OtherNeutral),
  (0x1F0D1, 0x1F0F5, .OtherNeutral),
  (0x1F100, 0x1F10A, .EuropeanNumber),
  (0x1F10B, 0x1F10C, .OtherNeutral),
  (0x1F110, 0x1F12E, .LeftToRight),
  (0x1F130, 0x1F169, .LeftToRight),
  (0x1F16A, 0x1F16B, .OtherNeutral),
  (0x1F170, 0x1F1AC, .LeftToRight),
  (0x1F1E6, 0x1F202, .LeftToRight),
  (0x1F210, 0x1F23B, .LeftToRight),
  (0x1F240, 0x1F248, .LeftToRight),
  (0x1F250, 0x1F251, .LeftToRight),
  (0x1F260, 0x1F265, .OtherNeutral),
  (0x1F300, 0x1F6D4, .OtherNeutral),
  (0x1F6E0, 0x1F6EC, .OtherNeutral),
  (0x1F6F0, 0x1F6F8, .OtherNeutral),
  (0x1F700, 0x1F773, .OtherNeutral),
  (0x1F780, 0x1F7D4, .OtherNeutral),
  (0x1F800, 0x1F80B, .OtherNeutral),
  (0x1F810, 0x1F847, .OtherNeutral),
  (0x1F850, 0x1F859, .OtherNeutral),
  (0x1F860, 0x1F887, .OtherNeutral),
  (0x1F890, 0x1F8AD, .OtherNeutral),
  (0x1F900, 0x1F90B, .OtherNeutral),
  (0x1F910, 0x1F93E, .OtherNeutral),
  (0x1F940, 0x1F94C, .OtherNeutral),
  (0x1F950, 0x1F96B, .OtherNeutral)]
def bidiClass_20 : List (Nat × Nat × BidiClass) := [
  (0x1F980, 0x1F997, .OtherNeutral),
  (0x1F9C0, 0x1F9C0, .OtherNeutral),
  (0x1F9D0, 0x1F9E6, .OtherNeutral),
  (0x20000, 0x2A6D6, .LeftToRight),
  (0x2A700, 0x2B734, .LeftToRight),
  (0x2B740, 0x2B81D, .LeftToRight),
  (0x2B820, 0x2CEA1, .LeftToRight),
  (0x2CEB0, 0x2EBE0, .LeftToRight),
  (0x2F800, 0x2FA1D, .LeftToRight),
  (0xE0001, 0xE0001, .BoundaryNeutral),
  (0xE0020, 0xE007F, .BoundaryNeutral),
  (0xE0100, 0xE01EF, .NonspacingMark),
  (0xF0000, 0xFFFFD, .LeftToRight),
  (0x100000, 0x10FFFD, .LeftToRight)]
/-- unic/ucd/bidi/tables/bidi_class.rsv (all 1294 entries, `CharDataTable::Range`), in chunks of 64. -/
def bidiClass : List (List (Nat × Nat × BidiClass)) := [bidiClass_0, bidiClass_1, bidiClass_2, bidiClass_3, bidiClass_4, bidiClass_5, bidiClass_6, bidiClass_7, bidiClass_8, bidiClass_9, bidiClass_10, bidiClass_11, bidiClass_12, bidiClass_13, bidiClass_14, bidiClass_15, bidiClass_16, bidiClass_17, bidiClass_18, bidiClass_19, bidiClass_20]

end Data
