import Verif.Data.Enums
/-! Generated by tools/gen_tables.py: literal translation of data tables. -/
namespace Data

def wordBreak_0 : List (Nat × Nat × WordBreak) := [
  (0xA, 0xA, .LF),
  (0xB, 0xC, .Newline),
  (0xD, 0xD, .CR),
  (0x22, 0x22, .DoubleQuote),
  (0x27, 0x27, .SingleQuote),
  (0x2C, 0x2C, .MidNum),
  (0x2E, 0x2E, .MidNumLet),
  (0x30, 0x39, .Numeric),
  (0x3A, 0x3A, .MidLetter),
  (0x3B, 0x3B, .MidNum),
  (0x41, 0x5A, .ALetter),
  (0x5F, 0x5F, .ExtendNumLet),
  (0x61, 0x7A, .ALetter),
  (0x85, 0x85, .Newline),
  (0xAA, 0xAA, .ALetter),
  (0xAD, 0xAD, .Format),
  (0xB5, 0xB5, .ALetter),
  (0xB7, 0xB7, .MidLetter),
  (0xBA, 0xBA, .ALetter),
  (0xC0, 0xD6, .ALetter),
  (0xD8, 0xF6, .ALetter),
  (0xF8, 0x2D7, .ALetter),
  (0x2DE, 0x2E4, .ALetter),
  (0x2EC, 0x2FF, .ALetter),
  (0x300, 0x36F, .Extend),
  (0x370, 0x374, .ALetter),
  (0x376, 0x377, .ALetter),
  (0x37A, 0x37D, .ALetter),
  (0x37E, 0x37E, .MidNum),
  (0x37F, 0x37F, .ALetter),
  (0x386, 0x386, .ALetter),
  (0x387, 0x387, .MidLetter),
  (0x388, 0x38A, .ALetter),
  (0x38C, 0x38C, .ALetter),
  (0x38E, 0x3A1, .ALetter),
  (0x3A3, 0x3F5, .ALetter),
  (0x3F7, 0x481, .ALetter),
  (0x483, 0x489, .Extend),
  (0x48A, 0x52F, .ALetter),
  (0x531, 0x556, .ALetter),
  (0x559, 0x559, .ALetter),
  (0x561, 0x587, .ALetter),
  (0x589, 0x589, .MidNum),
  (0x591, 0x5BD, .Extend),
  (0x5BF, 0x5BF, .Extend),
  (0x5C1, 0x5C2, .Extend),
  (0x5C4, 0x5C5, .Extend),
  (0x5C7, 0x5C7, .Extend),
  (0x5D0, 0x5EA, .HebrewLetter),
  (0x5F0, 0x5F2, .HebrewLetter),
  (0x5F3, 0x5F3, .ALetter),
  (0x5F4, 0x5F4, .MidLetter),
  (0x600, 0x605, .Format),
  (0x60C, 0x60D, .MidNum),
  (0x610, 0x61A, .Extend),
  (0x61C, 0x61C, .Format),
  (0x620, 0x64A, .ALetter),
  (0x64B, 0x65F, .Extend),
  (0x660, 0x669, .Numeric),
  (0x66B, 0x66B, .Numeric),
  (0x66C, 0x66C, .MidNum),
  (0x66E, 0x66F, .ALetter),
  (0x670, 0x670, .Extend),
  (0x671, 0x6D3, .ALetter)]
def wordBreak_1 : List (Nat × Nat × WordBreak) := [
  (0x6D5, 0x6D5, .ALetter),
  (0x6D6, 0x6DC, .Extend),
  (0x6DD, 0x6DD, .Format),
  (0x6DF, 0x6E4, .Extend),
  (0x6E5, 0x6E6, .ALetter),
  (0x6E7, 0x6E8, .Extend),
  (0x6EA, 0x6ED, .Extend),
  (0x6EE, 0x6EF, .ALetter),
  (0x6F0, 0x6F9, .Numeric),
  (0x6FA, 0x6FC, .ALetter),
  (0x6FF, 0x6FF, .ALetter),
  (0x70F, 0x70F, .Format),
  (0x710, 0x710, .ALetter),
  (0x711, 0x711, .Extend),
  (0x712, 0x72F, .ALetter),
  (0x730, 0x74A, .Extend),
  (0x74D, 0x7A5, .ALetter),
  (0x7A6, 0x7B0, .Extend),
  (0x7B1, 0x7B1, .ALetter),
  (0x7C0, 0x7C9, .Numeric),
  (0x7CA, 0x7EA, .ALetter),
  (0x7EB, 0x7F3, .Extend),
  (0x7F4, 0x7F5, .ALetter),
  (0x7F8, 0x7F8, .MidNum),
  (0x7FA, 0x7FA, .ALetter),
  (0x800, 0x815, .ALetter),
  (0x816, 0x819, .Extend),
  (0x81A, 0x81A, .ALetter),
  (0x81B, 0x823, .Extend),
  (0x824, 0x824, .ALetter),
  (0x825, 0x827, .Extend),
  (0x828, 0x828, .ALetter),
  (0x829, 0x82D, .Extend),
  (0x840, 0x858, .ALetter),
  (0x859, 0x85B, .Extend),
  (0x860, 0x86A, .ALetter),
  (0x8A0, 0x8B4, .ALetter),
  (0x8B6, 0x8BD, .ALetter),
  (0x8D4, 0x8E1, .Extend),
  (0x8E2, 0x8E2, .Format),
  (0x8E3, 0x903, .Extend),
  (0x904, 0x939, .ALetter),
  (0x93A, 0x93C, .Extend),
  (0x93D, 0x93D, .ALetter),
  (0x93E, 0x94F, .Extend),
  (0x950, 0x950, .ALetter),
  (0x951, 0x957, .Extend),
  (0x958, 0x961, .ALetter),
  (0x962, 0x963, .Extend),
  (0x966, 0x96F, .Numeric),
  (0x971, 0x980, .ALetter),
  (0x981, 0x983, .Extend),
  (0x985, 0x98C, .ALetter),
  (0x98F, 0x990, .ALetter),
  (0x993, 0x9A8, .ALetter),
  (0x9AA, 0x9B0, .ALetter),
  (0x9B2, 0x9B2, .ALetter),
  (0x9B6, 0x9B9, .ALetter),
  (0x9BC, 0x9BC, .Extend),
  (0x9BD, 0x9BD, .ALetter),
  (0x9BE, 0x9C4, .Extend),
  (0x9C7, 0x9C8, .Extend),
  (0x9CB, 0x9CD, .Extend),
  (0x9CE, 0x9CE, .ALetter)]
def wordBreak_2 : List (Nat × Nat × WordBreak) := [
  (0x9D7, 0x9D7, .Extend),
  (0x9DC, 0x9DD, .ALetter),
  (0x9DF, 0x9E1, .ALetter),
  (0x9E2, 0x9E3, .Extend),
  (0x9E6, 0x9EF, .Numeric),
  (0x9F0, 0x9F1, .ALetter),
  (0x9FC, 0x9FC, .ALetter),
  (0xA01, 0xA03, .Extend),
  (0xA05, 0xA0A, .ALetter),
  (0xA0F, 0xA10, .ALetter),
  (0xA13, 0xA28, .ALetter),
  (0xA2A, 0xA30, .ALetter),
  (0xA32, 0xA33, .ALetter),
  (0xA35, 0xA36, .ALetter),
  (0xA38, 0xA39, .ALetter),
  (0xA3C, 0xA3C, .Extend),
  (0xA3E, 0xA42, .Extend),
  (0xA47, 0xA48, .Extend),
  (0xA4B, 0xA4D, .Extend),
  (0xA51, 0xA51, .Extend),
  (0xA59, 0xA5C, .ALetter),
  (0xA5E, 0xA5E, .ALetter),
  (0xA66, 0xA6F, .Numeric),
  (0xA70, 0xA71, .Extend),
  (0xA72, 0xA74, .ALetter),
  (0xA75, 0xA75, .Extend),
  (0xA81, 0xA83, .Extend),
  (0xA85, 0xA8D, .ALetter),
  (0xA8F, 0xA91, .ALetter),
  (0xA93, 0xAA8, .ALetter),
  (0xAAA, 0xAB0, .ALetter),
  (0xAB2, 0xAB3, .ALetter),
  (0xAB5, 0xAB9, .ALetter),
  (0xABC, 0xABC, .Extend),
  (0xABD, 0xABD, .ALetter),
  (0xABE, 0xAC5, .Extend),
  (0xAC7, 0xAC9, .Extend),
  (0xACB, 0xACD, .Extend),
  (0xAD0, 0xAD0, .ALetter),
  (0xAE0, 0xAE1, .ALetter),
  (0xAE2, 0xAE3, .Extend),
  (0xAE6, 0xAEF, .Numeric),
  (0xAF9, 0xAF9, .ALetter),
  (0xAFA, 0xAFF, .Extend),
  (0xB01, 0xB03, .Extend),
  (0xB05, 0xB0C, .ALetter),
  (0xB0F, 0xB10, .ALetter),
  (0xB13, 0xB28, .ALetter),
  (0xB2A, 0xB30, .ALetter),
  (0xB32, 0xB33, .ALetter),
  (0xB35, 0xB39, .ALetter),
  (0xB3C, 0xB3C, .Extend),
  (0xB3D, 0xB3D, .ALetter),
  (0xB3E, 0xB44, .Extend),
  (0xB47, 0xB48, .Extend),
  (0xB4B, 0xB4D, .Extend),
  (0xB56, 0xB57, .Extend),
  (0xB5C, 0xB5D, .ALetter),
  (0xB5F, 0xB61, .ALetter),
  (0xB62, 0xB63, .Extend),
  (0xB66, 0xB6F, .Numeric),
  (0xB71, 0xB71, .ALetter),
  (0xB82, 0xB82, .Extend),
  (0xB83, 0xB83, .ALetter)]
def wordBreak_3 : List (Nat × Nat × WordBreak) := [
  (0xB85, 0xB8A, .ALetter),
  (0xB8E, 0xB90, .ALetter),
  (0xB92, 0xB95, .ALetter),
  (0xB99, 0xB9A, .ALetter),
  (0xB9C, 0xB9C, .ALetter),
  (0xB9E, 0xB9F, .ALetter),
  (0xBA3, 0xBA4, .ALetter),
  (0xBA8, 0xBAA, .ALetter),
  (0xBAE, 0xBB9, .ALetter),
  (0xBBE, 0xBC2, .Extend),
  (0xBC6, 0xBC8, .Extend),
  (0xBCA, 0xBCD, .Extend),
  (0xBD0, 0xBD0, .ALetter),
  (0xBD7, 0xBD7, .Extend),
  (0xBE6, 0xBEF, .Numeric),
  (0xC00, 0xC03, .Extend),
  (0xC05, 0xC0C, .ALetter),
  (0xC0E, 0xC10, .ALetter),
  (0xC12, 0xC28, .ALetter),
  (0xC2A, 0xC39, .ALetter),
  (0xC3D, 0xC3D, .ALetter),
  (0xC3E, 0xC44, .Extend),
  (0xC46, 0xC48, .Extend),
  (0xC4A, 0xC4D, .Extend),
  (0xC55, 0xC56, .Extend),
  (0xC58, 0xC5A, .ALetter),
  (0xC60, 0xC61, .ALetter),
  (0xC62, 0xC63, .Extend),
  (0xC66, 0xC6F, .Numeric),
  (0xC80, 0xC80, .ALetter),
  (0xC81, 0xC83, .Extend),
  (0xC85, 0xC8C, .ALetter),
  (0xC8E, 0xC90, .ALetter),
  (0xC92, 0xCA8, .ALetter),
  (0xCAA, 0xCB3, .ALetter),
  (0xCB5, 0xCB9, .ALetter),
  (0xCBC, 0xCBC, .Extend),
  (0xCBD, 0xCBD, .ALetter),
  (0xCBE, 0xCC4, .Extend),
  (0xCC6, 0xCC8, .Extend),
  (0xCCA, 0xCCD, .Extend),
  (0xCD5, 0xCD6, .Extend),
  (0xCDE, 0xCDE, .ALetter),
  (0xCE0, 0xCE1, .ALetter),
  (0xCE2, 0xCE3, .Extend),
  (0xCE6, 0xCEF, .Numeric),
  (0xCF1, 0xCF2, .ALetter),
  (0xD00, 0xD03, .Extend),
  (0xD05, 0xD0C, .ALetter),
  (0xD0E, 0xD10, .ALetter),
  (0xD12, 0xD3A, .ALetter),
  (0xD3B, 0xD3C, .Extend),
  (0xD3D, 0xD3D, .ALetter),
  (0xD3E, 0xD44, .Extend),
  (0xD46, 0xD48, .Extend),
  (0xD4A, 0xD4D, .Extend),
  (0xD4E, 0xD4E, .ALetter),
  (0xD54, 0xD56, .ALetter),
  (0xD57, 0xD57, .Extend),
  (0xD5F, 0xD61, .ALetter),
  (0xD62, 0xD63, .Extend),
  (0xD66, 0xD6F, .Numeric),
  (0xD7A, 0xD7F, .ALetter),
  (0xD82, 0xD83, .Extend)]
def wordBreak_4 : List (Nat × Nat × WordBreak) := [
  (0xD85, 0xD96, .ALetter),
  (0xD9A, 0xDB1, .ALetter),
  (0xDB3, 0xDBB, .ALetter),
  (0xDBD, 0xDBD, .ALetter),
  (0xDC0, 0xDC6, .ALetter),
  (0xDCA, 0xDCA, .Extend),
  (0xDCF, 0xDD4, .Extend),
  (0xDD6, 0xDD6, .Extend),
  (0xDD8, 0xDDF, .Extend),
  (0xDE6, 0xDEF, .Numeric),
  (0xDF2, 0xDF3, .Extend),
  (0xE31, 0xE31, .Extend),
  (0xE34, 0xE3A, .Extend),
  (0xE47, 0xE4E, .Extend),
  (0xE50, 0xE59, .Numeric),
  (0xEB1, 0xEB1, .Extend),
  (0xEB4, 0xEB9, .Extend),
  (0xEBB, 0xEBC, .Extend),
  (0xEC8, 0xECD, .Extend),
  (0xED0, 0xED9, .Numeric),
  (0xF00, 0xF00, .ALetter),
  (0xF18, 0xF19, .Extend),
  (0xF20, 0xF29, .Numeric),
  (0xF35, 0xF35, .Extend),
  (0xF37, 0xF37, .Extend),
  (0xF39, 0xF39, .Extend),
  (0xF3E, 0xF3F, .Extend),
  (0xF40, 0xF47, .ALetter),
  (0xF49, 0xF6C, .ALetter),
  (0xF71, 0xF84, .Extend),
  (0xF86, 0xF87, .Extend),
  (0xF88, 0xF8C, .ALetter),
  (0xF8D, 0xF97, .Extend),
  (0xF99, 0xFBC, .Extend),
  (0xFC6, 0xFC6, .Extend),
  (0x102B, 0x103E, .Extend),
  (0x1040, 0x1049, .Numeric),
  (0x1056, 0x1059, .Extend),
  (0x105E, 0x1060, .Extend),
  (0x1062, 0x1064, .Extend),
  (0x1067, 0x106D, .Extend),
  (0x1071, 0x1074, .Extend),
  (0x1082, 0x108D, .Extend),
  (0x108F, 0x108F, .Extend),
  (0x1090, 0x1099, .Numeric),
  (0x109A, 0x109D, .Extend),
  (0x10A0, 0x10C5, .ALetter),
  (0x10C7, 0x10C7, .ALetter),
  (0x10CD, 0x10CD, .ALetter),
  (0x10D0, 0x10FA, .ALetter),
  (0x10FC, 0x1248, .ALetter),
  (0x124A, 0x124D, .ALetter),
  (0x1250, 0x1256, .ALetter),
  (0x1258, 0x1258, .ALetter),
  (0x125A, 0x125D, .ALetter),
  (0x1260, 0x1288, .ALetter),
  (0x128A, 0x128D, .ALetter),
  (0x1290, 0x12B0, .ALetter),
  (0x12B2, 0x12B5, .ALetter),
  (0x12B8, 0x12BE, .ALetter),
  (0x12C0, 0x12C0, .ALetter),
  (0x12C2, 0x12C5, .ALetter),
  (0x12C8, 0x12D6, .ALetter),
  (0x12D8, 0x1310, .ALetter)]
def wordBreak_5 : List (Nat × Nat × WordBreak) := [
  (0x1312, 0x1315, .ALetter),
  (0x1318, 0x135A, .ALetter),
  (0x135D, 0x135F, .Extend),
  (0x1380, 0x138F, .ALetter),
  (0x13A0, 0x13F5, .ALetter),
  (0x13F8, 0x13FD, .ALetter),
  (0x1401, 0x166C, .ALetter),
  (0x166F, 0x167F, .ALetter),
  (0x1681, 0x169A, .ALetter),
  (0x16A0, 0x16EA, .ALetter),
  (0x16EE, 0x16F8, .ALetter),
  (0x1700, 0x170C, .ALetter),
  (0x170E, 0x1711, .ALetter),
  (0x1712, 0x1714, .Extend),
  (0x1720, 0x1731, .ALetter),
  (0x1732, 0x1734, .Extend),
  (0x1740, 0x1751, .ALetter),
  (0x1752, 0x1753, .Extend),
  (0x1760, 0x176C, .ALetter),
  (0x176E, 0x1770, .ALetter),
  (0x1772, 0x1773, .Extend),
  (0x17B4, 0x17D3, .Extend),
  (0x17DD, 0x17DD, .Extend),
  (0x17E0, 0x17E9, .Numeric),
  (0x180B, 0x180D, .Extend),
  (0x180E, 0x180E, .Format),
  (0x1810, 0x1819, .Numeric),
  (0x1820, 0x1877, .ALetter),
  (0x1880, 0x1884, .ALetter),
  (0x1885, 0x1886, .Extend),
  (0x1887, 0x18A8, .ALetter),
  (0x18A9, 0x18A9, .Extend),
  (0x18AA, 0x18AA, .ALetter),
  (0x18B0, 0x18F5, .ALetter),
  (0x1900, 0x191E, .ALetter),
  (0x1920, 0x192B, .Extend),
  (0x1930, 0x193B, .Extend),
  (0x1946, 0x194F, .Numeric),
  (0x19D0, 0x19D9, .Numeric),
  (0x1A00, 0x1A16, .ALetter),
  (0x1A17, 0x1A1B, .Extend),
  (0x1A55, 0x1A5E, .Extend),
  (0x1A60, 0x1A7C, .Extend),
  (0x1A7F, 0x1A7F, .Extend),
  (0x1A80, 0x1A89, .Numeric),
  (0x1A90, 0x1A99, .Numeric),
  (0x1AB0, 0x1ABE, .Extend),
  (0x1B00, 0x1B04, .Extend),
  (0x1B05, 0x1B33, .ALetter),
  (0x1B34, 0x1B44, .Extend),
  (0x1B45, 0x1B4B, .ALetter),
  (0x1B50, 0x1B59, .Numeric),
  (0x1B6B, 0x1B73, .Extend),
  (0x1B80, 0x1B82, .Extend),
  (0x1B83, 0x1BA0, .ALetter),
  (0x1BA1, 0x1BAD, .Extend),
  (0x1BAE, 0x1BAF, .ALetter),
  (0x1BB0, 0x1BB9, .Numeric),
  (0x1BBA, 0x1BE5, .ALetter),
  (0x1BE6, 0x1BF3, .Extend),
  (0x1C00, 0x1C23, .ALetter),
  (0x1C24, 0x1C37, .Extend),
  (0x1C40, 0x1C49, .Numeric),
  (0x1C4D, 0x1C4F, .ALetter)]
def wordBreak_6 : List (Nat × Nat × WordBreak) := [
  (0x1C50, 0x1C59, .Numeric),
  (0x1C5A, 0x1C7D, .ALetter),
  (0x1C80, 0x1C88, .ALetter),
  (0x1CD0, 0x1CD2, .Extend),
  (0x1CD4, 0x1CE8, .Extend),
  (0x1CE9, 0x1CEC, .ALetter),
  (0x1CED, 0x1CED, .Extend),
  (0x1CEE, 0x1CF1, .ALetter),
  (0x1CF2, 0x1CF4, .Extend),
  (0x1CF5, 0x1CF6, .ALetter),
  (0x1CF7, 0x1CF9, .Extend),
  (0x1D00, 0x1DBF, .ALetter),
  (0x1DC0, 0x1DF9, .Extend),
  (0x1DFB, 0x1DFF, .Extend),
  (0x1E00, 0x1F15, .ALetter),
  (0x1F18, 0x1F1D, .ALetter),
  (0x1F20, 0x1F45, .ALetter),
  (0x1F48, 0x1F4D, .ALetter),
  (0x1F50, 0x1F57, .ALetter),
  (0x1F59, 0x1F59, .ALetter),
  (0x1F5B, 0x1F5B, .ALetter),
  (0x1F5D, 0x1F5D, .ALetter),
  (0x1F5F, 0x1F7D, .ALetter),
  (0x1F80, 0x1FB4, .ALetter),
  (0x1FB6, 0x1FBC, .ALetter),
  (0x1FBE, 0x1FBE, .ALetter),
  (0x1FC2, 0x1FC4, .ALetter),
  (0x1FC6, 0x1FCC, .ALetter),
  (0x1FD0, 0x1FD3, .ALetter),
  (0x1FD6, 0x1FDB, .ALetter),
  (0x1FE0, 0x1FEC, .ALetter),
  (0x1FF2, 0x1FF4, .ALetter),
  (0x1FF6, 0x1FFC, .ALetter),
  (0x200C, 0x200C, .Extend),
  (0x200D, 0x200D, .ZWJ),
  (0x200E, 0x200F, .Format),
  (0x2018, 0x2019, .MidNumLet),
  (0x2024, 0x2024, .MidNumLet),
  (0x2027, 0x2027, .MidLetter),
  (0x2028, 0x2029, .Newline),
  (0x202A, 0x202E, .Format),
  (0x202F, 0x202F, .ExtendNumLet),
  (0x203F, 0x2040, .ExtendNumLet),
  (0x2044, 0x2044, .MidNum),
  (0x2054, 0x2054, .ExtendNumLet),
  (0x2060, 0x2064, .Format),
  (0x2066, 0x206F, .Format),
  (0x2071, 0x2071, .ALetter),
  (0x207F, 0x207F, .ALetter),
  (0x2090, 0x209C, .ALetter),
  (0x20D0, 0x20F0, .Extend),
  (0x2102, 0x2102, .ALetter),
  (0x2107, 0x2107, .ALetter),
  (0x210A, 0x2113, .ALetter),
  (0x2115, 0x2115, .ALetter),
  (0x2119, 0x211D, .ALetter),
  (0x2124, 0x2124, .ALetter),
  (0x2126, 0x2126, .ALetter),
  (0x2128, 0x2128, .ALetter),
  (0x212A, 0x212D, .ALetter),
  (0x212F, 0x2139, .ALetter),
  (0x213C, 0x213F, .ALetter),
  (0x2145, 0x2149, .ALetter),
  (0x214E, 0x214E, .ALetter)]
def wordBreak_7 : List (Nat × Nat × WordBreak) := [
  (0x2160, 0x2188, .ALetter),
  (0x24B6, 0x24E9, .ALetter),
  (0x261D, 0x261D, .EBase),
  (0x2640, 0x2640, .GlueAfterZwj),
  (0x2642, 0x2642, .GlueAfterZwj),
  (0x2695, 0x2696, .GlueAfterZwj),
  (0x26F9, 0x26F9, .EBase),
  (0x2708, 0x2708, .GlueAfterZwj),
  (0x270A, 0x270D, .EBase),
  (0x2764, 0x2764, .GlueAfterZwj),
  (0x2C00, 0x2C2E, .ALetter),
  (0x2C30, 0x2C5E, .ALetter),
  (0x2C60, 0x2CE4, .ALetter),
  (0x2CEB, 0x2CEE, .ALetter),
  (0x2CEF, 0x2CF1, .Extend),
  (0x2CF2, 0x2CF3, .ALetter),
  (0x2D00, 0x2D25, .ALetter),
  (0x2D27, 0x2D27, .ALetter),
  (0x2D2D, 0x2D2D, .ALetter),
  (0x2D30, 0x2D67, .ALetter),
  (0x2D6F, 0x2D6F, .ALetter),
  (0x2D7F, 0x2D7F, .Extend),
  (0x2D80, 0x2D96, .ALetter),
  (0x2DA0, 0x2DA6, .ALetter),
  (0x2DA8, 0x2DAE, .ALetter),
  (0x2DB0, 0x2DB6, .ALetter),
  (0x2DB8, 0x2DBE, .ALetter),
  (0x2DC0, 0x2DC6, .ALetter),
  (0x2DC8, 0x2DCE, .ALetter),
  (0x2DD0, 0x2DD6, .ALetter),
  (0x2DD8, 0x2DDE, .ALetter),
  (0x2DE0, 0x2DFF, .Extend),
  (0x2E2F, 0x2E2F, .ALetter),
  (0x3005, 0x3005, .ALetter),
  (0x302A, 0x302F, .Extend),
  (0x3031, 0x3035, .Katakana),
  (0x303B, 0x303C, .ALetter),
  (0x3099, 0x309A, .Extend),
  (0x309B, 0x309C, .Katakana),
  (0x30A0, 0x30FA, .Katakana),
  (0x30FC, 0x30FF, .Katakana),
  (0x3105, 0x312E, .ALetter),
  (0x3131, 0x318E, .ALetter),
  (0x31A0, 0x31BA, .ALetter),
  (0x31F0, 0x31FF, .Katakana),
  (0x32D0, 0x32FE, .Katakana),
  (0x3300, 0x3357, .Katakana),
  (0xA000, 0xA48C, .ALetter),
  (0xA4D0, 0xA4FD, .ALetter),
  (0xA500, 0xA60C, .ALetter),
  (0xA610, 0xA61F, .ALetter),
  (0xA620, 0xA629, .Numeric),
  (0xA62A, 0xA62B, .ALetter),
  (0xA640, 0xA66E, .ALetter),
  (0xA66F, 0xA672, .Extend),
  (0xA674, 0xA67D, .Extend),
  (0xA67F, 0xA69D, .ALetter),
  (0xA69E, 0xA69F, .Extend),
  (0xA6A0, 0xA6EF, .ALetter),
  (0xA6F0, 0xA6F1, .Extend),
  (0xA717, 0xA7AE, .ALetter),
  (0xA7B0, 0xA7B7, .ALetter),
  (0xA7F7, 0xA801, .ALetter),
  (0xA802, 0xA802, .Extend)]
def wordBreak_8 : List (Nat × Nat × WordBreak) := [
  (0xA803, 0xA805, .ALetter),
  (0xA806, 0xA806, .Extend),
  (0xA807, 0xA80A, .ALetter),
  (0xA80B, 0xA80B, .Extend),
  (0xA80C, 0xA822, .ALetter),
  (0xA823, 0xA827, .Extend),
  (0xA840, 0xA873, .ALetter),
  (0xA880, 0xA881, .Extend),
  (0xA882, 0xA8B3, .ALetter),
  (0xA8B4, 0xA8C5, .Extend),
  (0xA8D0, 0xA8D9, .Numeric),
  (0xA8E0, 0xA8F1, .Extend),
  (0xA8F2, 0xA8F7, .ALetter),
  (0xA8FB, 0xA8FB, .ALetter),
  (0xA8FD, 0xA8FD, .ALetter),
  (0xA900, 0xA909, .Numeric),
  (0xA90A, 0xA925, .ALetter),
  (0xA926, 0xA92D, .Extend),
  (0xA930, 0xA946, .ALetter),
  (0xA947, 0xA953, .Extend),
  (0xA960, 0xA97C, .ALetter),
  (0xA980, 0xA983, .Extend),
  (0xA984, 0xA9B2, .ALetter),
  (0xA9B3, 0xA9C0, .Extend),
  (0xA9CF, 0xA9CF, .ALetter),
  (0xA9D0, 0xA9D9, .Numeric),
  (0xA9E5, 0xA9E5, .Extend),
  (0xA9F0, 0xA9F9, .Numeric),
  (0xAA00, 0xAA28, .ALetter),
  (0xAA29, 0xAA36, .Extend),
  (0xAA40, 0xAA42, .ALetter),
  (0xAA43, 0xAA43, .Extend),
  (0xAA44, 0xAA4B, .ALetter),
  (0xAA4C, 0xAA4D, .Extend),
  (0xAA50, 0xAA59, .Numeric),
  (0xAA7B, 0xAA7D, .Extend),
  (0xAAB0, 0xAAB0, .Extend),
  (0xAAB2, 0xAAB4, .Extend),
  (0xAAB7, 0xAAB8, .Extend),
  (0xAABE, 0xAABF, .Extend),
  (0xAAC1, 0xAAC1, .Extend),
  (0xAAE0, 0xAAEA, .ALetter),
  (0xAAEB, 0xAAEF, .Extend),
  (0xAAF2, 0xAAF4, .ALetter),
  (0xAAF5, 0xAAF6, .Extend),
  (0xAB01, 0xAB06, .ALetter),
  (0xAB09, 0xAB0E, .ALetter),
  (0xAB11, 0xAB16, .ALetter),
  (0xAB20, 0xAB26, .ALetter),
  (0xAB28, 0xAB2E, .ALetter),
  (0xAB30, 0xAB65, .ALetter),
  (0xAB70, 0xABE2, .ALetter),
  (0xABE3, 0xABEA, .Extend),
  (0xABEC, 0xABED, .Extend),
  (0xABF0, 0xABF9, .Numeric),
  (0xAC00, 0xD7A3, .ALetter),
  (0xD7B0, 0xD7C6, .ALetter),
  (0xD7CB, 0xD7FB, .ALetter),
  (0xFB00, 0xFB06, .ALetter),
  (0xFB13, 0xFB17, .ALetter),
  (0xFB1D, 0xFB1D, .HebrewLetter),
  (0xFB1E, 0xFB1E, .Extend),
  (0xFB1F, 0xFB28, .HebrewLetter),
  (0xFB2A, 0xFB36, .HebrewLetter)]
def wordBreak_9 : List (Nat × Nat × WordBreak) := [
  (0xFB38, 0xFB3C, .HebrewLetter),
  (0xFB3E, 0xFB3E, .HebrewLetter),
  (0xFB40, 0xFB41, .HebrewLetter),
  (0xFB43, 0xFB44, .HebrewLetter),
  (0xFB46, 0xFB4F, .HebrewLetter),
  (0xFB50, 0xFBB1, .ALetter),
  (0xFBD3, 0xFD3D, .ALetter),
  (0xFD50, 0xFD8F, .ALetter),
  (0xFD92, 0xFDC7, .ALetter),
  (0xFDF0, 0xFDFB, .ALetter),
  (0xFE00, 0xFE0F, .Extend),
  (0xFE10, 0xFE10, .MidNum),
  (0xFE13, 0xFE13, .MidLetter),
  (0xFE14, 0xFE14, .MidNum),
  (0xFE20, 0xFE2F, .Extend),
  (0xFE33, 0xFE34, .ExtendNumLet),
  (0xFE4D, 0xFE4F, .ExtendNumLet),
  (0xFE50, 0xFE50, .MidNum),
  (0xFE52, 0xFE52, .MidNumLet),
  (0xFE54, 0xFE54, .MidNum),
  (0xFE55, 0xFE55, .MidLetter),
  (0xFE70, 0xFE74, .ALetter),
  (0xFE76, 0xFEFC, .ALetter),
  (0xFEFF, 0xFEFF, .Format),
  (0xFF07, 0xFF07, .MidNumLet),
  (0xFF0C, 0xFF0C, .MidNum),
  (0xFF0E, 0xFF0E, .MidNumLet),
  (0xFF1A, 0xFF1A, .MidLetter),
  (0xFF1B, 0xFF1B, .MidNum),
  (0xFF21, 0xFF3A, .ALetter),
  (0xFF3F, 0xFF3F, .ExtendNumLet),
  (0xFF41, 0xFF5A, .ALetter),
  (0xFF66, 0xFF9D, .Katakana),
  (0xFF9E, 0xFF9F, .Extend),
  (0xFFA0, 0xFFBE, .ALetter),
  (0xFFC2, 0xFFC7, .ALetter),
  (0xFFCA, 0xFFCF, .ALetter),
  (0xFFD2, 0xFFD7, .ALetter),
  (0xFFDA, 0xFFDC, .ALetter),
  (0xFFF9, 0xFFFB, .Format),
  (0x10000, 0x1000B, .ALetter),
  (0x1000D, 0x10026, .ALetter),
  (0x10028, 0x1003A, .ALetter),
  (0x1003C, 0x1003D, .ALetter),
  (0x1003F, 0x1004D, .ALetter),
  (0x10050, 0x1005D, .ALetter),
  (0x10080, 0x100FA, .ALetter),
  (0x10140, 0x10174, .ALetter),
  (0x101FD, 0x101FD, .Extend),
  (0x10280, 0x1029C, .ALetter),
  (0x102A0, 0x102D0, .ALetter),
  (0x102E0, 0x102E0, .Extend),
  (0x10300, 0x1031F, .ALetter),
  (0x1032D, 0x1034A, .ALetter),
  (0x10350, 0x10375, .ALetter),
  (0x10376, 0x1037A, .Extend),
  (0x10380, 0x1039D, .ALetter),
  (0x103A0, 0x103C3, .ALetter),
  (0x103C8, 0x103CF, .ALetter),
  (0x103D1, 0x103D5, .ALetter),
  (0x10400, 0x1049D, .ALetter),
  (0x104A0, 0x104A9, .Numeric),
  (0x104B0, 0x104D3, .ALetter),
  (0x104D8, 0x104FB, .ALetter)]
def wordBreak_10 : List (Nat × Nat × WordBreak) := [
  (0x10500, 0x10527, .ALetter),
  (0x10530, 0x10563, .ALetter),
  (0x10600, 0x10736, .ALetter),
  (0x10740, 0x10755, .ALetter),
  (0x10760, 0x10767, .ALetter),
  (0x10800, 0x10805, .ALetter),
  (0x10808, 0x10808, .ALetter),
  (0x1080A, 0x10835, .ALetter),
  (0x10837, 0x10838, .ALetter),
  (0x1083C, 0x1083C, .ALetter),
  (0x1083F, 0x10855, .ALetter),
  (0x10860, 0x10876, .ALetter),
  (0x10880, 0x1089E, .ALetter),
  (0x108E0, 0x108F2, .ALetter),
  (0x108F4, 0x108F5, .ALetter),
  (0x10900, 0x10915, .ALetter),
  (0x10920, 0x10939, .ALetter),
  (0x10980, 0x109B7, .ALetter),
  (0x109BE, 0x109BF, .ALetter),
  (0x10A00, 0x10A00, .ALetter),
  (0x10A01, 0x10A03, .Extend),
  (0x10A05, 0x10A06, .Extend),
  (0x10A0C, 0x10A0F, .Extend),
  (0x10A10, 0x10A13, .ALetter),
  (0x10A15, 0x10A17, .ALetter),
  (0x10A19, 0x10A33, .ALetter),
  (0x10A38, 0x10A3A, .Extend),
  (0x10A3F, 0x10A3F, .Extend),
  (0x10A60, 0x10A7C, .ALetter),
  (0x10A80, 0x10A9C, .ALetter),
  (0x10AC0, 0x10AC7, .ALetter),
  (0x10AC9, 0x10AE4, .ALetter),
  (0x10AE5, 0x10AE6, .Extend),
  (0x10B00, 0x10B35, .ALetter),
  (0x10B40, 0x10B55, .ALetter),
  (0x10B60, 0x10B72, .ALetter),
  (0x10B80, 0x10B91, .ALetter),
  (0x10C00, 0x10C48, .ALetter),
  (0x10C80, 0x10CB2, .ALetter),
  (0x10CC0, 0x10CF2, .ALetter),
  (0x11000, 0x11002, .Extend),
  (0x11003, 0x11037, .ALetter),
  (0x11038, 0x11046, .Extend),
  (0x11066, 0x1106F, .Numeric),
  (0x1107F, 0x11082, .Extend),
  (0x11083, 0x110AF, .ALetter),
  (0x110B0, 0x110BA, .Extend),
  (0x110BD, 0x110BD, .Format),
  (0x110D0, 0x110E8, .ALetter),
  (0x110F0, 0x110F9, .Numeric),
  (0x11100, 0x11102, .Extend),
  (0x11103, 0x11126, .ALetter),
  (0x11127, 0x11134, .Extend),
  (0x11136, 0x1113F, .Numeric),
  (0x11150, 0x11172, .ALetter),
  (0x11173, 0x11173, .Extend),
  (0x11176, 0x11176, .ALetter),
  (0x11180, 0x11182, .Extend),
  (0x11183, 0x111B2, .ALetter),
  (0x111B3, 0x111C0, .Extend),
  (0x111C1, 0x111C4, .ALetter),
  (0x111CA, 0x111CC, .Extend),
  (0x111D0, 0x111D9, .Numeric),
  (0x111DA, 0x111DA, .ALetter)]
def wordBreak_11 : List (Nat × Nat × WordBreak) := [
  (0x111DC, 0x111DC, .ALetter),
  (0x11200, 0x11211, .ALetter),
  (0x11213, 0x1122B, .ALetter),
  (0x1122C, 0x11237, .Extend),
  (0x1123E, 0x1123E, .Extend),
  (0x11280, 0x11286, .ALetter),
  (0x11288, 0x11288, .ALetter),
  (0x1128A, 0x1128D, .ALetter),
  (0x1128F, 0x1129D, .ALetter),
  (0x1129F, 0x112A8, .ALetter),
  (0x112B0, 0x112DE, .ALetter),
  (0x112DF, 0x112EA, .Extend),
  (0x112F0, 0x112F9, .Numeric),
  (0x11300, 0x11303, .Extend),
  (0x11305, 0x1130C, .ALetter),
  (0x1130F, 0x11310, .ALetter),
  (0x11313, 0x11328, .ALetter),
  (0x1132A, 0x11330, .ALetter),
  (0x11332, 0x11333, .ALetter),
  (0x11335, 0x11339, .ALetter),
  (0x1133C, 0x1133C, .Extend),
  (0x1133D, 0x1133D, .ALetter),
  (0x1133E, 0x11344, .Extend),
  (0x11347, 0x11348, .Extend),
  (0x1134B, 0x1134D, .Extend),
  (0x11350, 0x11350, .ALetter),
  (0x11357, 0x11357, .Extend),
  (0x1135D, 0x11361, .ALetter),
  (0x11362, 0x11363, .Extend),
  (0x11366, 0x1136C, .Extend),
  (0x11370, 0x11374, .Extend),
  (0x11400, 0x11434, .ALetter),
  (0x11435, 0x11446, .Extend),
  (0x11447, 0x1144A, .ALetter),
  (0x11450, 0x11459, .Numeric),
  (0x11480, 0x114AF, .ALetter),
  (0x114B0, 0x114C3, .Extend),
  (0x114C4, 0x114C5, .ALetter),
  (0x114C7, 0x114C7, .ALetter),
  (0x114D0, 0x114D9, .Numeric),
  (0x11580, 0x115AE, .ALetter),
  (0x115AF, 0x115B5, .Extend),
  (0x115B8, 0x115C0, .Extend),
  (0x115D8, 0x115DB, .ALetter),
  (0x115DC, 0x115DD, .Extend),
  (0x11600, 0x1162F, .ALetter),
  (0x11630, 0x11640, .Extend),
  (0x11644, 0x11644, .ALetter),
  (0x11650, 0x11659, .Numeric),
  (0x11680, 0x116AA, .ALetter),
  (0x116AB, 0x116B7, .Extend),
  (0x116C0, 0x116C9, .Numeric),
  (0x1171D, 0x1172B, .Extend),
  (0x11730, 0x11739, .Numeric),
  (0x118A0, 0x118DF, .ALetter),
  (0x118E0, 0x118E9, .Numeric),
  (0x118FF, 0x118FF, .ALetter),
  (0x11A00, 0x11A00, .ALetter),
  (0x11A01, 0x11A0A, .Extend),
  (0x11A0B, 0x11A32, .ALetter),
  (0x11A33, 0x11A39, .Extend),
  (0x11A3A, 0x11A3A, .ALetter),
  (0x11A3B, 0x11A3E, .Extend),
  (0x11A47, 0x11A47, .Extend)]
def wordBreak_12 : List (Nat × Nat × WordBreak) := [
  (0x11A50, 0x11A50, .ALetter),
  (0x11A51, 0x11A5B, .Extend),
  (0x11A5C, 0x11A83, .ALetter),
  (0x11A86, 0x11A89, .ALetter),
  (0x11A8A, 0x11A99, .Extend),
  (0x11AC0, 0x11AF8, .ALetter),
  (0x11C00, 0x11C08, .ALetter),
  (0x11C0A, 0x11C2E, .ALetter),
  (0x11C2F, 0x11C36, .Extend),
  (0x11C38, 0x11C3F, .Extend),
  (0x11C40, 0x11C40, .ALetter),
  (0x11C50, 0x11C59, .Numeric),
  (0x11C72, 0x11C8F, .ALetter),
  (0x11C92, 0x11CA7, .Extend),
  (0x11CA9, 0x11CB6, .Extend),
  (0x11D00, 0x11D06, .ALetter),
  (0x11D08, 0x11D09, .ALetter),
  (0x11D0B, 0x11D30, .ALetter),
  (0x11D31, 0x11D36, .Extend),
  (0x11D3A, 0x11D3A, .Extend),
  (0x11D3C, 0x11D3D, .Extend),
  (0x11D3F, 0x11D45, .Extend),
  (0x11D46, 0x11D46, .ALetter),
  (0x11D47, 0x11D47, .Extend),
  (0x11D50, 0x11D59, .Numeric),
  (0x12000, 0x12399, .ALetter),
  (0x12400, 0x1246E, .ALetter),
  (0x12480, 0x12543, .ALetter),
  (0x13000, 0x1342E, .ALetter),
  (0x14400, 0x14646, .ALetter),
  (0x16800, 0x16A38, .ALetter),
  (0x16A40, 0x16A5E, .ALetter),
  (0x16A60, 0x16A69, .Numeric),
  (0x16AD0, 0x16AED, .ALetter),
  (0x16AF0, 0x16AF4, .Extend),
  (0x16B00, 0x16B2F, .ALetter),
  (0x16B30, 0x16B36, .Extend),
  (0x16B40, 0x16B43, .ALetter),
  (0x16B50, 0x16B59, .Numeric),
  (0x16B63, 0x16B77, .ALetter),
  (0x16B7D, 0x16B8F, .ALetter),
  (0x16F00, 0x16F44, .ALetter),
  (0x16F50, 0x16F50, .ALetter),
  (0x16F51, 0x16F7E, .Extend),
  (0x16F8F, 0x16F92, .Extend),
  (0x16F93, 0x16F9F, .ALetter),
  (0x16FE0, 0x16FE1, .ALetter),
  (0x1B000, 0x1B000, .Katakana),
  (0x1BC00, 0x1BC6A, .ALetter),
  (0x1BC70, 0x1BC7C, .ALetter),
  (0x1BC80, 0x1BC88, .ALetter),
  (0x1BC90, 0x1BC99, .ALetter),
  (0x1BC9D, 0x1BC9E, .Extend),
  (0x1BCA0, 0x1BCA3, .Format),
  (0x1D165, 0x1D169, .Extend),
  (0x1D16D, 0x1D172, .Extend),
  (0x1D173, 0x1D17A, .Format),
  (0x1D17B, 0x1D182, .Extend),
  (0x1D185, 0x1D18B, .Extend),
  (0x1D1AA, 0x1D1AD, .Extend),
  (0x1D242, 0x1D244, .Extend),
  (0x1D400, 0x1D454, .ALetter),
  (0x1D456, 0x1D49C, .ALetter),
  (0x1D49E, 0x1D49F, .ALetter)]
def wordBreak_13 : List (Nat × Nat × WordBreak) := [
  (0x1D4A2, 0x1D4A2, .ALetter),
  (0x1D4A5, 0x1D4A6, .ALetter),
  (0x1D4A9, 0x1D4AC, .ALetter),
  (0x1D4AE, 0x1D4B9, .ALetter),
  (0x1D4BB, 0x1D4BB, .ALetter),
  (0x1D4BD, 0x1D4C3, .ALetter),
  (0x1D4C5, 0x1D505, .ALetter),
  (0x1D507, 0x1D50A, .ALetter),
  (0x1D50D, 0x1D514, .ALetter),
  (0x1D516, 0x1D51C, .ALetter),
  (0x1D51E, 0x1D539, .ALetter),
  (0x1D53B, 0x1D53E, .ALetter),
  (0x1D540, 0x1D544, .ALetter),
  (0x1D546, 0x1D546, .ALetter),
  (0x1D54A, 0x1D550, .ALetter),
  (0x1D552, 0x1D6A5, .ALetter),
  (0x1D6A8, 0x1D6C0, .ALetter),
  (0x1D6C2, 0x1D6DA, .ALetter),
  (0x1D6DC, 0x1D6FA, .ALetter),
  (0x1D6FC, 0x1D714, .ALetter),
  (0x1D716, 0x1D734, .ALetter),
  (0x1D736, 0x1D74E, .ALetter),
  (0x1D750, 0x1D76E, .ALetter),
  (0x1D770, 0x1D788, .ALetter),
  (0x1D78A, 0x1D7A8, .ALetter),
  (0x1D7AA, 0x1D7C2, .ALetter),
  (0x1D7C4, 0x1D7CB, .ALetter),
  (0x1D7CE, 0x1D7FF, .Numeric),
  (0x1DA00, 0x1DA36, .Extend),
  (0x1DA3B, 0x1DA6C, .Extend),
  (0x1DA75, 0x1DA75, .Extend),
  (0x1DA84, 0x1DA84, .Extend),
  (0x1DA9B, 0x1DA9F, .Extend),
  (0x1DAA1, 0x1DAAF, .Extend),
  (0x1E000, 0x1E006, .Extend),
  (0x1E008, 0x1E018, .Extend),
  (0x1E01B, 0x1E021, .Extend),
  (0x1E023, 0x1E024, .Extend),
  (0x1E026, 0x1E02A, .Extend),
  (0x1E800, 0x1E8C4, .ALetter),
  (0x1E8D0, 0x1E8D6, .Extend),
  (0x1E900, 0x1E943, .ALetter),
  (0x1E944, 0x1E94A, .Extend),
  (0x1E950, 0x1E959, .Numeric),
  (0x1EE00, 0x1EE03, .ALetter),
  (0x1EE05, 0x1EE1F, .ALetter),
  (0x1EE21, 0x1EE22, .ALetter),
  (0x1EE24, 0x1EE24, .ALetter),
  (0x1EE27, 0x1EE27, .ALetter),
  (0x1EE29, 0x1EE32, .ALetter),
  (0x1EE34, 0x1EE37, .ALetter),
  (0x1EE39, 0x1EE39, .ALetter),
  (0x1EE3B, 0x1EE3B, .ALetter),
  (0x1EE42, 0x1EE42, .ALetter),
  (0x1EE47, 0x1EE47, .ALetter),
  (0x1EE49, 0x1EE49, .ALetter),
  (0x1EE4B, 0x1EE4B, .ALetter),
  (0x1EE4D, 0x1EE4F, .ALetter),
  (0x1EE51, 0x1EE52, .ALetter),
  (0x1EE54, 0x1EE54, .ALetter),
  (0x1EE57, 0x1EE57, .ALetter),
  (0x1EE59, 0x1EE59, .ALetter),
  (0x1EE5B, 0x1EE5B, .ALetter),
  (0x1EE5D, 0x1EE5D, .ALetter)]
def wordBreak_14 : List (Nat × Nat × WordBreak) := [
  (0x1EE5F, 0x1EE5F, .ALetter),
  (0x1EE61, 0x1EE62, .ALetter),
  (0x1EE64, 0x1EE64, .ALetter),
  (0x1EE67, 0x1EE6A, .ALetter),
  (0x1EE6C, 0x1EE72, .ALetter),
  (0x1EE74, 0x1EE77, .ALetter),
  (0x1EE79, 0x1EE7C, .ALetter),
  (0x1EE7E, 0x1EE7E, .ALetter),
  (0x1EE80, 0x1EE89, .ALetter),
  (0x1EE8B, 0x1EE9B, .ALetter),
  (0x1EEA1, 0x1EEA3, .ALetter),
  (0x1EEA5, 0x1EEA9, .ALetter),
  (0x1EEAB, 0x1EEBB, .ALetter),
  (0x1F130, 0x1F149, .ALetter),
  (0x1F150, 0x1F169, .ALetter),
  (0x1F170, 0x1F189, .ALetter),
  (0x1F1E6, 0x1F1FF, .RegionalIndicator),
  (0x1F308, 0x1F308, .GlueAfterZwj),
  (0x1F33E, 0x1F33E, .GlueAfterZwj),
  (0x1F373, 0x1F373, .GlueAfterZwj),
  (0x1F385, 0x1F385, .EBase),
  (0x1F393, 0x1F393, .GlueAfterZwj),
  (0x1F3A4, 0x1F3A4, .GlueAfterZwj),
  (0x1F3A8, 0x1F3A8, .GlueAfterZwj),
  (0x1F3C2, 0x1F3C4, .EBase),
  (0x1F3C7, 0x1F3C7, .EBase),
  (0x1F3CA, 0x1F3CC, .EBase),
  (0x1F3EB, 0x1F3EB, .GlueAfterZwj),
  (0x1F3ED, 0x1F3ED, .GlueAfterZwj),
  (0x1F3FB, 0x1F3FF, .EModifier),
  (0x1F442, 0x1F443, .EBase),
  (0x1F446, 0x1F450, .EBase),
  (0x1F466, 0x1F469, .EBaseGAZ),
  (0x1F46E, 0x1F46E, .EBase),
  (0x1F470, 0x1F478, .EBase),
  (0x1F47C, 0x1F47C, .EBase),
  (0x1F481, 0x1F483, .EBase),
  (0x1F485, 0x1F487, .EBase),
  (0x1F48B, 0x1F48B, .GlueAfterZwj),
  (0x1F4AA, 0x1F4AA, .EBase),
  (0x1F4BB, 0x1F4BC, .GlueAfterZwj),
  (0x1F527, 0x1F527, .GlueAfterZwj),
  (0x1F52C, 0x1F52C, .GlueAfterZwj),
  (0x1F574, 0x1F575, .EBase),
  (0x1F57A, 0x1F57A, .EBase),
  (0x1F590, 0x1F590, .EBase),
  (0x1F595, 0x1F596, .EBase),
  (0x1F5E8, 0x1F5E8, .GlueAfterZwj),
  (0x1F645, 0x1F647, .EBase),
  (0x1F64B, 0x1F64F, .EBase),
  (0x1F680, 0x1F680, .GlueAfterZwj),
  (0x1F692, 0x1F692, .GlueAfterZwj),
  (0x1F6A3, 0x1F6A3, .EBase),
  (0x1F6B4, 0x1F6B6, .EBase),
  (0x1F6C0, 0x1F6C0, .EBase),
  (0x1F6CC, 0x1F6CC, .EBase),
  (0x1F918, 0x1F91C, .EBase),
  (0x1F91E, 0x1F91F, .EBase),
  (0x1F926, 0x1F926, .EBase),
  (0x1F930, 0x1F939, .EBase),
  (0x1F93D, 0x1F93E, .EBase),
  (0x1F9D1, 0x1F9DD, .EBase),
  (0xE0001, 0xE0001, .Format),
  (0xE0020, 0xE007F, .Extend)]
def wordBreak_15 : List (Nat × Nat × WordBreak) := [
  (0xE0100, 0xE01EF, .Extend)]
/-- unic/ucd/segment/tables/word_break.rsv (all 961 entries, `CharDataTable::Range`), in chunks of 64. -/
def wordBreak : List (List (Nat × Nat × WordBreak)) := [wordBreak_0, wordBreak_1, wordBreak_2, wordBreak_3, wordBreak_4, wordBreak_5, wordBreak_6, wordBreak_7, wordBreak_8, wordBreak_9, wordBreak_10, wordBreak_11, wordBreak_12, wordBreak_13, wordBreak_14, wordBreak_15]

end Data
