import Verif.Data.Enums
/-! Generated by tools/gen_tables.py: literal translation of data tables. -/
namespace Data

def graphemeClusterBreak_0 : List (Nat × Nat × GraphemeClusterBreak) := [
  (0, 9, .Control),
  (0xA, 0xA, .LF),
  (0xB, 0xC, .Control),
  (0xD, 0xD, .CR),
  (0xE, 0x1F, .Control),
  (0x7F, 0x9F, .Control),
  (0xAD, 0xAD, .Control),
  (0x300, 0x36F, .Extend),
  (0x483, 0x489, .Extend),
  (0x591, 0x5BD, .Extend),
  (0x5BF, 0x5BF, .Extend),
  (0x5C1, 0x5C2, .Extend),
  (0x5C4, 0x5C5, .Extend),
  (0x5C7, 0x5C7, .Extend),
  (0x600, 0x605, .Prepend),
  (0x610, 0x61A, .Extend),
  (0x61C, 0x61C, .Control),
  (0x64B, 0x65F, .Extend),
  (0x670, 0x670, .Extend),
  (0x6D6, 0x6DC, .Extend),
  (0x6DD, 0x6DD, .Prepend),
  (0x6DF, 0x6E4, .Extend),
  (0x6E7, 0x6E8, .Extend),
  (0x6EA, 0x6ED, .Extend),
  (0x70F, 0x70F, .Prepend),
  (0x711, 0x711, .Extend),
  (0x730, 0x74A, .Extend),
  (0x7A6, 0x7B0, .Extend),
  (0x7EB, 0x7F3, .Extend),
  (0x816, 0x819, .Extend),
  (0x81B, 0x823, .Extend),
  (0x825, 0x827, .Extend),
  (0x829, 0x82D, .Extend),
  (0x859, 0x85B, .Extend),
  (0x8D4, 0x8E1, .Extend),
  (0x8E2, 0x8E2, .Prepend),
  (0x8E3, 0x902, .Extend),
  (0x903, 0x903, .SpacingMark),
  (0x93A, 0x93A, .Extend),
  (0x93B, 0x93B, .SpacingMark),
  (0x93C, 0x93C, .Extend),
  (0x93E, 0x940, .SpacingMark),
  (0x941, 0x948, .Extend),
  (0x949, 0x94C, .SpacingMark),
  (0x94D, 0x94D, .Extend),
  (0x94E, 0x94F, .SpacingMark),
  (0x951, 0x957, .Extend),
  (0x962, 0x963, .Extend),
  (0x981, 0x981, .Extend),
  (0x982, 0x983, .SpacingMark),
  (0x9BC, 0x9BC, .Extend),
  (0x9BE, 0x9BE, .Extend),
  (0x9BF, 0x9C0, .SpacingMark),
  (0x9C1, 0x9C4, .Extend),
  (0x9C7, 0x9C8, .SpacingMark),
  (0x9CB, 0x9CC, .SpacingMark),
  (0x9CD, 0x9CD, .Extend),
  (0x9D7, 0x9D7, .Extend),
  (0x9E2, 0x9E3, .Extend),
  (0xA01, 0xA02, .Extend),
  (0xA03, 0xA03, .SpacingMark),
  (0xA3C, 0xA3C, .Extend),
  (0xA3E, 0xA40, .SpacingMark),
  (0xA41, 0xA42, .Extend)]
def graphemeClusterBreak_1 : List (Nat × Nat × GraphemeClusterBreak) := [
  (0xA47, 0xA48, .Extend),
  (0xA4B, 0xA4D, .Extend),
  (0xA51, 0xA51, .Extend),
  (0xA70, 0xA71, .Extend),
  (0xA75, 0xA75, .Extend),
  (0xA81, 0xA82, .Extend),
  (0xA83, 0xA83, .SpacingMark),
  (0xABC, 0xABC, .Extend),
  (0xABE, 0xAC0, .SpacingMark),
  (0xAC1, 0xAC5, .Extend),
  (0xAC7, 0xAC8, .Extend),
  (0xAC9, 0xAC9, .SpacingMark),
  (0xACB, 0xACC, .SpacingMark),
  (0xACD, 0xACD, .Extend),
  (0xAE2, 0xAE3, .Extend),
  (0xAFA, 0xAFF, .Extend),
  (0xB01, 0xB01, .Extend),
  (0xB02, 0xB03, .SpacingMark),
  (0xB3C, 0xB3C, .Extend),
  (0xB3E, 0xB3F, .Extend),
  (0xB40, 0xB40, .SpacingMark),
  (0xB41, 0xB44, .Extend),
  (0xB47, 0xB48, .SpacingMark),
  (0xB4B, 0xB4C, .SpacingMark),
  (0xB4D, 0xB4D, .Extend),
  (0xB56, 0xB57, .Extend),
  (0xB62, 0xB63, .Extend),
  (0xB82, 0xB82, .Extend),
  (0xBBE, 0xBBE, .Extend),
  (0xBBF, 0xBBF, .SpacingMark),
  (0xBC0, 0xBC0, .Extend),
  (0xBC1, 0xBC2, .SpacingMark),
  (0xBC6, 0xBC8, .SpacingMark),
  (0xBCA, 0xBCC, .SpacingMark),
  (0xBCD, 0xBCD, .Extend),
  (0xBD7, 0xBD7, .Extend),
  (0xC00, 0xC00, .Extend),
  (0xC01, 0xC03, .SpacingMark),
  (0xC3E, 0xC40, .Extend),
  (0xC41, 0xC44, .SpacingMark),
  (0xC46, 0xC48, .Extend),
  (0xC4A, 0xC4D, .Extend),
  (0xC55, 0xC56, .Extend),
  (0xC62, 0xC63, .Extend),
  (0xC81, 0xC81, .Extend),
  (0xC82, 0xC83, .SpacingMark),
  (0xCBC, 0xCBC, .Extend),
  (0xCBE, 0xCBE, .SpacingMark),
  (0xCBF, 0xCBF, .Extend),
  (0xCC0, 0xCC1, .SpacingMark),
  (0xCC2, 0xCC2, .Extend),
  (0xCC3, 0xCC4, .SpacingMark),
  (0xCC6, 0xCC6, .Extend),
  (0xCC7, 0xCC8, .SpacingMark),
  (0xCCA, 0xCCB, .SpacingMark),
  (0xCCC, 0xCCD, .Extend),
  (0xCD5, 0xCD6, .Extend),
  (0xCE2, 0xCE3, .Extend),
  (0xD00, 0xD01, .Extend),
  (0xD02, 0xD03, .SpacingMark),
  (0xD3B, 0xD3C, .Extend),
  (0xD3E, 0xD3E, .Extend),
  (0xD3F, 0xD40, .SpacingMark),
  (0xD41, 0xD44, .Extend)]
def graphemeClusterBreak_2 : List (Nat × Nat × GraphemeClusterBreak) := [
  (0xD46, 0xD48, .SpacingMark),
  (0xD4A, 0xD4C, .SpacingMark),
  (0xD4D, 0xD4D, .Extend),
  (0xD4E, 0xD4E, .Prepend),
  (0xD57, 0xD57, .Extend),
  (0xD62, 0xD63, .Extend),
  (0xD82, 0xD83, .SpacingMark),
  (0xDCA, 0xDCA, .Extend),
  (0xDCF, 0xDCF, .Extend),
  (0xDD0, 0xDD1, .SpacingMark),
  (0xDD2, 0xDD4, .Extend),
  (0xDD6, 0xDD6, .Extend),
  (0xDD8, 0xDDE, .SpacingMark),
  (0xDDF, 0xDDF, .Extend),
  (0xDF2, 0xDF3, .SpacingMark),
  (0xE31, 0xE31, .Extend),
  (0xE33, 0xE33, .SpacingMark),
  (0xE34, 0xE3A, .Extend),
  (0xE47, 0xE4E, .Extend),
  (0xEB1, 0xEB1, .Extend),
  (0xEB3, 0xEB3, .SpacingMark),
  (0xEB4, 0xEB9, .Extend),
  (0xEBB, 0xEBC, .Extend),
  (0xEC8, 0xECD, .Extend),
  (0xF18, 0xF19, .Extend),
  (0xF35, 0xF35, .Extend),
  (0xF37, 0xF37, .Extend),
  (0xF39, 0xF39, .Extend),
  (0xF3E, 0xF3F, .SpacingMark),
  (0xF71, 0xF7E, .Extend),
  (0xF7F, 0xF7F, .SpacingMark),
  (0xF80, 0xF84, .Extend),
  (0xF86, 0xF87, .Extend),
  (0xF8D, 0xF97, .Extend),
  (0xF99, 0xFBC, .Extend),
  (0xFC6, 0xFC6, .Extend),
  (0x102D, 0x1030, .Extend),
  (0x1031, 0x1031, .SpacingMark),
  (0x1032, 0x1037, .Extend),
  (0x1039, 0x103A, .Extend),
  (0x103B, 0x103C, .SpacingMark),
  (0x103D, 0x103E, .Extend),
  (0x1056, 0x1057, .SpacingMark),
  (0x1058, 0x1059, .Extend),
  (0x105E, 0x1060, .Extend),
  (0x1071, 0x1074, .Extend),
  (0x1082, 0x1082, .Extend),
  (0x1084, 0x1084, .SpacingMark),
  (0x1085, 0x1086, .Extend),
  (0x108D, 0x108D, .Extend),
  (0x109D, 0x109D, .Extend),
  (0x1100, 0x115F, .L),
  (0x1160, 0x11A7, .V),
  (0x11A8, 0x11FF, .T),
  (0x135D, 0x135F, .Extend),
  (0x1712, 0x1714, .Extend),
  (0x1732, 0x1734, .Extend),
  (0x1752, 0x1753, .Extend),
  (0x1772, 0x1773, .Extend),
  (0x17B4, 0x17B5, .Extend),
  (0x17B6, 0x17B6, .SpacingMark),
  (0x17B7, 0x17BD, .Extend),
  (0x17BE, 0x17C5, .SpacingMark),
  (0x17C6, 0x17C6, .Extend)]
def graphemeClusterBreak_3 : List (Nat × Nat × GraphemeClusterBreak) := [
  (0x17C7, 0x17C8, .SpacingMark),
  (0x17C9, 0x17D3, .Extend),
  (0x17DD, 0x17DD, .Extend),
  (0x180B, 0x180D, .Extend),
  (0x180E, 0x180E, .Control),
  (0x1885, 0x1886, .Extend),
  (0x18A9, 0x18A9, .Extend),
  (0x1920, 0x1922, .Extend),
  (0x1923, 0x1926, .SpacingMark),
  (0x1927, 0x1928, .Extend),
  (0x1929, 0x192B, .SpacingMark),
  (0x1930, 0x1931, .SpacingMark),
  (0x1932, 0x1932, .Extend),
  (0x1933, 0x1938, .SpacingMark),
  (0x1939, 0x193B, .Extend),
  (0x1A17, 0x1A18, .Extend),
  (0x1A19, 0x1A1A, .SpacingMark),
  (0x1A1B, 0x1A1B, .Extend),
  (0x1A55, 0x1A55, .SpacingMark),
  (0x1A56, 0x1A56, .Extend),
  (0x1A57, 0x1A57, .SpacingMark),
  (0x1A58, 0x1A5E, .Extend),
  (0x1A60, 0x1A60, .Extend),
  (0x1A62, 0x1A62, .Extend),
  (0x1A65, 0x1A6C, .Extend),
  (0x1A6D, 0x1A72, .SpacingMark),
  (0x1A73, 0x1A7C, .Extend),
  (0x1A7F, 0x1A7F, .Extend),
  (0x1AB0, 0x1ABE, .Extend),
  (0x1B00, 0x1B03, .Extend),
  (0x1B04, 0x1B04, .SpacingMark),
  (0x1B34, 0x1B34, .Extend),
  (0x1B35, 0x1B35, .SpacingMark),
  (0x1B36, 0x1B3A, .Extend),
  (0x1B3B, 0x1B3B, .SpacingMark),
  (0x1B3C, 0x1B3C, .Extend),
  (0x1B3D, 0x1B41, .SpacingMark),
  (0x1B42, 0x1B42, .Extend),
  (0x1B43, 0x1B44, .SpacingMark),
  (0x1B6B, 0x1B73, .Extend),
  (0x1B80, 0x1B81, .Extend),
  (0x1B82, 0x1B82, .SpacingMark),
  (0x1BA1, 0x1BA1, .SpacingMark),
  (0x1BA2, 0x1BA5, .Extend),
  (0x1BA6, 0x1BA7, .SpacingMark),
  (0x1BA8, 0x1BA9, .Extend),
  (0x1BAA, 0x1BAA, .SpacingMark),
  (0x1BAB, 0x1BAD, .Extend),
  (0x1BE6, 0x1BE6, .Extend),
  (0x1BE7, 0x1BE7, .SpacingMark),
  (0x1BE8, 0x1BE9, .Extend),
  (0x1BEA, 0x1BEC, .SpacingMark),
  (0x1BED, 0x1BED, .Extend),
  (0x1BEE, 0x1BEE, .SpacingMark),
  (0x1BEF, 0x1BF1, .Extend),
  (0x1BF2, 0x1BF3, .SpacingMark),
  (0x1C24, 0x1C2B, .SpacingMark),
  (0x1C2C, 0x1C33, .Extend),
  (0x1C34, 0x1C35, .SpacingMark),
  (0x1C36, 0x1C37, .Extend),
  (0x1CD0, 0x1CD2, .Extend),
  (0x1CD4, 0x1CE0, .Extend),
  (0x1CE1, 0x1CE1, .SpacingMark),
  (0x1CE2, 0x1CE8, .Extend)]
def graphemeClusterBreak_4 : List (Nat × Nat × GraphemeClusterBreak) := [
  (0x1CED, 0x1CED, .Extend),
  (0x1CF2, 0x1CF3, .SpacingMark),
  (0x1CF4, 0x1CF4, .Extend),
  (0x1CF7, 0x1CF7, .SpacingMark),
  (0x1CF8, 0x1CF9, .Extend),
  (0x1DC0, 0x1DF9, .Extend),
  (0x1DFB, 0x1DFF, .Extend),
  (0x200B, 0x200B, .Control),
  (0x200C, 0x200C, .Extend),
  (0x200D, 0x200D, .ZWJ),
  (0x200E, 0x200F, .Control),
  (0x2028, 0x202E, .Control),
  (0x2060, 0x206F, .Control),
  (0x20D0, 0x20F0, .Extend),
  (0x261D, 0x261D, .EBase),
  (0x2640, 0x2640, .GlueAfterZwj),
  (0x2642, 0x2642, .GlueAfterZwj),
  (0x2695, 0x2696, .GlueAfterZwj),
  (0x26F9, 0x26F9, .EBase),
  (0x2708, 0x2708, .GlueAfterZwj),
  (0x270A, 0x270D, .EBase),
  (0x2764, 0x2764, .GlueAfterZwj),
  (0x2CEF, 0x2CF1, .Extend),
  (0x2D7F, 0x2D7F, .Extend),
  (0x2DE0, 0x2DFF, .Extend),
  (0x302A, 0x302F, .Extend),
  (0x3099, 0x309A, .Extend),
  (0xA66F, 0xA672, .Extend),
  (0xA674, 0xA67D, .Extend),
  (0xA69E, 0xA69F, .Extend),
  (0xA6F0, 0xA6F1, .Extend),
  (0xA802, 0xA802, .Extend),
  (0xA806, 0xA806, .Extend),
  (0xA80B, 0xA80B, .Extend),
  (0xA823, 0xA824, .SpacingMark),
  (0xA825, 0xA826, .Extend),
  (0xA827, 0xA827, .SpacingMark),
  (0xA880, 0xA881, .SpacingMark),
  (0xA8B4, 0xA8C3, .SpacingMark),
  (0xA8C4, 0xA8C5, .Extend),
  (0xA8E0, 0xA8F1, .Extend),
  (0xA926, 0xA92D, .Extend),
  (0xA947, 0xA951, .Extend),
  (0xA952, 0xA953, .SpacingMark),
  (0xA960, 0xA97C, .L),
  (0xA980, 0xA982, .Extend),
  (0xA983, 0xA983, .SpacingMark),
  (0xA9B3, 0xA9B3, .Extend),
  (0xA9B4, 0xA9B5, .SpacingMark),
  (0xA9B6, 0xA9B9, .Extend),
  (0xA9BA, 0xA9BB, .SpacingMark),
  (0xA9BC, 0xA9BC, .Extend),
  (0xA9BD, 0xA9C0, .SpacingMark),
  (0xA9E5, 0xA9E5, .Extend),
  (0xAA29, 0xAA2E, .Extend),
  (0xAA2F, 0xAA30, .SpacingMark),
  (0xAA31, 0xAA32, .Extend),
  (0xAA33, 0xAA34, .SpacingMark),
  (0xAA35, 0xAA36, .Extend),
  (0xAA43, 0xAA43, .Extend),
  (0xAA4C, 0xAA4C, .Extend),
  (0xAA4D, 0xAA4D, .SpacingMark),
  (0xAA7C, 0xAA7C, .Extend),
  (0xAAB0, 0xAAB0, .Extend)]
def graphemeClusterBreak_5 : List (Nat × Nat × GraphemeClusterBreak) := [
  (0xAAB2, 0xAAB4, .Extend),
  (0xAAB7, 0xAAB8, .Extend),
  (0xAABE, 0xAABF, .Extend),
  (0xAAC1, 0xAAC1, .Extend),
  (0xAAEB, 0xAAEB, .SpacingMark),
  (0xAAEC, 0xAAED, .Extend),
  (0xAAEE, 0xAAEF, .SpacingMark),
  (0xAAF5, 0xAAF5, .SpacingMark),
  (0xAAF6, 0xAAF6, .Extend),
  (0xABE3, 0xABE4, .SpacingMark),
  (0xABE5, 0xABE5, .Extend),
  (0xABE6, 0xABE7, .SpacingMark),
  (0xABE8, 0xABE8, .Extend),
  (0xABE9, 0xABEA, .SpacingMark),
  (0xABEC, 0xABEC, .SpacingMark),
  (0xABED, 0xABED, .Extend),
  (0xAC00, 0xAC00, .LV),
  (0xAC01, 0xAC1B, .LVT),
  (0xAC1C, 0xAC1C, .LV),
  (0xAC1D, 0xAC37, .LVT),
  (0xAC38, 0xAC38, .LV),
  (0xAC39, 0xAC53, .LVT),
  (0xAC54, 0xAC54, .LV),
  (0xAC55, 0xAC6F, .LVT),
  (0xAC70, 0xAC70, .LV),
  (0xAC71, 0xAC8B, .LVT),
  (0xAC8C, 0xAC8C, .LV),
  (0xAC8D, 0xACA7, .LVT),
  (0xACA8, 0xACA8, .LV),
  (0xACA9, 0xACC3, .LVT),
  (0xACC4, 0xACC4, .LV),
  (0xACC5, 0xACDF, .LVT),
  (0xACE0, 0xACE0, .LV),
  (0xACE1, 0xACFB, .LVT),
  (0xACFC, 0xACFC, .LV),
  (0xACFD, 0xAD17, .LVT),
  (0xAD18, 0xAD18, .LV),
  (0xAD19, 0xAD33, .LVT),
  (0xAD34, 0xAD34, .LV),
  (0xAD35, 0xAD4F, .LVT),
  (0xAD50, 0xAD50, .LV),
  (0xAD51, 0xAD6B, .LVT),
  (0xAD6C, 0xAD6C, .LV),
  (0xAD6D, 0xAD87, .LVT),
  (0xAD88, 0xAD88, .LV),
  (0xAD89, 0xADA3, .LVT),
  (0xADA4, 0xADA4, .LV),
  (0xADA5, 0xADBF, .LVT),
  (0xADC0, 0xADC0, .LV),
  (0xADC1, 0xADDB, .LVT),
  (0xADDC, 0xADDC, .LV),
  (0xADDD, 0xADF7, .LVT),
  (0xADF8, 0xADF8, .LV),
  (0xADF9, 0xAE13, .LVT),
  (0xAE14, 0xAE14, .LV),
  (0xAE15, 0xAE2F, .LVT),
  (0xAE30, 0xAE30, .LV),
  (0xAE31, 0xAE4B, .LVT),
  (0xAE4C, 0xAE4C, .LV),
  (0xAE4D, 0xAE67, .LVT),
  (0xAE68, 0xAE68, .LV),
  (0xAE69, 0xAE83, .LVT),
  (0xAE84, 0xAE84, .LV),
  (0xAE85, 0xAE9F, .LVT)]
def graphemeClusterBreak_6 : List (Nat × Nat × GraphemeClusterBreak) := [
  (0xAEA0, 0xAEA0, .LV),
  (0xAEA1, 0xAEBB, .LVT),
  (0xAEBC, 0xAEBC, .LV),
  (0xAEBD, 0xAED7, .LVT),
  (0xAED8, 0xAED8, .LV),
  (0xAED9, 0xAEF3, .LVT),
  (0xAEF4, 0xAEF4, .LV),
  (0xAEF5, 0xAF0F, .LVT),
  (0xAF10, 0xAF10, .LV),
  (0xAF11, 0xAF2B, .LVT),
  (0xAF2C, 0xAF2C, .LV),
  (0xAF2D, 0xAF47, .LVT),
  (0xAF48, 0xAF48, .LV),
  (0xAF49, 0xAF63, .LVT),
  (0xAF64, 0xAF64, .LV),
  (0xAF65, 0xAF7F, .LVT),
  (0xAF80, 0xAF80, .LV),
  (0xAF81, 0xAF9B, .LVT),
  (0xAF9C, 0xAF9C, .LV),
  (0xAF9D, 0xAFB7, .LVT),
  (0xAFB8, 0xAFB8, .LV),
  (0xAFB9, 0xAFD3, .LVT),
  (0xAFD4, 0xAFD4, .LV),
  (0xAFD5, 0xAFEF, .LVT),
  (0xAFF0, 0xAFF0, .LV),
  (0xAFF1, 0xB00B, .LVT),
  (0xB00C, 0xB00C, .LV),
  (0xB00D, 0xB027, .LVT),
  (0xB028, 0xB028, .LV),
  (0xB029, 0xB043, .LVT),
  (0xB044, 0xB044, .LV),
  (0xB045, 0xB05F, .LVT),
  (0xB060, 0xB060, .LV),
  (0xB061, 0xB07B, .LVT),
  (0xB07C, 0xB07C, .LV),
  (0xB07D, 0xB097, .LVT),
  (0xB098, 0xB098, .LV),
  (0xB099, 0xB0B3, .LVT),
  (0xB0B4, 0xB0B4, .LV),
  (0xB0B5, 0xB0CF, .LVT),
  (0xB0D0, 0xB0D0, .LV),
  (0xB0D1, 0xB0EB, .LVT),
  (0xB0EC, 0xB0EC, .LV),
  (0xB0ED, 0xB107, .LVT),
  (0xB108, 0xB108, .LV),
  (0xB109, 0xB123, .LVT),
  (0xB124, 0xB124, .LV),
  (0xB125, 0xB13F, .LVT),
  (0xB140, 0xB140, .LV),
  (0xB141, 0xB15B, .LVT),
  (0xB15C, 0xB15C, .LV),
  (0xB15D, 0xB177, .LVT),
  (0xB178, 0xB178, .LV),
  (0xB179, 0xB193, .LVT),
  (0xB194, 0xB194, .LV),
  (0xB195, 0xB1AF, .LVT),
  (0xB1B0, 0xB1B0, .LV),
  (0xB1B1, 0xB1CB, .LVT),
  (0xB1CC, 0xB1CC, .LV),
  (0xB1CD, 0xB1E7, .LVT),
  (0xB1E8, 0xB1E8, .LV),
  (0xB1E9, 0xB203, .LVT),
  (0xB204, 0xB204, .LV),
  (0xB205, 0xB21F, .LVT)]
def graphemeClusterBreak_7 : List (Nat × Nat × GraphemeClusterBreak) := [
  (0xB220, 0xB220, .LV),
  (0xB221, 0xB23B, .LVT),
  (0xB23C, 0xB23C, .LV),
  (0xB23D, 0xB257, .LVT),
  (0xB258, 0xB258, .LV),
  (0xB259, 0xB273, .LVT),
  (0xB274, 0xB274, .LV),
  (0xB275, 0xB28F, .LVT),
  (0xB290, 0xB290, .LV),
  (0xB291, 0xB2AB, .LVT),
  (0xB2AC, 0xB2AC, .LV),
  (0xB2AD, 0xB2C7, .LVT),
  (0xB2C8, 0xB2C8, .LV),
  (0xB2C9, 0xB2E3, .LVT),
  (0xB2E4, 0xB2E4, .LV),
  (0xB2E5, 0xB2FF, .LVT),
  (0xB300, 0xB300, .LV),
  (0xB301, 0xB31B, .LVT),
  (0xB31C, 0xB31C, .LV),
  (0xB31D, 0xB337, .LVT),
  (0xB338, 0xB338, .LV),
  (0xB339, 0xB353, .LVT),
  (0xB354, 0xB354, .LV),
  (0xB355, 0xB36F, .LVT),
  (0xB370, 0xB370, .LV),
  (0xB371, 0xB38B, .LVT),
  (0xB38C, 0xB38C, .LV),
  (0xB38D, 0xB3A7, .LVT),
  (0xB3A8, 0xB3A8, .LV),
  (0xB3A9, 0xB3C3, .LVT),
  (0xB3C4, 0xB3C4, .LV),
  (0xB3C5, 0xB3DF, .LVT),
  (0xB3E0, 0xB3E0, .LV),
  (0xB3E1, 0xB3FB, .LVT),
  (0xB3FC, 0xB3FC, .LV),
  (0xB3FD, 0xB417, .LVT),
  (0xB418, 0xB418, .LV),
  (0xB419, 0xB433, .LVT),
  (0xB434, 0xB434, .LV),
  (0xB435, 0xB44F, .LVT),
  (0xB450, 0xB450, .LV),
  (0xB451, 0xB46B, .LVT),
  (0xB46C, 0xB46C, .LV),
  (0xB46D, 0xB487, .LVT),
  (0xB488, 0xB488, .LV),
  (0xB489, 0xB4A3, .LVT),
  (0xB4A4, 0xB4A4, .LV),
  (0xB4A5, 0xB4BF, .LVT),
  (0xB4C0, 0xB4C0, .LV),
  (0xB4C1, 0xB4DB, .LVT),
  (0xB4DC, 0xB4DC, .LV),
  (0xB4DD, 0xB4F7, .LVT),
  (0xB4F8, 0xB4F8, .LV),
  (0xB4F9, 0xB513, .LVT),
  (0xB514, 0xB514, .LV),
  (0xB515, 0xB52F, .LVT),
  (0xB530, 0xB530, .LV),
  (0xB531, 0xB54B, .LVT),
  (0xB54C, 0xB54C, .LV),
  (0xB54D, 0xB567, .LVT),
  (0xB568, 0xB568, .LV),
  (0xB569, 0xB583, .LVT),
  (0xB584, 0xB584, .LV),
  (0xB585, 0xB59F, .LVT)]
def graphemeClusterBreak_8 : List (Nat × Nat × GraphemeClusterBreak) := [
  (0xB5A0, 0xB5A0, .LV),
  (0xB5A1, 0xB5BB, .LVT),
  (0xB5BC, 0xB5BC, .LV),
  (0xB5BD, 0xB5D7, .LVT),
  (0xB5D8, 0xB5D8, .LV),
  (0xB5D9, 0xB5F3, .LVT),
  (0xB5F4, 0xB5F4, .LV),
  (0xB5F5, 0xB60F, .LVT),
  (0xB610, 0xB610, .LV),
  (0xB611, 0xB62B, .LVT),
  (0xB62C, 0xB62C, .LV),
  (0xB62D, 0xB647, .LVT),
  (0xB648, 0xB648, .LV),
  (0xB649, 0xB663, .LVT),
  (0xB664, 0xB664, .LV),
  (0xB665, 0xB67F, .LVT),
  (0xB680, 0xB680, .LV),
  (0xB681, 0xB69B, .LVT),
  (0xB69C, 0xB69C, .LV),
  (0xB69D, 0xB6B7, .LVT),
  (0xB6B8, 0xB6B8, .LV),
  (0xB6B9, 0xB6D3, .LVT),
  (0xB6D4, 0xB6D4, .LV),
  (0xB6D5, 0xB6EF, .LVT),
  (0xB6F0, 0xB6F0, .LV),
  (0xB6F1, 0xB70B, .LVT),
  (0xB70C, 0xB70C, .LV),
  (0xB70D, 0xB727, .LVT),
  (0xB728, 0xB728, .LV),
  (0xB729, 0xB743, .LVT),
  (0xB744, 0xB744, .LV),
  (0xB745, 0xB75F, .LVT),
  (0xB760, 0xB760, .LV),
  (0xB761, 0xB77B, .LVT),
  (0xB77C, 0xB77C, .LV),
  (0xB77D, 0xB797, .LVT),
  (0xB798, 0xB798, .LV),
  (0xB799, 0xB7B3, .LVT),
  (0xB7B4, 0xB7B4, .LV),
  (0xB7B5, 0xB7CF, .LVT),
  (0xB7D0, 0xB7D0, .LV),
  (0xB7D1, 0xB7EB, .LVT),
  (0xB7EC, 0xB7EC, .LV),
  (0xB7ED, 0xB807, .LVT),
  (0xB808, 0xB808, .LV),
  (0xB809, 0xB823, .LVT),
  (0xB824, 0xB824, .LV),
  (0xB825, 0xB83F, .LVT),
  (0xB840, 0xB840, .LV),
  (0xB841, 0xB85B, .LVT),
  (0xB85C, 0xB85C, .LV),
  (0xB85D, 0xB877, .LVT),
  (0xB878, 0xB878, .LV),
  (0xB879, 0xB893, .LVT),
  (0xB894, 0xB894, .LV),
  (0xB895, 0xB8AF, .LVT),
  (0xB8B0, 0xB8B0, .LV),
  (0xB8B1, 0xB8CB, .LVT),
  (0xB8CC, 0xB8CC, .LV),
  (0xB8CD, 0xB8E7, .LVT),
  (0xB8E8, 0xB8E8, .LV),
  (0xB8E9, 0xB903, .LVT),
  (0xB904, 0xB904, .LV),
  (0xB905, 0xB91F, .LVT)]
def graphemeClusterBreak_9 : List (Nat × Nat × GraphemeClusterBreak) := [
  (0xB920, 0xB920, .LV),
  (0xB921, 0xB93B, .LVT),
  (0xB93C, 0xB93C, .LV),
  (0xB93D, 0xB957, .LVT),
  (0xB958, 0xB958, .LV),
  (0xB959, 0xB973, .LVT),
  (0xB974, 0xB974, .LV),
  (0xB975, 0xB98F, .LVT),
  (0xB990, 0xB990, .LV),
  (0xB991, 0xB9AB, .LVT),
  (0xB9AC, 0xB9AC, .LV),
  (0xB9AD, 0xB9C7, .LVT),
  (0xB9C8, 0xB9C8, .LV),
  (0xB9C9, 0xB9E3, .LVT),
  (0xB9E4, 0xB9E4, .LV),
  (0xB9E5, 0xB9FF, .LVT),
  (0xBA00, 0xBA00, .LV),
  (0xBA01, 0xBA1B, .LVT),
  (0xBA1C, 0xBA1C, .LV),
  (0xBA1D, 0xBA37, .LVT),
  (0xBA38, 0xBA38, .LV),
  (0xBA39, 0xBA53, .LVT),
  (0xBA54, 0xBA54, .LV),
  (0xBA55, 0xBA6F, .LVT),
  (0xBA70, 0xBA70, .LV),
  (0xBA71, 0xBA8B, .LVT),
  (0xBA8C, 0xBA8C, .LV),
  (0xBA8D, 0xBAA7, .LVT),
  (0xBAA8, 0xBAA8, .LV),
  (0xBAA9, 0xBAC3, .LVT),
  (0xBAC4, 0xBAC4, .LV),
  (0xBAC5, 0xBADF, .LVT),
  (0xBAE0, 0xBAE0, .LV),
  (0xBAE1, 0xBAFB, .LVT),
  (0xBAFC, 0xBAFC, .LV),
  (0xBAFD, 0xBB17, .LVT),
  (0xBB18, 0xBB18, .LV),
  (0xBB19, 0xBB33, .LVT),
  (0xBB34, 0xBB34, .LV),
  (0xBB35, 0xBB4F, .LVT),
  (0xBB50, 0xBB50, .LV),
  (0xBB51, 0xBB6B, .LVT),
  (0xBB6C, 0xBB6C, .LV),
  (0xBB6D, 0xBB87, .LVT),
  (0xBB88, 0xBB88, .LV),
  (0xBB89, 0xBBA3, .LVT),
  (0xBBA4, 0xBBA4, .LV),
  (0xBBA5, 0xBBBF, .LVT),
  (0xBBC0, 0xBBC0, .LV),
  (0xBBC1, 0xBBDB, .LVT),
  (0xBBDC, 0xBBDC, .LV),
  (0xBBDD, 0xBBF7, .LVT),
  (0xBBF8, 0xBBF8, .LV),
  (0xBBF9, 0xBC13, .LVT),
  (0xBC14, 0xBC14, .LV),
  (0xBC15, 0xBC2F, .LVT),
  (0xBC30, 0xBC30, .LV),
  (0xBC31, 0xBC4B, .LVT),
  (0xBC4C, 0xBC4C, .LV),
  (0xBC4D, 0xBC67, .LVT),
  (0xBC68, 0xBC68, .LV),
  (0xBC69, 0xBC83, .LVT),
  (0xBC84, 0xBC84, .LV),
  (0xBC85, 0xBC9F, .LVT)]
def graphemeClusterBreak_10 : List (Nat × Nat × GraphemeClusterBreak) := [
  (0xBCA0, 0xBCA0, .LV),
  (0xBCA1, 0xBCBB, .LVT),
  (0xBCBC, 0xBCBC, .LV),
  (0xBCBD, 0xBCD7, .LVT),
  (0xBCD8, 0xBCD8, .LV),
  (0xBCD9, 0xBCF3, .LVT),
  (0xBCF4, 0xBCF4, .LV),
  (0xBCF5, 0xBD0F, .LVT),
  (0xBD10, 0xBD10, .LV),
  (0xBD11, 0xBD2B, .LVT),
  (0xBD2C, 0xBD2C, .LV),
  (0xBD2D, 0xBD47, .LVT),
  (0xBD48, 0xBD48, .LV),
  (0xBD49, 0xBD63, .LVT),
  (0xBD64, 0xBD64, .LV),
  (0xBD65, 0xBD7F, .LVT),
  (0xBD80, 0xBD80, .LV),
  (0xBD81, 0xBD9B, .LVT),
  (0xBD9C, 0xBD9C, .LV),
  (0xBD9D, 0xBDB7, .LVT),
  (0xBDB8, 0xBDB8, .LV),
  (0xBDB9, 0xBDD3, .LVT),
  (0xBDD4, 0xBDD4, .LV),
  (0xBDD5, 0xBDEF, .LVT),
  (0xBDF0, 0xBDF0, .LV),
  (0xBDF1, 0xBE0B, .LVT),
  (0xBE0C, 0xBE0C, .LV),
  (0xBE0D, 0xBE27, .LVT),
  (0xBE28, 0xBE28, .LV),
  (0xBE29, 0xBE43, .LVT),
  (0xBE44, 0xBE44, .LV),
  (0xBE45, 0xBE5F, .LVT),
  (0xBE60, 0xBE60, .LV),
  (0xBE61, 0xBE7B, .LVT),
  (0xBE7C, 0xBE7C, .LV),
  (0xBE7D, 0xBE97, .LVT),
  (0xBE98, 0xBE98, .LV),
  (0xBE99, 0xBEB3, .LVT),
  (0xBEB4, 0xBEB4, .LV),
  (0xBEB5, 0xBECF, .LVT),
  (0xBED0, 0xBED0, .LV),
  (0xBED1, 0xBEEB, .LVT),
  (0xBEEC, 0xBEEC, .LV),
  (0xBEED, 0xBF07, .LVT),
  (0xBF08, 0xBF08, .LV),
  (0xBF09, 0xBF23, .LVT),
  (0xBF24, 0xBF24, .LV),
  (0xBF25, 0xBF3F, .LVT),
  (0xBF40, 0xBF40, .LV),
  (0xBF41, 0xBF5B, .LVT),
  (0xBF5C, 0xBF5C, .LV),
  (0xBF5D, 0xBF77, .LVT),
  (0xBF78, 0xBF78, .LV),
  (0xBF79, 0xBF93, .LVT),
  (0xBF94, 0xBF94, .LV),
  (0xBF95, 0xBFAF, .LVT),
  (0xBFB0, 0xBFB0, .LV),
  (0xBFB1, 0xBFCB, .LVT),
  (0xBFCC, 0xBFCC, .LV),
  (0xBFCD, 0xBFE7, .LVT),
  (0xBFE8, 0xBFE8, .LV),
  (0xBFE9, 0xC003, .LVT),
  (0xC004, 0xC004, .LV),
  (0xC005, 0xC01F, .LVT)]
def graphemeClusterBreak_11 : List (Nat × Nat × GraphemeClusterBreak) := [
  (0xC020, 0xC020, .LV),
  (0xC021, 0xC03B, .LVT),
  (0xC03C, 0xC03C, .LV),
  (0xC03D, 0xC057, .LVT),
  (0xC058, 0xC058, .LV),
  (0xC059, 0xC073, .LVT),
  (0xC074, 0xC074, .LV),
  (0xC075, 0xC08F, .LVT),
  (0xC090, 0xC090, .LV),
  (0xC091, 0xC0AB, .LVT),
  (0xC0AC, 0xC0AC, .LV),
  (0xC0AD, 0xC0C7, .LVT),
  (0xC0C8, 0xC0C8, .LV),
  (0xC0C9, 0xC0E3, .LVT),
  (0xC0E4, 0xC0E4, .LV),
  (0xC0E5, 0xC0FF, .LVT),
  (0xC100, 0xC100, .LV),
  (0xC101, 0xC11B, .LVT),
  (0xC11C, 0xC11C, .LV),
  (0xC11D, 0xC137, .LVT),
  (0xC138, 0xC138, .LV),
  (0xC139, 0xC153, .LVT),
  (0xC154, 0xC154, .LV),
  (0xC155, 0xC16F, .LVT),
  (0xC170, 0xC170, .LV),
  (0xC171, 0xC18B, .LVT),
  (0xC18C, 0xC18C, .LV),
  (0xC18D, 0xC1A7, .LVT),
  (0xC1A8, 0xC1A8, .LV),
  (0xC1A9, 0xC1C3, .LVT),
  (0xC1C4, 0xC1C4, .LV),
  (0xC1C5, 0xC1DF, .LVT),
  (0xC1E0, 0xC1E0, .LV),
  (0xC1E1, 0xC1FB, .LVT),
  (0xC1FC, 0xC1FC, .LV),
  (0xC1FD, 0xC217, .LVT),
  (0xC218, 0xC218, .LV),
  (0xC219, 0xC233, .LVT),
  (0xC234, 0xC234, .LV),
  (0xC235, 0xC24F, .LVT),
  (0xC250, 0xC250, .LV),
  (0xC251, 0xC26B, .LVT),
  (0xC26C, 0xC26C, .LV),
  (0xC26D, 0xC287, .LVT),
  (0xC288, 0xC288, .LV),
  (0xC289, 0xC2A3, .LVT),
  (0xC2A4, 0xC2A4, .LV),
  (0xC2A5, 0xC2BF, .LVT),
  (0xC2C0, 0xC2C0, .LV),
  (0xC2C1, 0xC2DB, .LVT),
  (0xC2DC, 0xC2DC, .LV),
  (0xC2DD, 0xC2F7, .LVT),
  (0xC2F8, 0xC2F8, .LV),
  (0xC2F9, 0xC313, .LVT),
  (0xC314, 0xC314, .LV),
  (0xC315, 0xC32F, .LVT),
  (0xC330, 0xC330, .LV),
  (0xC331, 0xC34B, .LVT),
  (0xC34C, 0xC34C, .LV),
  (0xC34D, 0xC367, .LVT),
  (0xC368, 0xC368, .LV),
  (0xC369, 0xC383, .LVT),
  (0xC384, 0xC384, .LV),
  (0xC385, 0xC39F, .LVT)]
def graphemeClusterBreak_12 : List (Nat × Nat × GraphemeClusterBreak) := [
  (0xC3A0, 0xC3A0, .LV),
  (0xC3A1, 0xC3BB, .LVT),
  (0xC3BC, 0xC3BC, .LV),
  (0xC3BD, 0xC3D7, .LVT),
  (0xC3D8, 0xC3D8, .LV),
  (0xC3D9, 0xC3F3, .LVT),
  (0xC3F4, 0xC3F4, .LV),
  (0xC3F5, 0xC40F, .LVT),
  (0xC410, 0xC410, .LV),
  (0xC411, 0xC42B, .LVT),
  (0xC42C, 0xC42C, .LV),
  (0xC42D, 0xC447, .LVT),
  (0xC448, 0xC448, .LV),
  (0xC449, 0xC463, .LVT),
  (0xC464, 0xC464, .LV),
  (0xC465, 0xC47F, .LVT),
  (0xC480, 0xC480, .LV),
  (0xC481, 0xC49B, .LVT),
  (0xC49C, 0xC49C, .LV),
  (0xC49D, 0xC4B7, .LVT),
  (0xC4B8, 0xC4B8, .LV),
  (0xC4B9, 0xC4D3, .LVT),
  (0xC4D4, 0xC4D4, .LV),
  (0xC4D5, 0xC4EF, .LVT),
  (0xC4F0, 0xC4F0, .LV),
  (0xC4F1, 0xC50B, .LVT),
  (0xC50C, 0xC50C, .LV),
  (0xC50D, 0xC527, .LVT),
  (0xC528, 0xC528, .LV),
  (0xC529, 0xC543, .LVT),
  (0xC544, 0xC544, .LV),
  (0xC545, 0xC55F, .LVT),
  (0xC560, 0xC560, .LV),
  (0xC561, 0xC57B, .LVT),
  (0xC57C, 0xC57C, .LV),
  (0xC57D, 0xC597, .LVT),
  (0xC598, 0xC598, .LV),
  (0xC599, 0xC5B3, .LVT),
  (0xC5B4, 0xC5B4, .LV),
  (0xC5B5, 0xC5CF, .LVT),
  (0xC5D0, 0xC5D0, .LV),
  (0xC5D1, 0xC5EB, .LVT),
  (0xC5EC, 0xC5EC, .LV),
  (0xC5ED, 0xC607, .LVT),
  (0xC608, 0xC608, .LV),
  (0xC609, 0xC623, .LVT),
  (0xC624, 0xC624, .LV),
  (0xC625, 0xC63F, .LVT),
  (0xC640, 0xC640, .LV),
  (0xC641, 0xC65B, .LVT),
  (0xC65C, 0xC65C, .LV),
  (0xC65D, 0xC677, .LVT),
  (0xC678, 0xC678, .LV),
  (0xC679, 0xC693, .LVT),
  (0xC694, 0xC694, .LV),
  (0xC695, 0xC6AF, .LVT),
  (0xC6B0, 0xC6B0, .LV),
  (0xC6B1, 0xC6CB, .LVT),
  (0xC6CC, 0xC6CC, .LV),
  (0xC6CD, 0xC6E7, .LVT),
  (0xC6E8, 0xC6E8, .LV),
  (0xC6E9, 0xC703, .LVT),
  (0xC704, 0xC704, .LV),
  (0xC705, 0xC71F, .LVT)]
def graphemeClusterBreak_13 : List (Nat × Nat × GraphemeClusterBreak) := [
  (0xC720, 0xC720, .LV),
  (0xC721, 0xC73B, .LVT),
  (0xC73C, 0xC73C, .LV),
  (0xC73D, 0xC757, .LVT),
  (0xC758, 0xC758, .LV),
  (0xC759, 0xC773, .LVT),
  (0xC774, 0xC774, .LV),
  (0xC775, 0xC78F, .LVT),
  (0xC790, 0xC790, .LV),
  (0xC791, 0xC7AB, .LVT),
  (0xC7AC, 0xC7AC, .LV),
  (0xC7AD, 0xC7C7, .LVT),
  (0xC7C8, 0xC7C8, .LV),
  (0xC7C9, 0xC7E3, .LVT),
  (0xC7E4, 0xC7E4, .LV),
  (0xC7E5, 0xC7FF, .LVT),
  (0xC800, 0xC800, .LV),
  (0xC801, 0xC81B, .LVT),
  (0xC81C, 0xC81C, .LV),
  (0xC81D, 0xC837, .LVT),
  (0xC838, 0xC838, .LV),
  (0xC839, 0xC853, .LVT),
  (0xC854, 0xC854, .LV),
  (0xC855, 0xC86F, .LVT),
  (0xC870, 0xC870, .LV),
  (0xC871, 0xC88B, .LVT),
  (0xC88C, 0xC88C, .LV),
  (0xC88D, 0xC8A7, .LVT),
  (0xC8A8, 0xC8A8, .LV),
  (0xC8A9, 0xC8C3, .LVT),
  (0xC8C4, 0xC8C4, .LV),
  (0xC8C5, 0xC8DF, .LVT),
  (0xC8E0, 0xC8E0, .LV),
  (0xC8E1, 0xC8FB, .LVT),
  (0xC8FC, 0xC8FC, .LV),
  (0xC8FD, 0xC917, .LVT),
  (0xC918, 0xC918, .LV),
  (0xC919, 0xC933, .LVT),
  (0xC934, 0xC934, .LV),
  (0xC935, 0xC94F, .LVT),
  (0xC950, 0xC950, .LV),
  (0xC951, 0xC96B, .LVT),
  (0xC96C, 0xC96C, .LV),
  (0xC96D, 0xC987, .LVT),
  (0xC988, 0xC988, .LV),
  (0xC989, 0xC9A3, .LVT),
  (0xC9A4, 0xC9A4, .LV),
  (0xC9A5, 0xC9BF, .LVT),
  (0xC9C0, 0xC9C0, .LV),
  (0xC9C1, 0xC9DB, .LVT),
  (0xC9DC, 0xC9DC, .LV),
  (0xC9DD, 0xC9F7, .LVT),
  (0xC9F8, 0xC9F8, .LV),
  (0xC9F9, 0xCA13, .LVT),
  (0xCA14, 0xCA14, .LV),
  (0xCA15, 0xCA2F, .LVT),
  (0xCA30, 0xCA30, .LV),
  (0xCA31, 0xCA4B, .LVT),
  (0xCA4C, 0xCA4C, .LV),
  (0xCA4D, 0xCA67, .LVT),
  (0xCA68, 0xCA68, .LV),
  (0xCA69, 0xCA83, .LVT),
  (0xCA84, 0xCA84, .LV),
  (0xCA85, 0xCA9F, .LVT)]
def graphemeClusterBreak_14 : List (Nat × Nat × GraphemeClusterBreak) := [
  (0xCAA0, 0xCAA0, .LV),
  (0xCAA1, 0xCABB, .LVT),
  (0xCABC, 0xCABC, .LV),
  (0xCABD, 0xCAD7, .LVT),
  (0xCAD8, 0xCAD8, .LV),
  (0xCAD9, 0xCAF3, .LVT),
  (0xCAF4, 0xCAF4, .LV),
  (0xCAF5, 0xCB0F, .LVT),
  (0xCB10, 0xCB10, .LV),
  (0xCB11, 0xCB2B, .LVT),
  (0xCB2C, 0xCB2C, .LV),
  (0xCB2D, 0xCB47, .LVT),
  (0xCB48, 0xCB48, .LV),
  (0xCB49, 0xCB63, .LVT),
  (0xCB64, 0xCB64, .LV),
  (0xCB65, 0xCB7F, .LVT),
  (0xCB80, 0xCB80, .LV),
  (0xCB81, 0xCB9B, .LVT),
  (0xCB9C, 0xCB9C, .LV),
  (0xCB9D, 0xCBB7, .LVT),
  (0xCBB8, 0xCBB8, .LV),
  (0xCBB9, 0xCBD3, .LVT),
  (0xCBD4, 0xCBD4, .LV),
  (0xCBD5, 0xCBEF, .LVT),
  (0xCBF0, 0xCBF0, .LV),
  (0xCBF1, 0xCC0B, .LVT),
  (0xCC0C, 0xCC0C, .LV),
  (0xCC0D, 0xCC27, .LVT),
  (0xCC28, 0xCC28, .LV),
  (0xCC29, 0xCC43, .LVT),
  (0xCC44, 0xCC44, .LV),
  (0xCC45, 0xCC5F, .LVT),
  (0xCC60, 0xCC60, .LV),
  (0xCC61, 0xCC7B, .LVT),
  (0xCC7C, 0xCC7C, .LV),
  (0xCC7D, 0xCC97, .LVT),
  (0xCC98, 0xCC98, .LV),
  (0xCC99, 0xCCB3, .LVT),
  (0xCCB4, 0xCCB4, .LV),
  (0xCCB5, 0xCCCF, .LVT),
  (0xCCD0, 0xCCD0, .LV),
  (0xCCD1, 0xCCEB, .LVT),
  (0xCCEC, 0xCCEC, .LV),
  (0xCCED, 0xCD07, .LVT),
  (0xCD08, 0xCD08, .LV),
  (0xCD09, 0xCD23, .LVT),
  (0xCD24, 0xCD24, .LV),
  (0xCD25, 0xCD3F, .LVT),
  (0xCD40, 0xCD40, .LV),
  (0xCD41, 0xCD5B, .LVT),
  (0xCD5C, 0xCD5C, .LV),
  (0xCD5D, 0xCD77, .LVT),
  (0xCD78, 0xCD78, .LV),
  (0xCD79, 0xCD93, .LVT),
  (0xCD94, 0xCD94, .LV),
  (0xCD95, 0xCDAF, .LVT),
  (0xCDB0, 0xCDB0, .LV),
  (0xCDB1, 0xCDCB, .LVT),
  (0xCDCC, 0xCDCC, .LV),
  (0xCDCD, 0xCDE7, .LVT),
  (0xCDE8, 0xCDE8, .LV),
  (0xCDE9, 0xCE03, .LVT),
  (0xCE04, 0xCE04, .LV),
  (0xCE05, 0xCE1F, .LVT)]
def graphemeClusterBreak_15 : List (Nat × Nat × GraphemeClusterBreak) := [
  (0xCE20, 0xCE20, .LV),
  (0xCE21, 0xCE3B, .LVT),
  (0xCE3C, 0xCE3C, .LV),
  (0xCE3D, 0xCE57, .LVT),
  (0xCE58, 0xCE58, .LV),
  (0xCE59, 0xCE73, .LVT),
  (0xCE74, 0xCE74, .LV),
  (0xCE75, 0xCE8F, .LVT),
  (0xCE90, 0xCE90, .LV),
  (0xCE91, 0xCEAB, .LVT),
  (0xCEAC, 0xCEAC, .LV),
  (0xCEAD, 0xCEC7, .LVT),
  (0xCEC8, 0xCEC8, .LV),
  (0xCEC9, 0xCEE3, .LVT),
  (0xCEE4, 0xCEE4, .LV),
  (0xCEE5, 0xCEFF, .LVT),
  (0xCF00, 0xCF00, .LV),
  (0xCF01, 0xCF1B, .LVT),
  (0xCF1C, 0xCF1C, .LV),
  (0xCF1D, 0xCF37, .LVT),
  (0xCF38, 0xCF38, .LV),
  (0xCF39, 0xCF53, .LVT),
  (0xCF54, 0xCF54, .LV),
  (0xCF55, 0xCF6F, .LVT),
  (0xCF70, 0xCF70, .LV),
  (0xCF71, 0xCF8B, .LVT),
  (0xCF8C, 0xCF8C, .LV),
  (0xCF8D, 0xCFA7, .LVT),
  (0xCFA8, 0xCFA8, .LV),
  (0xCFA9, 0xCFC3, .LVT),
  (0xCFC4, 0xCFC4, .LV),
  (0xCFC5, 0xCFDF, .LVT),
  (0xCFE0, 0xCFE0, .LV),
  (0xCFE1, 0xCFFB, .LVT),
  (0xCFFC, 0xCFFC, .LV),
  (0xCFFD, 0xD017, .LVT),
  (0xD018, 0xD018, .LV),
  (0xD019, 0xD033, .LVT),
  (0xD034, 0xD034, .LV),
  (0xD035, 0xD04F, .LVT),
  (0xD050, 0xD050, .LV),
  (0xD051, 0xD06B, .LVT),
  (0xD06C, 0xD06C, .LV),
  (0xD06D, 0xD087, .LVT),
  (0xD088, 0xD088, .LV),
  (0xD089, 0xD0A3, .LVT),
  (0xD0A4, 0xD0A4, .LV),
  (0xD0A5, 0xD0BF, .LVT),
  (0xD0C0, 0xD0C0, .LV),
  (0xD0C1, 0xD0DB, .LVT),
  (0xD0DC, 0xD0DC, .LV),
  (0xD0DD, 0xD0F7, .LVT),
  (0xD0F8, 0xD0F8, .LV),
  (0xD0F9, 0xD113, .LVT),
  (0xD114, 0xD114, .LV),
  (0xD115, 0xD12F, .LVT),
  (0xD130, 0xD130, .LV),
  (0xD131, 0xD14B, .LVT),
  (0xD14C, 0xD14C, .LV),
  (0xD14D, 0xD167, .LVT),
  (0xD168, 0xD168, .LV),
  (0xD169, 0xD183, .LVT),
  (0xD184, 0xD184, .LV),
  (0xD185, 0xD19F, .LVT)]
def graphemeClusterBreak_16 : List (Nat × Nat × GraphemeClusterBreak) := [
  (0xD1A0, 0xD1A0, .LV),
  (0xD1A1, 0xD1BB, .LVT),
  (0xD1BC, 0xD1BC, .LV),
  (0xD1BD, 0xD1D7, .LVT),
  (0xD1D8, 0xD1D8, .LV),
  (0xD1D9, 0xD1F3, .LVT),
  (0xD1F4, 0xD1F4, .LV),
  (0xD1F5, 0xD20F, .LVT),
  (0xD210, 0xD210, .LV),
  (0xD211, 0xD22B, .LVT),
  (0xD22C, 0xD22C, .LV),
  (0xD22D, 0xD247, .LVT),
  (0xD248, 0xD248, .LV),
  (0xD249, 0xD263, .LVT),
  (0xD264, 0xD264, .LV),
  (0xD265, 0xD27F, .LVT),
  (0xD280, 0xD280, .LV),
  (0xD281, 0xD29B, .LVT),
  (0xD29C, 0xD29C, .LV),
  (0xD29D, 0xD2B7, .LVT),
  (0xD2B8, 0xD2B8, .LV),
  (0xD2B9, 0xD2D3, .LVT),
  (0xD2D4, 0xD2D4, .LV),
  (0xD2D5, 0xD2EF, .LVT),
  (0xD2F0, 0xD2F0, .LV),
  (0xD2F1, 0xD30B, .LVT),
  (0xD30C, 0xD30C, .LV),
  (0xD30D, 0xD327, .LVT),
  (0xD328, 0xD328, .LV),
  (0xD329, 0xD343, .LVT),
  (0xD344, 0xD344, .LV),
  (0xD345, 0xD35F, .LVT),
  (0xD360, 0xD360, .LV),
  (0xD361, 0xD37B, .LVT),
  (0xD37C, 0xD37C, .LV),
  (0xD37D, 0xD397, .LVT),
  (0xD398, 0xD398, .LV),
  (0xD399, 0xD3B3, .LVT),
  (0xD3B4, 0xD3B4, .LV),
  (0xD3B5, 0xD3CF, .LVT),
  (0xD3D0, 0xD3D0, .LV),
  (0xD3D1, 0xD3EB, .LVT),
  (0xD3EC, 0xD3EC, .LV),
  (0xD3ED, 0xD407, .LVT),
  (0xD408, 0xD408, .LV),
  (0xD409, 0xD423, .LVT),
  (0xD424, 0xD424, .LV),
  (0xD425, 0xD43F, .LVT),
  (0xD440, 0xD440, .LV),
  (0xD441, 0xD45B, .LVT),
  (0xD45C, 0xD45C, .LV),
  (0xD45D, 0xD477, .LVT),
  (0xD478, 0xD478, .LV),
  (0xD479, 0xD493, .LVT),
  (0xD494, 0xD494, .LV),
  (0xD495, 0xD4AF, .LVT),
  (0xD4B0, 0xD4B0, .LV),
  (0xD4B1, 0xD4CB, .LVT),
  (0xD4CC, 0xD4CC, .LV),
  (0xD4CD, 0xD4E7, .LVT),
  (0xD4E8, 0xD4E8, .LV),
  (0xD4E9, 0xD503, .LVT),
  (0xD504, 0xD504, .LV),
  (0xD505, 0xD51F, .LVT)]
def graphemeClusterBreak_17 : List (Nat × Nat × GraphemeClusterBreak) := [
  (0xD520, 0xD520, .LV),
  (0xD521, 0xD53B, .LVT),
  (0xD53C, 0xD53C, .LV),
  (0xD53D, 0xD557, .LVT),
  (0xD558, 0xD558, .LV),
  (0xD559, 0xD573, .LVT),
  (0xD574, 0xD574, .LV),
  (0xD575, 0xD58F, .LVT),
  (0xD590, 0xD590, .LV),
  (0xD591, 0xD5AB, .LVT),
  (0xD5AC, 0xD5AC, .LV),
  (0xD5AD, 0xD5C7, .LVT),
  (0xD5C8, 0xD5C8, .LV),
  (0xD5C9, 0xD5E3, .LVT),
  (0xD5E4, 0xD5E4, .LV),
  (0xD5E5, 0xD5FF, .LVT),
  (0xD600, 0xD600, .LV),
  (0xD601, 0xD61B, .LVT),
  (0xD61C, 0xD61C, .LV),
  (0xD61D, 0xD637, .LVT),
  (0xD638, 0xD638, .LV),
  (0xD639, 0xD653, .LVT),
  (0xD654, 0xD654, .LV),
  (0xD655, 0xD66F, .LVT),
  (0xD670, 0xD670, .LV),
  (0xD671, 0xD68B, .LVT),
  (0xD68C, 0xD68C, .LV),
  (0xD68D, 0xD6A7, .LVT),
  (0xD6A8, 0xD6A8, .LV),
  (0xD6A9, 0xD6C3, .LVT),
  (0xD6C4, 0xD6C4, .LV),
  (0xD6C5, 0xD6DF, .LVT),
  (0xD6E0, 0xD6E0, .LV),
  (0xD6E1, 0xD6FB, .LVT),
  (0xD6FC, 0xD6FC, .LV),
  (0xD6FD, 0xD717, .LVT),
  (0xD718, 0xD718, .LV),
  (0xD719, 0xD733, .LVT),
  (0xD734, 0xD734, .LV),
  (0xD735, 0xD74F, .LVT),
  (0xD750, 0xD750, .LV),
  (0xD751, 0xD76B, .LVT),
  (0xD76C, 0xD76C, .LV),
  (0xD76D, 0xD787, .LVT),
  (0xD788, 0xD788, .LV),
  (0xD789, 0xD7A3, .LVT),
  (0xD7B0, 0xD7C6, .V),
  (0xD7CB, 0xD7FB, .T),
  (0xFB1E, 0xFB1E, .Extend),
  (0xFE00, 0xFE0F, .Extend),
  (0xFE20, 0xFE2F, .Extend),
  (0xFEFF, 0xFEFF, .Control),
  (0xFF9E, 0xFF9F, .Extend),
  (0xFFF0, 0xFFFB, .Control),
  (0x101FD, 0x101FD, .Extend),
  (0x102E0, 0x102E0, .Extend),
  (0x10376, 0x1037A, .Extend),
  (0x10A01, 0x10A03, .Extend),
  (0x10A05, 0x10A06, .Extend),
  (0x10A0C, 0x10A0F, .Extend),
  (0x10A38, 0x10A3A, .Extend),
  (0x10A3F, 0x10A3F, .Extend),
  (0x10AE5, 0x10AE6, .Extend),
  (0x11000, 0x11000, .SpacingMark)]
def graphemeClusterBreak_18 : List (Nat × Nat × GraphemeClusterBreak) := [
  (0x11001, 0x11001, .Extend),
  (0x11002, 0x11002, .SpacingMark),
  (0x11038, 0x11046, .Extend),
  (0x1107F, 0x11081, .Extend),
  (0x11082, 0x11082, .SpacingMark),
  (0x110B0, 0x110B2, .SpacingMark),
  (0x110B3, 0x110B6, .Extend),
  (0x110B7, 0x110B8, .SpacingMark),
  (0x110B9, 0x110BA, .Extend),
  (0x110BD, 0x110BD, .Prepend),
  (0x11100, 0x11102, .Extend),
  (0x11127, 0x1112B, .Extend),
  (0x1112C, 0x1112C, .SpacingMark),
  (0x1112D, 0x11134, .Extend),
  (0x11173, 0x11173, .Extend),
  (0x11180, 0x11181, .Extend),
  (0x11182, 0x11182, .SpacingMark),
  (0x111B3, 0x111B5, .SpacingMark),
  (0x111B6, 0x111BE, .Extend),
  (0x111BF, 0x111C0, .SpacingMark),
  (0x111C2, 0x111C3, .Prepend),
  (0x111CA, 0x111CC, .Extend),
  (0x1122C, 0x1122E, .SpacingMark),
  (0x1122F, 0x11231, .Extend),
  (0x11232, 0x11233, .SpacingMark),
  (0x11234, 0x11234, .Extend),
  (0x11235, 0x11235, .SpacingMark),
  (0x11236, 0x11237, .Extend),
  (0x1123E, 0x1123E, .Extend),
  (0x112DF, 0x112DF, .Extend),
  (0x112E0, 0x112E2, .SpacingMark),
  (0x112E3, 0x112EA, .Extend),
  (0x11300, 0x11301, .Extend),
  (0x11302, 0x11303, .SpacingMark),
  (0x1133C, 0x1133C, .Extend),
  (0x1133E, 0x1133E, .Extend),
  (0x1133F, 0x1133F, .SpacingMark),
  (0x11340, 0x11340, .Extend),
  (0x11341, 0x11344, .SpacingMark),
  (0x11347, 0x11348, .SpacingMark),
  (0x1134B, 0x1134D, .SpacingMark),
  (0x11357, 0x11357, .Extend),
  (0x11362, 0x11363, .SpacingMark),
  (0x11366, 0x1136C, .Extend),
  (0x11370, 0x11374, .Extend),
  (0x11435, 0x11437, .SpacingMark),
  (0x11438, 0x1143F, .Extend),
  (0x11440, 0x11441, .SpacingMark),
  (0x11442, 0x11444, .Extend),
  (0x11445, 0x11445, .SpacingMark),
  (0x11446, 0x11446, .Extend),
  (0x114B0, 0x114B0, .Extend),
  (0x114B1, 0x114B2, .SpacingMark),
  (0x114B3, 0x114B8, .Extend),
  (0x114B9, 0x114B9, .SpacingMark),
  (0x114BA, 0x114BA, .Extend),
  (0x114BB, 0x114BC, .SpacingMark),
  (0x114BD, 0x114BD, .Extend),
  (0x114BE, 0x114BE, .SpacingMark),
  (0x114BF, 0x114C0, .Extend),
  (0x114C1, 0x114C1, .SpacingMark),
  (0x114C2, 0x114C3, .Extend),
  (0x115AF, 0x115AF, .Extend),
  (0x115B0, 0x115B1, .SpacingMark)]
def graphemeClusterBreak_19 : List (Nat × Nat × GraphemeClusterBreak) := [
  (0x115B2, 0x115B5, .Extend),
  (0x115B8, 0x115BB, .SpacingMark),
  (0x115BC, 0x115BD, .Extend),
  (0x115BE, 0x115BE, .SpacingMark),
  (0x115BF, 0x115C0, .Extend),
  (0x115DC, 0x115DD, .Extend),
  (0x11630, 0x11632, .SpacingMark),
  (0x11633, 0x1163A, .Extend),
  (0x1163B, 0x1163C, .SpacingMark),
  (0x1163D, 0x1163D, .Extend),
  (0x1163E, 0x1163E, .SpacingMark),
  (0x1163F, 0x11640, .Extend),
  (0x116AB, 0x116AB, .Extend),
  (0x116AC, 0x116AC, .SpacingMark),
  (0x116AD, 0x116AD, .Extend),
  (0x116AE, 0x116AF, .SpacingMark),
  (0x116B0, 0x116B5, .Extend),
  (0x116B6, 0x116B6, .SpacingMark),
  (0x116B7, 0x116B7, .Extend),
  (0x1171D, 0x1171F, .Extend),
  (0x11720, 0x11721, .SpacingMark),
  (0x11722, 0x11725, .Extend),
  (0x11726, 0x11726, .SpacingMark),
  (0x11727, 0x1172B, .Extend),
  (0x11A01, 0x11A06, .Extend),
  (0x11A07, 0x11A08, .SpacingMark),
  (0x11A09, 0x11A0A, .Extend),
  (0x11A33, 0x11A38, .Extend),
  (0x11A39, 0x11A39, .SpacingMark),
  (0x11A3A, 0x11A3A, .Prepend),
  (0x11A3B, 0x11A3E, .Extend),
  (0x11A47, 0x11A47, .Extend),
  (0x11A51, 0x11A56, .Extend),
  (0x11A57, 0x11A58, .SpacingMark),
  (0x11A59, 0x11A5B, .Extend),
  (0x11A86, 0x11A89, .Prepend),
  (0x11A8A, 0x11A96, .Extend),
  (0x11A97, 0x11A97, .SpacingMark),
  (0x11A98, 0x11A99, .Extend),
  (0x11C2F, 0x11C2F, .SpacingMark),
  (0x11C30, 0x11C36, .Extend),
  (0x11C38, 0x11C3D, .Extend),
  (0x11C3E, 0x11C3E, .SpacingMark),
  (0x11C3F, 0x11C3F, .Extend),
  (0x11C92, 0x11CA7, .Extend),
  (0x11CA9, 0x11CA9, .SpacingMark),
  (0x11CAA, 0x11CB0, .Extend),
  (0x11CB1, 0x11CB1, .SpacingMark),
  (0x11CB2, 0x11CB3, .Extend),
  (0x11CB4, 0x11CB4, .SpacingMark),
  (0x11CB5, 0x11CB6, .Extend),
  (0x11D31, 0x11D36, .Extend),
  (0x11D3A, 0x11D3A, .Extend),
  (0x11D3C, 0x11D3D, .Extend),
  (0x11D3F, 0x11D45, .Extend),
  (0x11D46, 0x11D46, .Prepend),
  (0x11D47, 0x11D47, .Extend),
  (0x16AF0, 0x16AF4, .Extend),
  (0x16B30, 0x16B36, .Extend),
  (0x16F51, 0x16F7E, .SpacingMark),
  (0x16F8F, 0x16F92, .Extend),
  (0x1BC9D, 0x1BC9E, .Extend),
  (0x1BCA0, 0x1BCA3, .Control),
  (0x1D165, 0x1D165, .Extend)]
def graphemeClusterBreak_20 : List (Nat × Nat × GraphemeClusterBreak) := [
  (0x1D166, 0x1D166, .SpacingMark),
  (0x1D167, 0x1D169, .Extend),
  (0x1D16D, 0x1D16D, .SpacingMark),
  (0x1D16E, 0x1D172, .Extend),
  (0x1D173, 0x1D17A, .Control),
  (0x1D17B, 0x1D182, .Extend),
  (0x1D185, 0x1D18B, .Extend),
  (0x1D1AA, 0x1D1AD, .Extend),
  (0x1D242, 0x1D244, .Extend),
  (0x1DA00, 0x1DA36, .Extend),
  (0x1DA3B, 0x1DA6C, .Extend),
  (0x1DA75, 0x1DA75, .Extend),
  (0x1DA84, 0x1DA84, .Extend),
  (0x1DA9B, 0x1DA9F, .Extend),
  (0x1DAA1, 0x1DAAF, .Extend),
  (0x1E000, 0x1E006, .Extend),
  (0x1E008, 0x1E018, .Extend),
  (0x1E01B, 0x1E021, .Extend),
  (0x1E023, 0x1E024, .Extend),
  (0x1E026, 0x1E02A, .Extend),
  (0x1E8D0, 0x1E8D6, .Extend),
  (0x1E944, 0x1E94A, .Extend),
  (0x1F1E6, 0x1F1FF, .RegionalIndicator),
  (0x1F308, 0x1F308, .GlueAfterZwj),
  (0x1F33E, 0x1F33E, .GlueAfterZwj),
  (0x1F373, 0x1F373, .GlueAfterZwj),
  (0x1F385, 0x1F385, .EBase),
  (0x1F393, 0x1F393, .GlueAfterZwj),
  (0x1F3A4, 0x1F3A4, .GlueAfterZwj),
  (0x1F3A8, 0x1F3A8, .GlueAfterZwj),
  (0x1F3C2, 0x1F3C4, .EBase),
  (0x1F3C7, 0x1F3C7, .EBase),
  (0x1F3CA, 0x1F3CC, .EBase),
  (0x1F3EB, 0x1F3EB, .GlueAfterZwj),
  (0x1F3ED, 0x1F3ED, .GlueAfterZwj),
  (0x1F3FB, 0x1F3FF, .EModifier),
  (0x1F442, 0x1F443, .EBase),
  (0x1F446, 0x1F450, .EBase),
  (0x1F466, 0x1F469, .EBaseGAZ),
  (0x1F46E, 0x1F46E, .EBase),
  (0x1F470, 0x1F478, .EBase),
  (0x1F47C, 0x1F47C, .EBase),
  (0x1F481, 0x1F483, .EBase),
  (0x1F485, 0x1F487, .EBase),
  (0x1F48B, 0x1F48B, .GlueAfterZwj),
  (0x1F4AA, 0x1F4AA, .EBase),
  (0x1F4BB, 0x1F4BC, .GlueAfterZwj),
  (0x1F527, 0x1F527, .GlueAfterZwj),
  (0x1F52C, 0x1F52C, .GlueAfterZwj),
  (0x1F574, 0x1F575, .EBase),
  (0x1F57A, 0x1F57A, .EBase),
  (0x1F590, 0x1F590, .EBase),
  (0x1F595, 0x1F596, .EBase),
  (0x1F5E8, 0x1F5E8, .GlueAfterZwj),
  (0x1F645, 0x1F647, .EBase),
  (0x1F64B, 0x1F64F, .EBase),
  (0x1F680, 0x1F680, .GlueAfterZwj),
  (0x1F692, 0x1F692, .GlueAfterZwj),
  (0x1F6A3, 0x1F6A3, .EBase),
  (0x1F6B4, 0x1F6B6, .EBase),
  (0x1F6C0, 0x1F6C0, .EBase),
  (0x1F6CC, 0x1F6CC, .EBase),
  (0x1F918, 0x1F91C, .EBase),
  (0x1F91E, 0x1F91F, .EBase)]
def graphemeClusterBreak_21 : List (Nat × Nat × GraphemeClusterBreak) := [
  (0x1F926, 0x1F926, .EBase),
  (0x1F930, 0x1F939, .EBase),
  (0x1F93D, 0x1F93E, .EBase),
  (0x1F9D1, 0x1F9DD, .EBase),
  (0xE0000, 0xE001F, .Control),
  (0xE0020, 0xE007F, .Extend),
  (0xE0080, 0xE00FF, .Control),
  (0xE0100, 0xE01EF, .Extend),
  (0xE01F0, 0xE0FFF, .Control)]
/-- unic/ucd/segment/tables/grapheme_cluster_break.rsv (all 1353 entries, `CharDataTable::Range`), in chunks of 64. -/
def graphemeClusterBreak : List (List (Nat × Nat × GraphemeClusterBreak)) := [graphemeClusterBreak_0, graphemeClusterBreak_1, graphemeClusterBreak_2, graphemeClusterBreak_3, graphemeClusterBreak_4, graphemeClusterBreak_5, graphemeClusterBreak_6, graphemeClusterBreak_7, graphemeClusterBreak_8, graphemeClusterBreak_9, graphemeClusterBreak_10, graphemeClusterBreak_11, graphemeClusterBreak_12, graphemeClusterBreak_13, graphemeClusterBreak_14, graphemeClusterBreak_15, graphemeClusterBreak_16, graphemeClusterBreak_17, graphemeClusterBreak_18, graphemeClusterBreak_19, graphemeClusterBreak_20, graphemeClusterBreak_21]

end Data
