import Verif.Data.Enums
/-! Generated by tools/gen_tables.py: literal translation of data tables. -/
namespace Data

def generalCategory_0 : List (Nat × Nat × GeneralCategory) := [
  (0, 0x1F, .Control),
  (0x20, 0x20, .SpaceSeparator),
  (0x21, 0x23, .OtherPunctuation),
  (0x24, 0x24, .CurrencySymbol),
  (0x25, 0x27, .OtherPunctuation),
  (0x28, 0x28, .OpenPunctuation),
  (0x29, 0x29, .ClosePunctuation),
  (0x2A, 0x2A, .OtherPunctuation),
  (0x2B, 0x2B, .MathSymbol),
  (0x2C, 0x2C, .OtherPunctuation),
  (0x2D, 0x2D, .DashPunctuation),
  (0x2E, 0x2F, .OtherPunctuation),
  (0x30, 0x39, .DecimalNumber),
  (0x3A, 0x3B, .OtherPunctuation),
  (0x3C, 0x3E, .MathSymbol),
  (0x3F, 0x40, .OtherPunctuation),
  (0x41, 0x5A, .UppercaseLetter),
  (0x5B, 0x5B, .OpenPunctuation),
  (0x5C, 0x5C, .OtherPunctuation),
  (0x5D, 0x5D, .ClosePunctuation),
  (0x5E, 0x5E, .ModifierSymbol),
  (0x5F, 0x5F, .ConnectorPunctuation),
  (0x60, 0x60, .ModifierSymbol),
  (0x61, 0x7A, .LowercaseLetter),
  (0x7B, 0x7B, .OpenPunctuation),
  (0x7C, 0x7C, .MathSymbol),
  (0x7D, 0x7D, .ClosePunctuation),
  (0x7E, 0x7E, .MathSymbol),
  (0x7F, 0x9F, .Control),
  (0xA0, 0xA0, .SpaceSeparator),
  (0xA1, 0xA1, .OtherPunctuation),
  (0xA2, 0xA5, .CurrencySymbol),
  (0xA6, 0xA6, .OtherSymbol),
  (0xA7, 0xA7, .OtherPunctuation),
  (0xA8, 0xA8, .ModifierSymbol),
  (0xA9, 0xA9, .OtherSymbol),
  (0xAA, 0xAA, .OtherLetter),
  (0xAB, 0xAB, .InitialPunctuation),
  (0xAC, 0xAC, .MathSymbol),
  (0xAD, 0xAD, .Format),
  (0xAE, 0xAE, .OtherSymbol),
  (0xAF, 0xAF, .ModifierSymbol),
  (0xB0, 0xB0, .OtherSymbol),
  (0xB1, 0xB1, .MathSymbol),
  (0xB2, 0xB3, .OtherNumber),
  (0xB4, 0xB4, .ModifierSymbol),
  (0xB5, 0xB5, .LowercaseLetter),
  (0xB6, 0xB7, .OtherPunctuation),
  (0xB8, 0xB8, .ModifierSymbol),
  (0xB9, 0xB9, .OtherNumber),
  (0xBA, 0xBA, .OtherLetter),
  (0xBB, 0xBB, .FinalPunctuation),
  (0xBC, 0xBE, .OtherNumber),
  (0xBF, 0xBF, .OtherPunctuation),
  (0xC0, 0xD6, .UppercaseLetter),
  (0xD7, 0xD7, .MathSymbol),
  (0xD8, 0xDE, .UppercaseLetter),
  (0xDF, 0xF6, .LowercaseLetter),
  (0xF7, 0xF7, .MathSymbol),
  (0xF8, 0xFF, .LowercaseLetter),
  (0x100, 0x100, .UppercaseLetter),
  (0x101, 0x101, .LowercaseLetter),
  (0x102, 0x102, .UppercaseLetter),
  (0x103, 0x103, .LowercaseLetter)]
def generalCategory_1 : List (Nat × Nat × GeneralCategory) := [
  (0x104, 0x104, .UppercaseLetter),
  (0x105, 0x105, .LowercaseLetter),
  (0x106, 0x106, .UppercaseLetter),
  (0x107, 0x107, .LowercaseLetter),
  (0x108, 0x108, .UppercaseLetter),
  (0x109, 0x109, .LowercaseLetter),
  (0x10A, 0x10A, .UppercaseLetter),
  (0x10B, 0x10B, .LowercaseLetter),
  (0x10C, 0x10C, .UppercaseLetter),
  (0x10D, 0x10D, .LowercaseLetter),
  (0x10E, 0x10E, .UppercaseLetter),
  (0x10F, 0x10F, .LowercaseLetter),
  (0x110, 0x110, .UppercaseLetter),
  (0x111, 0x111, .LowercaseLetter),
  (0x112, 0x112, .UppercaseLetter),
  (0x113, 0x113, .LowercaseLetter),
  (0x114, 0x114, .UppercaseLetter),
  (0x115, 0x115, .LowercaseLetter),
  (0x116, 0x116, .UppercaseLetter),
  (0x117, 0x117, .LowercaseLetter),
  (0x118, 0x118, .UppercaseLetter),
  (0x119, 0x119, .LowercaseLetter),
  (0x11A, 0x11A, .UppercaseLetter),
  (0x11B, 0x11B, .LowercaseLetter),
  (0x11C, 0x11C, .UppercaseLetter),
  (0x11D, 0x11D, .LowercaseLetter),
  (0x11E, 0x11E, .UppercaseLetter),
  (0x11F, 0x11F, .LowercaseLetter),
  (0x120, 0x120, .UppercaseLetter),
  (0x121, 0x121, .LowercaseLetter),
  (0x122, 0x122, .UppercaseLetter),
  (0x123, 0x123, .LowercaseLetter),
  (0x124, 0x124, .UppercaseLetter),
  (0x125, 0x125, .LowercaseLetter),
  (0x126, 0x126, .UppercaseLetter),
  (0x127, 0x127, .LowercaseLetter),
  (0x128, 0x128, .UppercaseLetter),
  (0x129, 0x129, .LowercaseLetter),
  (0x12A, 0x12A, .UppercaseLetter),
  (0x12B, 0x12B, .LowercaseLetter),
  (0x12C, 0x12C, .UppercaseLetter),
  (0x12D, 0x12D, .LowercaseLetter),
  (0x12E, 0x12E, .UppercaseLetter),
  (0x12F, 0x12F, .LowercaseLetter),
  (0x130, 0x130, .UppercaseLetter),
  (0x131, 0x131, .LowercaseLetter),
  (0x132, 0x132, .UppercaseLetter),
  (0x133, 0x133, .LowercaseLetter),
  (0x134, 0x134, .UppercaseLetter),
  (0x135, 0x135, .LowercaseLetter),
  (0x136, 0x136, .UppercaseLetter),
  (0x137, 0x138, .LowercaseLetter),
  (0x139, 0x139, .UppercaseLetter),
  (0x13A, 0x13A, .LowercaseLetter),
  (0x13B, 0x13B, .UppercaseLetter),
  (0x13C, 0x13C, .LowercaseLetter),
  (0x13D, 0x13D, .UppercaseLetter),
  (0x13E, 0x13E, .LowercaseLetter),
  (0x13F, 0x13F, .UppercaseLetter),
  (0x140, 0x140, .LowercaseLetter),
  (0x141, 0x141, .UppercaseLetter),
  (0x142, 0x142, .LowercaseLetter),
  (0x143, 0x143, .UppercaseLetter),
  (0x144, 0x144, .LowercaseLetter)]
def generalCategory_2 : List (Nat × Nat × GeneralCategory) := [
  (0x145, 0x145, .UppercaseLetter),
  (0x146, 0x146, .LowercaseLetter),
  (0x147, 0x147, .UppercaseLetter),
  (0x148, 0x149, .LowercaseLetter),
  (0x14A, 0x14A, .UppercaseLetter),
  (0x14B, 0x14B, .LowercaseLetter),
  (0x14C, 0x14C, .UppercaseLetter),
  (0x14D, 0x14D, .LowercaseLetter),
  (0x14E, 0x14E, .UppercaseLetter),
  (0x14F, 0x14F, .LowercaseLetter),
  (0x150, 0x150, .UppercaseLetter),
  (0x151, 0x151, .LowercaseLetter),
  (0x152, 0x152, .UppercaseLetter),
  (0x153, 0x153, .LowercaseLetter),
  (0x154, 0x154, .UppercaseLetter),
  (0x155, 0x155, .LowercaseLetter),
  (0x156, 0x156, .UppercaseLetter),
  (0x157, 0x157, .LowercaseLetter),
  (0x158, 0x158, .UppercaseLetter),
  (0x159, 0x159, .LowercaseLetter),
  (0x15A, 0x15A, .UppercaseLetter),
  (0x15B, 0x15B, .LowercaseLetter),
  (0x15C, 0x15C, .UppercaseLetter),
  (0x15D, 0x15D, .LowercaseLetter),
  (0x15E, 0x15E, .UppercaseLetter),
  (0x15F, 0x15F, .LowercaseLetter),
  (0x160, 0x160, .UppercaseLetter),
  (0x161, 0x161, .LowercaseLetter),
  (0x162, 0x162, .UppercaseLetter),
  (0x163, 0x163, .LowercaseLetter),
  (0x164, 0x164, .UppercaseLetter),
  (0x165, 0x165, .LowercaseLetter),
  (0x166, 0x166, .UppercaseLetter),
  (0x167, 0x167, .LowercaseLetter),
  (0x168, 0x168, .UppercaseLetter),
  (0x169, 0x169, .LowercaseLetter),
  (0x16A, 0x16A, .UppercaseLetter),
  (0x16B, 0x16B, .LowercaseLetter),
  (0x16C, 0x16C, .UppercaseLetter),
  (0x16D, 0x16D, .LowercaseLetter),
  (0x16E, 0x16E, .UppercaseLetter),
  (0x16F, 0x16F, .LowercaseLetter),
  (0x170, 0x170, .UppercaseLetter),
  (0x171, 0x171, .LowercaseLetter),
  (0x172, 0x172, .UppercaseLetter),
  (0x173, 0x173, .LowercaseLetter),
  (0x174, 0x174, .UppercaseLetter),
  (0x175, 0x175, .LowercaseLetter),
  (0x176, 0x176, .UppercaseLetter),
  (0x177, 0x177, .LowercaseLetter),
  (0x178, 0x179, .UppercaseLetter),
  (0x17A, 0x17A, .LowercaseLetter),
  (0x17B, 0x17B, .UppercaseLetter),
  (0x17C, 0x17C, .LowercaseLetter),
  (0x17D, 0x17D, .UppercaseLetter),
  (0x17E, 0x180, .LowercaseLetter),
  (0x181, 0x182, .UppercaseLetter),
  (0x183, 0x183, .LowercaseLetter),
  (0x184, 0x184, .UppercaseLetter),
  (0x185, 0x185, .LowercaseLetter),
  (0x186, 0x187, .UppercaseLetter),
  (0x188, 0x188, .LowercaseLetter),
  (0x189, 0x18B, .UppercaseLetter),
  (0x18C, 0x18D, .LowercaseLetter)]
def generalCategory_3 : List (Nat × Nat × GeneralCategory) := [
  (0x18E, 0x191, .UppercaseLetter),
  (0x192, 0x192, .LowercaseLetter),
  (0x193, 0x194, .UppercaseLetter),
  (0x195, 0x195, .LowercaseLetter),
  (0x196, 0x198, .UppercaseLetter),
  (0x199, 0x19B, .LowercaseLetter),
  (0x19C, 0x19D, .UppercaseLetter),
  (0x19E, 0x19E, .LowercaseLetter),
  (0x19F, 0x1A0, .UppercaseLetter),
  (0x1A1, 0x1A1, .LowercaseLetter),
  (0x1A2, 0x1A2, .UppercaseLetter),
  (0x1A3, 0x1A3, .LowercaseLetter),
  (0x1A4, 0x1A4, .UppercaseLetter),
  (0x1A5, 0x1A5, .LowercaseLetter),
  (0x1A6, 0x1A7, .UppercaseLetter),
  (0x1A8, 0x1A8, .LowercaseLetter),
  (0x1A9, 0x1A9, .UppercaseLetter),
  (0x1AA, 0x1AB, .LowercaseLetter),
  (0x1AC, 0x1AC, .UppercaseLetter),
  (0x1AD, 0x1AD, .LowercaseLetter),
  (0x1AE, 0x1AF, .UppercaseLetter),
  (0x1B0, 0x1B0, .LowercaseLetter),
  (0x1B1, 0x1B3, .UppercaseLetter),
  (0x1B4, 0x1B4, .LowercaseLetter),
  (0x1B5, 0x1B5, .UppercaseLetter),
  (0x1B6, 0x1B6, .LowercaseLetter),
  (0x1B7, 0x1B8, .UppercaseLetter),
  (0x1B9, 0x1BA, .LowercaseLetter),
  (0x1BB, 0x1BB, .OtherLetter),
  (0x1BC, 0x1BC, .UppercaseLetter),
  (0x1BD, 0x1BF, .LowercaseLetter),
  (0x1C0, 0x1C3, .OtherLetter),
  (0x1C4, 0x1C4, .UppercaseLetter),
  (0x1C5, 0x1C5, .TitlecaseLetter),
  (0x1C6, 0x1C6, .LowercaseLetter),
  (0x1C7, 0x1C7, .UppercaseLetter),
  (0x1C8, 0x1C8, .TitlecaseLetter),
  (0x1C9, 0x1C9, .LowercaseLetter),
  (0x1CA, 0x1CA, .UppercaseLetter),
  (0x1CB, 0x1CB, .TitlecaseLetter),
  (0x1CC, 0x1CC, .LowercaseLetter),
  (0x1CD, 0x1CD, .UppercaseLetter),
  (0x1CE, 0x1CE, .LowercaseLetter),
  (0x1CF, 0x1CF, .UppercaseLetter),
  (0x1D0, 0x1D0, .LowercaseLetter),
  (0x1D1, 0x1D1, .UppercaseLetter),
  (0x1D2, 0x1D2, .LowercaseLetter),
  (0x1D3, 0x1D3, .UppercaseLetter),
  (0x1D4, 0x1D4, .LowercaseLetter),
  (0x1D5, 0x1D5, .UppercaseLetter),
  (0x1D6, 0x1D6, .LowercaseLetter),
  (0x1D7, 0x1D7, .UppercaseLetter),
  (0x1D8, 0x1D8, .LowercaseLetter),
  (0x1D9, 0x1D9, .UppercaseLetter),
  (0x1DA, 0x1DA, .LowercaseLetter),
  (0x1DB, 0x1DB, .UppercaseLetter),
  (0x1DC, 0x1DD, .LowercaseLetter),
  (0x1DE, 0x1DE, .UppercaseLetter),
  (0x1DF, 0x1DF, .LowercaseLetter),
  (0x1E0, 0x1E0, .UppercaseLetter),
  (0x1E1, 0x1E1, .LowercaseLetter),
  (0x1E2, 0x1E2, .UppercaseLetter),
  (0x1E3, 0x1E3, .LowercaseLetter),
  (0x1E4, 0x1E4, .UppercaseLetter)]
def generalCategory_4 : List (Nat × Nat × GeneralCategory) := [
  (0x1E5, 0x1E5, .LowercaseLetter),
  (0x1E6, 0x1E6, .UppercaseLetter),
  (0x1E7, 0x1E7, .LowercaseLetter),
  (0x1E8, 0x1E8, .UppercaseLetter),
  (0x1E9, 0x1E9, .LowercaseLetter),
  (0x1EA, 0x1EA, .UppercaseLetter),
  (0x1EB, 0x1EB, .LowercaseLetter),
  (0x1EC, 0x1EC, .UppercaseLetter),
  (0x1ED, 0x1ED, .LowercaseLetter),
  (0x1EE, 0x1EE, .UppercaseLetter),
  (0x1EF, 0x1F0, .LowercaseLetter),
  (0x1F1, 0x1F1, .UppercaseLetter),
  (0x1F2, 0x1F2, .TitlecaseLetter),
  (0x1F3, 0x1F3, .LowercaseLetter),
  (0x1F4, 0x1F4, .UppercaseLetter),
  (0x1F5, 0x1F5, .LowercaseLetter),
  (0x1F6, 0x1F8, .UppercaseLetter),
  (0x1F9, 0x1F9, .LowercaseLetter),
  (0x1FA, 0x1FA, .UppercaseLetter),
  (0x1FB, 0x1FB, .LowercaseLetter),
  (0x1FC, 0x1FC, .UppercaseLetter),
  (0x1FD, 0x1FD, .LowercaseLetter),
  (0x1FE, 0x1FE, .UppercaseLetter),
  (0x1FF, 0x1FF, .LowercaseLetter),
  (0x200, 0x200, .UppercaseLetter),
  (0x201, 0x201, .LowercaseLetter),
  (0x202, 0x202, .UppercaseLetter),
  (0x203, 0x203, .LowercaseLetter),
  (0x204, 0x204, .UppercaseLetter),
  (0x205, 0x205, .LowercaseLetter),
  (0x206, 0x206, .UppercaseLetter),
  (0x207, 0x207, .LowercaseLetter),
  (0x208, 0x208, .UppercaseLetter),
  (0x209, 0x209, .LowercaseLetter),
  (0x20A, 0x20A, .UppercaseLetter),
  (0x20B, 0x20B, .LowercaseLetter),
  (0x20C, 0x20C, .UppercaseLetter),
  (0x20D, 0x20D, .LowercaseLetter),
  (0x20E, 0x20E, .UppercaseLetter),
  (0x20F, 0x20F, .LowercaseLetter),
  (0x210, 0x210, .UppercaseLetter),
  (0x211, 0x211, .LowercaseLetter),
  (0x212, 0x212, .UppercaseLetter),
  (0x213, 0x213, .LowercaseLetter),
  (0x214, 0x214, .UppercaseLetter),
  (0x215, 0x215, .LowercaseLetter),
  (0x216, 0x216, .UppercaseLetter),
  (0x217, 0x217, .LowercaseLetter),
  (0x218, 0x218, .UppercaseLetter),
  (0x219, 0x219, .LowercaseLetter),
  (0x21A, 0x21A, .UppercaseLetter),
  (0x21B, 0x21B, .LowercaseLetter),
  (0x21C, 0x21C, .UppercaseLetter),
  (0x21D, 0x21D, .LowercaseLetter),
  (0x21E, 0x21E, .UppercaseLetter),
  (0x21F, 0x21F, .LowercaseLetter),
  (0x220, 0x220, .UppercaseLetter),
  (0x221, 0x221, .LowercaseLetter),
  (0x222, 0x222, .UppercaseLetter),
  (0x223, 0x223, .LowercaseLetter),
  (0x224, 0x224, .UppercaseLetter),
  (0x225, 0x225, .LowercaseLetter),
  (0x226, 0x226, .UppercaseLetter),
  (0x227, 0x227, .LowercaseLetter)]
def generalCategory_5 : List (Nat × Nat × GeneralCategory) := [
  (0x228, 0x228, .UppercaseLetter),
  (0x229, 0x229, .LowercaseLetter),
  (0x22A, 0x22A, .UppercaseLetter),
  (0x22B, 0x22B, .LowercaseLetter),
  (0x22C, 0x22C, .UppercaseLetter),
  (0x22D, 0x22D, .LowercaseLetter),
  (0x22E, 0x22E, .UppercaseLetter),
  (0x22F, 0x22F, .LowercaseLetter),
  (0x230, 0x230, .UppercaseLetter),
  (0x231, 0x231, .LowercaseLetter),
  (0x232, 0x232, .UppercaseLetter),
  (0x233, 0x239, .LowercaseLetter),
  (0x23A, 0x23B, .UppercaseLetter),
  (0x23C, 0x23C, .LowercaseLetter),
  (0x23D, 0x23E, .UppercaseLetter),
  (0x23F, 0x240, .LowercaseLetter),
  (0x241, 0x241, .UppercaseLetter),
  (0x242, 0x242, .LowercaseLetter),
  (0x243, 0x246, .UppercaseLetter),
  (0x247, 0x247, .LowercaseLetter),
  (0x248, 0x248, .UppercaseLetter),
  (0x249, 0x249, .LowercaseLetter),
  (0x24A, 0x24A, .UppercaseLetter),
  (0x24B, 0x24B, .LowercaseLetter),
  (0x24C, 0x24C, .UppercaseLetter),
  (0x24D, 0x24D, .LowercaseLetter),
  (0x24E, 0x24E, .UppercaseLetter),
  (0x24F, 0x293, .LowercaseLetter),
  (0x294, 0x294, .OtherLetter),
  (0x295, 0x2AF, .LowercaseLetter),
  (0x2B0, 0x2C1, .ModifierLetter),
  (0x2C2, 0x2C5, .ModifierSymbol),
  (0x2C6, 0x2D1, .ModifierLetter),
  (0x2D2, 0x2DF, .ModifierSymbol),
  (0x2E0, 0x2E4, .ModifierLetter),
  (0x2E5, 0x2EB, .ModifierSymbol),
  (0x2EC, 0x2EC, .ModifierLetter),
  (0x2ED, 0x2ED, .ModifierSymbol),
  (0x2EE, 0x2EE, .ModifierLetter),
  (0x2EF, 0x2FF, .ModifierSymbol),
  (0x300, 0x36F, .NonspacingMark),
  (0x370, 0x370, .UppercaseLetter),
  (0x371, 0x371, .LowercaseLetter),
  (0x372, 0x372, .UppercaseLetter),
  (0x373, 0x373, .LowercaseLetter),
  (0x374, 0x374, .ModifierLetter),
  (0x375, 0x375, .ModifierSymbol),
  (0x376, 0x376, .UppercaseLetter),
  (0x377, 0x377, .LowercaseLetter),
  (0x37A, 0x37A, .ModifierLetter),
  (0x37B, 0x37D, .LowercaseLetter),
  (0x37E, 0x37E, .OtherPunctuation),
  (0x37F, 0x37F, .UppercaseLetter),
  (0x384, 0x385, .ModifierSymbol),
  (0x386, 0x386, .UppercaseLetter),
  (0x387, 0x387, .OtherPunctuation),
  (0x388, 0x38A, .UppercaseLetter),
  (0x38C, 0x38C, .UppercaseLetter),
  (0x38E, 0x38F, .UppercaseLetter),
  (0x390, 0x390, .LowercaseLetter),
  (0x391, 0x3A1, .UppercaseLetter),
  (0x3A3, 0x3AB, .UppercaseLetter),
  (0x3AC, 0x3CE, .LowercaseLetter),
  (0x3CF, 0x3CF, .UppercaseLetter)]
def generalCategory_6 : List (Nat × Nat × GeneralCategory) := [
  (0x3D0, 0x3D1, .LowercaseLetter),
  (0x3D2, 0x3D4, .UppercaseLetter),
  (0x3D5, 0x3D7, .LowercaseLetter),
  (0x3D8, 0x3D8, .UppercaseLetter),
  (0x3D9, 0x3D9, .LowercaseLetter),
  (0x3DA, 0x3DA, .UppercaseLetter),
  (0x3DB, 0x3DB, .LowercaseLetter),
  (0x3DC, 0x3DC, .UppercaseLetter),
  (0x3DD, 0x3DD, .LowercaseLetter),
  (0x3DE, 0x3DE, .UppercaseLetter),
  (0x3DF, 0x3DF, .LowercaseLetter),
  (0x3E0, 0x3E0, .UppercaseLetter),
  (0x3E1, 0x3E1, .LowercaseLetter),
  (0x3E2, 0x3E2, .UppercaseLetter),
  (0x3E3, 0x3E3, .LowercaseLetter),
  (0x3E4, 0x3E4, .UppercaseLetter),
  (0x3E5, 0x3E5, .LowercaseLetter),
  (0x3E6, 0x3E6, .UppercaseLetter),
  (0x3E7, 0x3E7, .LowercaseLetter),
  (0x3E8, 0x3E8, .UppercaseLetter),
  (0x3E9, 0x3E9, .LowercaseLetter),
  (0x3EA, 0x3EA, .UppercaseLetter),
  (0x3EB, 0x3EB, .LowercaseLetter),
  (0x3EC, 0x3EC, .UppercaseLetter),
  (0x3ED, 0x3ED, .LowercaseLetter),
  (0x3EE, 0x3EE, .UppercaseLetter),
  (0x3EF, 0x3F3, .LowercaseLetter),
  (0x3F4, 0x3F4, .UppercaseLetter),
  (0x3F5, 0x3F5, .LowercaseLetter),
  (0x3F6, 0x3F6, .MathSymbol),
  (0x3F7, 0x3F7, .UppercaseLetter),
  (0x3F8, 0x3F8, .LowercaseLetter),
  (0x3F9, 0x3FA, .UppercaseLetter),
  (0x3FB, 0x3FC, .LowercaseLetter),
  (0x3FD, 0x42F, .UppercaseLetter),
  (0x430, 0x45F, .LowercaseLetter),
  (0x460, 0x460, .UppercaseLetter),
  (0x461, 0x461, .LowercaseLetter),
  (0x462, 0x462, .UppercaseLetter),
  (0x463, 0x463, .LowercaseLetter),
  (0x464, 0x464, .UppercaseLetter),
  (0x465, 0x465, .LowercaseLetter),
  (0x466, 0x466, .UppercaseLetter),
  (0x467, 0x467, .LowercaseLetter),
  (0x468, 0x468, .UppercaseLetter),
  (0x469, 0x469, .LowercaseLetter),
  (0x46A, 0x46A, .UppercaseLetter),
  (0x46B, 0x46B, .LowercaseLetter),
  (0x46C, 0x46C, .UppercaseLetter),
  (0x46D, 0x46D, .LowercaseLetter),
  (0x46E, 0x46E, .UppercaseLetter),
  (0x46F, 0x46F, .LowercaseLetter),
  (0x470, 0x470, .UppercaseLetter),
  (0x471, 0x471, .LowercaseLetter),
  (0x472, 0x472, .UppercaseLetter),
  (0x473, 0x473, .LowercaseLetter),
  (0x474, 0x474, .UppercaseLetter),
  (0x475, 0x475, .LowercaseLetter),
  (0x476, 0x476, .UppercaseLetter),
  (0x477, 0x477, .LowercaseLetter),
  (0x478, 0x478, .UppercaseLetter),
  (0x479, 0x479, .LowercaseLetter),
  (0x47A, 0x47A, .UppercaseLetter),
  (0x47B, 0x47B, .LowercaseLetter)]
def generalCategory_7 : List (Nat × Nat × GeneralCategory) := [
  (0x47C, 0x47C, .UppercaseLetter),
  (0x47D, 0x47D, .LowercaseLetter),
  (0x47E, 0x47E, .UppercaseLetter),
  (0x47F, 0x47F, .LowercaseLetter),
  (0x480, 0x480, .UppercaseLetter),
  (0x481, 0x481, .LowercaseLetter),
  (0x482, 0x482, .OtherSymbol),
  (0x483, 0x487, .NonspacingMark),
  (0x488, 0x489, .EnclosingMark),
  (0x48A, 0x48A, .UppercaseLetter),
  (0x48B, 0x48B, .LowercaseLetter),
  (0x48C, 0x48C, .UppercaseLetter),
  (0x48D, 0x48D, .LowercaseLetter),
  (0x48E, 0x48E, .UppercaseLetter),
  (0x48F, 0x48F, .LowercaseLetter),
  (0x490, 0x490, .UppercaseLetter),
  (0x491, 0x491, .LowercaseLetter),
  (0x492, 0x492, .UppercaseLetter),
  (0x493, 0x493, .LowercaseLetter),
  (0x494, 0x494, .UppercaseLetter),
  (0x495, 0x495, .LowercaseLetter),
  (0x496, 0x496, .UppercaseLetter),
  (0x497, 0x497, .LowercaseLetter),
  (0x498, 0x498, .UppercaseLetter),
  (0x499, 0x499, .LowercaseLetter),
  (0x49A, 0x49A, .UppercaseLetter),
  (0x49B, 0x49B, .LowercaseLetter),
  (0x49C, 0x49C, .UppercaseLetter),
  (0x49D, 0x49D, .LowercaseLetter),
  (0x49E, 0x49E, .UppercaseLetter),
  (0x49F, 0x49F, .LowercaseLetter),
  (0x4A0, 0x4A0, .UppercaseLetter),
  (0x4A1, 0x4A1, .LowercaseLetter),
  (0x4A2, 0x4A2, .UppercaseLetter),
  (0x4A3, 0x4A3, .LowercaseLetter),
  (0x4A4, 0x4A4, .UppercaseLetter),
  (0x4A5, 0x4A5, .LowercaseLetter),
  (0x4A6, 0x4A6, .UppercaseLetter),
  (0x4A7, 0x4A7, .LowercaseLetter),
  (0x4A8, 0x4A8, .UppercaseLetter),
  (0x4A9, 0x4A9, .LowercaseLetter),
  (0x4AA, 0x4AA, .UppercaseLetter),
  (0x4AB, 0x4AB, .LowercaseLetter),
  (0x4AC, 0x4AC, .UppercaseLetter),
  (0x4AD, 0x4AD, .LowercaseLetter),
  (0x4AE, 0x4AE, .UppercaseLetter),
  (0x4AF, 0x4AF, .LowercaseLetter),
  (0x4B0, 0x4B0, .UppercaseLetter),
  (0x4B1, 0x4B1, .LowercaseLetter),
  (0x4B2, 0x4B2, .UppercaseLetter),
  (0x4B3, 0x4B3, .LowercaseLetter),
  (0x4B4, 0x4B4, .UppercaseLetter),
  (0x4B5, 0x4B5, .LowercaseLetter),
  (0x4B6, 0x4B6, .UppercaseLetter),
  (0x4B7, 0x4B7, .LowercaseLetter),
  (0x4B8, 0x4B8, .UppercaseLetter),
  (0x4B9, 0x4B9, .LowercaseLetter),
  (0x4BA, 0x4BA, .UppercaseLetter),
  (0x4BB, 0x4BB, .LowercaseLetter),
  (0x4BC, 0x4BC, .UppercaseLetter),
  (0x4BD, 0x4BD, .LowercaseLetter),
  (0x4BE, 0x4BE, .UppercaseLetter),
  (0x4BF, 0x4BF, .LowercaseLetter),
  (0x4C0, 0x4C1, .UppercaseLetter)]
def generalCategory_8 : List (Nat × Nat × GeneralCategory) := [
  (0x4C2, 0x4C2, .LowercaseLetter),
  (0x4C3, 0x4C3, .UppercaseLetter),
  (0x4C4, 0x4C4, .LowercaseLetter),
  (0x4C5, 0x4C5, .UppercaseLetter),
  (0x4C6, 0x4C6, .LowercaseLetter),
  (0x4C7, 0x4C7, .UppercaseLetter),
  (0x4C8, 0x4C8, .LowercaseLetter),
  (0x4C9, 0x4C9, .UppercaseLetter),
  (0x4CA, 0x4CA, .LowercaseLetter),
  (0x4CB, 0x4CB, .UppercaseLetter),
  (0x4CC, 0x4CC, .LowercaseLetter),
  (0x4CD, 0x4CD, .UppercaseLetter),
  (0x4CE, 0x4CF, .LowercaseLetter),
  (0x4D0, 0x4D0, .UppercaseLetter),
  (0x4D1, 0x4D1, .LowercaseLetter),
  (0x4D2, 0x4D2, .UppercaseLetter),
  (0x4D3, 0x4D3, .LowercaseLetter),
  (0x4D4, 0x4D4, .UppercaseLetter),
  (0x4D5, 0x4D5, .LowercaseLetter),
  (0x4D6, 0x4D6, .UppercaseLetter),
  (0x4D7, 0x4D7, .LowercaseLetter),
  (0x4D8, 0x4D8, .UppercaseLetter),
  (0x4D9, 0x4D9, .LowercaseLetter),
  (0x4DA, 0x4DA, .UppercaseLetter),
  (0x4DB, 0x4DB, .LowercaseLetter),
  (0x4DC, 0x4DC, .UppercaseLetter),
  (0x4DD, 0x4DD, .LowercaseLetter),
  (0x4DE, 0x4DE, .UppercaseLetter),
  (0x4DF, 0x4DF, .LowercaseLetter),
  (0x4E0, 0x4E0, .UppercaseLetter),
  (0x4E1, 0x4E1, .LowercaseLetter),
  (0x4E2, 0x4E2, .UppercaseLetter),
  (0x4E3, 0x4E3, .LowercaseLetter),
  (0x4E4, 0x4E4, .UppercaseLetter),
  (0x4E5, 0x4E5, .LowercaseLetter),
  (0x4E6, 0x4E6, .UppercaseLetter),
  (0x4E7, 0x4E7, .LowercaseLetter),
  (0x4E8, 0x4E8, .UppercaseLetter),
  (0x4E9, 0x4E9, .LowercaseLetter),
  (0x4EA, 0x4EA, .UppercaseLetter),
  (0x4EB, 0x4EB, .LowercaseLetter),
  (0x4EC, 0x4EC, .UppercaseLetter),
  (0x4ED, 0x4ED, .LowercaseLetter),
  (0x4EE, 0x4EE, .UppercaseLetter),
  (0x4EF, 0x4EF, .LowercaseLetter),
  (0x4F0, 0x4F0, .UppercaseLetter),
  (0x4F1, 0x4F1, .LowercaseLetter),
  (0x4F2, 0x4F2, .UppercaseLetter),
  (0x4F3, 0x4F3, .LowercaseLetter),
  (0x4F4, 0x4F4, .UppercaseLetter),
  (0x4F5, 0x4F5, .LowercaseLetter),
  (0x4F6, 0x4F6, .UppercaseLetter),
  (0x4F7, 0x4F7, .LowercaseLetter),
  (0x4F8, 0x4F8, .UppercaseLetter),
  (0x4F9, 0x4F9, .LowercaseLetter),
  (0x4FA, 0x4FA, .UppercaseLetter),
  (0x4FB, 0x4FB, .LowercaseLetter),
  (0x4FC, 0x4FC, .UppercaseLetter),
  (0x4FD, 0x4FD, .LowercaseLetter),
  (0x4FE, 0x4FE, .UppercaseLetter),
  (0x4FF, 0x4FF, .LowercaseLetter),
  (0x500, 0x500, .UppercaseLetter),
  (0x501, 0x501, .LowercaseLetter),
  (0x502, 0x502, .UppercaseLetter)]
def generalCategory_9 : List (Nat × Nat × GeneralCategory) := [
  (0x503, 0x503, .LowercaseLetter),
  (0x504, 0x504, .UppercaseLetter),
  (0x505, 0x505, .LowercaseLetter),
  (0x506, 0x506, .UppercaseLetter),
  (0x507, 0x507, .LowercaseLetter),
  (0x508, 0x508, .UppercaseLetter),
  (0x509, 0x509, .LowercaseLetter),
  (0x50A, 0x50A, .UppercaseLetter),
  (0x50B, 0x50B, .LowercaseLetter),
  (0x50C, 0x50C, .UppercaseLetter),
  (0x50D, 0x50D, .LowercaseLetter),
  (0x50E, 0x50E, .UppercaseLetter),
  (0x50F, 0x50F, .LowercaseLetter),
  (0x510, 0x510, .UppercaseLetter),
  (0x511, 0x511, .LowercaseLetter),
  (0x512, 0x512, .UppercaseLetter),
  (0x513, 0x513, .LowercaseLetter),
  (0x514, 0x514, .UppercaseLetter),
  (0x515, 0x515, .LowercaseLetter),
  (0x516, 0x516, .UppercaseLetter),
  (0x517, 0x517, .LowercaseLetter),
  (0x518, 0x518, .UppercaseLetter),
  (0x519, 0x519, .LowercaseLetter),
  (0x51A, 0x51A, .UppercaseLetter),
  (0x51B, 0x51B, .LowercaseLetter),
  (0x51C, 0x51C, .UppercaseLetter),
  (0x51D, 0x51D, .LowercaseLetter),
  (0x51E, 0x51E, .UppercaseLetter),
  (0x51F, 0x51F, .LowercaseLetter),
  (0x520, 0x520, .UppercaseLetter),
  (0x521, 0x521, .LowercaseLetter),
  (0x522, 0x522, .UppercaseLetter),
  (0x523, 0x523, .LowercaseLetter),
  (0x524, 0x524, .UppercaseLetter),
  (0x525, 0x525, .LowercaseLetter),
  (0x526, 0x526, .UppercaseLetter),
  (0x527, 0x527, .LowercaseLetter),
  (0x528, 0x528, .UppercaseLetter),
  (0x529, 0x529, .LowercaseLetter),
  (0x52A, 0x52A, .UppercaseLetter),
  (0x52B, 0x52B, .LowercaseLetter),
  (0x52C, 0x52C, .UppercaseLetter),
  (0x52D, 0x52D, .LowercaseLetter),
  (0x52E, 0x52E, .UppercaseLetter),
  (0x52F, 0x52F, .LowercaseLetter),
  (0x531, 0x556, .UppercaseLetter),
  (0x559, 0x559, .ModifierLetter),
  (0x55A, 0x55F, .OtherPunctuation),
  (0x561, 0x587, .LowercaseLetter),
  (0x589, 0x589, .OtherPunctuation),
  (0x58A, 0x58A, .DashPunctuation),
  (0x58D, 0x58E, .OtherSymbol),
  (0x58F, 0x58F, .CurrencySymbol),
  (0x591, 0x5BD, .NonspacingMark),
  (0x5BE, 0x5BE, .DashPunctuation),
  (0x5BF, 0x5BF, .NonspacingMark),
  (0x5C0, 0x5C0, .OtherPunctuation),
  (0x5C1, 0x5C2, .NonspacingMark),
  (0x5C3, 0x5C3, .OtherPunctuation),
  (0x5C4, 0x5C5, .NonspacingMark),
  (0x5C6, 0x5C6, .OtherPunctuation),
  (0x5C7, 0x5C7, .NonspacingMark),
  (0x5D0, 0x5EA, .OtherLetter),
  (0x5F0, 0x5F2, .OtherLetter)]
def generalCategory_10 : List (Nat × Nat × GeneralCategory) := [
  (0x5F3, 0x5F4, .OtherPunctuation),
  (0x600, 0x605, .Format),
  (0x606, 0x608, .MathSymbol),
  (0x609, 0x60A, .OtherPunctuation),
  (0x60B, 0x60B, .CurrencySymbol),
  (0x60C, 0x60D, .OtherPunctuation),
  (0x60E, 0x60F, .OtherSymbol),
  (0x610, 0x61A, .NonspacingMark),
  (0x61B, 0x61B, .OtherPunctuation),
  (0x61C, 0x61C, .Format),
  (0x61E, 0x61F, .OtherPunctuation),
  (0x620, 0x63F, .OtherLetter),
  (0x640, 0x640, .ModifierLetter),
  (0x641, 0x64A, .OtherLetter),
  (0x64B, 0x65F, .NonspacingMark),
  (0x660, 0x669, .DecimalNumber),
  (0x66A, 0x66D, .OtherPunctuation),
  (0x66E, 0x66F, .OtherLetter),
  (0x670, 0x670, .NonspacingMark),
  (0x671, 0x6D3, .OtherLetter),
  (0x6D4, 0x6D4, .OtherPunctuation),
  (0x6D5, 0x6D5, .OtherLetter),
  (0x6D6, 0x6DC, .NonspacingMark),
  (0x6DD, 0x6DD, .Format),
  (0x6DE, 0x6DE, .OtherSymbol),
  (0x6DF, 0x6E4, .NonspacingMark),
  (0x6E5, 0x6E6, .ModifierLetter),
  (0x6E7, 0x6E8, .NonspacingMark),
  (0x6E9, 0x6E9, .OtherSymbol),
  (0x6EA, 0x6ED, .NonspacingMark),
  (0x6EE, 0x6EF, .OtherLetter),
  (0x6F0, 0x6F9, .DecimalNumber),
  (0x6FA, 0x6FC, .OtherLetter),
  (0x6FD, 0x6FE, .OtherSymbol),
  (0x6FF, 0x6FF, .OtherLetter),
  (0x700, 0x70D, .OtherPunctuation),
  (0x70F, 0x70F, .Format),
  (0x710, 0x710, .OtherLetter),
  (0x711, 0x711, .NonspacingMark),
  (0x712, 0x72F, .OtherLetter),
  (0x730, 0x74A, .NonspacingMark),
  (0x74D, 0x7A5, .OtherLetter),
  (0x7A6, 0x7B0, .NonspacingMark),
  (0x7B1, 0x7B1, .OtherLetter),
  (0x7C0, 0x7C9, .DecimalNumber),
  (0x7CA, 0x7EA, .OtherLetter),
  (0x7EB, 0x7F3, .NonspacingMark),
  (0x7F4, 0x7F5, .ModifierLetter),
  (0x7F6, 0x7F6, .OtherSymbol),
  (0x7F7, 0x7F9, .OtherPunctuation),
  (0x7FA, 0x7FA, .ModifierLetter),
  (0x800, 0x815, .OtherLetter),
  (0x816, 0x819, .NonspacingMark),
  (0x81A, 0x81A, .ModifierLetter),
  (0x81B, 0x823, .NonspacingMark),
  (0x824, 0x824, .ModifierLetter),
  (0x825, 0x827, .NonspacingMark),
  (0x828, 0x828, .ModifierLetter),
  (0x829, 0x82D, .NonspacingMark),
  (0x830, 0x83E, .OtherPunctuation),
  (0x840, 0x858, .OtherLetter),
  (0x859, 0x85B, .NonspacingMark),
  (0x85E, 0x85E, .OtherPunctuation),
  (0x860, 0x86A, .OtherLetter)]
def generalCategory_11 : List (Nat × Nat × GeneralCategory) := [
  (0x8A0, 0x8B4, .OtherLetter),
  (0x8B6, 0x8BD, .OtherLetter),
  (0x8D4, 0x8E1, .NonspacingMark),
  (0x8E2, 0x8E2, .Format),
  (0x8E3, 0x902, .NonspacingMark),
  (0x903, 0x903, .SpacingMark),
  (0x904, 0x939, .OtherLetter),
  (0x93A, 0x93A, .NonspacingMark),
  (0x93B, 0x93B, .SpacingMark),
  (0x93C, 0x93C, .NonspacingMark),
  (0x93D, 0x93D, .OtherLetter),
  (0x93E, 0x940, .SpacingMark),
  (0x941, 0x948, .NonspacingMark),
  (0x949, 0x94C, .SpacingMark),
  (0x94D, 0x94D, .NonspacingMark),
  (0x94E, 0x94F, .SpacingMark),
  (0x950, 0x950, .OtherLetter),
  (0x951, 0x957, .NonspacingMark),
  (0x958, 0x961, .OtherLetter),
  (0x962, 0x963, .NonspacingMark),
  (0x964, 0x965, .OtherPunctuation),
  (0x966, 0x96F, .DecimalNumber),
  (0x970, 0x970, .OtherPunctuation),
  (0x971, 0x971, .ModifierLetter),
  (0x972, 0x980, .OtherLetter),
  (0x981, 0x981, .NonspacingMark),
  (0x982, 0x983, .SpacingMark),
  (0x985, 0x98C, .OtherLetter),
  (0x98F, 0x990, .OtherLetter),
  (0x993, 0x9A8, .OtherLetter),
  (0x9AA, 0x9B0, .OtherLetter),
  (0x9B2, 0x9B2, .OtherLetter),
  (0x9B6, 0x9B9, .OtherLetter),
  (0x9BC, 0x9BC, .NonspacingMark),
  (0x9BD, 0x9BD, .OtherLetter),
  (0x9BE, 0x9C0, .SpacingMark),
  (0x9C1, 0x9C4, .NonspacingMark),
  (0x9C7, 0x9C8, .SpacingMark),
  (0x9CB, 0x9CC, .SpacingMark),
  (0x9CD, 0x9CD, .NonspacingMark),
  (0x9CE, 0x9CE, .OtherLetter),
  (0x9D7, 0x9D7, .SpacingMark),
  (0x9DC, 0x9DD, .OtherLetter),
  (0x9DF, 0x9E1, .OtherLetter),
  (0x9E2, 0x9E3, .NonspacingMark),
  (0x9E6, 0x9EF, .DecimalNumber),
  (0x9F0, 0x9F1, .OtherLetter),
  (0x9F2, 0x9F3, .CurrencySymbol),
  (0x9F4, 0x9F9, .OtherNumber),
  (0x9FA, 0x9FA, .OtherSymbol),
  (0x9FB, 0x9FB, .CurrencySymbol),
  (0x9FC, 0x9FC, .OtherLetter),
  (0x9FD, 0x9FD, .OtherPunctuation),
  (0xA01, 0xA02, .NonspacingMark),
  (0xA03, 0xA03, .SpacingMark),
  (0xA05, 0xA0A, .OtherLetter),
  (0xA0F, 0xA10, .OtherLetter),
  (0xA13, 0xA28, .OtherLetter),
  (0xA2A, 0xA30, .OtherLetter),
  (0xA32, 0xA33, .OtherLetter),
  (0xA35, 0xA36, .OtherLetter),
  (0xA38, 0xA39, .OtherLetter),
  (0xA3C, 0xA3C, .NonspacingMark),
  (0xA3E, 0xA40, .SpacingMark)]
def generalCategory_12 : List (Nat × Nat × GeneralCategory) := [
  (0xA41, 0xA42, .NonspacingMark),
  (0xA47, 0xA48, .NonspacingMark),
  (0xA4B, 0xA4D, .NonspacingMark),
  (0xA51, 0xA51, .NonspacingMark),
  (0xA59, 0xA5C, .OtherLetter),
  (0xA5E, 0xA5E, .OtherLetter),
  (0xA66, 0xA6F, .DecimalNumber),
  (0xA70, 0xA71, .NonspacingMark),
  (0xA72, 0xA74, .OtherLetter),
  (0xA75, 0xA75, .NonspacingMark),
  (0xA81, 0xA82, .NonspacingMark),
  (0xA83, 0xA83, .SpacingMark),
  (0xA85, 0xA8D, .OtherLetter),
  (0xA8F, 0xA91, .OtherLetter),
  (0xA93, 0xAA8, .OtherLetter),
  (0xAAA, 0xAB0, .OtherLetter),
  (0xAB2, 0xAB3, .OtherLetter),
  (0xAB5, 0xAB9, .OtherLetter),
  (0xABC, 0xABC, .NonspacingMark),
  (0xABD, 0xABD, .OtherLetter),
  (0xABE, 0xAC0, .SpacingMark),
  (0xAC1, 0xAC5, .NonspacingMark),
  (0xAC7, 0xAC8, .NonspacingMark),
  (0xAC9, 0xAC9, .SpacingMark),
  (0xACB, 0xACC, .SpacingMark),
  (0xACD, 0xACD, .NonspacingMark),
  (0xAD0, 0xAD0, .OtherLetter),
  (0xAE0, 0xAE1, .OtherLetter),
  (0xAE2, 0xAE3, .NonspacingMark),
  (0xAE6, 0xAEF, .DecimalNumber),
  (0xAF0, 0xAF0, .OtherPunctuation),
  (0xAF1, 0xAF1, .CurrencySymbol),
  (0xAF9, 0xAF9, .OtherLetter),
  (0xAFA, 0xAFF, .NonspacingMark),
  (0xB01, 0xB01, .NonspacingMark),
  (0xB02, 0xB03, .SpacingMark),
  (0xB05, 0xB0C, .OtherLetter),
  (0xB0F, 0xB10, .OtherLetter),
  (0xB13, 0xB28, .OtherLetter),
  (0xB2A, 0xB30, .OtherLetter),
  (0xB32, 0xB33, .OtherLetter),
  (0xB35, 0xB39, .OtherLetter),
  (0xB3C, 0xB3C, .NonspacingMark),
  (0xB3D, 0xB3D, .OtherLetter),
  (0xB3E, 0xB3E, .SpacingMark),
  (0xB3F, 0xB3F, .NonspacingMark),
  (0xB40, 0xB40, .SpacingMark),
  (0xB41, 0xB44, .NonspacingMark),
  (0xB47, 0xB48, .SpacingMark),
  (0xB4B, 0xB4C, .SpacingMark),
  (0xB4D, 0xB4D, .NonspacingMark),
  (0xB56, 0xB56, .NonspacingMark),
  (0xB57, 0xB57, .SpacingMark),
  (0xB5C, 0xB5D, .OtherLetter),
  (0xB5F, 0xB61, .OtherLetter),
  (0xB62, 0xB63, .NonspacingMark),
  (0xB66, 0xB6F, .DecimalNumber),
  (0xB70, 0xB70, .OtherSymbol),
  (0xB71, 0xB71, .OtherLetter),
  (0xB72, 0xB77, .OtherNumber),
  (0xB82, 0xB82, .NonspacingMark),
  (0xB83, 0xB83, .OtherLetter),
  (0xB85, 0xB8A, .OtherLetter),
  (0xB8E, 0xB90, .OtherLetter)]
def generalCategory_13 : List (Nat × Nat × GeneralCategory) := [
  (0xB92, 0xB95, .OtherLetter),
  (0xB99, 0xB9A, .OtherLetter),
  (0xB9C, 0xB9C, .OtherLetter),
  (0xB9E, 0xB9F, .OtherLetter),
  (0xBA3, 0xBA4, .OtherLetter),
  (0xBA8, 0xBAA, .OtherLetter),
  (0xBAE, 0xBB9, .OtherLetter),
  (0xBBE, 0xBBF, .SpacingMark),
  (0xBC0, 0xBC0, .NonspacingMark),
  (0xBC1, 0xBC2, .SpacingMark),
  (0xBC6, 0xBC8, .SpacingMark),
  (0xBCA, 0xBCC, .SpacingMark),
  (0xBCD, 0xBCD, .NonspacingMark),
  (0xBD0, 0xBD0, .OtherLetter),
  (0xBD7, 0xBD7, .SpacingMark),
  (0xBE6, 0xBEF, .DecimalNumber),
  (0xBF0, 0xBF2, .OtherNumber),
  (0xBF3, 0xBF8, .OtherSymbol),
  (0xBF9, 0xBF9, .CurrencySymbol),
  (0xBFA, 0xBFA, .OtherSymbol),
  (0xC00, 0xC00, .NonspacingMark),
  (0xC01, 0xC03, .SpacingMark),
  (0xC05, 0xC0C, .OtherLetter),
  (0xC0E, 0xC10, .OtherLetter),
  (0xC12, 0xC28, .OtherLetter),
  (0xC2A, 0xC39, .OtherLetter),
  (0xC3D, 0xC3D, .OtherLetter),
  (0xC3E, 0xC40, .NonspacingMark),
  (0xC41, 0xC44, .SpacingMark),
  (0xC46, 0xC48, .NonspacingMark),
  (0xC4A, 0xC4D, .NonspacingMark),
  (0xC55, 0xC56, .NonspacingMark),
  (0xC58, 0xC5A, .OtherLetter),
  (0xC60, 0xC61, .OtherLetter),
  (0xC62, 0xC63, .NonspacingMark),
  (0xC66, 0xC6F, .DecimalNumber),
  (0xC78, 0xC7E, .OtherNumber),
  (0xC7F, 0xC7F, .OtherSymbol),
  (0xC80, 0xC80, .OtherLetter),
  (0xC81, 0xC81, .NonspacingMark),
  (0xC82, 0xC83, .SpacingMark),
  (0xC85, 0xC8C, .OtherLetter),
  (0xC8E, 0xC90, .OtherLetter),
  (0xC92, 0xCA8, .OtherLetter),
  (0xCAA, 0xCB3, .OtherLetter),
  (0xCB5, 0xCB9, .OtherLetter),
  (0xCBC, 0xCBC, .NonspacingMark),
  (0xCBD, 0xCBD, .OtherLetter),
  (0xCBE, 0xCBE, .SpacingMark),
  (0xCBF, 0xCBF, .NonspacingMark),
  (0xCC0, 0xCC4, .SpacingMark),
  (0xCC6, 0xCC6, .NonspacingMark),
  (0xCC7, 0xCC8, .SpacingMark),
  (0xCCA, 0xCCB, .SpacingMark),
  (0xCCC, 0xCCD, .NonspacingMark),
  (0xCD5, 0xCD6, .SpacingMark),
  (0xCDE, 0xCDE, .OtherLetter),
  (0xCE0, 0xCE1, .OtherLetter),
  (0xCE2, 0xCE3, .NonspacingMark),
  (0xCE6, 0xCEF, .DecimalNumber),
  (0xCF1, 0xCF2, .OtherLetter),
  (0xD00, 0xD01, .NonspacingMark),
  (0xD02, 0xD03, .SpacingMark),
  (0xD05, 0xD0C, .OtherLetter)]
def generalCategory_14 : List (Nat × Nat × GeneralCategory) := [
  (0xD0E, 0xD10, .OtherLetter),
  (0xD12, 0xD3A, .OtherLetter),
  (0xD3B, 0xD3C, .NonspacingMark),
  (0xD3D, 0xD3D, .OtherLetter),
  (0xD3E, 0xD40, .SpacingMark),
  (0xD41, 0xD44, .NonspacingMark),
  (0xD46, 0xD48, .SpacingMark),
  (0xD4A, 0xD4C, .SpacingMark),
  (0xD4D, 0xD4D, .NonspacingMark),
  (0xD4E, 0xD4E, .OtherLetter),
  (0xD4F, 0xD4F, .OtherSymbol),
  (0xD54, 0xD56, .OtherLetter),
  (0xD57, 0xD57, .SpacingMark),
  (0xD58, 0xD5E, .OtherNumber),
  (0xD5F, 0xD61, .OtherLetter),
  (0xD62, 0xD63, .NonspacingMark),
  (0xD66, 0xD6F, .DecimalNumber),
  (0xD70, 0xD78, .OtherNumber),
  (0xD79, 0xD79, .OtherSymbol),
  (0xD7A, 0xD7F, .OtherLetter),
  (0xD82, 0xD83, .SpacingMark),
  (0xD85, 0xD96, .OtherLetter),
  (0xD9A, 0xDB1, .OtherLetter),
  (0xDB3, 0xDBB, .OtherLetter),
  (0xDBD, 0xDBD, .OtherLetter),
  (0xDC0, 0xDC6, .OtherLetter),
  (0xDCA, 0xDCA, .NonspacingMark),
  (0xDCF, 0xDD1, .SpacingMark),
  (0xDD2, 0xDD4, .NonspacingMark),
  (0xDD6, 0xDD6, .NonspacingMark),
  (0xDD8, 0xDDF, .SpacingMark),
  (0xDE6, 0xDEF, .DecimalNumber),
  (0xDF2, 0xDF3, .SpacingMark),
  (0xDF4, 0xDF4, .OtherPunctuation),
  (0xE01, 0xE30, .OtherLetter),
  (0xE31, 0xE31, .NonspacingMark),
  (0xE32, 0xE33, .OtherLetter),
  (0xE34, 0xE3A, .NonspacingMark),
  (0xE3F, 0xE3F, .CurrencySymbol),
  (0xE40, 0xE45, .OtherLetter),
  (0xE46, 0xE46, .ModifierLetter),
  (0xE47, 0xE4E, .NonspacingMark),
  (0xE4F, 0xE4F, .OtherPunctuation),
  (0xE50, 0xE59, .DecimalNumber),
  (0xE5A, 0xE5B, .OtherPunctuation),
  (0xE81, 0xE82, .OtherLetter),
  (0xE84, 0xE84, .OtherLetter),
  (0xE87, 0xE88, .OtherLetter),
  (0xE8A, 0xE8A, .OtherLetter),
  (0xE8D, 0xE8D, .OtherLetter),
  (0xE94, 0xE97, .OtherLetter),
  (0xE99, 0xE9F, .OtherLetter),
  (0xEA1, 0xEA3, .OtherLetter),
  (0xEA5, 0xEA5, .OtherLetter),
  (0xEA7, 0xEA7, .OtherLetter),
  (0xEAA, 0xEAB, .OtherLetter),
  (0xEAD, 0xEB0, .OtherLetter),
  (0xEB1, 0xEB1, .NonspacingMark),
  (0xEB2, 0xEB3, .OtherLetter),
  (0xEB4, 0xEB9, .NonspacingMark),
  (0xEBB, 0xEBC, .NonspacingMark),
  (0xEBD, 0xEBD, .OtherLetter),
  (0xEC0, 0xEC4, .OtherLetter),
  (0xEC6, 0xEC6, .ModifierLetter)]
def generalCategory_15 : List (Nat × Nat × GeneralCategory) := [
  (0xEC8, 0xECD, .NonspacingMark),
  (0xED0, 0xED9, .DecimalNumber),
  (0xEDC, 0xEDF, .OtherLetter),
  (0xF00, 0xF00, .OtherLetter),
  (0xF01, 0xF03, .OtherSymbol),
  (0xF04, 0xF12, .OtherPunctuation),
  (0xF13, 0xF13, .OtherSymbol),
  (0xF14, 0xF14, .OtherPunctuation),
  (0xF15, 0xF17, .OtherSymbol),
  (0xF18, 0xF19, .NonspacingMark),
  (0xF1A, 0xF1F, .OtherSymbol),
  (0xF20, 0xF29, .DecimalNumber),
  (0xF2A, 0xF33, .OtherNumber),
  (0xF34, 0xF34, .OtherSymbol),
  (0xF35, 0xF35, .NonspacingMark),
  (0xF36, 0xF36, .OtherSymbol),
  (0xF37, 0xF37, .NonspacingMark),
  (0xF38, 0xF38, .OtherSymbol),
  (0xF39, 0xF39, .NonspacingMark),
  (0xF3A, 0xF3A, .OpenPunctuation),
  (0xF3B, 0xF3B, .ClosePunctuation),
  (0xF3C, 0xF3C, .OpenPunctuation),
  (0xF3D, 0xF3D, .ClosePunctuation),
  (0xF3E, 0xF3F, .SpacingMark),
  (0xF40, 0xF47, .OtherLetter),
  (0xF49, 0xF6C, .OtherLetter),
  (0xF71, 0xF7E, .NonspacingMark),
  (0xF7F, 0xF7F, .SpacingMark),
  (0xF80, 0xF84, .NonspacingMark),
  (0xF85, 0xF85, .OtherPunctuation),
  (0xF86, 0xF87, .NonspacingMark),
  (0xF88, 0xF8C, .OtherLetter),
  (0xF8D, 0xF97, .NonspacingMark),
  (0xF99, 0xFBC, .NonspacingMark),
  (0xFBE, 0xFC5, .OtherSymbol),
  (0xFC6, 0xFC6, .NonspacingMark),
  (0xFC7, 0xFCC, .OtherSymbol),
  (0xFCE, 0xFCF, .OtherSymbol),
  (0xFD0, 0xFD4, .OtherPunctuation),
  (0xFD5, 0xFD8, .OtherSymbol),
  (0xFD9, 0xFDA, .OtherPunctuation),
  (0x1000, 0x102A, .OtherLetter),
  (0x102B, 0x102C, .SpacingMark),
  (0x102D, 0x1030, .NonspacingMark),
  (0x1031, 0x1031, .SpacingMark),
  (0x1032, 0x1037, .NonspacingMark),
  (0x1038, 0x1038, .SpacingMark),
  (0x1039, 0x103A, .NonspacingMark),
  (0x103B, 0x103C, .SpacingMark),
  (0x103D, 0x103E, .NonspacingMark),
  (0x103F, 0x103F, .OtherLetter),
  (0x1040, 0x1049, .DecimalNumber),
  (0x104A, 0x104F, .OtherPunctuation),
  (0x1050, 0x1055, .OtherLetter),
  (0x1056, 0x1057, .SpacingMark),
  (0x1058, 0x1059, .NonspacingMark),
  (0x105A, 0x105D, .OtherLetter),
  (0x105E, 0x1060, .NonspacingMark),
  (0x1061, 0x1061, .OtherLetter),
  (0x1062, 0x1064, .SpacingMark),
  (0x1065, 0x1066, .OtherLetter),
  (0x1067, 0x106D, .SpacingMark),
  (0x106E, 0x1070, .OtherLetter),
  (0x1071, 0x1074, .NonspacingMark)]
def generalCategory_16 : List (Nat × Nat × GeneralCategory) := [
  (0x1075, 0x1081, .OtherLetter),
  (0x1082, 0x1082, .NonspacingMark),
  (0x1083, 0x1084, .SpacingMark),
  (0x1085, 0x1086, .NonspacingMark),
  (0x1087, 0x108C, .SpacingMark),
  (0x108D, 0x108D, .NonspacingMark),
  (0x108E, 0x108E, .OtherLetter),
  (0x108F, 0x108F, .SpacingMark),
  (0x1090, 0x1099, .DecimalNumber),
  (0x109A, 0x109C, .SpacingMark),
  (0x109D, 0x109D, .NonspacingMark),
  (0x109E, 0x109F, .OtherSymbol),
  (0x10A0, 0x10C5, .UppercaseLetter),
  (0x10C7, 0x10C7, .UppercaseLetter),
  (0x10CD, 0x10CD, .UppercaseLetter),
  (0x10D0, 0x10FA, .OtherLetter),
  (0x10FB, 0x10FB, .OtherPunctuation),
  (0x10FC, 0x10FC, .ModifierLetter),
  (0x10FD, 0x1248, .OtherLetter),
  (0x124A, 0x124D, .OtherLetter),
  (0x1250, 0x1256, .OtherLetter),
  (0x1258, 0x1258, .OtherLetter),
  (0x125A, 0x125D, .OtherLetter),
  (0x1260, 0x1288, .OtherLetter),
  (0x128A, 0x128D, .OtherLetter),
  (0x1290, 0x12B0, .OtherLetter),
  (0x12B2, 0x12B5, .OtherLetter),
  (0x12B8, 0x12BE, .OtherLetter),
  (0x12C0, 0x12C0, .OtherLetter),
  (0x12C2, 0x12C5, .OtherLetter),
  (0x12C8, 0x12D6, .OtherLetter),
  (0x12D8, 0x1310, .OtherLetter),
  (0x1312, 0x1315, .OtherLetter),
  (0x1318, 0x135A, .OtherLetter),
  (0x135D, 0x135F, .NonspacingMark),
  (0x1360, 0x1368, .OtherPunctuation),
  (0x1369, 0x137C, .OtherNumber),
  (0x1380, 0x138F, .OtherLetter),
  (0x1390, 0x1399, .OtherSymbol),
  (0x13A0, 0x13F5, .UppercaseLetter),
  (0x13F8, 0x13FD, .LowercaseLetter),
  (0x1400, 0x1400, .DashPunctuation),
  (0x1401, 0x166C, .OtherLetter),
  (0x166D, 0x166E, .OtherPunctuation),
  (0x166F, 0x167F, .OtherLetter),
  (0x1680, 0x1680, .SpaceSeparator),
  (0x1681, 0x169A, .OtherLetter),
  (0x169B, 0x169B, .OpenPunctuation),
  (0x169C, 0x169C, .ClosePunctuation),
  (0x16A0, 0x16EA, .OtherLetter),
  (0x16EB, 0x16ED, .OtherPunctuation),
  (0x16EE, 0x16F0, .LetterNumber),
  (0x16F1, 0x16F8, .OtherLetter),
  (0x1700, 0x170C, .OtherLetter),
  (0x170E, 0x1711, .OtherLetter),
  (0x1712, 0x1714, .NonspacingMark),
  (0x1720, 0x1731, .OtherLetter),
  (0x1732, 0x1734, .NonspacingMark),
  (0x1735, 0x1736, .OtherPunctuation),
  (0x1740, 0x1751, .OtherLetter),
  (0x1752, 0x1753, .NonspacingMark),
  (0x1760, 0x176C, .OtherLetter),
  (0x176E, 0x1770, .OtherLetter),
  (0x1772, 0x1773, .NonspacingMark)]
def generalCategory_17 : List (Nat × Nat × GeneralCategory) := [
  (0x1780, 0x17B3, .OtherLetter),
  (0x17B4, 0x17B5, .NonspacingMark),
  (0x17B6, 0x17B6, .SpacingMark),
  (0x17B7, 0x17BD, .NonspacingMark),
  (0x17BE, 0x17C5, .SpacingMark),
  (0x17C6, 0x17C6, .NonspacingMark),
  (0x17C7, 0x17C8, .SpacingMark),
  (0x17C9, 0x17D3, .NonspacingMark),
  (0x17D4, 0x17D6, .OtherPunctuation),
  (0x17D7, 0x17D7, .ModifierLetter),
  (0x17D8, 0x17DA, .OtherPunctuation),
  (0x17DB, 0x17DB, .CurrencySymbol),
  (0x17DC, 0x17DC, .OtherLetter),
  (0x17DD, 0x17DD, .NonspacingMark),
  (0x17E0, 0x17E9, .DecimalNumber),
  (0x17F0, 0x17F9, .OtherNumber),
  (0x1800, 0x1805, .OtherPunctuation),
  (0x1806, 0x1806, .DashPunctuation),
  (0x1807, 0x180A, .OtherPunctuation),
  (0x180B, 0x180D, .NonspacingMark),
  (0x180E, 0x180E, .Format),
  (0x1810, 0x1819, .DecimalNumber),
  (0x1820, 0x1842, .OtherLetter),
  (0x1843, 0x1843, .ModifierLetter),
  (0x1844, 0x1877, .OtherLetter),
  (0x1880, 0x1884, .OtherLetter),
  (0x1885, 0x1886, .NonspacingMark),
  (0x1887, 0x18A8, .OtherLetter),
  (0x18A9, 0x18A9, .NonspacingMark),
  (0x18AA, 0x18AA, .OtherLetter),
  (0x18B0, 0x18F5, .OtherLetter),
  (0x1900, 0x191E, .OtherLetter),
  (0x1920, 0x1922, .NonspacingMark),
  (0x1923, 0x1926, .SpacingMark),
  (0x1927, 0x1928, .NonspacingMark),
  (0x1929, 0x192B, .SpacingMark),
  (0x1930, 0x1931, .SpacingMark),
  (0x1932, 0x1932, .NonspacingMark),
  (0x1933, 0x1938, .SpacingMark),
  (0x1939, 0x193B, .NonspacingMark),
  (0x1940, 0x1940, .OtherSymbol),
  (0x1944, 0x1945, .OtherPunctuation),
  (0x1946, 0x194F, .DecimalNumber),
  (0x1950, 0x196D, .OtherLetter),
  (0x1970, 0x1974, .OtherLetter),
  (0x1980, 0x19AB, .OtherLetter),
  (0x19B0, 0x19C9, .OtherLetter),
  (0x19D0, 0x19D9, .DecimalNumber),
  (0x19DA, 0x19DA, .OtherNumber),
  (0x19DE, 0x19FF, .OtherSymbol),
  (0x1A00, 0x1A16, .OtherLetter),
  (0x1A17, 0x1A18, .NonspacingMark),
  (0x1A19, 0x1A1A, .SpacingMark),
  (0x1A1B, 0x1A1B, .NonspacingMark),
  (0x1A1E, 0x1A1F, .OtherPunctuation),
  (0x1A20, 0x1A54, .OtherLetter),
  (0x1A55, 0x1A55, .SpacingMark),
  (0x1A56, 0x1A56, .NonspacingMark),
  (0x1A57, 0x1A57, .SpacingMark),
  (0x1A58, 0x1A5E, .NonspacingMark),
  (0x1A60, 0x1A60, .NonspacingMark),
  (0x1A61, 0x1A61, .SpacingMark),
  (0x1A62, 0x1A62, .NonspacingMark),
  (0x1A63, 0x1A64, .SpacingMark)]
def generalCategory_18 : List (Nat × Nat × GeneralCategory) := [
  (0x1A65, 0x1A6C, .NonspacingMark),
  (0x1A6D, 0x1A72, .SpacingMark),
  (0x1A73, 0x1A7C, .NonspacingMark),
  (0x1A7F, 0x1A7F, .NonspacingMark),
  (0x1A80, 0x1A89, .DecimalNumber),
  (0x1A90, 0x1A99, .DecimalNumber),
  (0x1AA0, 0x1AA6, .OtherPunctuation),
  (0x1AA7, 0x1AA7, .ModifierLetter),
  (0x1AA8, 0x1AAD, .OtherPunctuation),
  (0x1AB0, 0x1ABD, .NonspacingMark),
  (0x1ABE, 0x1ABE, .EnclosingMark),
  (0x1B00, 0x1B03, .NonspacingMark),
  (0x1B04, 0x1B04, .SpacingMark),
  (0x1B05, 0x1B33, .OtherLetter),
  (0x1B34, 0x1B34, .NonspacingMark),
  (0x1B35, 0x1B35, .SpacingMark),
  (0x1B36, 0x1B3A, .NonspacingMark),
  (0x1B3B, 0x1B3B, .SpacingMark),
  (0x1B3C, 0x1B3C, .NonspacingMark),
  (0x1B3D, 0x1B41, .SpacingMark),
  (0x1B42, 0x1B42, .NonspacingMark),
  (0x1B43, 0x1B44, .SpacingMark),
  (0x1B45, 0x1B4B, .OtherLetter),
  (0x1B50, 0x1B59, .DecimalNumber),
  (0x1B5A, 0x1B60, .OtherPunctuation),
  (0x1B61, 0x1B6A, .OtherSymbol),
  (0x1B6B, 0x1B73, .NonspacingMark),
  (0x1B74, 0x1B7C, .OtherSymbol),
  (0x1B80, 0x1B81, .NonspacingMark),
  (0x1B82, 0x1B82, .SpacingMark),
  (0x1B83, 0x1BA0, .OtherLetter),
  (0x1BA1, 0x1BA1, .SpacingMark),
  (0x1BA2, 0x1BA5, .NonspacingMark),
  (0x1BA6, 0x1BA7, .SpacingMark),
  (0x1BA8, 0x1BA9, .NonspacingMark),
  (0x1BAA, 0x1BAA, .SpacingMark),
  (0x1BAB, 0x1BAD, .NonspacingMark),
  (0x1BAE, 0x1BAF, .OtherLetter),
  (0x1BB0, 0x1BB9, .DecimalNumber),
  (0x1BBA, 0x1BE5, .OtherLetter),
  (0x1BE6, 0x1BE6, .NonspacingMark),
  (0x1BE7, 0x1BE7, .SpacingMark),
  (0x1BE8, 0x1BE9, .NonspacingMark),
  (0x1BEA, 0x1BEC, .SpacingMark),
  (0x1BED, 0x1BED, .NonspacingMark),
  (0x1BEE, 0x1BEE, .SpacingMark),
  (0x1BEF, 0x1BF1, .NonspacingMark),
  (0x1BF2, 0x1BF3, .SpacingMark),
  (0x1BFC, 0x1BFF, .OtherPunctuation),
  (0x1C00, 0x1C23, .OtherLetter),
  (0x1C24, 0x1C2B, .SpacingMark),
  (0x1C2C, 0x1C33, .NonspacingMark),
  (0x1C34, 0x1C35, .SpacingMark),
  (0x1C36, 0x1C37, .NonspacingMark),
  (0x1C3B, 0x1C3F, .OtherPunctuation),
  (0x1C40, 0x1C49, .DecimalNumber),
  (0x1C4D, 0x1C4F, .OtherLetter),
  (0x1C50, 0x1C59, .DecimalNumber),
  (0x1C5A, 0x1C77, .OtherLetter),
  (0x1C78, 0x1C7D, .ModifierLetter),
  (0x1C7E, 0x1C7F, .OtherPunctuation),
  (0x1C80, 0x1C88, .LowercaseLetter),
  (0x1CC0, 0x1CC7, .OtherPunctuation),
  (0x1CD0, 0x1CD2, .NonspacingMark)]
def generalCategory_19 : List (Nat × Nat × GeneralCategory) := [
  (0x1CD3, 0x1CD3, .OtherPunctuation),
  (0x1CD4, 0x1CE0, .NonspacingMark),
  (0x1CE1, 0x1CE1, .SpacingMark),
  (0x1CE2, 0x1CE8, .NonspacingMark),
  (0x1CE9, 0x1CEC, .OtherLetter),
  (0x1CED, 0x1CED, .NonspacingMark),
  (0x1CEE, 0x1CF1, .OtherLetter),
  (0x1CF2, 0x1CF3, .SpacingMark),
  (0x1CF4, 0x1CF4, .NonspacingMark),
  (0x1CF5, 0x1CF6, .OtherLetter),
  (0x1CF7, 0x1CF7, .SpacingMark),
  (0x1CF8, 0x1CF9, .NonspacingMark),
  (0x1D00, 0x1D2B, .LowercaseLetter),
  (0x1D2C, 0x1D6A, .ModifierLetter),
  (0x1D6B, 0x1D77, .LowercaseLetter),
  (0x1D78, 0x1D78, .ModifierLetter),
  (0x1D79, 0x1D9A, .LowercaseLetter),
  (0x1D9B, 0x1DBF, .ModifierLetter),
  (0x1DC0, 0x1DF9, .NonspacingMark),
  (0x1DFB, 0x1DFF, .NonspacingMark),
  (0x1E00, 0x1E00, .UppercaseLetter),
  (0x1E01, 0x1E01, .LowercaseLetter),
  (0x1E02, 0x1E02, .UppercaseLetter),
  (0x1E03, 0x1E03, .LowercaseLetter),
  (0x1E04, 0x1E04, .UppercaseLetter),
  (0x1E05, 0x1E05, .LowercaseLetter),
  (0x1E06, 0x1E06, .UppercaseLetter),
  (0x1E07, 0x1E07, .LowercaseLetter),
  (0x1E08, 0x1E08, .UppercaseLetter),
  (0x1E09, 0x1E09, .LowercaseLetter),
  (0x1E0A, 0x1E0A, .UppercaseLetter),
  (0x1E0B, 0x1E0B, .LowercaseLetter),
  (0x1E0C, 0x1E0C, .UppercaseLetter),
  (0x1E0D, 0x1E0D, .LowercaseLetter),
  (0x1E0E, 0x1E0E, .UppercaseLetter),
  (0x1E0F, 0x1E0F, .LowercaseLetter),
  (0x1E10, 0x1E10, .UppercaseLetter),
  (0x1E11, 0x1E11, .LowercaseLetter),
  (0x1E12, 0x1E12, .UppercaseLetter),
  (0x1E13, 0x1E13, .LowercaseLetter),
  (0x1E14, 0x1E14, .UppercaseLetter),
  (0x1E15, 0x1E15, .LowercaseLetter),
  (0x1E16, 0x1E16, .UppercaseLetter),
  (0x1E17, 0x1E17, .LowercaseLetter),
  (0x1E18, 0x1E18, .UppercaseLetter),
  (0x1E19, 0x1E19, .LowercaseLetter),
  (0x1E1A, 0x1E1A, .UppercaseLetter),
  (0x1E1B, 0x1E1B, .LowercaseLetter),
  (0x1E1C, 0x1E1C, .UppercaseLetter),
  (0x1E1D, 0x1E1D, .LowercaseLetter),
  (0x1E1E, 0x1E1E, .UppercaseLetter),
  (0x1E1F, 0x1E1F, .LowercaseLetter),
  (0x1E20, 0x1E20, .UppercaseLetter),
  (0x1E21, 0x1E21, .LowercaseLetter),
  (0x1E22, 0x1E22, .UppercaseLetter),
  (0x1E23, 0x1E23, .LowercaseLetter),
  (0x1E24, 0x1E24, .UppercaseLetter),
  (0x1E25, 0x1E25, .LowercaseLetter),
  (0x1E26, 0x1E26, .UppercaseLetter),
  (0x1E27, 0x1E27, .LowercaseLetter),
  (0x1E28, 0x1E28, .UppercaseLetter),
  (0x1E29, 0x1E29, .LowercaseLetter),
  (0x1E2A, 0x1E2A, .UppercaseLetter),
  (0x1E2B, 0x1E2B, .LowercaseLetter)]
def generalCategory_20 : List (Nat × Nat × GeneralCategory) := [
  (0x1E2C, 0x1E2C, .UppercaseLetter),
  (0x1E2D, 0x1E2D, .LowercaseLetter),
  (0x1E2E, 0x1E2E, .UppercaseLetter),
  (0x1E2F, 0x1E2F, .LowercaseLetter),
  (0x1E30, 0x1E30, .UppercaseLetter),
  (0x1E31, 0x1E31, .LowercaseLetter),
  (0x1E32, 0x1E32, .UppercaseLetter),
  (0x1E33, 0x1E33, .LowercaseLetter),
  (0x1E34, 0x1E34, .UppercaseLetter),
  (0x1E35, 0x1E35, .LowercaseLetter),
  (0x1E36, 0x1E36, .UppercaseLetter),
  (0x1E37, 0x1E37, .LowercaseLetter),
  (0x1E38, 0x1E38, .UppercaseLetter),
  (0x1E39, 0x1E39, .LowercaseLetter),
  (0x1E3A, 0x1E3A, .UppercaseLetter),
  (0x1E3B, 0x1E3B, .LowercaseLetter),
  (0x1E3C, 0x1E3C, .UppercaseLetter),
  (0x1E3D, 0x1E3D, .LowercaseLetter),
  (0x1E3E, 0x1E3E, .UppercaseLetter),
  (0x1E3F, 0x1E3F, .LowercaseLetter),
  (0x1E40, 0x1E40, .UppercaseLetter),
  (0x1E41, 0x1E41, .LowercaseLetter),
  (0x1E42, 0x1E42, .UppercaseLetter),
  (0x1E43, 0x1E43, .LowercaseLetter),
  (0x1E44, 0x1E44, .UppercaseLetter),
  (0x1E45, 0x1E45, .LowercaseLetter),
  (0x1E46, 0x1E46, .UppercaseLetter),
  (0x1E47, 0x1E47, .LowercaseLetter),
  (0x1E48, 0x1E48, .UppercaseLetter),
  (0x1E49, 0x1E49, .LowercaseLetter),
  (0x1E4A, 0x1E4A, .UppercaseLetter),
  (0x1E4B, 0x1E4B, .LowercaseLetter),
  (0x1E4C, 0x1E4C, .UppercaseLetter),
  (0x1E4D, 0x1E4D, .LowercaseLetter),
  (0x1E4E, 0x1E4E, .UppercaseLetter),
  (0x1E4F, 0x1E4F, .LowercaseLetter),
  (0x1E50, 0x1E50, .UppercaseLetter),
  (0x1E51, 0x1E51, .LowercaseLetter),
  (0x1E52, 0x1E52, .UppercaseLetter),
  (0x1E53, 0x1E53, .LowercaseLetter),
  (0x1E54, 0x1E54, .UppercaseLetter),
  (0x1E55, 0x1E55, .LowercaseLetter),
  (0x1E56, 0x1E56, .UppercaseLetter),
  (0x1E57, 0x1E57, .LowercaseLetter),
  (0x1E58, 0x1E58, .UppercaseLetter),
  (0x1E59, 0x1E59, .LowercaseLetter),
  (0x1E5A, 0x1E5A, .UppercaseLetter),
  (0x1E5B, 0x1E5B, .LowercaseLetter),
  (0x1E5C, 0x1E5C, .UppercaseLetter),
  (0x1E5D, 0x1E5D, .LowercaseLetter),
  (0x1E5E, 0x1E5E, .UppercaseLetter),
  (0x1E5F, 0x1E5F, .LowercaseLetter),
  (0x1E60, 0x1E60, .UppercaseLetter),
  (0x1E61, 0x1E61, .LowercaseLetter),
  (0x1E62, 0x1E62, .UppercaseLetter),
  (0x1E63, 0x1E63, .LowercaseLetter),
  (0x1E64, 0x1E64, .UppercaseLetter),
  (0x1E65, 0x1E65, .LowercaseLetter),
  (0x1E66, 0x1E66, .UppercaseLetter),
  (0x1E67, 0x1E67, .LowercaseLetter),
  (0x1E68, 0x1E68, .UppercaseLetter),
  (0x1E69, 0x1E69, .LowercaseLetter),
  (0x1E6A, 0x1E6A, .UppercaseLetter),
  (0x1E6B, 0x1E6B, .LowercaseLetter)]
def generalCategory_21 : List (Nat × Nat × GeneralCategory) := [
  (0x1E6C, 0x1E6C, .UppercaseLetter),
  (0x1E6D, 0x1E6D, .LowercaseLetter),
  (0x1E6E, 0x1E6E, .UppercaseLetter),
  (0x1E6F, 0x1E6F, .LowercaseLetter),
  (0x1E70, 0x1E70, .UppercaseLetter),
  (0x1E71, 0x1E71, .LowercaseLetter),
  (0x1E72, 0x1E72, .UppercaseLetter),
  (0x1E73, 0x1E73, .LowercaseLetter),
  (0x1E74, 0x1E74, .UppercaseLetter),
  (0x1E75, 0x1E75, .LowercaseLetter),
  (0x1E76, 0x1E76, .UppercaseLetter),
  (0x1E77, 0x1E77, .LowercaseLetter),
  (0x1E78, 0x1E78, .UppercaseLetter),
  (0x1E79, 0x1E79, .LowercaseLetter),
  (0x1E7A, 0x1E7A, .UppercaseLetter),
  (0x1E7B, 0x1E7B, .LowercaseLetter),
  (0x1E7C, 0x1E7C, .UppercaseLetter),
  (0x1E7D, 0x1E7D, .LowercaseLetter),
  (0x1E7E, 0x1E7E, .UppercaseLetter),
  (0x1E7F, 0x1E7F, .LowercaseLetter),
  (0x1E80, 0x1E80, .UppercaseLetter),
  (0x1E81, 0x1E81, .LowercaseLetter),
  (0x1E82, 0x1E82, .UppercaseLetter),
  (0x1E83, 0x1E83, .LowercaseLetter),
  (0x1E84, 0x1E84, .UppercaseLetter),
  (0x1E85, 0x1E85, .LowercaseLetter),
  (0x1E86, 0x1E86, .UppercaseLetter),
  (0x1E87, 0x1E87, .LowercaseLetter),
  (0x1E88, 0x1E88, .UppercaseLetter),
  (0x1E89, 0x1E89, .LowercaseLetter),
  (0x1E8A, 0x1E8A, .UppercaseLetter),
  (0x1E8B, 0x1E8B, .LowercaseLetter),
  (0x1E8C, 0x1E8C, .UppercaseLetter),
  (0x1E8D, 0x1E8D, .LowercaseLetter),
  (0x1E8E, 0x1E8E, .UppercaseLetter),
  (0x1E8F, 0x1E8F, .LowercaseLetter),
  (0x1E90, 0x1E90, .UppercaseLetter),
  (0x1E91, 0x1E91, .LowercaseLetter),
  (0x1E92, 0x1E92, .UppercaseLetter),
  (0x1E93, 0x1E93, .LowercaseLetter),
  (0x1E94, 0x1E94, .UppercaseLetter),
  (0x1E95, 0x1E9D, .LowercaseLetter),
  (0x1E9E, 0x1E9E, .UppercaseLetter),
  (0x1E9F, 0x1E9F, .LowercaseLetter),
  (0x1EA0, 0x1EA0, .UppercaseLetter),
  (0x1EA1, 0x1EA1, .LowercaseLetter),
  (0x1EA2, 0x1EA2, .UppercaseLetter),
  (0x1EA3, 0x1EA3, .LowercaseLetter),
  (0x1EA4, 0x1EA4, .UppercaseLetter),
  (0x1EA5, 0x1EA5, .LowercaseLetter),
  (0x1EA6, 0x1EA6, .UppercaseLetter),
  (0x1EA7, 0x1EA7, .LowercaseLetter),
  (0x1EA8, 0x1EA8, .UppercaseLetter),
  (0x1EA9, 0x1EA9, .LowercaseLetter),
  (0x1EAA, 0x1EAA, .UppercaseLetter),
  (0x1EAB, 0x1EAB, .LowercaseLetter),
  (0x1EAC, 0x1EAC, .UppercaseLetter),
  (0x1EAD, 0x1EAD, .LowercaseLetter),
  (0x1EAE, 0x1EAE, .UppercaseLetter),
  (0x1EAF, 0x1EAF, .LowercaseLetter),
  (0x1EB0, 0x1EB0, .UppercaseLetter),
  (0x1EB1, 0x1EB1, .LowercaseLetter),
  (0x1EB2, 0x1EB2, .UppercaseLetter),
  (0x1EB3, 0x1EB3, .LowercaseLetter)]
def generalCategory_22 : List (Nat × Nat × GeneralCategory) := [
  (0x1EB4, 0x1EB4, .UppercaseLetter),
  (0x1EB5, 0x1EB5, .LowercaseLetter),
  (0x1EB6, 0x1EB6, .UppercaseLetter),
  (0x1EB7, 0x1EB7, .LowercaseLetter),
  (0x1EB8, 0x1EB8, .UppercaseLetter),
  (0x1EB9, 0x1EB9, .LowercaseLetter),
  (0x1EBA, 0x1EBA, .UppercaseLetter),
  (0x1EBB, 0x1EBB, .LowercaseLetter),
  (0x1EBC, 0x1EBC, .UppercaseLetter),
  (0x1EBD, 0x1EBD, .LowercaseLetter),
  (0x1EBE, 0x1EBE, .UppercaseLetter),
  (0x1EBF, 0x1EBF, .LowercaseLetter),
  (0x1EC0, 0x1EC0, .UppercaseLetter),
  (0x1EC1, 0x1EC1, .LowercaseLetter),
  (0x1EC2, 0x1EC2, .UppercaseLetter),
  (0x1EC3, 0x1EC3, .LowercaseLetter),
  (0x1EC4, 0x1EC4, .UppercaseLetter),
  (0x1EC5, 0x1EC5, .LowercaseLetter),
  (0x1EC6, 0x1EC6, .UppercaseLetter),
  (0x1EC7, 0x1EC7, .LowercaseLetter),
  (0x1EC8, 0x1EC8, .UppercaseLetter),
  (0x1EC9, 0x1EC9, .LowercaseLetter),
  (0x1ECA, 0x1ECA, .UppercaseLetter),
  (0x1ECB, 0x1ECB, .LowercaseLetter),
  (0x1ECC, 0x1ECC, .UppercaseLetter),
  (0x1ECD, 0x1ECD, .LowercaseLetter),
  (0x1ECE, 0x1ECE, .UppercaseLetter),
  (0x1ECF, 0x1ECF, .LowercaseLetter),
  (0x1ED0, 0x1ED0, .UppercaseLetter),
  (0x1ED1, 0x1ED1, .LowercaseLetter),
  (0x1ED2, 0x1ED2, .UppercaseLetter),
  (0x1ED3, 0x1ED3, .LowercaseLetter),
  (0x1ED4, 0x1ED4, .UppercaseLetter),
  (0x1ED5, 0x1ED5, .LowercaseLetter),
  (0x1ED6, 0x1ED6, .UppercaseLetter),
  (0x1ED7, 0x1ED7, .LowercaseLetter),
  (0x1ED8, 0x1ED8, .UppercaseLetter),
  (0x1ED9, 0x1ED9, .LowercaseLetter),
  (0x1EDA, 0x1EDA, .UppercaseLetter),
  (0x1EDB, 0x1EDB, .LowercaseLetter),
  (0x1EDC, 0x1EDC, .UppercaseLetter),
  (0x1EDD, 0x1EDD, .LowercaseLetter),
  (0x1EDE, 0x1EDE, .UppercaseLetter),
  (0x1EDF, 0x1EDF, .LowercaseLetter),
  (0x1EE0, 0x1EE0, .UppercaseLetter),
  (0x1EE1, 0x1EE1, .LowercaseLetter),
  (0x1EE2, 0x1EE2, .UppercaseLetter),
  (0x1EE3, 0x1EE3, .LowercaseLetter),
  (0x1EE4, 0x1EE4, .UppercaseLetter),
  (0x1EE5, 0x1EE5, .LowercaseLetter),
  (0x1EE6, 0x1EE6, .UppercaseLetter),
  (0x1EE7, 0x1EE7, .LowercaseLetter),
  (0x1EE8, 0x1EE8, .UppercaseLetter),
  (0x1EE9, 0x1EE9, .LowercaseLetter),
  (0x1EEA, 0x1EEA, .UppercaseLetter),
  (0x1EEB, 0x1EEB, .LowercaseLetter),
  (0x1EEC, 0x1EEC, .UppercaseLetter),
  (0x1EED, 0x1EED, .LowercaseLetter),
  (0x1EEE, 0x1EEE, .UppercaseLetter),
  (0x1EEF, 0x1EEF, .LowercaseLetter),
  (0x1EF0, 0x1EF0, .UppercaseLetter),
  (0x1EF1, 0x1EF1, .LowercaseLetter),
  (0x1EF2, 0x1EF2, .UppercaseLetter),
  (0x1EF3, 0x1EF3, .LowercaseLetter)]
def generalCategory_23 : List (Nat × Nat × GeneralCategory) := [
  (0x1EF4, 0x1EF4, .UppercaseLetter),
  (0x1EF5, 0x1EF5, .LowercaseLetter),
  (0x1EF6, 0x1EF6, .UppercaseLetter),
  (0x1EF7, 0x1EF7, .LowercaseLetter),
  (0x1EF8, 0x1EF8, .UppercaseLetter),
  (0x1EF9, 0x1EF9, .LowercaseLetter),
  (0x1EFA, 0x1EFA, .UppercaseLetter),
  (0x1EFB, 0x1EFB, .LowercaseLetter),
  (0x1EFC, 0x1EFC, .UppercaseLetter),
  (0x1EFD, 0x1EFD, .LowercaseLetter),
  (0x1EFE, 0x1EFE, .UppercaseLetter),
  (0x1EFF, 0x1F07, .LowercaseLetter),
  (0x1F08, 0x1F0F, .UppercaseLetter),
  (0x1F10, 0x1F15, .LowercaseLetter),
  (0x1F18, 0x1F1D, .UppercaseLetter),
  (0x1F20, 0x1F27, .LowercaseLetter),
  (0x1F28, 0x1F2F, .UppercaseLetter),
  (0x1F30, 0x1F37, .LowercaseLetter),
  (0x1F38, 0x1F3F, .UppercaseLetter),
  (0x1F40, 0x1F45, .LowercaseLetter),
  (0x1F48, 0x1F4D, .UppercaseLetter),
  (0x1F50, 0x1F57, .LowercaseLetter),
  (0x1F59, 0x1F59, .UppercaseLetter),
  (0x1F5B, 0x1F5B, .UppercaseLetter),
  (0x1F5D, 0x1F5D, .UppercaseLetter),
  (0x1F5F, 0x1F5F, .UppercaseLetter),
  (0x1F60, 0x1F67, .LowercaseLetter),
  (0x1F68, 0x1F6F, .UppercaseLetter),
  (0x1F70, 0x1F7D, .LowercaseLetter),
  (0x1F80, 0x1F87, .LowercaseLetter),
  (0x1F88, 0x1F8F, .TitlecaseLetter),
  (0x1F90, 0x1F97, .LowercaseLetter),
  (0x1F98, 0x1F9F, .TitlecaseLetter),
  (0x1FA0, 0x1FA7, .LowercaseLetter),
  (0x1FA8, 0x1FAF, .TitlecaseLetter),
  (0x1FB0, 0x1FB4, .LowercaseLetter),
  (0x1FB6, 0x1FB7, .LowercaseLetter),
  (0x1FB8, 0x1FBB, .UppercaseLetter),
  (0x1FBC, 0x1FBC, .TitlecaseLetter),
  (0x1FBD, 0x1FBD, .ModifierSymbol),
  (0x1FBE, 0x1FBE, .LowercaseLetter),
  (0x1FBF, 0x1FC1, .ModifierSymbol),
  (0x1FC2, 0x1FC4, .LowercaseLetter),
  (0x1FC6, 0x1FC7, .LowercaseLetter),
  (0x1FC8, 0x1FCB, .UppercaseLetter),
  (0x1FCC, 0x1FCC, .TitlecaseLetter),
  (0x1FCD, 0x1FCF, .ModifierSymbol),
  (0x1FD0, 0x1FD3, .LowercaseLetter),
  (0x1FD6, 0x1FD7, .LowercaseLetter),
  (0x1FD8, 0x1FDB, .UppercaseLetter),
  (0x1FDD, 0x1FDF, .ModifierSymbol),
  (0x1FE0, 0x1FE7, .LowercaseLetter),
  (0x1FE8, 0x1FEC, .UppercaseLetter),
  (0x1FED, 0x1FEF, .ModifierSymbol),
  (0x1FF2, 0x1FF4, .LowercaseLetter),
  (0x1FF6, 0x1FF7, .LowercaseLetter),
  (0x1FF8, 0x1FFB, .UppercaseLetter),
  (0x1FFC, 0x1FFC, .TitlecaseLetter),
  (0x1FFD, 0x1FFE, .ModifierSymbol),
  (0x2000, 0x200A, .SpaceSeparator),
  (0x200B, 0x200F, .Format),
  (0x2010, 0x2015, .DashPunctuation),
  (0x2016, 0x2017, .OtherPunctuation),
  (0x2018, 0x2018, .InitialPunctuation)]
def generalCategory_24 : List (Nat × Nat × GeneralCategory) := [
  (0x2019, 0x2019, .FinalPunctuation),
  (0x201A, 0x201A, .OpenPunctuation),
  (0x201B, 0x201C, .InitialPunctuation),
  (0x201D, 0x201D, .FinalPunctuation),
  (0x201E, 0x201E, .OpenPunctuation),
  (0x201F, 0x201F, .InitialPunctuation),
  (0x2020, 0x2027, .OtherPunctuation),
  (0x2028, 0x2028, .LineSeparator),
  (0x2029, 0x2029, .ParagraphSeparator),
  (0x202A, 0x202E, .Format),
  (0x202F, 0x202F, .SpaceSeparator),
  (0x2030, 0x2038, .OtherPunctuation),
  (0x2039, 0x2039, .InitialPunctuation),
  (0x203A, 0x203A, .FinalPunctuation),
  (0x203B, 0x203E, .OtherPunctuation),
  (0x203F, 0x2040, .ConnectorPunctuation),
  (0x2041, 0x2043, .OtherPunctuation),
  (0x2044, 0x2044, .MathSymbol),
  (0x2045, 0x2045, .OpenPunctuation),
  (0x2046, 0x2046, .ClosePunctuation),
  (0x2047, 0x2051, .OtherPunctuation),
  (0x2052, 0x2052, .MathSymbol),
  (0x2053, 0x2053, .OtherPunctuation),
  (0x2054, 0x2054, .ConnectorPunctuation),
  (0x2055, 0x205E, .OtherPunctuation),
  (0x205F, 0x205F, .SpaceSeparator),
  (0x2060, 0x2064, .Format),
  (0x2066, 0x206F, .Format),
  (0x2070, 0x2070, .OtherNumber),
  (0x2071, 0x2071, .ModifierLetter),
  (0x2074, 0x2079, .OtherNumber),
  (0x207A, 0x207C, .MathSymbol),
  (0x207D, 0x207D, .OpenPunctuation),
  (0x207E, 0x207E, .ClosePunctuation),
  (0x207F, 0x207F, .ModifierLetter),
  (0x2080, 0x2089, .OtherNumber),
  (0x208A, 0x208C, .MathSymbol),
  (0x208D, 0x208D, .OpenPunctuation),
  (0x208E, 0x208E, .ClosePunctuation),
  (0x2090, 0x209C, .ModifierLetter),
  (0x20A0, 0x20BF, .CurrencySymbol),
  (0x20D0, 0x20DC, .NonspacingMark),
  (0x20DD, 0x20E0, .EnclosingMark),
  (0x20E1, 0x20E1, .NonspacingMark),
  (0x20E2, 0x20E4, .EnclosingMark),
  (0x20E5, 0x20F0, .NonspacingMark),
  (0x2100, 0x2101, .OtherSymbol),
  (0x2102, 0x2102, .UppercaseLetter),
  (0x2103, 0x2106, .OtherSymbol),
  (0x2107, 0x2107, .UppercaseLetter),
  (0x2108, 0x2109, .OtherSymbol),
  (0x210A, 0x210A, .LowercaseLetter),
  (0x210B, 0x210D, .UppercaseLetter),
  (0x210E, 0x210F, .LowercaseLetter),
  (0x2110, 0x2112, .UppercaseLetter),
  (0x2113, 0x2113, .LowercaseLetter),
  (0x2114, 0x2114, .OtherSymbol),
  (0x2115, 0x2115, .UppercaseLetter),
  (0x2116, 0x2117, .OtherSymbol),
  (0x2118, 0x2118, .MathSymbol),
  (0x2119, 0x211D, .UppercaseLetter),
  (0x211E, 0x2123, .OtherSymbol),
  (0x2124, 0x2124, .UppercaseLetter),
  (0x2125, 0x2125, .OtherSymbol)]
def generalCategory_25 : List (Nat × Nat × GeneralCategory) := [
  (0x2126, 0x2126, .UppercaseLetter),
  (0x2127, 0x2127, .OtherSymbol),
  (0x2128, 0x2128, .UppercaseLetter),
  (0x2129, 0x2129, .OtherSymbol),
  (0x212A, 0x212D, .UppercaseLetter),
  (0x212E, 0x212E, .OtherSymbol),
  (0x212F, 0x212F, .LowercaseLetter),
  (0x2130, 0x2133, .UppercaseLetter),
  (0x2134, 0x2134, .LowercaseLetter),
  (0x2135, 0x2138, .OtherLetter),
  (0x2139, 0x2139, .LowercaseLetter),
  (0x213A, 0x213B, .OtherSymbol),
  (0x213C, 0x213D, .LowercaseLetter),
  (0x213E, 0x213F, .UppercaseLetter),
  (0x2140, 0x2144, .MathSymbol),
  (0x2145, 0x2145, .UppercaseLetter),
  (0x2146, 0x2149, .LowercaseLetter),
  (0x214A, 0x214A, .OtherSymbol),
  (0x214B, 0x214B, .MathSymbol),
  (0x214C, 0x214D, .OtherSymbol),
  (0x214E, 0x214E, .LowercaseLetter),
  (0x214F, 0x214F, .OtherSymbol),
  (0x2150, 0x215F, .OtherNumber),
  (0x2160, 0x2182, .LetterNumber),
  (0x2183, 0x2183, .UppercaseLetter),
  (0x2184, 0x2184, .LowercaseLetter),
  (0x2185, 0x2188, .LetterNumber),
  (0x2189, 0x2189, .OtherNumber),
  (0x218A, 0x218B, .OtherSymbol),
  (0x2190, 0x2194, .MathSymbol),
  (0x2195, 0x2199, .OtherSymbol),
  (0x219A, 0x219B, .MathSymbol),
  (0x219C, 0x219F, .OtherSymbol),
  (0x21A0, 0x21A0, .MathSymbol),
  (0x21A1, 0x21A2, .OtherSymbol),
  (0x21A3, 0x21A3, .MathSymbol),
  (0x21A4, 0x21A5, .OtherSymbol),
  (0x21A6, 0x21A6, .MathSymbol),
  (0x21A7, 0x21AD, .OtherSymbol),
  (0x21AE, 0x21AE, .MathSymbol),
  (0x21AF, 0x21CD, .OtherSymbol),
  (0x21CE, 0x21CF, .MathSymbol),
  (0x21D0, 0x21D1, .OtherSymbol),
  (0x21D2, 0x21D2, .MathSymbol),
  (0x21D3, 0x21D3, .OtherSymbol),
  (0x21D4, 0x21D4, .MathSymbol),
  (0x21D5, 0x21F3, .OtherSymbol),
  (0x21F4, 0x22FF, .MathSymbol),
  (0x2300, 0x2307, .OtherSymbol),
  (0x2308, 0x2308, .OpenPunctuation),
  (0x2309, 0x2309, .ClosePunctuation),
  (0x230A, 0x230A, .OpenPunctuation),
  (0x230B, 0x230B, .ClosePunctuation),
  (0x230C, 0x231F, .OtherSymbol),
  (0x2320, 0x2321, .MathSymbol),
  (0x2322, 0x2328, .OtherSymbol),
  (0x2329, 0x2329, .OpenPunctuation),
  (0x232A, 0x232A, .ClosePunctuation),
  (0x232B, 0x237B, .OtherSymbol),
  (0x237C, 0x237C, .MathSymbol),
  (0x237D, 0x239A, .OtherSymbol),
  (0x239B, 0x23B3, .MathSymbol),
  (0x23B4, 0x23DB, .OtherSymbol),
  (0x23DC, 0x23E1, .MathSymbol)]
def generalCategory_26 : List (Nat × Nat × GeneralCategory) := [
  (0x23E2, 0x2426, .OtherSymbol),
  (0x2440, 0x244A, .OtherSymbol),
  (0x2460, 0x249B, .OtherNumber),
  (0x249C, 0x24E9, .OtherSymbol),
  (0x24EA, 0x24FF, .OtherNumber),
  (0x2500, 0x25B6, .OtherSymbol),
  (0x25B7, 0x25B7, .MathSymbol),
  (0x25B8, 0x25C0, .OtherSymbol),
  (0x25C1, 0x25C1, .MathSymbol),
  (0x25C2, 0x25F7, .OtherSymbol),
  (0x25F8, 0x25FF, .MathSymbol),
  (0x2600, 0x266E, .OtherSymbol),
  (0x266F, 0x266F, .MathSymbol),
  (0x2670, 0x2767, .OtherSymbol),
  (0x2768, 0x2768, .OpenPunctuation),
  (0x2769, 0x2769, .ClosePunctuation),
  (0x276A, 0x276A, .OpenPunctuation),
  (0x276B, 0x276B, .ClosePunctuation),
  (0x276C, 0x276C, .OpenPunctuation),
  (0x276D, 0x276D, .ClosePunctuation),
  (0x276E, 0x276E, .OpenPunctuation),
  (0x276F, 0x276F, .ClosePunctuation),
  (0x2770, 0x2770, .OpenPunctuation),
  (0x2771, 0x2771, .ClosePunctuation),
  (0x2772, 0x2772, .OpenPunctuation),
  (0x2773, 0x2773, .ClosePunctuation),
  (0x2774, 0x2774, .OpenPunctuation),
  (0x2775, 0x2775, .ClosePunctuation),
  (0x2776, 0x2793, .OtherNumber),
  (0x2794, 0x27BF, .OtherSymbol),
  (0x27C0, 0x27C4, .MathSymbol),
  (0x27C5, 0x27C5, .OpenPunctuation),
  (0x27C6, 0x27C6, .ClosePunctuation),
  (0x27C7, 0x27E5, .MathSymbol),
  (0x27E6, 0x27E6, .OpenPunctuation),
  (0x27E7, 0x27E7, .ClosePunctuation),
  (0x27E8, 0x27E8, .OpenPunctuation),
  (0x27E9, 0x27E9, .ClosePunctuation),
  (0x27EA, 0x27EA, .OpenPunctuation),
  (0x27EB, 0x27EB, .ClosePunctuation),
  (0x27EC, 0x27EC, .OpenPunctuation),
  (0x27ED, 0x27ED, .ClosePunctuation),
  (0x27EE, 0x27EE, .OpenPunctuation),
  (0x27EF, 0x27EF, .ClosePunctuation),
  (0x27F0, 0x27FF, .MathSymbol),
  (0x2800, 0x28FF, .OtherSymbol),
  (0x2900, 0x2982, .MathSymbol),
  (0x2983, 0x2983, .OpenPunctuation),
  (0x2984, 0x2984, .ClosePunctuation),
  (0x2985, 0x2985, .OpenPunctuation),
  (0x2986, 0x2986, .ClosePunctuation),
  (0x2987, 0x2987, .OpenPunctuation),
  (0x2988, 0x2988, .ClosePunctuation),
  (0x2989, 0x2989, .OpenPunctuation),
  (0x298A, 0x298A, .ClosePunctuation),
  (0x298B, 0x298B, .OpenPunctuation),
  (0x298C, 0x298C, .ClosePunctuation),
  (0x298D, 0x298D, .OpenPunctuation),
  (0x298E, 0x298E, .ClosePunctuation),
  (0x298F, 0x298F, .OpenPunctuation),
  (0x2990, 0x2990, .ClosePunctuation),
  (0x2991, 0x2991, .OpenPunctuation),
  (0x2992, 0x2992, .ClosePunctuation),
  (0x2993, 0x2993, .OpenPunctuation)]
def generalCategory_27 : List (Nat × Nat × GeneralCategory) := [
  (0x2994, 0x2994, .ClosePunctuation),
  (0x2995, 0x2995, .OpenPunctuation),
  (0x2996, 0x2996, .ClosePunctuation),
  (0x2997, 0x2997, .OpenPunctuation),
  (0x2998, 0x2998, .ClosePunctuation),
  (0x2999, 0x29D7, .MathSymbol),
  (0x29D8, 0x29D8, .OpenPunctuation),
  (0x29D9, 0x29D9, .ClosePunctuation),
  (0x29DA, 0x29DA, .OpenPunctuation),
  (0x29DB, 0x29DB, .ClosePunctuation),
  (0x29DC, 0x29FB, .MathSymbol),
  (0x29FC, 0x29FC, .OpenPunctuation),
  (0x29FD, 0x29FD, .ClosePunctuation),
  (0x29FE, 0x2AFF, .MathSymbol),
  (0x2B00, 0x2B2F, .OtherSymbol),
  (0x2B30, 0x2B44, .MathSymbol),
  (0x2B45, 0x2B46, .OtherSymbol),
  (0x2B47, 0x2B4C, .MathSymbol),
  (0x2B4D, 0x2B73, .OtherSymbol),
  (0x2B76, 0x2B95, .OtherSymbol),
  (0x2B98, 0x2BB9, .OtherSymbol),
  (0x2BBD, 0x2BC8, .OtherSymbol),
  (0x2BCA, 0x2BD2, .OtherSymbol),
  (0x2BEC, 0x2BEF, .OtherSymbol),
  (0x2C00, 0x2C2E, .UppercaseLetter),
  (0x2C30, 0x2C5E, .LowercaseLetter),
  (0x2C60, 0x2C60, .UppercaseLetter),
  (0x2C61, 0x2C61, .LowercaseLetter),
  (0x2C62, 0x2C64, .UppercaseLetter),
  (0x2C65, 0x2C66, .LowercaseLetter),
  (0x2C67, 0x2C67, .UppercaseLetter),
  (0x2C68, 0x2C68, .LowercaseLetter),
  (0x2C69, 0x2C69, .UppercaseLetter),
  (0x2C6A, 0x2C6A, .LowercaseLetter),
  (0x2C6B, 0x2C6B, .UppercaseLetter),
  (0x2C6C, 0x2C6C, .LowercaseLetter),
  (0x2C6D, 0x2C70, .UppercaseLetter),
  (0x2C71, 0x2C71, .LowercaseLetter),
  (0x2C72, 0x2C72, .UppercaseLetter),
  (0x2C73, 0x2C74, .LowercaseLetter),
  (0x2C75, 0x2C75, .UppercaseLetter),
  (0x2C76, 0x2C7B, .LowercaseLetter),
  (0x2C7C, 0x2C7D, .ModifierLetter),
  (0x2C7E, 0x2C80, .UppercaseLetter),
  (0x2C81, 0x2C81, .LowercaseLetter),
  (0x2C82, 0x2C82, .UppercaseLetter),
  (0x2C83, 0x2C83, .LowercaseLetter),
  (0x2C84, 0x2C84, .UppercaseLetter),
  (0x2C85, 0x2C85, .LowercaseLetter),
  (0x2C86, 0x2C86, .UppercaseLetter),
  (0x2C87, 0x2C87, .LowercaseLetter),
  (0x2C88, 0x2C88, .UppercaseLetter),
  (0x2C89, 0x2C89, .LowercaseLetter),
  (0x2C8A, 0x2C8A, .UppercaseLetter),
  (0x2C8B, 0x2C8B, .LowercaseLetter),
  (0x2C8C, 0x2C8C, .UppercaseLetter),
  (0x2C8D, 0x2C8D, .LowercaseLetter),
  (0x2C8E, 0x2C8E, .UppercaseLetter),
  (0x2C8F, 0x2C8F, .LowercaseLetter),
  (0x2C90, 0x2C90, .UppercaseLetter),
  (0x2C91, 0x2C91, .LowercaseLetter),
  (0x2C92, 0x2C92, .UppercaseLetter),
  (0x2C93, 0x2C93, .LowercaseLetter),
  (0x2C94, 0x2C94, .UppercaseLetter)]
def generalCategory_28 : List (Nat × Nat × GeneralCategory) := [
  (0x2C95, 0x2C95, .LowercaseLetter),
  (0x2C96, 0x2C96, .UppercaseLetter),
  (0x2C97, 0x2C97, .LowercaseLetter),
  (0x2C98, 0x2C98, .UppercaseLetter),
  (0x2C99, 0x2C99, .LowercaseLetter),
  (0x2C9A, 0x2C9A, .UppercaseLetter),
  (0x2C9B, 0x2C9B, .LowercaseLetter),
  (0x2C9C, 0x2C9C, .UppercaseLetter),
  (0x2C9D, 0x2C9D, .LowercaseLetter),
  (0x2C9E, 0x2C9E, .UppercaseLetter),
  (0x2C9F, 0x2C9F, .LowercaseLetter),
  (0x2CA0, 0x2CA0, .UppercaseLetter),
  (0x2CA1, 0x2CA1, .LowercaseLetter),
  (0x2CA2, 0x2CA2, .UppercaseLetter),
  (0x2CA3, 0x2CA3, .LowercaseLetter),
  (0x2CA4, 0x2CA4, .UppercaseLetter),
  (0x2CA5, 0x2CA5, .LowercaseLetter),
  (0x2CA6, 0x2CA6, .UppercaseLetter),
  (0x2CA7, 0x2CA7, .LowercaseLetter),
  (0x2CA8, 0x2CA8, .UppercaseLetter),
  (0x2CA9, 0x2CA9, .LowercaseLetter),
  (0x2CAA, 0x2CAA, .UppercaseLetter),
  (0x2CAB, 0x2CAB, .LowercaseLetter),
  (0x2CAC, 0x2CAC, .UppercaseLetter),
  (0x2CAD, 0x2CAD, .LowercaseLetter),
  (0x2CAE, 0x2CAE, .UppercaseLetter),
  (0x2CAF, 0x2CAF, .LowercaseLetter),
  (0x2CB0, 0x2CB0, .UppercaseLetter),
  (0x2CB1, 0x2CB1, .LowercaseLetter),
  (0x2CB2, 0x2CB2, .UppercaseLetter),
  (0x2CB3, 0x2CB3, .LowercaseLetter),
  (0x2CB4, 0x2CB4, .UppercaseLetter),
  (0x2CB5, 0x2CB5, .LowercaseLetter),
  (0x2CB6, 0x2CB6, .UppercaseLetter),
  (0x2CB7, 0x2CB7, .LowercaseLetter),
  (0x2CB8, 0x2CB8, .UppercaseLetter),
  (0x2CB9, 0x2CB9, .LowercaseLetter),
  (0x2CBA, 0x2CBA, .UppercaseLetter),
  (0x2CBB, 0x2CBB, .LowercaseLetter),
  (0x2CBC, 0x2CBC, .UppercaseLetter),
  (0x2CBD, 0x2CBD, .LowercaseLetter),
  (0x2CBE, 0x2CBE, .UppercaseLetter),
  (0x2CBF, 0x2CBF, .LowercaseLetter),
  (0x2CC0, 0x2CC0, .UppercaseLetter),
  (0x2CC1, 0x2CC1, .LowercaseLetter),
  (0x2CC2, 0x2CC2, .UppercaseLetter),
  (0x2CC3, 0x2CC3, .LowercaseLetter),
  (0x2CC4, 0x2CC4, .UppercaseLetter),
  (0x2CC5, 0x2CC5, .LowercaseLetter),
  (0x2CC6, 0x2CC6, .UppercaseLetter),
  (0x2CC7, 0x2CC7, .LowercaseLetter),
  (0x2CC8, 0x2CC8, .UppercaseLetter),
  (0x2CC9, 0x2CC9, .LowercaseLetter),
  (0x2CCA, 0x2CCA, .UppercaseLetter),
  (0x2CCB, 0x2CCB, .LowercaseLetter),
  (0x2CCC, 0x2CCC, .UppercaseLetter),
  (0x2CCD, 0x2CCD, .LowercaseLetter),
  (0x2CCE, 0x2CCE, .UppercaseLetter),
  (0x2CCF, 0x2CCF, .LowercaseLetter),
  (0x2CD0, 0x2CD0, .UppercaseLetter),
  (0x2CD1, 0x2CD1, .LowercaseLetter),
  (0x2CD2, 0x2CD2, .UppercaseLetter),
  (0x2CD3, 0x2CD3, .LowercaseLetter),
  (0x2CD4, 0x2CD4, .UppercaseLetter)]
def generalCategory_29 : List (Nat × Nat × GeneralCategory) := [
  (0x2CD5, 0x2CD5, .LowercaseLetter),
  (0x2CD6, 0x2CD6, .UppercaseLetter),
  (0x2CD7, 0x2CD7, .LowercaseLetter),
  (0x2CD8, 0x2CD8, .UppercaseLetter),
  (0x2CD9, 0x2CD9, .LowercaseLetter),
  (0x2CDA, 0x2CDA, .UppercaseLetter),
  (0x2CDB, 0x2CDB, .LowercaseLetter),
  (0x2CDC, 0x2CDC, .UppercaseLetter),
  (0x2CDD, 0x2CDD, .LowercaseLetter),
  (0x2CDE, 0x2CDE, .UppercaseLetter),
  (0x2CDF, 0x2CDF, .LowercaseLetter),
  (0x2CE0, 0x2CE0, .UppercaseLetter),
  (0x2CE1, 0x2CE1, .LowercaseLetter),
  (0x2CE2, 0x2CE2, .UppercaseLetter),
  (0x2CE3, 0x2CE4, .LowercaseLetter),
  (0x2CE5, 0x2CEA, .OtherSymbol),
  (0x2CEB, 0x2CEB, .UppercaseLetter),
  (0x2CEC, 0x2CEC, .LowercaseLetter),
  (0x2CED, 0x2CED, .UppercaseLetter),
  (0x2CEE, 0x2CEE, .LowercaseLetter),
  (0x2CEF, 0x2CF1, .NonspacingMark),
  (0x2CF2, 0x2CF2, .UppercaseLetter),
  (0x2CF3, 0x2CF3, .LowercaseLetter),
  (0x2CF9, 0x2CFC, .OtherPunctuation),
  (0x2CFD, 0x2CFD, .OtherNumber),
  (0x2CFE, 0x2CFF, .OtherPunctuation),
  (0x2D00, 0x2D25, .LowercaseLetter),
  (0x2D27, 0x2D27, .LowercaseLetter),
  (0x2D2D, 0x2D2D, .LowercaseLetter),
  (0x2D30, 0x2D67, .OtherLetter),
  (0x2D6F, 0x2D6F, .ModifierLetter),
  (0x2D70, 0x2D70, .OtherPunctuation),
  (0x2D7F, 0x2D7F, .NonspacingMark),
  (0x2D80, 0x2D96, .OtherLetter),
  (0x2DA0, 0x2DA6, .OtherLetter),
  (0x2DA8, 0x2DAE, .OtherLetter),
  (0x2DB0, 0x2DB6, .OtherLetter),
  (0x2DB8, 0x2DBE, .OtherLetter),
  (0x2DC0, 0x2DC6, .OtherLetter),
  (0x2DC8, 0x2DCE, .OtherLetter),
  (0x2DD0, 0x2DD6, .OtherLetter),
  (0x2DD8, 0x2DDE, .OtherLetter),
  (0x2DE0, 0x2DFF, .NonspacingMark),
  (0x2E00, 0x2E01, .OtherPunctuation),
  (0x2E02, 0x2E02, .InitialPunctuation),
  (0x2E03, 0x2E03, .FinalPunctuation),
  (0x2E04, 0x2E04, .InitialPunctuation),
  (0x2E05, 0x2E05, .FinalPunctuation),
  (0x2E06, 0x2E08, .OtherPunctuation),
  (0x2E09, 0x2E09, .InitialPunctuation),
  (0x2E0A, 0x2E0A, .FinalPunctuation),
  (0x2E0B, 0x2E0B, .OtherPunctuation),
  (0x2E0C, 0x2E0C, .InitialPunctuation),
  (0x2E0D, 0x2E0D, .FinalPunctuation),
  (0x2E0E, 0x2E16, .OtherPunctuation),
  (0x2E17, 0x2E17, .DashPunctuation),
  (0x2E18, 0x2E19, .OtherPunctuation),
  (0x2E1A, 0x2E1A, .DashPunctuation),
  (0x2E1B, 0x2E1B, .OtherPunctuation),
  (0x2E1C, 0x2E1C, .InitialPunctuation),
  (0x2E1D, 0x2E1D, .FinalPunctuation),
  (0x2E1E, 0x2E1F, .OtherPunctuation),
  (0x2E20, 0x2E20, .InitialPunctuation),
  (0x2E21, 0x2E21, .FinalPunctuation)]
def generalCategory_30 : List (Nat × Nat × GeneralCategory) := [
  (0x2E22, 0x2E22, .OpenPunctuation),
  (0x2E23, 0x2E23, .ClosePunctuation),
  (0x2E24, 0x2E24, .OpenPunctuation),
  (0x2E25, 0x2E25, .ClosePunctuation),
  (0x2E26, 0x2E26, .OpenPunctuation),
  (0x2E27, 0x2E27, .ClosePunctuation),
  (0x2E28, 0x2E28, .OpenPunctuation),
  (0x2E29, 0x2E29, .ClosePunctuation),
  (0x2E2A, 0x2E2E, .OtherPunctuation),
  (0x2E2F, 0x2E2F, .ModifierLetter),
  (0x2E30, 0x2E39, .OtherPunctuation),
  (0x2E3A, 0x2E3B, .DashPunctuation),
  (0x2E3C, 0x2E3F, .OtherPunctuation),
  (0x2E40, 0x2E40, .DashPunctuation),
  (0x2E41, 0x2E41, .OtherPunctuation),
  (0x2E42, 0x2E42, .OpenPunctuation),
  (0x2E43, 0x2E49, .OtherPunctuation),
  (0x2E80, 0x2E99, .OtherSymbol),
  (0x2E9B, 0x2EF3, .OtherSymbol),
  (0x2F00, 0x2FD5, .OtherSymbol),
  (0x2FF0, 0x2FFB, .OtherSymbol),
  (0x3000, 0x3000, .SpaceSeparator),
  (0x3001, 0x3003, .OtherPunctuation),
  (0x3004, 0x3004, .OtherSymbol),
  (0x3005, 0x3005, .ModifierLetter),
  (0x3006, 0x3006, .OtherLetter),
  (0x3007, 0x3007, .LetterNumber),
  (0x3008, 0x3008, .OpenPunctuation),
  (0x3009, 0x3009, .ClosePunctuation),
  (0x300A, 0x300A, .OpenPunctuation),
  (0x300B, 0x300B, .ClosePunctuation),
  (0x300C, 0x300C, .OpenPunctuation),
  (0x300D, 0x300D, .ClosePunctuation),
  (0x300E, 0x300E, .OpenPunctuation),
  (0x300F, 0x300F, .ClosePunctuation),
  (0x3010, 0x3010, .OpenPunctuation),
  (0x3011, 0x3011, .ClosePunctuation),
  (0x3012, 0x3013, .OtherSymbol),
  (0x3014, 0x3014, .OpenPunctuation),
  (0x3015, 0x3015, .ClosePunctuation),
  (0x3016, 0x3016, .OpenPunctuation),
  (0x3017, 0x3017, .ClosePunctuation),
  (0x3018, 0x3018, .OpenPunctuation),
  (0x3019, 0x3019, .ClosePunctuation),
  (0x301A, 0x301A, .OpenPunctuation),
  (0x301B, 0x301B, .ClosePunctuation),
  (0x301C, 0x301C, .DashPunctuation),
  (0x301D, 0x301D, .OpenPunctuation),
  (0x301E, 0x301F, .ClosePunctuation),
  (0x3020, 0x3020, .OtherSymbol),
  (0x3021, 0x3029, .LetterNumber),
  (0x302A, 0x302D, .NonspacingMark),
  (0x302E, 0x302F, .SpacingMark),
  (0x3030, 0x3030, .DashPunctuation),
  (0x3031, 0x3035, .ModifierLetter),
  (0x3036, 0x3037, .OtherSymbol),
  (0x3038, 0x303A, .LetterNumber),
  (0x303B, 0x303B, .ModifierLetter),
  (0x303C, 0x303C, .OtherLetter),
  (0x303D, 0x303D, .OtherPunctuation),
  (0x303E, 0x303F, .OtherSymbol),
  (0x3041, 0x3096, .OtherLetter),
  (0x3099, 0x309A, .NonspacingMark),
  (0x309B, 0x309C, .ModifierSymbol)]
def generalCategory_31 : List (Nat × Nat × GeneralCategory) := [
  (0x309D, 0x309E, .ModifierLetter),
  (0x309F, 0x309F, .OtherLetter),
  (0x30A0, 0x30A0, .DashPunctuation),
  (0x30A1, 0x30FA, .OtherLetter),
  (0x30FB, 0x30FB, .OtherPunctuation),
  (0x30FC, 0x30FE, .ModifierLetter),
  (0x30FF, 0x30FF, .OtherLetter),
  (0x3105, 0x312E, .OtherLetter),
  (0x3131, 0x318E, .OtherLetter),
  (0x3190, 0x3191, .OtherSymbol),
  (0x3192, 0x3195, .OtherNumber),
  (0x3196, 0x319F, .OtherSymbol),
  (0x31A0, 0x31BA, .OtherLetter),
  (0x31C0, 0x31E3, .OtherSymbol),
  (0x31F0, 0x31FF, .OtherLetter),
  (0x3200, 0x321E, .OtherSymbol),
  (0x3220, 0x3229, .OtherNumber),
  (0x322A, 0x3247, .OtherSymbol),
  (0x3248, 0x324F, .OtherNumber),
  (0x3250, 0x3250, .OtherSymbol),
  (0x3251, 0x325F, .OtherNumber),
  (0x3260, 0x327F, .OtherSymbol),
  (0x3280, 0x3289, .OtherNumber),
  (0x328A, 0x32B0, .OtherSymbol),
  (0x32B1, 0x32BF, .OtherNumber),
  (0x32C0, 0x32FE, .OtherSymbol),
  (0x3300, 0x33FF, .OtherSymbol),
  (0x3400, 0x4DB5, .OtherLetter),
  (0x4DC0, 0x4DFF, .OtherSymbol),
  (0x4E00, 0x9FEA, .OtherLetter),
  (0xA000, 0xA014, .OtherLetter),
  (0xA015, 0xA015, .ModifierLetter),
  (0xA016, 0xA48C, .OtherLetter),
  (0xA490, 0xA4C6, .OtherSymbol),
  (0xA4D0, 0xA4F7, .OtherLetter),
  (0xA4F8, 0xA4FD, .ModifierLetter),
  (0xA4FE, 0xA4FF, .OtherPunctuation),
  (0xA500, 0xA60B, .OtherLetter),
  (0xA60C, 0xA60C, .ModifierLetter),
  (0xA60D, 0xA60F, .OtherPunctuation),
  (0xA610, 0xA61F, .OtherLetter),
  (0xA620, 0xA629, .DecimalNumber),
  (0xA62A, 0xA62B, .OtherLetter),
  (0xA640, 0xA640, .UppercaseLetter),
  (0xA641, 0xA641, .LowercaseLetter),
  (0xA642, 0xA642, .UppercaseLetter),
  (0xA643, 0xA643, .LowercaseLetter),
  (0xA644, 0xA644, .UppercaseLetter),
  (0xA645, 0xA645, .LowercaseLetter),
  (0xA646, 0xA646, .UppercaseLetter),
  (0xA647, 0xA647, .LowercaseLetter),
  (0xA648, 0xA648, .UppercaseLetter),
  (0xA649, 0xA649, .LowercaseLetter),
  (0xA64A, 0xA64A, .UppercaseLetter),
  (0xA64B, 0xA64B, .LowercaseLetter),
  (0xA64C, 0xA64C, .UppercaseLetter),
  (0xA64D, 0xA64D, .LowercaseLetter),
  (0xA64E, 0xA64E, .UppercaseLetter),
  (0xA64F, 0xA64F, .LowercaseLetter),
  (0xA650, 0xA650, .UppercaseLetter),
  (0xA651, 0xA651, .LowercaseLetter),
  (0xA652, 0xA652, .UppercaseLetter),
  (0xA653, 0xA653, .LowercaseLetter),
  (0xA654, 0xA654, .UppercaseLetter)]
def generalCategory_32 : List (Nat × Nat × GeneralCategory) := [
  (0xA655, 0xA655, .LowercaseLetter),
  (0xA656, 0xA656, .UppercaseLetter),
  (0xA657, 0xA657, .LowercaseLetter),
  (0xA658, 0xA658, .UppercaseLetter),
  (0xA659, 0xA659, .LowercaseLetter),
  (0xA65A, 0xA65A, .UppercaseLetter),
  (0xA65B, 0xA65B, .LowercaseLetter),
  (0xA65C, 0xA65C, .UppercaseLetter),
  (0xA65D, 0xA65D, .LowercaseLetter),
  (0xA65E, 0xA65E, .UppercaseLetter),
  (0xA65F, 0xA65F, .LowercaseLetter),
  (0xA660, 0xA660, .UppercaseLetter),
  (0xA661, 0xA661, .LowercaseLetter),
  (0xA662, 0xA662, .UppercaseLetter),
  (0xA663, 0xA663, .LowercaseLetter),
  (0xA664, 0xA664, .UppercaseLetter),
  (0xA665, 0xA665, .LowercaseLetter),
  (0xA666, 0xA666, .UppercaseLetter),
  (0xA667, 0xA667, .LowercaseLetter),
  (0xA668, 0xA668, .UppercaseLetter),
  (0xA669, 0xA669, .LowercaseLetter),
  (0xA66A, 0xA66A, .UppercaseLetter),
  (0xA66B, 0xA66B, .LowercaseLetter),
  (0xA66C, 0xA66C, .UppercaseLetter),
  (0xA66D, 0xA66D, .LowercaseLetter),
  (0xA66E, 0xA66E, .OtherLetter),
  (0xA66F, 0xA66F, .NonspacingMark),
  (0xA670, 0xA672, .EnclosingMark),
  (0xA673, 0xA673, .OtherPunctuation),
  (0xA674, 0xA67D, .NonspacingMark),
  (0xA67E, 0xA67E, .OtherPunctuation),
  (0xA67F, 0xA67F, .ModifierLetter),
  (0xA680, 0xA680, .UppercaseLetter),
  (0xA681, 0xA681, .LowercaseLetter),
  (0xA682, 0xA682, .UppercaseLetter),
  (0xA683, 0xA683, .LowercaseLetter),
  (0xA684, 0xA684, .UppercaseLetter),
  (0xA685, 0xA685, .LowercaseLetter),
  (0xA686, 0xA686, .UppercaseLetter),
  (0xA687, 0xA687, .LowercaseLetter),
  (0xA688, 0xA688, .UppercaseLetter),
  (0xA689, 0xA689, .LowercaseLetter),
  (0xA68A, 0xA68A, .UppercaseLetter),
  (0xA68B, 0xA68B, .LowercaseLetter),
  (0xA68C, 0xA68C, .UppercaseLetter),
  (0xA68D, 0xA68D, .LowercaseLetter),
  (0xA68E, 0xA68E, .UppercaseLetter),
  (0xA68F, 0xA68F, .LowercaseLetter),
  (0xA690, 0xA690, .UppercaseLetter),
  (0xA691, 0xA691, .LowercaseLetter),
  (0xA692, 0xA692, .UppercaseLetter),
  (0xA693, 0xA693, .LowercaseLetter),
  (0xA694, 0xA694, .UppercaseLetter),
  (0xA695, 0xA695, .LowercaseLetter),
  (0xA696, 0xA696, .UppercaseLetter),
  (0xA697, 0xA697, .LowercaseLetter),
  (0xA698, 0xA698, .UppercaseLetter),
  (0xA699, 0xA699, .LowercaseLetter),
  (0xA69A, 0xA69A, .UppercaseLetter),
  (0xA69B, 0xA69B, .LowercaseLetter),
  (0xA69C, 0xA69D, .ModifierLetter),
  (0xA69E, 0xA69F, .NonspacingMark),
  (0xA6A0, 0xA6E5, .OtherLetter),
  (0xA6E6, 0xA6EF, .LetterNumber)]
def generalCategory_33 : List (Nat × Nat × GeneralCategory) := [
  (0xA6F0, 0xA6F1, .NonspacingMark),
  (0xA6F2, 0xA6F7, .OtherPunctuation),
  (0xA700, 0xA716, .ModifierSymbol),
  (0xA717, 0xA71F, .ModifierLetter),
  (0xA720, 0xA721, .ModifierSymbol),
  (0xA722, 0xA722, .UppercaseLetter),
  (0xA723, 0xA723, .LowercaseLetter),
  (0xA724, 0xA724, .UppercaseLetter),
  (0xA725, 0xA725, .LowercaseLetter),
  (0xA726, 0xA726, .UppercaseLetter),
  (0xA727, 0xA727, .LowercaseLetter),
  (0xA728, 0xA728, .UppercaseLetter),
  (0xA729, 0xA729, .LowercaseLetter),
  (0xA72A, 0xA72A, .UppercaseLetter),
  (0xA72B, 0xA72B, .LowercaseLetter),
  (0xA72C, 0xA72C, .UppercaseLetter),
  (0xA72D, 0xA72D, .LowercaseLetter),
  (0xA72E, 0xA72E, .UppercaseLetter),
  (0xA72F, 0xA731, .LowercaseLetter),
  (0xA732, 0xA732, .UppercaseLetter),
  (0xA733, 0xA733, .LowercaseLetter),
  (0xA734, 0xA734, .UppercaseLetter),
  (0xA735, 0xA735, .LowercaseLetter),
  (0xA736, 0xA736, .UppercaseLetter),
  (0xA737, 0xA737, .LowercaseLetter),
  (0xA738, 0xA738, .UppercaseLetter),
  (0xA739, 0xA739, .LowercaseLetter),
  (0xA73A, 0xA73A, .UppercaseLetter),
  (0xA73B, 0xA73B, .LowercaseLetter),
  (0xA73C, 0xA73C, .UppercaseLetter),
  (0xA73D, 0xA73D, .LowercaseLetter),
  (0xA73E, 0xA73E, .UppercaseLetter),
  (0xA73F, 0xA73F, .LowercaseLetter),
  (0xA740, 0xA740, .UppercaseLetter),
  (0xA741, 0xA741, .LowercaseLetter),
  (0xA742, 0xA742, .UppercaseLetter),
  (0xA743, 0xA743, .LowercaseLetter),
  (0xA744, 0xA744, .UppercaseLetter),
  (0xA745, 0xA745, .LowercaseLetter),
  (0xA746, 0xA746, .UppercaseLetter),
  (0xA747, 0xA747, .LowercaseLetter),
  (0xA748, 0xA748, .UppercaseLetter),
  (0xA749, 0xA749, .LowercaseLetter),
  (0xA74A, 0xA74A, .UppercaseLetter),
  (0xA74B, 0xA74B, .LowercaseLetter),
  (0xA74C, 0xA74C, .UppercaseLetter),
  (0xA74D, 0xA74D, .LowercaseLetter),
  (0xA74E, 0xA74E, .UppercaseLetter),
  (0xA74F, 0xA74F, .LowercaseLetter),
  (0xA750, 0xA750, .UppercaseLetter),
  (0xA751, 0xA751, .LowercaseLetter),
  (0xA752, 0xA752, .UppercaseLetter),
  (0xA753, 0xA753, .LowercaseLetter),
  (0xA754, 0xA754, .UppercaseLetter),
  (0xA755, 0xA755, .LowercaseLetter),
  (0xA756, 0xA756, .UppercaseLetter),
  (0xA757, 0xA757, .LowercaseLetter),
  (0xA758, 0xA758, .UppercaseLetter),
  (0xA759, 0xA759, .LowercaseLetter),
  (0xA75A, 0xA75A, .UppercaseLetter),
  (0xA75B, 0xA75B, .LowercaseLetter),
  (0xA75C, 0xA75C, .UppercaseLetter),
  (0xA75D, 0xA75D, .LowercaseLetter),
  (0xA75E, 0xA75E, .UppercaseLetter)]
def generalCategory_34 : List (Nat × Nat × GeneralCategory) := [
  (0xA75F, 0xA75F, .LowercaseLetter),
  (0xA760, 0xA760, .UppercaseLetter),
  (0xA761, 0xA761, .LowercaseLetter),
  (0xA762, 0xA762, .UppercaseLetter),
  (0xA763, 0xA763, .LowercaseLetter),
  (0xA764, 0xA764, .UppercaseLetter),
  (0xA765, 0xA765, .LowercaseLetter),
  (0xA766, 0xA766, .UppercaseLetter),
  (0xA767, 0xA767, .LowercaseLetter),
  (0xA768, 0xA768, .UppercaseLetter),
  (0xA769, 0xA769, .LowercaseLetter),
  (0xA76A, 0xA76A, .UppercaseLetter),
  (0xA76B, 0xA76B, .LowercaseLetter),
  (0xA76C, 0xA76C, .UppercaseLetter),
  (0xA76D, 0xA76D, .LowercaseLetter),
  (0xA76E, 0xA76E, .UppercaseLetter),
  (0xA76F, 0xA76F, .LowercaseLetter),
  (0xA770, 0xA770, .ModifierLetter),
  (0xA771, 0xA778, .LowercaseLetter),
  (0xA779, 0xA779, .UppercaseLetter),
  (0xA77A, 0xA77A, .LowercaseLetter),
  (0xA77B, 0xA77B, .UppercaseLetter),
  (0xA77C, 0xA77C, .LowercaseLetter),
  (0xA77D, 0xA77E, .UppercaseLetter),
  (0xA77F, 0xA77F, .LowercaseLetter),
  (0xA780, 0xA780, .UppercaseLetter),
  (0xA781, 0xA781, .LowercaseLetter),
  (0xA782, 0xA782, .UppercaseLetter),
  (0xA783, 0xA783, .LowercaseLetter),
  (0xA784, 0xA784, .UppercaseLetter),
  (0xA785, 0xA785, .LowercaseLetter),
  (0xA786, 0xA786, .UppercaseLetter),
  (0xA787, 0xA787, .LowercaseLetter),
  (0xA788, 0xA788, .ModifierLetter),
  (0xA789, 0xA78A, .ModifierSymbol),
  (0xA78B, 0xA78B, .UppercaseLetter),
  (0xA78C, 0xA78C, .LowercaseLetter),
  (0xA78D, 0xA78D, .UppercaseLetter),
  (0xA78E, 0xA78E, .LowercaseLetter),
  (0xA78F, 0xA78F, .OtherLetter),
  (0xA790, 0xA790, .UppercaseLetter),
  (0xA791, 0xA791, .LowercaseLetter),
  (0xA792, 0xA792, .UppercaseLetter),
  (0xA793, 0xA795, .LowercaseLetter),
  (0xA796, 0xA796, .UppercaseLetter),
  (0xA797, 0xA797, .LowercaseLetter),
  (0xA798, 0xA798, .UppercaseLetter),
  (0xA799, 0xA799, .LowercaseLetter),
  (0xA79A, 0xA79A, .UppercaseLetter),
  (0xA79B, 0xA79B, .LowercaseLetter),
  (0xA79C, 0xA79C, .UppercaseLetter),
  (0xA79D, 0xA79D, .LowercaseLetter),
  (0xA79E, 0xA79E, .UppercaseLetter),
  (0xA79F, 0xA79F, .LowercaseLetter),
  (0xA7A0, 0xA7A0, .UppercaseLetter),
  (0xA7A1, 0xA7A1, .LowercaseLetter),
  (0xA7A2, 0xA7A2, .UppercaseLetter),
  (0xA7A3, 0xA7A3, .LowercaseLetter),
  (0xA7A4, 0xA7A4, .UppercaseLetter),
  (0xA7A5, 0xA7A5, .LowercaseLetter),
  (0xA7A6, 0xA7A6, .UppercaseLetter),
  (0xA7A7, 0xA7A7, .LowercaseLetter),
  (0xA7A8, 0xA7A8, .UppercaseLetter),
  (0xA7A9, 0xA7A9, .LowercaseLetter)]
def generalCategory_35 : List (Nat × Nat × GeneralCategory) := [
  (0xA7AA, 0xA7AE, .UppercaseLetter),
  (0xA7B0, 0xA7B4, .UppercaseLetter),
  (0xA7B5, 0xA7B5, .LowercaseLetter),
  (0xA7B6, 0xA7B6, .UppercaseLetter),
  (0xA7B7, 0xA7B7, .LowercaseLetter),
  (0xA7F7, 0xA7F7, .OtherLetter),
  (0xA7F8, 0xA7F9, .ModifierLetter),
  (0xA7FA, 0xA7FA, .LowercaseLetter),
  (0xA7FB, 0xA801, .OtherLetter),
  (0xA802, 0xA802, .NonspacingMark),
  (0xA803, 0xA805, .OtherLetter),
  (0xA806, 0xA806, .NonspacingMark),
  (0xA807, 0xA80A, .OtherLetter),
  (0xA80B, 0xA80B, .NonspacingMark),
  (0xA80C, 0xA822, .OtherLetter),
  (0xA823, 0xA824, .SpacingMark),
  (0xA825, 0xA826, .NonspacingMark),
  (0xA827, 0xA827, .SpacingMark),
  (0xA828, 0xA82B, .OtherSymbol),
  (0xA830, 0xA835, .OtherNumber),
  (0xA836, 0xA837, .OtherSymbol),
  (0xA838, 0xA838, .CurrencySymbol),
  (0xA839, 0xA839, .OtherSymbol),
  (0xA840, 0xA873, .OtherLetter),
  (0xA874, 0xA877, .OtherPunctuation),
  (0xA880, 0xA881, .SpacingMark),
  (0xA882, 0xA8B3, .OtherLetter),
  (0xA8B4, 0xA8C3, .SpacingMark),
  (0xA8C4, 0xA8C5, .NonspacingMark),
  (0xA8CE, 0xA8CF, .OtherPunctuation),
  (0xA8D0, 0xA8D9, .DecimalNumber),
  (0xA8E0, 0xA8F1, .NonspacingMark),
  (0xA8F2, 0xA8F7, .OtherLetter),
  (0xA8F8, 0xA8FA, .OtherPunctuation),
  (0xA8FB, 0xA8FB, .OtherLetter),
  (0xA8FC, 0xA8FC, .OtherPunctuation),
  (0xA8FD, 0xA8FD, .OtherLetter),
  (0xA900, 0xA909, .DecimalNumber),
  (0xA90A, 0xA925, .OtherLetter),
  (0xA926, 0xA92D, .NonspacingMark),
  (0xA92E, 0xA92F, .OtherPunctuation),
  (0xA930, 0xA946, .OtherLetter),
  (0xA947, 0xA951, .NonspacingMark),
  (0xA952, 0xA953, .SpacingMark),
  (0xA95F, 0xA95F, .OtherPunctuation),
  (0xA960, 0xA97C, .OtherLetter),
  (0xA980, 0xA982, .NonspacingMark),
  (0xA983, 0xA983, .SpacingMark),
  (0xA984, 0xA9B2, .OtherLetter),
  (0xA9B3, 0xA9B3, .NonspacingMark),
  (0xA9B4, 0xA9B5, .SpacingMark),
  (0xA9B6, 0xA9B9, .NonspacingMark),
  (0xA9BA, 0xA9BB, .SpacingMark),
  (0xA9BC, 0xA9BC, .NonspacingMark),
  (0xA9BD, 0xA9C0, .SpacingMark),
  (0xA9C1, 0xA9CD, .OtherPunctuation),
  (0xA9CF, 0xA9CF, .ModifierLetter),
  (0xA9D0, 0xA9D9, .DecimalNumber),
  (0xA9DE, 0xA9DF, .OtherPunctuation),
  (0xA9E0, 0xA9E4, .OtherLetter),
  (0xA9E5, 0xA9E5, .NonspacingMark),
  (0xA9E6, 0xA9E6, .ModifierLetter),
  (0xA9E7, 0xA9EF, .OtherLetter),
  (0xA9F0, 0xA9F9, .DecimalNumber)]
def generalCategory_36 : List (Nat × Nat × GeneralCategory) := [
  (0xA9FA, 0xA9FE, .OtherLetter),
  (0xAA00, 0xAA28, .OtherLetter),
  (0xAA29, 0xAA2E, .NonspacingMark),
  (0xAA2F, 0xAA30, .SpacingMark),
  (0xAA31, 0xAA32, .NonspacingMark),
  (0xAA33, 0xAA34, .SpacingMark),
  (0xAA35, 0xAA36, .NonspacingMark),
  (0xAA40, 0xAA42, .OtherLetter),
  (0xAA43, 0xAA43, .NonspacingMark),
  (0xAA44, 0xAA4B, .OtherLetter),
  (0xAA4C, 0xAA4C, .NonspacingMark),
  (0xAA4D, 0xAA4D, .SpacingMark),
  (0xAA50, 0xAA59, .DecimalNumber),
  (0xAA5C, 0xAA5F, .OtherPunctuation),
  (0xAA60, 0xAA6F, .OtherLetter),
  (0xAA70, 0xAA70, .ModifierLetter),
  (0xAA71, 0xAA76, .OtherLetter),
  (0xAA77, 0xAA79, .OtherSymbol),
  (0xAA7A, 0xAA7A, .OtherLetter),
  (0xAA7B, 0xAA7B, .SpacingMark),
  (0xAA7C, 0xAA7C, .NonspacingMark),
  (0xAA7D, 0xAA7D, .SpacingMark),
  (0xAA7E, 0xAAAF, .OtherLetter),
  (0xAAB0, 0xAAB0, .NonspacingMark),
  (0xAAB1, 0xAAB1, .OtherLetter),
  (0xAAB2, 0xAAB4, .NonspacingMark),
  (0xAAB5, 0xAAB6, .OtherLetter),
  (0xAAB7, 0xAAB8, .NonspacingMark),
  (0xAAB9, 0xAABD, .OtherLetter),
  (0xAABE, 0xAABF, .NonspacingMark),
  (0xAAC0, 0xAAC0, .OtherLetter),
  (0xAAC1, 0xAAC1, .NonspacingMark),
  (0xAAC2, 0xAAC2, .OtherLetter),
  (0xAADB, 0xAADC, .OtherLetter),
  (0xAADD, 0xAADD, .ModifierLetter),
  (0xAADE, 0xAADF, .OtherPunctuation),
  (0xAAE0, 0xAAEA, .OtherLetter),
  (0xAAEB, 0xAAEB, .SpacingMark),
  (0xAAEC, 0xAAED, .NonspacingMark),
  (0xAAEE, 0xAAEF, .SpacingMark),
  (0xAAF0, 0xAAF1, .OtherPunctuation),
  (0xAAF2, 0xAAF2, .OtherLetter),
  (0xAAF3, 0xAAF4, .ModifierLetter),
  (0xAAF5, 0xAAF5, .SpacingMark),
  (0xAAF6, 0xAAF6, .NonspacingMark),
  (0xAB01, 0xAB06, .OtherLetter),
  (0xAB09, 0xAB0E, .OtherLetter),
  (0xAB11, 0xAB16, .OtherLetter),
  (0xAB20, 0xAB26, .OtherLetter),
  (0xAB28, 0xAB2E, .OtherLetter),
  (0xAB30, 0xAB5A, .LowercaseLetter),
  (0xAB5B, 0xAB5B, .ModifierSymbol),
  (0xAB5C, 0xAB5F, .ModifierLetter),
  (0xAB60, 0xAB65, .LowercaseLetter),
  (0xAB70, 0xABBF, .LowercaseLetter),
  (0xABC0, 0xABE2, .OtherLetter),
  (0xABE3, 0xABE4, .SpacingMark),
  (0xABE5, 0xABE5, .NonspacingMark),
  (0xABE6, 0xABE7, .SpacingMark),
  (0xABE8, 0xABE8, .NonspacingMark),
  (0xABE9, 0xABEA, .SpacingMark),
  (0xABEB, 0xABEB, .OtherPunctuation),
  (0xABEC, 0xABEC, .SpacingMark),
  (0xABED, 0xABED, .NonspacingMark)]
def generalCategory_37 : List (Nat × Nat × GeneralCategory) := [
  (0xABF0, 0xABF9, .DecimalNumber),
  (0xAC00, 0xD7A3, .OtherLetter),
  (0xD7B0, 0xD7C6, .OtherLetter),
  (0xD7CB, 0xD7FB, .OtherLetter),
  (0xE000, 0xF8FF, .PrivateUse),
  (0xF900, 0xFA6D, .OtherLetter),
  (0xFA70, 0xFAD9, .OtherLetter),
  (0xFB00, 0xFB06, .LowercaseLetter),
  (0xFB13, 0xFB17, .LowercaseLetter),
  (0xFB1D, 0xFB1D, .OtherLetter),
  (0xFB1E, 0xFB1E, .NonspacingMark),
  (0xFB1F, 0xFB28, .OtherLetter),
  (0xFB29, 0xFB29, .MathSymbol),
  (0xFB2A, 0xFB36, .OtherLetter),
  (0xFB38, 0xFB3C, .OtherLetter),
  (0xFB3E, 0xFB3E, .OtherLetter),
  (0xFB40, 0xFB41, .OtherLetter),
  (0xFB43, 0xFB44, .OtherLetter),
  (0xFB46, 0xFBB1, .OtherLetter),
  (0xFBB2, 0xFBC1, .ModifierSymbol),
  (0xFBD3, 0xFD3D, .OtherLetter),
  (0xFD3E, 0xFD3E, .ClosePunctuation),
  (0xFD3F, 0xFD3F, .OpenPunctuation),
  (0xFD50, 0xFD8F, .OtherLetter),
  (0xFD92, 0xFDC7, .OtherLetter),
  (0xFDF0, 0xFDFB, .OtherLetter),
  (0xFDFC, 0xFDFC, .CurrencySymbol),
  (0xFDFD, 0xFDFD, .OtherSymbol),
  (0xFE00, 0xFE0F, .NonspacingMark),
  (0xFE10, 0xFE16, .OtherPunctuation),
  (0xFE17, 0xFE17, .OpenPunctuation),
  (0xFE18, 0xFE18, .ClosePunctuation),
  (0xFE19, 0xFE19, .OtherPunctuation),
  (0xFE20, 0xFE2F, .NonspacingMark),
  (0xFE30, 0xFE30, .OtherPunctuation),
  (0xFE31, 0xFE32, .DashPunctuation),
  (0xFE33, 0xFE34, .ConnectorPunctuation),
  (0xFE35, 0xFE35, .OpenPunctuation),
  (0xFE36, 0xFE36, .ClosePunctuation),
  (0xFE37, 0xFE37, .OpenPunctuation),
  (0xFE38, 0xFE38, .ClosePunctuation),
  (0xFE39, 0xFE39, .OpenPunctuation),
  (0xFE3A, 0xFE3A, .ClosePunctuation),
  (0xFE3B, 0xFE3B, .OpenPunctuation),
  (0xFE3C, 0xFE3C, .ClosePunctuation),
  (0xFE3D, 0xFE3D, .OpenPunctuation),
  (0xFE3E, 0xFE3E, .ClosePunctuation),
  (0xFE3F, 0xFE3F, .OpenPunctuation),
  (0xFE40, 0xFE40, .ClosePunctuation),
  (0xFE41, 0xFE41, .OpenPunctuation),
  (0xFE42, 0xFE42, .ClosePunctuation),
  (0xFE43, 0xFE43, .OpenPunctuation),
  (0xFE44, 0xFE44, .ClosePunctuation),
  (0xFE45, 0xFE46, .OtherPunctuation),
  (0xFE47, 0xFE47, .OpenPunctuation),
  (0xFE48, 0xFE48, .ClosePunctuation),
  (0xFE49, 0xFE4C, .OtherPunctuation),
  (0xFE4D, 0xFE4F, .ConnectorPunctuation),
  (0xFE50, 0xFE52, .OtherPunctuation),
  (0xFE54, 0xFE57, .OtherPunctuation),
  (0xFE58, 0xFE58, .DashPunctuation),
  (0xFE59, 0xFE59, .OpenPunctuation),
  (0xFE5A, 0xFE5A, .ClosePunctuation),
  (0xFE5B, 0xFE5B, .OpenPunctuation)]
def generalCategory_38 : List (Nat × Nat × GeneralCategory) := [
  (0xFE5C, 0xFE5C, .ClosePunctuation),
  (0xFE5D, 0xFE5D, .OpenPunctuation),
  (0xFE5E, 0xFE5E, .ClosePunctuation),
  (0xFE5F, 0xFE61, .OtherPunctuation),
  (0xFE62, 0xFE62, .MathSymbol),
  (0xFE63, 0xFE63, .DashPunctuation),
  (0xFE64, 0xFE66, .MathSymbol),
  (0xFE68, 0xFE68, .OtherPunctuation),
  (0xFE69, 0xFE69, .CurrencySymbol),
  (0xFE6A, 0xFE6B, .OtherPunctuation),
  (0xFE70, 0xFE74, .OtherLetter),
  (0xFE76, 0xFEFC, .OtherLetter),
  (0xFEFF, 0xFEFF, .Format),
  (0xFF01, 0xFF03, .OtherPunctuation),
  (0xFF04, 0xFF04, .CurrencySymbol),
  (0xFF05, 0xFF07, .OtherPunctuation),
  (0xFF08, 0xFF08, .OpenPunctuation),
  (0xFF09, 0xFF09, .ClosePunctuation),
  (0xFF0A, 0xFF0A, .OtherPunctuation),
  (0xFF0B, 0xFF0B, .MathSymbol),
  (0xFF0C, 0xFF0C, .OtherPunctuation),
  (0xFF0D, 0xFF0D, .DashPunctuation),
  (0xFF0E, 0xFF0F, .OtherPunctuation),
  (0xFF10, 0xFF19, .DecimalNumber),
  (0xFF1A, 0xFF1B, .OtherPunctuation),
  (0xFF1C, 0xFF1E, .MathSymbol),
  (0xFF1F, 0xFF20, .OtherPunctuation),
  (0xFF21, 0xFF3A, .UppercaseLetter),
  (0xFF3B, 0xFF3B, .OpenPunctuation),
  (0xFF3C, 0xFF3C, .OtherPunctuation),
  (0xFF3D, 0xFF3D, .ClosePunctuation),
  (0xFF3E, 0xFF3E, .ModifierSymbol),
  (0xFF3F, 0xFF3F, .ConnectorPunctuation),
  (0xFF40, 0xFF40, .ModifierSymbol),
  (0xFF41, 0xFF5A, .LowercaseLetter),
  (0xFF5B, 0xFF5B, .OpenPunctuation),
  (0xFF5C, 0xFF5C, .MathSymbol),
  (0xFF5D, 0xFF5D, .ClosePunctuation),
  (0xFF5E, 0xFF5E, .MathSymbol),
  (0xFF5F, 0xFF5F, .OpenPunctuation),
  (0xFF60, 0xFF60, .ClosePunctuation),
  (0xFF61, 0xFF61, .OtherPunctuation),
  (0xFF62, 0xFF62, .OpenPunctuation),
  (0xFF63, 0xFF63, .ClosePunctuation),
  (0xFF64, 0xFF65, .OtherPunctuation),
  (0xFF66, 0xFF6F, .OtherLetter),
  (0xFF70, 0xFF70, .ModifierLetter),
  (0xFF71, 0xFF9D, .OtherLetter),
  (0xFF9E, 0xFF9F, .ModifierLetter),
  (0xFFA0, 0xFFBE, .OtherLetter),
  (0xFFC2, 0xFFC7, .OtherLetter),
  (0xFFCA, 0xFFCF, .OtherLetter),
  (0xFFD2, 0xFFD7, .OtherLetter),
  (0xFFDA, 0xFFDC, .OtherLetter),
  (0xFFE0, 0xFFE1, .CurrencySymbol),
  (0xFFE2, 0xFFE2, .MathSymbol),
  (0xFFE3, 0xFFE3, .ModifierSymbol),
  (0xFFE4, 0xFFE4, .OtherSymbol),
  (0xFFE5, 0xFFE6, .CurrencySymbol),
  (0xFFE8, 0xFFE8, .OtherSymbol),
  (0xFFE9, 0xFFEC, .MathSymbol),
  (0xFFED, 0xFFEE, .OtherSymbol),
  (0xFFF9, 0xFFFB, .Format),
  (0xFFFC, 0xFFFD, .OtherSymbol)]
def generalCategory_39 : List (Nat × Nat × GeneralCategory) := [
  (0x10000, 0x1000B, .OtherLetter),
  (0x1000D, 0x10026, .OtherLetter),
  (0x10028, 0x1003A, .OtherLetter),
  (0x1003C, 0x1003D, .OtherLetter),
  (0x1003F, 0x1004D, .OtherLetter),
  (0x10050, 0x1005D, .OtherLetter),
  (0x10080, 0x100FA, .OtherLetter),
  (0x10100, 0x10102, .OtherPunctuation),
  (0x10107, 0x10133, .OtherNumber),
  (0x10137, 0x1013F, .OtherSymbol),
  (0x10140, 0x10174, .LetterNumber),
  (0x10175, 0x10178, .OtherNumber),
  (0x10179, 0x10189, .OtherSymbol),
  (0x1018A, 0x1018B, .OtherNumber),
  (0x1018C, 0x1018E, .OtherSymbol),
  (0x10190, 0x1019B, .OtherSymbol),
  (0x101A0, 0x101A0, .OtherSymbol),
  (0x101D0, 0x101FC, .OtherSymbol),
  (0x101FD, 0x101FD, .NonspacingMark),
  (0x10280, 0x1029C, .OtherLetter),
  (0x102A0, 0x102D0, .OtherLetter),
  (0x102E0, 0x102E0, .NonspacingMark),
  (0x102E1, 0x102FB, .OtherNumber),
  (0x10300, 0x1031F, .OtherLetter),
  (0x10320, 0x10323, .OtherNumber),
  (0x1032D, 0x10340, .OtherLetter),
  (0x10341, 0x10341, .LetterNumber),
  (0x10342, 0x10349, .OtherLetter),
  (0x1034A, 0x1034A, .LetterNumber),
  (0x10350, 0x10375, .OtherLetter),
  (0x10376, 0x1037A, .NonspacingMark),
  (0x10380, 0x1039D, .OtherLetter),
  (0x1039F, 0x1039F, .OtherPunctuation),
  (0x103A0, 0x103C3, .OtherLetter),
  (0x103C8, 0x103CF, .OtherLetter),
  (0x103D0, 0x103D0, .OtherPunctuation),
  (0x103D1, 0x103D5, .LetterNumber),
  (0x10400, 0x10427, .UppercaseLetter),
  (0x10428, 0x1044F, .LowercaseLetter),
  (0x10450, 0x1049D, .OtherLetter),
  (0x104A0, 0x104A9, .DecimalNumber),
  (0x104B0, 0x104D3, .UppercaseLetter),
  (0x104D8, 0x104FB, .LowercaseLetter),
  (0x10500, 0x10527, .OtherLetter),
  (0x10530, 0x10563, .OtherLetter),
  (0x1056F, 0x1056F, .OtherPunctuation),
  (0x10600, 0x10736, .OtherLetter),
  (0x10740, 0x10755, .OtherLetter),
  (0x10760, 0x10767, .OtherLetter),
  (0x10800, 0x10805, .OtherLetter),
  (0x10808, 0x10808, .OtherLetter),
  (0x1080A, 0x10835, .OtherLetter),
  (0x10837, 0x10838, .OtherLetter),
  (0x1083C, 0x1083C, .OtherLetter),
  (0x1083F, 0x10855, .OtherLetter),
  (0x10857, 0x10857, .OtherPunctuation),
  (0x10858, 0x1085F, .OtherNumber),
  (0x10860, 0x10876, .OtherLetter),
  (0x10877, 0x10878, .OtherSymbol),
  (0x10879, 0x1087F, .OtherNumber),
  (0x10880, 0x1089E, .OtherLetter),
  (0x108A7, 0x108AF, .OtherNumber),
  (0x108E0, 0x108F2, .OtherLetter),
  (0x108F4, 0x108F5, .OtherLetter)]
def generalCategory_40 : List (Nat × Nat × GeneralCategory) := [
  (0x108FB, 0x108FF, .OtherNumber),
  (0x10900, 0x10915, .OtherLetter),
  (0x10916, 0x1091B, .OtherNumber),
  (0x1091F, 0x1091F, .OtherPunctuation),
  (0x10920, 0x10939, .OtherLetter),
  (0x1093F, 0x1093F, .OtherPunctuation),
  (0x10980, 0x109B7, .OtherLetter),
  (0x109BC, 0x109BD, .OtherNumber),
  (0x109BE, 0x109BF, .OtherLetter),
  (0x109C0, 0x109CF, .OtherNumber),
  (0x109D2, 0x109FF, .OtherNumber),
  (0x10A00, 0x10A00, .OtherLetter),
  (0x10A01, 0x10A03, .NonspacingMark),
  (0x10A05, 0x10A06, .NonspacingMark),
  (0x10A0C, 0x10A0F, .NonspacingMark),
  (0x10A10, 0x10A13, .OtherLetter),
  (0x10A15, 0x10A17, .OtherLetter),
  (0x10A19, 0x10A33, .OtherLetter),
  (0x10A38, 0x10A3A, .NonspacingMark),
  (0x10A3F, 0x10A3F, .NonspacingMark),
  (0x10A40, 0x10A47, .OtherNumber),
  (0x10A50, 0x10A58, .OtherPunctuation),
  (0x10A60, 0x10A7C, .OtherLetter),
  (0x10A7D, 0x10A7E, .OtherNumber),
  (0x10A7F, 0x10A7F, .OtherPunctuation),
  (0x10A80, 0x10A9C, .OtherLetter),
  (0x10A9D, 0x10A9F, .OtherNumber),
  (0x10AC0, 0x10AC7, .OtherLetter),
  (0x10AC8, 0x10AC8, .OtherSymbol),
  (0x10AC9, 0x10AE4, .OtherLetter),
  (0x10AE5, 0x10AE6, .NonspacingMark),
  (0x10AEB, 0x10AEF, .OtherNumber),
  (0x10AF0, 0x10AF6, .OtherPunctuation),
  (0x10B00, 0x10B35, .OtherLetter),
  (0x10B39, 0x10B3F, .OtherPunctuation),
  (0x10B40, 0x10B55, .OtherLetter),
  (0x10B58, 0x10B5F, .OtherNumber),
  (0x10B60, 0x10B72, .OtherLetter),
  (0x10B78, 0x10B7F, .OtherNumber),
  (0x10B80, 0x10B91, .OtherLetter),
  (0x10B99, 0x10B9C, .OtherPunctuation),
  (0x10BA9, 0x10BAF, .OtherNumber),
  (0x10C00, 0x10C48, .OtherLetter),
  (0x10C80, 0x10CB2, .UppercaseLetter),
  (0x10CC0, 0x10CF2, .LowercaseLetter),
  (0x10CFA, 0x10CFF, .OtherNumber),
  (0x10E60, 0x10E7E, .OtherNumber),
  (0x11000, 0x11000, .SpacingMark),
  (0x11001, 0x11001, .NonspacingMark),
  (0x11002, 0x11002, .SpacingMark),
  (0x11003, 0x11037, .OtherLetter),
  (0x11038, 0x11046, .NonspacingMark),
  (0x11047, 0x1104D, .OtherPunctuation),
  (0x11052, 0x11065, .OtherNumber),
  (0x11066, 0x1106F, .DecimalNumber),
  (0x1107F, 0x11081, .NonspacingMark),
  (0x11082, 0x11082, .SpacingMark),
  (0x11083, 0x110AF, .OtherLetter),
  (0x110B0, 0x110B2, .SpacingMark),
  (0x110B3, 0x110B6, .NonspacingMark),
  (0x110B7, 0x110B8, .SpacingMark),
  (0x110B9, 0x110BA, .NonspacingMark),
  (0x110BB, 0x110BC, .OtherPunctuation),
  (0x110BD, 0x110BD, .Format)]
def generalCategory_41 : List (Nat × Nat × GeneralCategory) := [
  (0x110BE, 0x110C1, .OtherPunctuation),
  (0x110D0, 0x110E8, .OtherLetter),
  (0x110F0, 0x110F9, .DecimalNumber),
  (0x11100, 0x11102, .NonspacingMark),
  (0x11103, 0x11126, .OtherLetter),
  (0x11127, 0x1112B, .NonspacingMark),
  (0x1112C, 0x1112C, .SpacingMark),
  (0x1112D, 0x11134, .NonspacingMark),
  (0x11136, 0x1113F, .DecimalNumber),
  (0x11140, 0x11143, .OtherPunctuation),
  (0x11150, 0x11172, .OtherLetter),
  (0x11173, 0x11173, .NonspacingMark),
  (0x11174, 0x11175, .OtherPunctuation),
  (0x11176, 0x11176, .OtherLetter),
  (0x11180, 0x11181, .NonspacingMark),
  (0x11182, 0x11182, .SpacingMark),
  (0x11183, 0x111B2, .OtherLetter),
  (0x111B3, 0x111B5, .SpacingMark),
  (0x111B6, 0x111BE, .NonspacingMark),
  (0x111BF, 0x111C0, .SpacingMark),
  (0x111C1, 0x111C4, .OtherLetter),
  (0x111C5, 0x111C9, .OtherPunctuation),
  (0x111CA, 0x111CC, .NonspacingMark),
  (0x111CD, 0x111CD, .OtherPunctuation),
  (0x111D0, 0x111D9, .DecimalNumber),
  (0x111DA, 0x111DA, .OtherLetter),
  (0x111DB, 0x111DB, .OtherPunctuation),
  (0x111DC, 0x111DC, .OtherLetter),
  (0x111DD, 0x111DF, .OtherPunctuation),
  (0x111E1, 0x111F4, .OtherNumber),
  (0x11200, 0x11211, .OtherLetter),
  (0x11213, 0x1122B, .OtherLetter),
  (0x1122C, 0x1122E, .SpacingMark),
  (0x1122F, 0x11231, .NonspacingMark),
  (0x11232, 0x11233, .SpacingMark),
  (0x11234, 0x11234, .NonspacingMark),
  (0x11235, 0x11235, .SpacingMark),
  (0x11236, 0x11237, .NonspacingMark),
  (0x11238, 0x1123D, .OtherPunctuation),
  (0x1123E, 0x1123E, .NonspacingMark),
  (0x11280, 0x11286, .OtherLetter),
  (0x11288, 0x11288, .OtherLetter),
  (0x1128A, 0x1128D, .OtherLetter),
  (0x1128F, 0x1129D, .OtherLetter),
  (0x1129F, 0x112A8, .OtherLetter),
  (0x112A9, 0x112A9, .OtherPunctuation),
  (0x112B0, 0x112DE, .OtherLetter),
  (0x112DF, 0x112DF, .NonspacingMark),
  (0x112E0, 0x112E2, .SpacingMark),
  (0x112E3, 0x112EA, .NonspacingMark),
  (0x112F0, 0x112F9, .DecimalNumber),
  (0x11300, 0x11301, .NonspacingMark),
  (0x11302, 0x11303, .SpacingMark),
  (0x11305, 0x1130C, .OtherLetter),
  (0x1130F, 0x11310, .OtherLetter),
  (0x11313, 0x11328, .OtherLetter),
  (0x1132A, 0x11330, .OtherLetter),
  (0x11332, 0x11333, .OtherLetter),
  (0x11335, 0x11339, .OtherLetter),
  (0x1133C, 0x1133C, .NonspacingMark),
  (0x1133D, 0x1133D, .OtherLetter),
  (0x1133E, 0x1133F, .SpacingMark),
  (0x11340, 0x11340, .NonspacingMark),
  (0x11341, 0x11344, .SpacingMark)]
def generalCategory_42 : List (Nat × Nat × GeneralCategory) := [
  (0x11347, 0x11348, .SpacingMark),
  (0x1134B, 0x1134D, .SpacingMark),
  (0x11350, 0x11350, .OtherLetter),
  (0x11357, 0x11357, .SpacingMark),
  (0x1135D, 0x11361, .OtherLetter),
  (0x11362, 0x11363, .SpacingMark),
  (0x11366, 0x1136C, .NonspacingMark),
  (0x11370, 0x11374, .NonspacingMark),
  (0x11400, 0x11434, .OtherLetter),
  (0x11435, 0x11437, .SpacingMark),
  (0x11438, 0x1143F, .NonspacingMark),
  (0x11440, 0x11441, .SpacingMark),
  (0x11442, 0x11444, .NonspacingMark),
  (0x11445, 0x11445, .SpacingMark),
  (0x11446, 0x11446, .NonspacingMark),
  (0x11447, 0x1144A, .OtherLetter),
  (0x1144B, 0x1144F, .OtherPunctuation),
  (0x11450, 0x11459, .DecimalNumber),
  (0x1145B, 0x1145B, .OtherPunctuation),
  (0x1145D, 0x1145D, .OtherPunctuation),
  (0x11480, 0x114AF, .OtherLetter),
  (0x114B0, 0x114B2, .SpacingMark),
  (0x114B3, 0x114B8, .NonspacingMark),
  (0x114B9, 0x114B9, .SpacingMark),
  (0x114BA, 0x114BA, .NonspacingMark),
  (0x114BB, 0x114BE, .SpacingMark),
  (0x114BF, 0x114C0, .NonspacingMark),
  (0x114C1, 0x114C1, .SpacingMark),
  (0x114C2, 0x114C3, .NonspacingMark),
  (0x114C4, 0x114C5, .OtherLetter),
  (0x114C6, 0x114C6, .OtherPunctuation),
  (0x114C7, 0x114C7, .OtherLetter),
  (0x114D0, 0x114D9, .DecimalNumber),
  (0x11580, 0x115AE, .OtherLetter),
  (0x115AF, 0x115B1, .SpacingMark),
  (0x115B2, 0x115B5, .NonspacingMark),
  (0x115B8, 0x115BB, .SpacingMark),
  (0x115BC, 0x115BD, .NonspacingMark),
  (0x115BE, 0x115BE, .SpacingMark),
  (0x115BF, 0x115C0, .NonspacingMark),
  (0x115C1, 0x115D7, .OtherPunctuation),
  (0x115D8, 0x115DB, .OtherLetter),
  (0x115DC, 0x115DD, .NonspacingMark),
  (0x11600, 0x1162F, .OtherLetter),
  (0x11630, 0x11632, .SpacingMark),
  (0x11633, 0x1163A, .NonspacingMark),
  (0x1163B, 0x1163C, .SpacingMark),
  (0x1163D, 0x1163D, .NonspacingMark),
  (0x1163E, 0x1163E, .SpacingMark),
  (0x1163F, 0x11640, .NonspacingMark),
  (0x11641, 0x11643, .OtherPunctuation),
  (0x11644, 0x11644, .OtherLetter),
  (0x11650, 0x11659, .DecimalNumber),
  (0x11660, 0x1166C, .OtherPunctuation),
  (0x11680, 0x116AA, .OtherLetter),
  (0x116AB, 0x116AB, .NonspacingMark),
  (0x116AC, 0x116AC, .SpacingMark),
  (0x116AD, 0x116AD, .NonspacingMark),
  (0x116AE, 0x116AF, .SpacingMark),
  (0x116B0, 0x116B5, .NonspacingMark),
  (0x116B6, 0x116B6, .SpacingMark),
  (0x116B7, 0x116B7, .NonspacingMark),
  (0x116C0, 0x116C9, .DecimalNumber),
  (0x11700, 0x11719, .OtherLetter)]
def generalCategory_43 : List (Nat × Nat × GeneralCategory) := [
  (0x1171D, 0x1171F, .NonspacingMark),
  (0x11720, 0x11721, .SpacingMark),
  (0x11722, 0x11725, .NonspacingMark),
  (0x11726, 0x11726, .SpacingMark),
  (0x11727, 0x1172B, .NonspacingMark),
  (0x11730, 0x11739, .DecimalNumber),
  (0x1173A, 0x1173B, .OtherNumber),
  (0x1173C, 0x1173E, .OtherPunctuation),
  (0x1173F, 0x1173F, .OtherSymbol),
  (0x118A0, 0x118BF, .UppercaseLetter),
  (0x118C0, 0x118DF, .LowercaseLetter),
  (0x118E0, 0x118E9, .DecimalNumber),
  (0x118EA, 0x118F2, .OtherNumber),
  (0x118FF, 0x118FF, .OtherLetter),
  (0x11A00, 0x11A00, .OtherLetter),
  (0x11A01, 0x11A06, .NonspacingMark),
  (0x11A07, 0x11A08, .SpacingMark),
  (0x11A09, 0x11A0A, .NonspacingMark),
  (0x11A0B, 0x11A32, .OtherLetter),
  (0x11A33, 0x11A38, .NonspacingMark),
  (0x11A39, 0x11A39, .SpacingMark),
  (0x11A3A, 0x11A3A, .OtherLetter),
  (0x11A3B, 0x11A3E, .NonspacingMark),
  (0x11A3F, 0x11A46, .OtherPunctuation),
  (0x11A47, 0x11A47, .NonspacingMark),
  (0x11A50, 0x11A50, .OtherLetter),
  (0x11A51, 0x11A56, .NonspacingMark),
  (0x11A57, 0x11A58, .SpacingMark),
  (0x11A59, 0x11A5B, .NonspacingMark),
  (0x11A5C, 0x11A83, .OtherLetter),
  (0x11A86, 0x11A89, .OtherLetter),
  (0x11A8A, 0x11A96, .NonspacingMark),
  (0x11A97, 0x11A97, .SpacingMark),
  (0x11A98, 0x11A99, .NonspacingMark),
  (0x11A9A, 0x11A9C, .OtherPunctuation),
  (0x11A9E, 0x11AA2, .OtherPunctuation),
  (0x11AC0, 0x11AF8, .OtherLetter),
  (0x11C00, 0x11C08, .OtherLetter),
  (0x11C0A, 0x11C2E, .OtherLetter),
  (0x11C2F, 0x11C2F, .SpacingMark),
  (0x11C30, 0x11C36, .NonspacingMark),
  (0x11C38, 0x11C3D, .NonspacingMark),
  (0x11C3E, 0x11C3E, .SpacingMark),
  (0x11C3F, 0x11C3F, .NonspacingMark),
  (0x11C40, 0x11C40, .OtherLetter),
  (0x11C41, 0x11C45, .OtherPunctuation),
  (0x11C50, 0x11C59, .DecimalNumber),
  (0x11C5A, 0x11C6C, .OtherNumber),
  (0x11C70, 0x11C71, .OtherPunctuation),
  (0x11C72, 0x11C8F, .OtherLetter),
  (0x11C92, 0x11CA7, .NonspacingMark),
  (0x11CA9, 0x11CA9, .SpacingMark),
  (0x11CAA, 0x11CB0, .NonspacingMark),
  (0x11CB1, 0x11CB1, .SpacingMark),
  (0x11CB2, 0x11CB3, .NonspacingMark),
  (0x11CB4, 0x11CB4, .SpacingMark),
  (0x11CB5, 0x11CB6, .NonspacingMark),
  (0x11D00, 0x11D06, .OtherLetter),
  (0x11D08, 0x11D09, .OtherLetter),
  (0x11D0B, 0x11D30, .OtherLetter),
  (0x11D31, 0x11D36, .NonspacingMark),
  (0x11D3A, 0x11D3A, .NonspacingMark),
  (0x11D3C, 0x11D3D, .NonspacingMark),
  (0x11D3F, 0x11D45, .NonspacingMark)]
def generalCategory_44 : List (Nat × Nat × GeneralCategory) := [
  (0x11D46, 0x11D46, .OtherLetter),
  (0x11D47, 0x11D47, .NonspacingMark),
  (0x11D50, 0x11D59, .DecimalNumber),
  (0x12000, 0x12399, .OtherLetter),
  (0x12400, 0x1246E, .LetterNumber),
  (0x12470, 0x12474, .OtherPunctuation),
  (0x12480, 0x12543, .OtherLetter),
  (0x13000, 0x1342E, .OtherLetter),
  (0x14400, 0x14646, .OtherLetter),
  (0x16800, 0x16A38, .OtherLetter),
  (0x16A40, 0x16A5E, .OtherLetter),
  (0x16A60, 0x16A69, .DecimalNumber),
  (0x16A6E, 0x16A6F, .OtherPunctuation),
  (0x16AD0, 0x16AED, .OtherLetter),
  (0x16AF0, 0x16AF4, .NonspacingMark),
  (0x16AF5, 0x16AF5, .OtherPunctuation),
  (0x16B00, 0x16B2F, .OtherLetter),
  (0x16B30, 0x16B36, .NonspacingMark),
  (0x16B37, 0x16B3B, .OtherPunctuation),
  (0x16B3C, 0x16B3F, .OtherSymbol),
  (0x16B40, 0x16B43, .ModifierLetter),
  (0x16B44, 0x16B44, .OtherPunctuation),
  (0x16B45, 0x16B45, .OtherSymbol),
  (0x16B50, 0x16B59, .DecimalNumber),
  (0x16B5B, 0x16B61, .OtherNumber),
  (0x16B63, 0x16B77, .OtherLetter),
  (0x16B7D, 0x16B8F, .OtherLetter),
  (0x16F00, 0x16F44, .OtherLetter),
  (0x16F50, 0x16F50, .OtherLetter),
  (0x16F51, 0x16F7E, .SpacingMark),
  (0x16F8F, 0x16F92, .NonspacingMark),
  (0x16F93, 0x16F9F, .ModifierLetter),
  (0x16FE0, 0x16FE1, .ModifierLetter),
  (0x17000, 0x187EC, .OtherLetter),
  (0x18800, 0x18AF2, .OtherLetter),
  (0x1B000, 0x1B11E, .OtherLetter),
  (0x1B170, 0x1B2FB, .OtherLetter),
  (0x1BC00, 0x1BC6A, .OtherLetter),
  (0x1BC70, 0x1BC7C, .OtherLetter),
  (0x1BC80, 0x1BC88, .OtherLetter),
  (0x1BC90, 0x1BC99, .OtherLetter),
  (0x1BC9C, 0x1BC9C, .OtherSymbol),
  (0x1BC9D, 0x1BC9E, .NonspacingMark),
  (0x1BC9F, 0x1BC9F, .OtherPunctuation),
  (0x1BCA0, 0x1BCA3, .Format),
  (0x1D000, 0x1D0F5, .OtherSymbol),
  (0x1D100, 0x1D126, .OtherSymbol),
  (0x1D129, 0x1D164, .OtherSymbol),
  (0x1D165, 0x1D166, .SpacingMark),
  (0x1D167, 0x1D169, .NonspacingMark),
  (0x1D16A, 0x1D16C, .OtherSymbol),
  (0x1D16D, 0x1D172, .SpacingMark),
  (0x1D173, 0x1D17A, .Format),
  (0x1D17B, 0x1D182, .NonspacingMark),
  (0x1D183, 0x1D184, .OtherSymbol),
  (0x1D185, 0x1D18B, .NonspacingMark),
  (0x1D18C, 0x1D1A9, .OtherSymbol),
  (0x1D1AA, 0x1D1AD, .NonspacingMark),
  (0x1D1AE, 0x1D1E8, .OtherSymbol),
  (0x1D200, 0x1D241, .OtherSymbol),
  (0x1D242, 0x1D244, .NonspacingMark),
  (0x1D245, 0x1D245, .OtherSymbol),
  (0x1D300, 0x1D356, .OtherSymbol),
  (0x1D360, 0x1D371, .OtherNumber)]
def generalCategory_45 : List (Nat × Nat × GeneralCategory) := [
  (0x1D400, 0x1D419, .UppercaseLetter),
  (0x1D41A, 0x1D433, .LowercaseLetter),
  (0x1D434, 0x1D44D, .UppercaseLetter),
  (0x1D44E, 0x1D454, .LowercaseLetter),
  (0x1D456, 0x1D467, .LowercaseLetter),
  (0x1D468, 0x1D481, .UppercaseLetter),
  (0x1D482, 0x1D49B, .LowercaseLetter),
  (0x1D49C, 0x1D49C, .UppercaseLetter),
  (0x1D49E, 0x1D49F, .UppercaseLetter),
  (0x1D4A2, 0x1D4A2, .UppercaseLetter),
  (0x1D4A5, 0x1D4A6, .UppercaseLetter),
  (0x1D4A9, 0x1D4AC, .UppercaseLetter),
  (0x1D4AE, 0x1D4B5, .UppercaseLetter),
  (0x1D4B6, 0x1D4B9, .LowercaseLetter),
  (0x1D4BB, 0x1D4BB, .LowercaseLetter),
  (0x1D4BD, 0x1D4C3, .LowercaseLetter),
  (0x1D4C5, 0x1D4CF, .LowercaseLetter),
  (0x1D4D0, 0x1D4E9, .UppercaseLetter),
  (0x1D4EA, 0x1D503, .LowercaseLetter),
  (0x1D504, 0x1D505, .UppercaseLetter),
  (0x1D507, 0x1D50A, .UppercaseLetter),
  (0x1D50D, 0x1D514, .UppercaseLetter),
  (0x1D516, 0x1D51C, .UppercaseLetter),
  (0x1D51E, 0x1D537, .LowercaseLetter),
  (0x1D538, 0x1D539, .UppercaseLetter),
  (0x1D53B, 0x1D53E, .UppercaseLetter),
  (0x1D540, 0x1D544, .UppercaseLetter),
  (0x1D546, 0x1D546, .UppercaseLetter),
  (0x1D54A, 0x1D550, .UppercaseLetter),
  (0x1D552, 0x1D56B, .LowercaseLetter),
  (0x1D56C, 0x1D585, .UppercaseLetter),
  (0x1D586, 0x1D59F, .LowercaseLetter),
  (0x1D5A0, 0x1D5B9, .UppercaseLetter),
  (0x1D5BA, 0x1D5D3, .LowercaseLetter),
  (0x1D5D4, 0x1D5ED, .UppercaseLetter),
  (0x1D5EE, 0x1D607, .LowercaseLetter),
  (0x1D608, 0x1D621, .UppercaseLetter),
  (0x1D622, 0x1D63B, .LowercaseLetter),
  (0x1D63C, 0x1D655, .UppercaseLetter),
  (0x1D656, 0x1D66F, .LowercaseLetter),
  (0x1D670, 0x1D689, .UppercaseLetter),
  (0x1D68A, 0x1D6A5, .LowercaseLetter),
  (0x1D6A8, 0x1D6C0, .UppercaseLetter),
  (0x1D6C1, 0x1D6C1, .MathSymbol),
  (0x1D6C2, 0x1D6DA, .LowercaseLetter),
  (0x1D6DB, 0x1D6DB, .MathSymbol),
  (0x1D6DC, 0x1D6E1, .LowercaseLetter),
  (0x1D6E2, 0x1D6FA, .UppercaseLetter),
  (0x1D6FB, 0x1D6FB, .MathSymbol),
  (0x1D6FC, 0x1D714, .LowercaseLetter),
  (0x1D715, 0x1D715, .MathSymbol),
  (0x1D716, 0x1D71B, .LowercaseLetter),
  (0x1D71C, 0x1D734, .UppercaseLetter),
  (0x1D735, 0x1D735, .MathSymbol),
  (0x1D736, 0x1D74E, .LowercaseLetter),
  (0x1D74F, 0x1D74F, .MathSymbol),
  (0x1D750, 0x1D755, .LowercaseLetter),
  (0x1D756, 0x1D76E, .UppercaseLetter),
  (0x1D76F, 0x1D76F, .MathSymbol),
  (0x1D770, 0x1D788, .LowercaseLetter),
  (0x1D789, 0x1D789, .MathSymbol),
  (0x1D78A, 0x1D78F, .LowercaseLetter),
  (0x1D790, 0x1D7A8, .UppercaseLetter),
  (0x1D7A9, 0x1D7A9, .MathSymbol)]
def generalCategory_46 : List (Nat × Nat × GeneralCategory) := [
  (0x1D7AA, 0x1D7C2, .LowercaseLetter),
  (0x1D7C3, 0x1D7C3, .MathSymbol),
  (0x1D7C4, 0x1D7C9, .LowercaseLetter),
  (0x1D7CA, 0x1D7CA, .UppercaseLetter),
  (0x1D7CB, 0x1D7CB, .LowercaseLetter),
  (0x1D7CE, 0x1D7FF, .DecimalNumber),
  (0x1D800, 0x1D9FF, .OtherSymbol),
  (0x1DA00, 0x1DA36, .NonspacingMark),
  (0x1DA37, 0x1DA3A, .OtherSymbol),
  (0x1DA3B, 0x1DA6C, .NonspacingMark),
  (0x1DA6D, 0x1DA74, .OtherSymbol),
  (0x1DA75, 0x1DA75, .NonspacingMark),
  (0x1DA76, 0x1DA83, .OtherSymbol),
  (0x1DA84, 0x1DA84, .NonspacingMark),
  (0x1DA85, 0x1DA86, .OtherSymbol),
  (0x1DA87, 0x1DA8B, .OtherPunctuation),
  (0x1DA9B, 0x1DA9F, .NonspacingMark),
  (0x1DAA1, 0x1DAAF, .NonspacingMark),
  (0x1E000, 0x1E006, .NonspacingMark),
  (0x1E008, 0x1E018, .NonspacingMark),
  (0x1E01B, 0x1E021, .NonspacingMark),
  (0x1E023, 0x1E024, .NonspacingMark),
  (0x1E026, 0x1E02A, .NonspacingMark),
  (0x1E800, 0x1E8C4, .OtherLetter),
  (0x1E8C7, 0x1E8CF, .OtherNumber),
  (0x1E8D0, 0x1E8D6, .NonspacingMark),
  (0x1E900, 0x1E921, .UppercaseLetter),
  (0x1E922, 0x1E943, .LowercaseLetter),
  (0x1E944, 0x1E94A, .NonspacingMark),
  (0x1E950, 0x1E959, .DecimalNumber),
  (0x1E95E, 0x1E95F, .OtherPunctuation),
  (0x1EE00, 0x1EE03, .OtherLetter),
  (0x1EE05, 0x1EE1F, .OtherLetter),
  (0x1EE21, 0x1EE22, .OtherLetter),
  (0x1EE24, 0x1EE24, .OtherLetter),
  (0x1EE27, 0x1EE27, .OtherLetter),
  (0x1EE29, 0x1EE32, .OtherLetter),
  (0x1EE34, 0x1EE37, .OtherLetter),
  (0x1EE39, 0x1EE39, .OtherLetter),
  (0x1EE3B, 0x1EE3B, .OtherLetter),
  (0x1EE42, 0x1EE42, .OtherLetter),
  (0x1EE47, 0x1EE47, .OtherLetter),
  (0x1EE49, 0x1EE49, .OtherLetter),
  (0x1EE4B, 0x1EE4B, .OtherLetter),
  (0x1EE4D, 0x1EE4F, .OtherLetter),
  (0x1EE51, 0x1EE52, .OtherLetter),
  (0x1EE54, 0x1EE54, .OtherLetter),
  (0x1EE57, 0x1EE57, .OtherLetter),
  (0x1EE59, 0x1EE59, .OtherLetter),
  (0x1EE5B, 0x1EE5B, .OtherLetter),
  (0x1EE5D, 0x1EE5D, .OtherLetter),
  (0x1EE5F, 0x1EE5F, .OtherLetter),
  (0x1EE61, 0x1EE62, .OtherLetter),
  (0x1EE64, 0x1EE64, .OtherLetter),
  (0x1EE67, 0x1EE6A, .OtherLetter),
  (0x1EE6C, 0x1EE72, .OtherLetter),
  (0x1EE74, 0x1EE77, .OtherLetter),
  (0x1EE79, 0x1EE7C, .OtherLetter),
  (0x1EE7E, 0x1EE7E, .OtherLetter),
  (0x1EE80, 0x1EE89, .OtherLetter),
  (0x1EE8B, 0x1EE9B, .OtherLetter),
  (0x1EEA1, 0x1EEA3, .OtherLetter),
  (0x1EEA5, 0x1EEA9, .OtherLetter),
  (0x1EEAB, 0x1EEBB, .OtherLetter)]
def generalCategory_47 : List (Nat × Nat × GeneralCategory) := [
  (0x1EEF0, 0x1EEF1, .MathSymbol),
  (0x1F000, 0x1F02B, .OtherSymbol),
  (0x1F030, 0x1F093, .OtherSymbol),
  (0x1F0A0, 0x1F0AE, .OtherSymbol),
  (0x1F0B1, 0x1F0BF, .OtherSymbol),
  (0x1F0C1, 0x1F0CF, .OtherSymbol),
  (0x1F0D1, 0x1F0F5, .OtherSymbol),
  (0x1F100, 0x1F10C, .OtherNumber),
  (0x1F110, 0x1F12E, .OtherSymbol),
  (0x1F130, 0x1F16B, .OtherSymbol),
  (0x1F170, 0x1F1AC, .OtherSymbol),
  (0x1F1E6, 0x1F202, .OtherSymbol),
  (0x1F210, 0x1F23B, .OtherSymbol),
  (0x1F240, 0x1F248, .OtherSymbol),
  (0x1F250, 0x1F251, .OtherSymbol),
  (0x1F260, 0x1F265, .OtherSymbol),
  (0x1F300, 0x1F3FA, .OtherSymbol),
  (0x1F3FB, 0x1F3FF, .ModifierSymbol),
  (0x1F400, 0x1F6D4, .OtherSymbol),
  (0x1F6E0, 0x1F6EC, .OtherSymbol),
  (0x1F6F0, 0x1F6F8, .OtherSymbol),
  (0x1F700, 0x1F773, .OtherSymbol),
  (0x1F780, 0x1F7D4, .OtherSymbol),
  (0x1F800, 0x1F80B, .OtherSymbol),
  (0x1F810, 0x1F847, .OtherSymbol),
  (0x1F850, 0x1F859, .OtherSymbol),
  (0x1F860, 0x1F887, .OtherSymbol),
  (0x1F890, 0x1F8AD, .OtherSymbol),
  (0x1F900, 0x1F90B, .OtherSymbol),
  (0x1F910, 0x1F93E, .OtherSymbol),
  (0x1F940, 0x1F94C, .OtherSymbol),
  (0x1F950, 0x1F96B, .OtherSymbol),
  (0x1F980, 0x1F997, .OtherSymbol),
  (0x1F9C0, 0x1F9C0, .OtherSymbol),
  (0x1F9D0, 0x1F9E6, .OtherSymbol),
  (0x20000, 0x2A6D6, .OtherLetter),
  (0x2A700, 0x2B734, .OtherLetter),
  (0x2B740, 0x2B81D, .OtherLetter),
  (0x2B820, 0x2CEA1, .OtherLetter),
  (0x2CEB0, 0x2EBE0, .OtherLetter),
  (0x2F800, 0x2FA1D, .OtherLetter),
  (0xE0001, 0xE0001, .Format),
  (0xE0020, 0xE007F, .Format),
  (0xE0100, 0xE01EF, .NonspacingMark),
  (0xF0000, 0xFFFFD, .PrivateUse),
  (0x100000, 0x10FFFD, .PrivateUse)]
/-- unic/ucd/category/tables/general_category.rsv (all 3054 entries, `CharDataTable::Range`), in chunks of 64. -/
def generalCategory : List (List (Nat × Nat × GeneralCategory)) := [generalCategory_0, generalCategory_1, generalCategory_2, generalCategory_3, generalCategory_4, generalCategory_5, generalCategory_6, generalCategory_7, generalCategory_8, generalCategory_9, generalCategory_10, generalCategory_11, generalCategory_12, generalCategory_13, generalCategory_14, generalCategory_15, generalCategory_16, generalCategory_17, generalCategory_18, generalCategory_19, generalCategory_20, generalCategory_21, generalCategory_22, generalCategory_23, generalCategory_24, generalCategory_25, generalCategory_26, generalCategory_27, generalCategory_28, generalCategory_29, generalCategory_30, generalCategory_31, generalCategory_32, generalCategory_33, generalCategory_34, generalCategory_35, generalCategory_36, generalCategory_37, generalCategory_38, generalCategory_39, generalCategory_40, generalCategory_41, generalCategory_42, generalCategory_43, generalCategory_44, generalCategory_45, generalCategory_46, generalCategory_47]

end Data
