import Verif.Data.Enums
/-! Generated by tools/gen_tables.py: literal translation of data tables. -/
namespace Data

def sentenceBreak_0 : List (Nat × Nat × SentenceBreak) := [
  (9, 9, .Sp),
  (0xA, 0xA, .LF),
  (0xB, 0xC, .Sp),
  (0xD, 0xD, .CR),
  (0x20, 0x20, .Sp),
  (0x21, 0x21, .STerm),
  (0x22, 0x22, .Close),
  (0x27, 0x29, .Close),
  (0x2C, 0x2D, .SContinue),
  (0x2E, 0x2E, .ATerm),
  (0x30, 0x39, .Numeric),
  (0x3A, 0x3A, .SContinue),
  (0x3F, 0x3F, .STerm),
  (0x41, 0x5A, .Upper),
  (0x5B, 0x5B, .Close),
  (0x5D, 0x5D, .Close),
  (0x61, 0x7A, .Lower),
  (0x7B, 0x7B, .Close),
  (0x7D, 0x7D, .Close),
  (0x85, 0x85, .Sep),
  (0xA0, 0xA0, .Sp),
  (0xAA, 0xAA, .Lower),
  (0xAB, 0xAB, .Close),
  (0xAD, 0xAD, .Format),
  (0xB5, 0xB5, .Lower),
  (0xBA, 0xBA, .Lower),
  (0xBB, 0xBB, .Close),
  (0xC0, 0xD6, .Upper),
  (0xD8, 0xDE, .Upper),
  (0xDF, 0xF6, .Lower),
  (0xF8, 0xFF, .Lower),
  (0x100, 0x100, .Upper),
  (0x101, 0x101, .Lower),
  (0x102, 0x102, .Upper),
  (0x103, 0x103, .Lower),
  (0x104, 0x104, .Upper),
  (0x105, 0x105, .Lower),
  (0x106, 0x106, .Upper),
  (0x107, 0x107, .Lower),
  (0x108, 0x108, .Upper),
  (0x109, 0x109, .Lower),
  (0x10A, 0x10A, .Upper),
  (0x10B, 0x10B, .Lower),
  (0x10C, 0x10C, .Upper),
  (0x10D, 0x10D, .Lower),
  (0x10E, 0x10E, .Upper),
  (0x10F, 0x10F, .Lower),
  (0x110, 0x110, .Upper),
  (0x111, 0x111, .Lower),
  (0x112, 0x112, .Upper),
  (0x113, 0x113, .Lower),
  (0x114, 0x114, .Upper),
  (0x115, 0x115, .Lower),
  (0x116, 0x116, .Upper),
  (0x117, 0x117, .Lower),
  (0x118, 0x118, .Upper),
  (0x119, 0x119, .Lower),
  (0x11A, 0x11A, .Upper),
  (0x11B, 0x11B, .Lower),
  (0x11C, 0x11C, .Upper),
  (0x11D, 0x11D, .Lower),
  (0x11E, 0x11E, .Upper),
  (0x11F, 0x11F, .Lower),
  (0x120, 0x120, .Upper)]
def sentenceBreak_1 : List (Nat × Nat × SentenceBreak) := [
  (0x121, 0x121, .Lower),
  (0x122, 0x122, .Upper),
  (0x123, 0x123, .Lower),
  (0x124, 0x124, .Upper),
  (0x125, 0x125, .Lower),
  (0x126, 0x126, .Upper),
  (0x127, 0x127, .Lower),
  (0x128, 0x128, .Upper),
  (0x129, 0x129, .Lower),
  (0x12A, 0x12A, .Upper),
  (0x12B, 0x12B, .Lower),
  (0x12C, 0x12C, .Upper),
  (0x12D, 0x12D, .Lower),
  (0x12E, 0x12E, .Upper),
  (0x12F, 0x12F, .Lower),
  (0x130, 0x130, .Upper),
  (0x131, 0x131, .Lower),
  (0x132, 0x132, .Upper),
  (0x133, 0x133, .Lower),
  (0x134, 0x134, .Upper),
  (0x135, 0x135, .Lower),
  (0x136, 0x136, .Upper),
  (0x137, 0x138, .Lower),
  (0x139, 0x139, .Upper),
  (0x13A, 0x13A, .Lower),
  (0x13B, 0x13B, .Upper),
  (0x13C, 0x13C, .Lower),
  (0x13D, 0x13D, .Upper),
  (0x13E, 0x13E, .Lower),
  (0x13F, 0x13F, .Upper),
  (0x140, 0x140, .Lower),
  (0x141, 0x141, .Upper),
  (0x142, 0x142, .Lower),
  (0x143, 0x143, .Upper),
  (0x144, 0x144, .Lower),
  (0x145, 0x145, .Upper),
  (0x146, 0x146, .Lower),
  (0x147, 0x147, .Upper),
  (0x148, 0x149, .Lower),
  (0x14A, 0x14A, .Upper),
  (0x14B, 0x14B, .Lower),
  (0x14C, 0x14C, .Upper),
  (0x14D, 0x14D, .Lower),
  (0x14E, 0x14E, .Upper),
  (0x14F, 0x14F, .Lower),
  (0x150, 0x150, .Upper),
  (0x151, 0x151, .Lower),
  (0x152, 0x152, .Upper),
  (0x153, 0x153, .Lower),
  (0x154, 0x154, .Upper),
  (0x155, 0x155, .Lower),
  (0x156, 0x156, .Upper),
  (0x157, 0x157, .Lower),
  (0x158, 0x158, .Upper),
  (0x159, 0x159, .Lower),
  (0x15A, 0x15A, .Upper),
  (0x15B, 0x15B, .Lower),
  (0x15C, 0x15C, .Upper),
  (0x15D, 0x15D, .Lower),
  (0x15E, 0x15E, .Upper),
  (0x15F, 0x15F, .Lower),
  (0x160, 0x160, .Upper),
  (0x161, 0x161, .Lower),
  (0x162, 0x162, .Upper)]
def sentenceBreak_2 : List (Nat × Nat × SentenceBreak) := [
  (0x163, 0x163, .Lower),
  (0x164, 0x164, .Upper),
  (0x165, 0x165, .Lower),
  (0x166, 0x166, .Upper),
  (0x167, 0x167, .Lower),
  (0x168, 0x168, .Upper),
  (0x169, 0x169, .Lower),
  (0x16A, 0x16A, .Upper),
  (0x16B, 0x16B, .Lower),
  (0x16C, 0x16C, .Upper),
  (0x16D, 0x16D, .Lower),
  (0x16E, 0x16E, .Upper),
  (0x16F, 0x16F, .Lower),
  (0x170, 0x170, .Upper),
  (0x171, 0x171, .Lower),
  (0x172, 0x172, .Upper),
  (0x173, 0x173, .Lower),
  (0x174, 0x174, .Upper),
  (0x175, 0x175, .Lower),
  (0x176, 0x176, .Upper),
  (0x177, 0x177, .Lower),
  (0x178, 0x179, .Upper),
  (0x17A, 0x17A, .Lower),
  (0x17B, 0x17B, .Upper),
  (0x17C, 0x17C, .Lower),
  (0x17D, 0x17D, .Upper),
  (0x17E, 0x180, .Lower),
  (0x181, 0x182, .Upper),
  (0x183, 0x183, .Lower),
  (0x184, 0x184, .Upper),
  (0x185, 0x185, .Lower),
  (0x186, 0x187, .Upper),
  (0x188, 0x188, .Lower),
  (0x189, 0x18B, .Upper),
  (0x18C, 0x18D, .Lower),
  (0x18E, 0x191, .Upper),
  (0x192, 0x192, .Lower),
  (0x193, 0x194, .Upper),
  (0x195, 0x195, .Lower),
  (0x196, 0x198, .Upper),
  (0x199, 0x19B, .Lower),
  (0x19C, 0x19D, .Upper),
  (0x19E, 0x19E, .Lower),
  (0x19F, 0x1A0, .Upper),
  (0x1A1, 0x1A1, .Lower),
  (0x1A2, 0x1A2, .Upper),
  (0x1A3, 0x1A3, .Lower),
  (0x1A4, 0x1A4, .Upper),
  (0x1A5, 0x1A5, .Lower),
  (0x1A6, 0x1A7, .Upper),
  (0x1A8, 0x1A8, .Lower),
  (0x1A9, 0x1A9, .Upper),
  (0x1AA, 0x1AB, .Lower),
  (0x1AC, 0x1AC, .Upper),
  (0x1AD, 0x1AD, .Lower),
  (0x1AE, 0x1AF, .Upper),
  (0x1B0, 0x1B0, .Lower),
  (0x1B1, 0x1B3, .Upper),
  (0x1B4, 0x1B4, .Lower),
  (0x1B5, 0x1B5, .Upper),
  (0x1B6, 0x1B6, .Lower),
  (0x1B7, 0x1B8, .Upper),
  (0x1B9, 0x1BA, .Lower),
  (0x1BB, 0x1BB, .OLetter)]
def sentenceBreak_3 : List (Nat × Nat × SentenceBreak) := [
  (0x1BC, 0x1BC, .Upper),
  (0x1BD, 0x1BF, .Lower),
  (0x1C0, 0x1C3, .OLetter),
  (0x1C4, 0x1C5, .Upper),
  (0x1C6, 0x1C6, .Lower),
  (0x1C7, 0x1C8, .Upper),
  (0x1C9, 0x1C9, .Lower),
  (0x1CA, 0x1CB, .Upper),
  (0x1CC, 0x1CC, .Lower),
  (0x1CD, 0x1CD, .Upper),
  (0x1CE, 0x1CE, .Lower),
  (0x1CF, 0x1CF, .Upper),
  (0x1D0, 0x1D0, .Lower),
  (0x1D1, 0x1D1, .Upper),
  (0x1D2, 0x1D2, .Lower),
  (0x1D3, 0x1D3, .Upper),
  (0x1D4, 0x1D4, .Lower),
  (0x1D5, 0x1D5, .Upper),
  (0x1D6, 0x1D6, .Lower),
  (0x1D7, 0x1D7, .Upper),
  (0x1D8, 0x1D8, .Lower),
  (0x1D9, 0x1D9, .Upper),
  (0x1DA, 0x1DA, .Lower),
  (0x1DB, 0x1DB, .Upper),
  (0x1DC, 0x1DD, .Lower),
  (0x1DE, 0x1DE, .Upper),
  (0x1DF, 0x1DF, .Lower),
  (0x1E0, 0x1E0, .Upper),
  (0x1E1, 0x1E1, .Lower),
  (0x1E2, 0x1E2, .Upper),
  (0x1E3, 0x1E3, .Lower),
  (0x1E4, 0x1E4, .Upper),
  (0x1E5, 0x1E5, .Lower),
  (0x1E6, 0x1E6, .Upper),
  (0x1E7, 0x1E7, .Lower),
  (0x1E8, 0x1E8, .Upper),
  (0x1E9, 0x1E9, .Lower),
  (0x1EA, 0x1EA, .Upper),
  (0x1EB, 0x1EB, .Lower),
  (0x1EC, 0x1EC, .Upper),
  (0x1ED, 0x1ED, .Lower),
  (0x1EE, 0x1EE, .Upper),
  (0x1EF, 0x1F0, .Lower),
  (0x1F1, 0x1F2, .Upper),
  (0x1F3, 0x1F3, .Lower),
  (0x1F4, 0x1F4, .Upper),
  (0x1F5, 0x1F5, .Lower),
  (0x1F6, 0x1F8, .Upper),
  (0x1F9, 0x1F9, .Lower),
  (0x1FA, 0x1FA, .Upper),
  (0x1FB, 0x1FB, .Lower),
  (0x1FC, 0x1FC, .Upper),
  (0x1FD, 0x1FD, .Lower),
  (0x1FE, 0x1FE, .Upper),
  (0x1FF, 0x1FF, .Lower),
  (0x200, 0x200, .Upper),
  (0x201, 0x201, .Lower),
  (0x202, 0x202, .Upper),
  (0x203, 0x203, .Lower),
  (0x204, 0x204, .Upper),
  (0x205, 0x205, .Lower),
  (0x206, 0x206, .Upper),
  (0x207, 0x207, .Lower),
  (0x208, 0x208, .Upper)]
def sentenceBreak_4 : List (Nat × Nat × SentenceBreak) := [
  (0x209, 0x209, .Lower),
  (0x20A, 0x20A, .Upper),
  (0x20B, 0x20B, .Lower),
  (0x20C, 0x20C, .Upper),
  (0x20D, 0x20D, .Lower),
  (0x20E, 0x20E, .Upper),
  (0x20F, 0x20F, .Lower),
  (0x210, 0x210, .Upper),
  (0x211, 0x211, .Lower),
  (0x212, 0x212, .Upper),
  (0x213, 0x213, .Lower),
  (0x214, 0x214, .Upper),
  (0x215, 0x215, .Lower),
  (0x216, 0x216, .Upper),
  (0x217, 0x217, .Lower),
  (0x218, 0x218, .Upper),
  (0x219, 0x219, .Lower),
  (0x21A, 0x21A, .Upper),
  (0x21B, 0x21B, .Lower),
  (0x21C, 0x21C, .Upper),
  (0x21D, 0x21D, .Lower),
  (0x21E, 0x21E, .Upper),
  (0x21F, 0x21F, .Lower),
  (0x220, 0x220, .Upper),
  (0x221, 0x221, .Lower),
  (0x222, 0x222, .Upper),
  (0x223, 0x223, .Lower),
  (0x224, 0x224, .Upper),
  (0x225, 0x225, .Lower),
  (0x226, 0x226, .Upper),
  (0x227, 0x227, .Lower),
  (0x228, 0x228, .Upper),
  (0x229, 0x229, .Lower),
  (0x22A, 0x22A, .Upper),
  (0x22B, 0x22B, .Lower),
  (0x22C, 0x22C, .Upper),
  (0x22D, 0x22D, .Lower),
  (0x22E, 0x22E, .Upper),
  (0x22F, 0x22F, .Lower),
  (0x230, 0x230, .Upper),
  (0x231, 0x231, .Lower),
  (0x232, 0x232, .Upper),
  (0x233, 0x239, .Lower),
  (0x23A, 0x23B, .Upper),
  (0x23C, 0x23C, .Lower),
  (0x23D, 0x23E, .Upper),
  (0x23F, 0x240, .Lower),
  (0x241, 0x241, .Upper),
  (0x242, 0x242, .Lower),
  (0x243, 0x246, .Upper),
  (0x247, 0x247, .Lower),
  (0x248, 0x248, .Upper),
  (0x249, 0x249, .Lower),
  (0x24A, 0x24A, .Upper),
  (0x24B, 0x24B, .Lower),
  (0x24C, 0x24C, .Upper),
  (0x24D, 0x24D, .Lower),
  (0x24E, 0x24E, .Upper),
  (0x24F, 0x293, .Lower),
  (0x294, 0x294, .OLetter),
  (0x295, 0x2B8, .Lower),
  (0x2B9, 0x2BF, .OLetter),
  (0x2C0, 0x2C1, .Lower),
  (0x2C6, 0x2D1, .OLetter)]
def sentenceBreak_5 : List (Nat × Nat × SentenceBreak) := [
  (0x2E0, 0x2E4, .Lower),
  (0x2EC, 0x2EC, .OLetter),
  (0x2EE, 0x2EE, .OLetter),
  (0x300, 0x36F, .Extend),
  (0x370, 0x370, .Upper),
  (0x371, 0x371, .Lower),
  (0x372, 0x372, .Upper),
  (0x373, 0x373, .Lower),
  (0x374, 0x374, .OLetter),
  (0x376, 0x376, .Upper),
  (0x377, 0x377, .Lower),
  (0x37A, 0x37D, .Lower),
  (0x37F, 0x37F, .Upper),
  (0x386, 0x386, .Upper),
  (0x388, 0x38A, .Upper),
  (0x38C, 0x38C, .Upper),
  (0x38E, 0x38F, .Upper),
  (0x390, 0x390, .Lower),
  (0x391, 0x3A1, .Upper),
  (0x3A3, 0x3AB, .Upper),
  (0x3AC, 0x3CE, .Lower),
  (0x3CF, 0x3CF, .Upper),
  (0x3D0, 0x3D1, .Lower),
  (0x3D2, 0x3D4, .Upper),
  (0x3D5, 0x3D7, .Lower),
  (0x3D8, 0x3D8, .Upper),
  (0x3D9, 0x3D9, .Lower),
  (0x3DA, 0x3DA, .Upper),
  (0x3DB, 0x3DB, .Lower),
  (0x3DC, 0x3DC, .Upper),
  (0x3DD, 0x3DD, .Lower),
  (0x3DE, 0x3DE, .Upper),
  (0x3DF, 0x3DF, .Lower),
  (0x3E0, 0x3E0, .Upper),
  (0x3E1, 0x3E1, .Lower),
  (0x3E2, 0x3E2, .Upper),
  (0x3E3, 0x3E3, .Lower),
  (0x3E4, 0x3E4, .Upper),
  (0x3E5, 0x3E5, .Lower),
  (0x3E6, 0x3E6, .Upper),
  (0x3E7, 0x3E7, .Lower),
  (0x3E8, 0x3E8, .Upper),
  (0x3E9, 0x3E9, .Lower),
  (0x3EA, 0x3EA, .Upper),
  (0x3EB, 0x3EB, .Lower),
  (0x3EC, 0x3EC, .Upper),
  (0x3ED, 0x3ED, .Lower),
  (0x3EE, 0x3EE, .Upper),
  (0x3EF, 0x3F3, .Lower),
  (0x3F4, 0x3F4, .Upper),
  (0x3F5, 0x3F5, .Lower),
  (0x3F7, 0x3F7, .Upper),
  (0x3F8, 0x3F8, .Lower),
  (0x3F9, 0x3FA, .Upper),
  (0x3FB, 0x3FC, .Lower),
  (0x3FD, 0x42F, .Upper),
  (0x430, 0x45F, .Lower),
  (0x460, 0x460, .Upper),
  (0x461, 0x461, .Lower),
  (0x462, 0x462, .Upper),
  (0x463, 0x463, .Lower),
  (0x464, 0x464, .Upper),
  (0x465, 0x465, .Lower),
  (0x466, 0x466, .Upper)]
def sentenceBreak_6 : List (Nat × Nat × SentenceBreak) := [
  (0x467, 0x467, .Lower),
  (0x468, 0x468, .Upper),
  (0x469, 0x469, .Lower),
  (0x46A, 0x46A, .Upper),
  (0x46B, 0x46B, .Lower),
  (0x46C, 0x46C, .Upper),
  (0x46D, 0x46D, .Lower),
  (0x46E, 0x46E, .Upper),
  (0x46F, 0x46F, .Lower),
  (0x470, 0x470, .Upper),
  (0x471, 0x471, .Lower),
  (0x472, 0x472, .Upper),
  (0x473, 0x473, .Lower),
  (0x474, 0x474, .Upper),
  (0x475, 0x475, .Lower),
  (0x476, 0x476, .Upper),
  (0x477, 0x477, .Lower),
  (0x478, 0x478, .Upper),
  (0x479, 0x479, .Lower),
  (0x47A, 0x47A, .Upper),
  (0x47B, 0x47B, .Lower),
  (0x47C, 0x47C, .Upper),
  (0x47D, 0x47D, .Lower),
  (0x47E, 0x47E, .Upper),
  (0x47F, 0x47F, .Lower),
  (0x480, 0x480, .Upper),
  (0x481, 0x481, .Lower),
  (0x483, 0x489, .Extend),
  (0x48A, 0x48A, .Upper),
  (0x48B, 0x48B, .Lower),
  (0x48C, 0x48C, .Upper),
  (0x48D, 0x48D, .Lower),
  (0x48E, 0x48E, .Upper),
  (0x48F, 0x48F, .Lower),
  (0x490, 0x490, .Upper),
  (0x491, 0x491, .Lower),
  (0x492, 0x492, .Upper),
  (0x493, 0x493, .Lower),
  (0x494, 0x494, .Upper),
  (0x495, 0x495, .Lower),
  (0x496, 0x496, .Upper),
  (0x497, 0x497, .Lower),
  (0x498, 0x498, .Upper),
  (0x499, 0x499, .Lower),
  (0x49A, 0x49A, .Upper),
  (0x49B, 0x49B, .Lower),
  (0x49C, 0x49C, .Upper),
  (0x49D, 0x49D, .Lower),
  (0x49E, 0x49E, .Upper),
  (0x49F, 0x49F, .Lower),
  (0x4A0, 0x4A0, .Upper),
  (0x4A1, 0x4A1, .Lower),
  (0x4A2, 0x4A2, .Upper),
  (0x4A3, 0x4A3, .Lower),
  (0x4A4, 0x4A4, .Upper),
  (0x4A5, 0x4A5, .Lower),
  (0x4A6, 0x4A6, .Upper),
  (0x4A7, 0x4A7, .Lower),
  (0x4A8, 0x4A8, .Upper),
  (0x4A9, 0x4A9, .Lower),
  (0x4AA, 0x4AA, .Upper),
  (0x4AB, 0x4AB, .Lower),
  (0x4AC, 0x4AC, .Upper),
  (0x4AD, 0x4AD, .Lower)]
def sentenceBreak_7 : List (Nat × Nat × SentenceBreak) := [
  (0x4AE, 0x4AE, .Upper),
  (0x4AF, 0x4AF, .Lower),
  (0x4B0, 0x4B0, .Upper),
  (0x4B1, 0x4B1, .Lower),
  (0x4B2, 0x4B2, .Upper),
  (0x4B3, 0x4B3, .Lower),
  (0x4B4, 0x4B4, .Upper),
  (0x4B5, 0x4B5, .Lower),
  (0x4B6, 0x4B6, .Upper),
  (0x4B7, 0x4B7, .Lower),
  (0x4B8, 0x4B8, .Upper),
  (0x4B9, 0x4B9, .Lower),
  (0x4BA, 0x4BA, .Upper),
  (0x4BB, 0x4BB, .Lower),
  (0x4BC, 0x4BC, .Upper),
  (0x4BD, 0x4BD, .Lower),
  (0x4BE, 0x4BE, .Upper),
  (0x4BF, 0x4BF, .Lower),
  (0x4C0, 0x4C1, .Upper),
  (0x4C2, 0x4C2, .Lower),
  (0x4C3, 0x4C3, .Upper),
  (0x4C4, 0x4C4, .Lower),
  (0x4C5, 0x4C5, .Upper),
  (0x4C6, 0x4C6, .Lower),
  (0x4C7, 0x4C7, .Upper),
  (0x4C8, 0x4C8, .Lower),
  (0x4C9, 0x4C9, .Upper),
  (0x4CA, 0x4CA, .Lower),
  (0x4CB, 0x4CB, .Upper),
  (0x4CC, 0x4CC, .Lower),
  (0x4CD, 0x4CD, .Upper),
  (0x4CE, 0x4CF, .Lower),
  (0x4D0, 0x4D0, .Upper),
  (0x4D1, 0x4D1, .Lower),
  (0x4D2, 0x4D2, .Upper),
  (0x4D3, 0x4D3, .Lower),
  (0x4D4, 0x4D4, .Upper),
  (0x4D5, 0x4D5, .Lower),
  (0x4D6, 0x4D6, .Upper),
  (0x4D7, 0x4D7, .Lower),
  (0x4D8, 0x4D8, .Upper),
  (0x4D9, 0x4D9, .Lower),
  (0x4DA, 0x4DA, .Upper),
  (0x4DB, 0x4DB, .Lower),
  (0x4DC, 0x4DC, .Upper),
  (0x4DD, 0x4DD, .Lower),
  (0x4DE, 0x4DE, .Upper),
  (0x4DF, 0x4DF, .Lower),
  (0x4E0, 0x4E0, .Upper),
  (0x4E1, 0x4E1, .Lower),
  (0x4E2, 0x4E2, .Upper),
  (0x4E3, 0x4E3, .Lower),
  (0x4E4, 0x4E4, .Upper),
  (0x4E5, 0x4E5, .Lower),
  (0x4E6, 0x4E6, .Upper),
  (0x4E7, 0x4E7, .Lower),
  (0x4E8, 0x4E8, .Upper),
  (0x4E9, 0x4E9, .Lower),
  (0x4EA, 0x4EA, .Upper),
  (0x4EB, 0x4EB, .Lower),
  (0x4EC, 0x4EC, .Upper),
  (0x4ED, 0x4ED, .Lower),
  (0x4EE, 0x4EE, .Upper),
  (0x4EF, 0x4EF, .Lower)]
def sentenceBreak_8 : List (Nat × Nat × SentenceBreak) := [
  (0x4F0, 0x4F0, .Upper),
  (0x4F1, 0x4F1, .Lower),
  (0x4F2, 0x4F2, .Upper),
  (0x4F3, 0x4F3, .Lower),
  (0x4F4, 0x4F4, .Upper),
  (0x4F5, 0x4F5, .Lower),
  (0x4F6, 0x4F6, .Upper),
  (0x4F7, 0x4F7, .Lower),
  (0x4F8, 0x4F8, .Upper),
  (0x4F9, 0x4F9, .Lower),
  (0x4FA, 0x4FA, .Upper),
  (0x4FB, 0x4FB, .Lower),
  (0x4FC, 0x4FC, .Upper),
  (0x4FD, 0x4FD, .Lower),
  (0x4FE, 0x4FE, .Upper),
  (0x4FF, 0x4FF, .Lower),
  (0x500, 0x500, .Upper),
  (0x501, 0x501, .Lower),
  (0x502, 0x502, .Upper),
  (0x503, 0x503, .Lower),
  (0x504, 0x504, .Upper),
  (0x505, 0x505, .Lower),
  (0x506, 0x506, .Upper),
  (0x507, 0x507, .Lower),
  (0x508, 0x508, .Upper),
  (0x509, 0x509, .Lower),
  (0x50A, 0x50A, .Upper),
  (0x50B, 0x50B, .Lower),
  (0x50C, 0x50C, .Upper),
  (0x50D, 0x50D, .Lower),
  (0x50E, 0x50E, .Upper),
  (0x50F, 0x50F, .Lower),
  (0x510, 0x510, .Upper),
  (0x511, 0x511, .Lower),
  (0x512, 0x512, .Upper),
  (0x513, 0x513, .Lower),
  (0x514, 0x514, .Upper),
  (0x515, 0x515, .Lower),
  (0x516, 0x516, .Upper),
  (0x517, 0x517, .Lower),
  (0x518, 0x518, .Upper),
  (0x519, 0x519, .Lower),
  (0x51A, 0x51A, .Upper),
  (0x51B, 0x51B, .Lower),
  (0x51C, 0x51C, .Upper),
  (0x51D, 0x51D, .Lower),
  (0x51E, 0x51E, .Upper),
  (0x51F, 0x51F, .Lower),
  (0x520, 0x520, .Upper),
  (0x521, 0x521, .Lower),
  (0x522, 0x522, .Upper),
  (0x523, 0x523, .Lower),
  (0x524, 0x524, .Upper),
  (0x525, 0x525, .Lower),
  (0x526, 0x526, .Upper),
  (0x527, 0x527, .Lower),
  (0x528, 0x528, .Upper),
  (0x529, 0x529, .Lower),
  (0x52A, 0x52A, .Upper),
  (0x52B, 0x52B, .Lower),
  (0x52C, 0x52C, .Upper),
  (0x52D, 0x52D, .Lower),
  (0x52E, 0x52E, .Upper),
  (0x52F, 0x52F, .Lower)]
def sentenceBreak_9 : List (Nat × Nat × SentenceBreak) := [
  (0x531, 0x556, .Upper),
  (0x559, 0x559, .OLetter),
  (0x55D, 0x55D, .SContinue),
  (0x561, 0x587, .Lower),
  (0x589, 0x589, .STerm),
  (0x591, 0x5BD, .Extend),
  (0x5BF, 0x5BF, .Extend),
  (0x5C1, 0x5C2, .Extend),
  (0x5C4, 0x5C5, .Extend),
  (0x5C7, 0x5C7, .Extend),
  (0x5D0, 0x5EA, .OLetter),
  (0x5F0, 0x5F3, .OLetter),
  (0x600, 0x605, .Format),
  (0x60C, 0x60D, .SContinue),
  (0x610, 0x61A, .Extend),
  (0x61C, 0x61C, .Format),
  (0x61F, 0x61F, .STerm),
  (0x620, 0x64A, .OLetter),
  (0x64B, 0x65F, .Extend),
  (0x660, 0x669, .Numeric),
  (0x66B, 0x66C, .Numeric),
  (0x66E, 0x66F, .OLetter),
  (0x670, 0x670, .Extend),
  (0x671, 0x6D3, .OLetter),
  (0x6D4, 0x6D4, .STerm),
  (0x6D5, 0x6D5, .OLetter),
  (0x6D6, 0x6DC, .Extend),
  (0x6DD, 0x6DD, .Format),
  (0x6DF, 0x6E4, .Extend),
  (0x6E5, 0x6E6, .OLetter),
  (0x6E7, 0x6E8, .Extend),
  (0x6EA, 0x6ED, .Extend),
  (0x6EE, 0x6EF, .OLetter),
  (0x6F0, 0x6F9, .Numeric),
  (0x6FA, 0x6FC, .OLetter),
  (0x6FF, 0x6FF, .OLetter),
  (0x700, 0x702, .STerm),
  (0x70F, 0x70F, .Format),
  (0x710, 0x710, .OLetter),
  (0x711, 0x711, .Extend),
  (0x712, 0x72F, .OLetter),
  (0x730, 0x74A, .Extend),
  (0x74D, 0x7A5, .OLetter),
  (0x7A6, 0x7B0, .Extend),
  (0x7B1, 0x7B1, .OLetter),
  (0x7C0, 0x7C9, .Numeric),
  (0x7CA, 0x7EA, .OLetter),
  (0x7EB, 0x7F3, .Extend),
  (0x7F4, 0x7F5, .OLetter),
  (0x7F8, 0x7F8, .SContinue),
  (0x7F9, 0x7F9, .STerm),
  (0x7FA, 0x7FA, .OLetter),
  (0x800, 0x815, .OLetter),
  (0x816, 0x819, .Extend),
  (0x81A, 0x81A, .OLetter),
  (0x81B, 0x823, .Extend),
  (0x824, 0x824, .OLetter),
  (0x825, 0x827, .Extend),
  (0x828, 0x828, .OLetter),
  (0x829, 0x82D, .Extend),
  (0x840, 0x858, .OLetter),
  (0x859, 0x85B, .Extend),
  (0x860, 0x86A, .OLetter),
  (0x8A0, 0x8B4, .OLetter)]
def sentenceBreak_10 : List (Nat × Nat × SentenceBreak) := [
  (0x8B6, 0x8BD, .OLetter),
  (0x8D4, 0x8E1, .Extend),
  (0x8E2, 0x8E2, .Format),
  (0x8E3, 0x903, .Extend),
  (0x904, 0x939, .OLetter),
  (0x93A, 0x93C, .Extend),
  (0x93D, 0x93D, .OLetter),
  (0x93E, 0x94F, .Extend),
  (0x950, 0x950, .OLetter),
  (0x951, 0x957, .Extend),
  (0x958, 0x961, .OLetter),
  (0x962, 0x963, .Extend),
  (0x964, 0x965, .STerm),
  (0x966, 0x96F, .Numeric),
  (0x971, 0x980, .OLetter),
  (0x981, 0x983, .Extend),
  (0x985, 0x98C, .OLetter),
  (0x98F, 0x990, .OLetter),
  (0x993, 0x9A8, .OLetter),
  (0x9AA, 0x9B0, .OLetter),
  (0x9B2, 0x9B2, .OLetter),
  (0x9B6, 0x9B9, .OLetter),
  (0x9BC, 0x9BC, .Extend),
  (0x9BD, 0x9BD, .OLetter),
  (0x9BE, 0x9C4, .Extend),
  (0x9C7, 0x9C8, .Extend),
  (0x9CB, 0x9CD, .Extend),
  (0x9CE, 0x9CE, .OLetter),
  (0x9D7, 0x9D7, .Extend),
  (0x9DC, 0x9DD, .OLetter),
  (0x9DF, 0x9E1, .OLetter),
  (0x9E2, 0x9E3, .Extend),
  (0x9E6, 0x9EF, .Numeric),
  (0x9F0, 0x9F1, .OLetter),
  (0x9FC, 0x9FC, .OLetter),
  (0xA01, 0xA03, .Extend),
  (0xA05, 0xA0A, .OLetter),
  (0xA0F, 0xA10, .OLetter),
  (0xA13, 0xA28, .OLetter),
  (0xA2A, 0xA30, .OLetter),
  (0xA32, 0xA33, .OLetter),
  (0xA35, 0xA36, .OLetter),
  (0xA38, 0xA39, .OLetter),
  (0xA3C, 0xA3C, .Extend),
  (0xA3E, 0xA42, .Extend),
  (0xA47, 0xA48, .Extend),
  (0xA4B, 0xA4D, .Extend),
  (0xA51, 0xA51, .Extend),
  (0xA59, 0xA5C, .OLetter),
  (0xA5E, 0xA5E, .OLetter),
  (0xA66, 0xA6F, .Numeric),
  (0xA70, 0xA71, .Extend),
  (0xA72, 0xA74, .OLetter),
  (0xA75, 0xA75, .Extend),
  (0xA81, 0xA83, .Extend),
  (0xA85, 0xA8D, .OLetter),
  (0xA8F, 0xA91, .OLetter),
  (0xA93, 0xAA8, .OLetter),
  (0xAAA, 0xAB0, .OLetter),
  (0xAB2, 0xAB3, .OLetter),
  (0xAB5, 0xAB9, .OLetter),
  (0xABC, 0xABC, .Extend),
  (0xABD, 0xABD, .OLetter),
  (0xABE, 0xAC5, .Extend)]
def sentenceBreak_11 : List (Nat × Nat × SentenceBreak) := [
  (0xAC7, 0xAC9, .Extend),
  (0xACB, 0xACD, .Extend),
  (0xAD0, 0xAD0, .OLetter),
  (0xAE0, 0xAE1, .OLetter),
  (0xAE2, 0xAE3, .Extend),
  (0xAE6, 0xAEF, .Numeric),
  (0xAF9, 0xAF9, .OLetter),
  (0xAFA, 0xAFF, .Extend),
  (0xB01, 0xB03, .Extend),
  (0xB05, 0xB0C, .OLetter),
  (0xB0F, 0xB10, .OLetter),
  (0xB13, 0xB28, .OLetter),
  (0xB2A, 0xB30, .OLetter),
  (0xB32, 0xB33, .OLetter),
  (0xB35, 0xB39, .OLetter),
  (0xB3C, 0xB3C, .Extend),
  (0xB3D, 0xB3D, .OLetter),
  (0xB3E, 0xB44, .Extend),
  (0xB47, 0xB48, .Extend),
  (0xB4B, 0xB4D, .Extend),
  (0xB56, 0xB57, .Extend),
  (0xB5C, 0xB5D, .OLetter),
  (0xB5F, 0xB61, .OLetter),
  (0xB62, 0xB63, .Extend),
  (0xB66, 0xB6F, .Numeric),
  (0xB71, 0xB71, .OLetter),
  (0xB82, 0xB82, .Extend),
  (0xB83, 0xB83, .OLetter),
  (0xB85, 0xB8A, .OLetter),
  (0xB8E, 0xB90, .OLetter),
  (0xB92, 0xB95, .OLetter),
  (0xB99, 0xB9A, .OLetter),
  (0xB9C, 0xB9C, .OLetter),
  (0xB9E, 0xB9F, .OLetter),
  (0xBA3, 0xBA4, .OLetter),
  (0xBA8, 0xBAA, .OLetter),
  (0xBAE, 0xBB9, .OLetter),
  (0xBBE, 0xBC2, .Extend),
  (0xBC6, 0xBC8, .Extend),
  (0xBCA, 0xBCD, .Extend),
  (0xBD0, 0xBD0, .OLetter),
  (0xBD7, 0xBD7, .Extend),
  (0xBE6, 0xBEF, .Numeric),
  (0xC00, 0xC03, .Extend),
  (0xC05, 0xC0C, .OLetter),
  (0xC0E, 0xC10, .OLetter),
  (0xC12, 0xC28, .OLetter),
  (0xC2A, 0xC39, .OLetter),
  (0xC3D, 0xC3D, .OLetter),
  (0xC3E, 0xC44, .Extend),
  (0xC46, 0xC48, .Extend),
  (0xC4A, 0xC4D, .Extend),
  (0xC55, 0xC56, .Extend),
  (0xC58, 0xC5A, .OLetter),
  (0xC60, 0xC61, .OLetter),
  (0xC62, 0xC63, .Extend),
  (0xC66, 0xC6F, .Numeric),
  (0xC80, 0xC80, .OLetter),
  (0xC81, 0xC83, .Extend),
  (0xC85, 0xC8C, .OLetter),
  (0xC8E, 0xC90, .OLetter),
  (0xC92, 0xCA8, .OLetter),
  (0xCAA, 0xCB3, .OLetter),
  (0xCB5, 0xCB9, .OLetter)]
def sentenceBreak_12 : List (Nat × Nat × SentenceBreak) := [
  (0xCBC, 0xCBC, .Extend),
  (0xCBD, 0xCBD, .OLetter),
  (0xCBE, 0xCC4, .Extend),
  (0xCC6, 0xCC8, .Extend),
  (0xCCA, 0xCCD, .Extend),
  (0xCD5, 0xCD6, .Extend),
  (0xCDE, 0xCDE, .OLetter),
  (0xCE0, 0xCE1, .OLetter),
  (0xCE2, 0xCE3, .Extend),
  (0xCE6, 0xCEF, .Numeric),
  (0xCF1, 0xCF2, .OLetter),
  (0xD00, 0xD03, .Extend),
  (0xD05, 0xD0C, .OLetter),
  (0xD0E, 0xD10, .OLetter),
  (0xD12, 0xD3A, .OLetter),
  (0xD3B, 0xD3C, .Extend),
  (0xD3D, 0xD3D, .OLetter),
  (0xD3E, 0xD44, .Extend),
  (0xD46, 0xD48, .Extend),
  (0xD4A, 0xD4D, .Extend),
  (0xD4E, 0xD4E, .OLetter),
  (0xD54, 0xD56, .OLetter),
  (0xD57, 0xD57, .Extend),
  (0xD5F, 0xD61, .OLetter),
  (0xD62, 0xD63, .Extend),
  (0xD66, 0xD6F, .Numeric),
  (0xD7A, 0xD7F, .OLetter),
  (0xD82, 0xD83, .Extend),
  (0xD85, 0xD96, .OLetter),
  (0xD9A, 0xDB1, .OLetter),
  (0xDB3, 0xDBB, .OLetter),
  (0xDBD, 0xDBD, .OLetter),
  (0xDC0, 0xDC6, .OLetter),
  (0xDCA, 0xDCA, .Extend),
  (0xDCF, 0xDD4, .Extend),
  (0xDD6, 0xDD6, .Extend),
  (0xDD8, 0xDDF, .Extend),
  (0xDE6, 0xDEF, .Numeric),
  (0xDF2, 0xDF3, .Extend),
  (0xE01, 0xE30, .OLetter),
  (0xE31, 0xE31, .Extend),
  (0xE32, 0xE33, .OLetter),
  (0xE34, 0xE3A, .Extend),
  (0xE40, 0xE46, .OLetter),
  (0xE47, 0xE4E, .Extend),
  (0xE50, 0xE59, .Numeric),
  (0xE81, 0xE82, .OLetter),
  (0xE84, 0xE84, .OLetter),
  (0xE87, 0xE88, .OLetter),
  (0xE8A, 0xE8A, .OLetter),
  (0xE8D, 0xE8D, .OLetter),
  (0xE94, 0xE97, .OLetter),
  (0xE99, 0xE9F, .OLetter),
  (0xEA1, 0xEA3, .OLetter),
  (0xEA5, 0xEA5, .OLetter),
  (0xEA7, 0xEA7, .OLetter),
  (0xEAA, 0xEAB, .OLetter),
  (0xEAD, 0xEB0, .OLetter),
  (0xEB1, 0xEB1, .Extend),
  (0xEB2, 0xEB3, .OLetter),
  (0xEB4, 0xEB9, .Extend),
  (0xEBB, 0xEBC, .Extend),
  (0xEBD, 0xEBD, .OLetter),
  (0xEC0, 0xEC4, .OLetter)]
def sentenceBreak_13 : List (Nat × Nat × SentenceBreak) := [
  (0xEC6, 0xEC6, .OLetter),
  (0xEC8, 0xECD, .Extend),
  (0xED0, 0xED9, .Numeric),
  (0xEDC, 0xEDF, .OLetter),
  (0xF00, 0xF00, .OLetter),
  (0xF18, 0xF19, .Extend),
  (0xF20, 0xF29, .Numeric),
  (0xF35, 0xF35, .Extend),
  (0xF37, 0xF37, .Extend),
  (0xF39, 0xF39, .Extend),
  (0xF3A, 0xF3D, .Close),
  (0xF3E, 0xF3F, .Extend),
  (0xF40, 0xF47, .OLetter),
  (0xF49, 0xF6C, .OLetter),
  (0xF71, 0xF84, .Extend),
  (0xF86, 0xF87, .Extend),
  (0xF88, 0xF8C, .OLetter),
  (0xF8D, 0xF97, .Extend),
  (0xF99, 0xFBC, .Extend),
  (0xFC6, 0xFC6, .Extend),
  (0x1000, 0x102A, .OLetter),
  (0x102B, 0x103E, .Extend),
  (0x103F, 0x103F, .OLetter),
  (0x1040, 0x1049, .Numeric),
  (0x104A, 0x104B, .STerm),
  (0x1050, 0x1055, .OLetter),
  (0x1056, 0x1059, .Extend),
  (0x105A, 0x105D, .OLetter),
  (0x105E, 0x1060, .Extend),
  (0x1061, 0x1061, .OLetter),
  (0x1062, 0x1064, .Extend),
  (0x1065, 0x1066, .OLetter),
  (0x1067, 0x106D, .Extend),
  (0x106E, 0x1070, .OLetter),
  (0x1071, 0x1074, .Extend),
  (0x1075, 0x1081, .OLetter),
  (0x1082, 0x108D, .Extend),
  (0x108E, 0x108E, .OLetter),
  (0x108F, 0x108F, .Extend),
  (0x1090, 0x1099, .Numeric),
  (0x109A, 0x109D, .Extend),
  (0x10A0, 0x10C5, .Upper),
  (0x10C7, 0x10C7, .Upper),
  (0x10CD, 0x10CD, .Upper),
  (0x10D0, 0x10FA, .OLetter),
  (0x10FC, 0x1248, .OLetter),
  (0x124A, 0x124D, .OLetter),
  (0x1250, 0x1256, .OLetter),
  (0x1258, 0x1258, .OLetter),
  (0x125A, 0x125D, .OLetter),
  (0x1260, 0x1288, .OLetter),
  (0x128A, 0x128D, .OLetter),
  (0x1290, 0x12B0, .OLetter),
  (0x12B2, 0x12B5, .OLetter),
  (0x12B8, 0x12BE, .OLetter),
  (0x12C0, 0x12C0, .OLetter),
  (0x12C2, 0x12C5, .OLetter),
  (0x12C8, 0x12D6, .OLetter),
  (0x12D8, 0x1310, .OLetter),
  (0x1312, 0x1315, .OLetter),
  (0x1318, 0x135A, .OLetter),
  (0x135D, 0x135F, .Extend),
  (0x1362, 0x1362, .STerm),
  (0x1367, 0x1368, .STerm)]
def sentenceBreak_14 : List (Nat × Nat × SentenceBreak) := [
  (0x1380, 0x138F, .OLetter),
  (0x13A0, 0x13F5, .Upper),
  (0x13F8, 0x13FD, .Lower),
  (0x1401, 0x166C, .OLetter),
  (0x166E, 0x166E, .STerm),
  (0x166F, 0x167F, .OLetter),
  (0x1680, 0x1680, .Sp),
  (0x1681, 0x169A, .OLetter),
  (0x169B, 0x169C, .Close),
  (0x16A0, 0x16EA, .OLetter),
  (0x16EE, 0x16F8, .OLetter),
  (0x1700, 0x170C, .OLetter),
  (0x170E, 0x1711, .OLetter),
  (0x1712, 0x1714, .Extend),
  (0x1720, 0x1731, .OLetter),
  (0x1732, 0x1734, .Extend),
  (0x1735, 0x1736, .STerm),
  (0x1740, 0x1751, .OLetter),
  (0x1752, 0x1753, .Extend),
  (0x1760, 0x176C, .OLetter),
  (0x176E, 0x1770, .OLetter),
  (0x1772, 0x1773, .Extend),
  (0x1780, 0x17B3, .OLetter),
  (0x17B4, 0x17D3, .Extend),
  (0x17D7, 0x17D7, .OLetter),
  (0x17DC, 0x17DC, .OLetter),
  (0x17DD, 0x17DD, .Extend),
  (0x17E0, 0x17E9, .Numeric),
  (0x1802, 0x1802, .SContinue),
  (0x1803, 0x1803, .STerm),
  (0x1808, 0x1808, .SContinue),
  (0x1809, 0x1809, .STerm),
  (0x180B, 0x180D, .Extend),
  (0x180E, 0x180E, .Format),
  (0x1810, 0x1819, .Numeric),
  (0x1820, 0x1877, .OLetter),
  (0x1880, 0x1884, .OLetter),
  (0x1885, 0x1886, .Extend),
  (0x1887, 0x18A8, .OLetter),
  (0x18A9, 0x18A9, .Extend),
  (0x18AA, 0x18AA, .OLetter),
  (0x18B0, 0x18F5, .OLetter),
  (0x1900, 0x191E, .OLetter),
  (0x1920, 0x192B, .Extend),
  (0x1930, 0x193B, .Extend),
  (0x1944, 0x1945, .STerm),
  (0x1946, 0x194F, .Numeric),
  (0x1950, 0x196D, .OLetter),
  (0x1970, 0x1974, .OLetter),
  (0x1980, 0x19AB, .OLetter),
  (0x19B0, 0x19C9, .OLetter),
  (0x19D0, 0x19D9, .Numeric),
  (0x1A00, 0x1A16, .OLetter),
  (0x1A17, 0x1A1B, .Extend),
  (0x1A20, 0x1A54, .OLetter),
  (0x1A55, 0x1A5E, .Extend),
  (0x1A60, 0x1A7C, .Extend),
  (0x1A7F, 0x1A7F, .Extend),
  (0x1A80, 0x1A89, .Numeric),
  (0x1A90, 0x1A99, .Numeric),
  (0x1AA7, 0x1AA7, .OLetter),
  (0x1AA8, 0x1AAB, .STerm),
  (0x1AB0, 0x1ABE, .Extend),
  (0x1B00, 0x1B04, .Extend)]
def sentenceBreak_15 : List (Nat × Nat × SentenceBreak) := [
  (0x1B05, 0x1B33, .OLetter),
  (0x1B34, 0x1B44, .Extend),
  (0x1B45, 0x1B4B, .OLetter),
  (0x1B50, 0x1B59, .Numeric),
  (0x1B5A, 0x1B5B, .STerm),
  (0x1B5E, 0x1B5F, .STerm),
  (0x1B6B, 0x1B73, .Extend),
  (0x1B80, 0x1B82, .Extend),
  (0x1B83, 0x1BA0, .OLetter),
  (0x1BA1, 0x1BAD, .Extend),
  (0x1BAE, 0x1BAF, .OLetter),
  (0x1BB0, 0x1BB9, .Numeric),
  (0x1BBA, 0x1BE5, .OLetter),
  (0x1BE6, 0x1BF3, .Extend),
  (0x1C00, 0x1C23, .OLetter),
  (0x1C24, 0x1C37, .Extend),
  (0x1C3B, 0x1C3C, .STerm),
  (0x1C40, 0x1C49, .Numeric),
  (0x1C4D, 0x1C4F, .OLetter),
  (0x1C50, 0x1C59, .Numeric),
  (0x1C5A, 0x1C7D, .OLetter),
  (0x1C7E, 0x1C7F, .STerm),
  (0x1C80, 0x1C88, .Lower),
  (0x1CD0, 0x1CD2, .Extend),
  (0x1CD4, 0x1CE8, .Extend),
  (0x1CE9, 0x1CEC, .OLetter),
  (0x1CED, 0x1CED, .Extend),
  (0x1CEE, 0x1CF1, .OLetter),
  (0x1CF2, 0x1CF4, .Extend),
  (0x1CF5, 0x1CF6, .OLetter),
  (0x1CF7, 0x1CF9, .Extend),
  (0x1D00, 0x1DBF, .Lower),
  (0x1DC0, 0x1DF9, .Extend),
  (0x1DFB, 0x1DFF, .Extend),
  (0x1E00, 0x1E00, .Upper),
  (0x1E01, 0x1E01, .Lower),
  (0x1E02, 0x1E02, .Upper),
  (0x1E03, 0x1E03, .Lower),
  (0x1E04, 0x1E04, .Upper),
  (0x1E05, 0x1E05, .Lower),
  (0x1E06, 0x1E06, .Upper),
  (0x1E07, 0x1E07, .Lower),
  (0x1E08, 0x1E08, .Upper),
  (0x1E09, 0x1E09, .Lower),
  (0x1E0A, 0x1E0A, .Upper),
  (0x1E0B, 0x1E0B, .Lower),
  (0x1E0C, 0x1E0C, .Upper),
  (0x1E0D, 0x1E0D, .Lower),
  (0x1E0E, 0x1E0E, .Upper),
  (0x1E0F, 0x1E0F, .Lower),
  (0x1E10, 0x1E10, .Upper),
  (0x1E11, 0x1E11, .Lower),
  (0x1E12, 0x1E12, .Upper),
  (0x1E13, 0x1E13, .Lower),
  (0x1E14, 0x1E14, .Upper),
  (0x1E15, 0x1E15, .Lower),
  (0x1E16, 0x1E16, .Upper),
  (0x1E17, 0x1E17, .Lower),
  (0x1E18, 0x1E18, .Upper),
  (0x1E19, 0x1E19, .Lower),
  (0x1E1A, 0x1E1A, .Upper),
  (0x1E1B, 0x1E1B, .Lower),
  (0x1E1C, 0x1E1C, .Upper),
  (0x1E1D, 0x1E1D, .Lower)]
def sentenceBreak_16 : List (Nat × Nat × SentenceBreak) := [
  (0x1E1E, 0x1E1E, .Upper),
  (0x1E1F, 0x1E1F, .Lower),
  (0x1E20, 0x1E20, .Upper),
  (0x1E21, 0x1E21, .Lower),
  (0x1E22, 0x1E22, .Upper),
  (0x1E23, 0x1E23, .Lower),
  (0x1E24, 0x1E24, .Upper),
  (0x1E25, 0x1E25, .Lower),
  (0x1E26, 0x1E26, .Upper),
  (0x1E27, 0x1E27, .Lower),
  (0x1E28, 0x1E28, .Upper),
  (0x1E29, 0x1E29, .Lower),
  (0x1E2A, 0x1E2A, .Upper),
  (0x1E2B, 0x1E2B, .Lower),
  (0x1E2C, 0x1E2C, .Upper),
  (0x1E2D, 0x1E2D, .Lower),
  (0x1E2E, 0x1E2E, .Upper),
  (0x1E2F, 0x1E2F, .Lower),
  (0x1E30, 0x1E30, .Upper),
  (0x1E31, 0x1E31, .Lower),
  (0x1E32, 0x1E32, .Upper),
  (0x1E33, 0x1E33, .Lower),
  (0x1E34, 0x1E34, .Upper),
  (0x1E35, 0x1E35, .Lower),
  (0x1E36, 0x1E36, .Upper),
  (0x1E37, 0x1E37, .Lower),
  (0x1E38, 0x1E38, .Upper),
  (0x1E39, 0x1E39, .Lower),
  (0x1E3A, 0x1E3A, .Upper),
  (0x1E3B, 0x1E3B, .Lower),
  (0x1E3C, 0x1E3C, .Upper),
  (0x1E3D, 0x1E3D, .Lower),
  (0x1E3E, 0x1E3E, .Upper),
  (0x1E3F, 0x1E3F, .Lower),
  (0x1E40, 0x1E40, .Upper),
  (0x1E41, 0x1E41, .Lower),
  (0x1E42, 0x1E42, .Upper),
  (0x1E43, 0x1E43, .Lower),
  (0x1E44, 0x1E44, .Upper),
  (0x1E45, 0x1E45, .Lower),
  (0x1E46, 0x1E46, .Upper),
  (0x1E47, 0x1E47, .Lower),
  (0x1E48, 0x1E48, .Upper),
  (0x1E49, 0x1E49, .Lower),
  (0x1E4A, 0x1E4A, .Upper),
  (0x1E4B, 0x1E4B, .Lower),
  (0x1E4C, 0x1E4C, .Upper),
  (0x1E4D, 0x1E4D, .Lower),
  (0x1E4E, 0x1E4E, .Upper),
  (0x1E4F, 0x1E4F, .Lower),
  (0x1E50, 0x1E50, .Upper),
  (0x1E51, 0x1E51, .Lower),
  (0x1E52, 0x1E52, .Upper),
  (0x1E53, 0x1E53, .Lower),
  (0x1E54, 0x1E54, .Upper),
  (0x1E55, 0x1E55, .Lower),
  (0x1E56, 0x1E56, .Upper),
  (0x1E57, 0x1E57, .Lower),
  (0x1E58, 0x1E58, .Upper),
  (0x1E59, 0x1E59, .Lower),
  (0x1E5A, 0x1E5A, .Upper),
  (0x1E5B, 0x1E5B, .Lower),
  (0x1E5C, 0x1E5C, .Upper),
  (0x1E5D, 0x1E5D, .Lower)]
def sentenceBreak_17 : List (Nat × Nat × SentenceBreak) := [
  (0x1E5E, 0x1E5E, .Upper),
  (0x1E5F, 0x1E5F, .Lower),
  (0x1E60, 0x1E60, .Upper),
  (0x1E61, 0x1E61, .Lower),
  (0x1E62, 0x1E62, .Upper),
  (0x1E63, 0x1E63, .Lower),
  (0x1E64, 0x1E64, .Upper),
  (0x1E65, 0x1E65, .Lower),
  (0x1E66, 0x1E66, .Upper),
  (0x1E67, 0x1E67, .Lower),
  (0x1E68, 0x1E68, .Upper),
  (0x1E69, 0x1E69, .Lower),
  (0x1E6A, 0x1E6A, .Upper),
  (0x1E6B, 0x1E6B, .Lower),
  (0x1E6C, 0x1E6C, .Upper),
  (0x1E6D, 0x1E6D, .Lower),
  (0x1E6E, 0x1E6E, .Upper),
  (0x1E6F, 0x1E6F, .Lower),
  (0x1E70, 0x1E70, .Upper),
  (0x1E71, 0x1E71, .Lower),
  (0x1E72, 0x1E72, .Upper),
  (0x1E73, 0x1E73, .Lower),
  (0x1E74, 0x1E74, .Upper),
  (0x1E75, 0x1E75, .Lower),
  (0x1E76, 0x1E76, .Upper),
  (0x1E77, 0x1E77, .Lower),
  (0x1E78, 0x1E78, .Upper),
  (0x1E79, 0x1E79, .Lower),
  (0x1E7A, 0x1E7A, .Upper),
  (0x1E7B, 0x1E7B, .Lower),
  (0x1E7C, 0x1E7C, .Upper),
  (0x1E7D, 0x1E7D, .Lower),
  (0x1E7E, 0x1E7E, .Upper),
  (0x1E7F, 0x1E7F, .Lower),
  (0x1E80, 0x1E80, .Upper),
  (0x1E81, 0x1E81, .Lower),
  (0x1E82, 0x1E82, .Upper),
  (0x1E83, 0x1E83, .Lower),
  (0x1E84, 0x1E84, .Upper),
  (0x1E85, 0x1E85, .Lower),
  (0x1E86, 0x1E86, .Upper),
  (0x1E87, 0x1E87, .Lower),
  (0x1E88, 0x1E88, .Upper),
  (0x1E89, 0x1E89, .Lower),
  (0x1E8A, 0x1E8A, .Upper),
  (0x1E8B, 0x1E8B, .Lower),
  (0x1E8C, 0x1E8C, .Upper),
  (0x1E8D, 0x1E8D, .Lower),
  (0x1E8E, 0x1E8E, .Upper),
  (0x1E8F, 0x1E8F, .Lower),
  (0x1E90, 0x1E90, .Upper),
  (0x1E91, 0x1E91, .Lower),
  (0x1E92, 0x1E92, .Upper),
  (0x1E93, 0x1E93, .Lower),
  (0x1E94, 0x1E94, .Upper),
  (0x1E95, 0x1E9D, .Lower),
  (0x1E9E, 0x1E9E, .Upper),
  (0x1E9F, 0x1E9F, .Lower),
  (0x1EA0, 0x1EA0, .Upper),
  (0x1EA1, 0x1EA1, .Lower),
  (0x1EA2, 0x1EA2, .Upper),
  (0x1EA3, 0x1EA3, .Lower),
  (0x1EA4, 0x1EA4, .Upper),
  (0x1EA5, 0x1EA5, .Lower)]
def sentenceBreak_18 : List (Nat × Nat × SentenceBreak) := [
  (0x1EA6, 0x1EA6, .Upper),
  (0x1EA7, 0x1EA7, .Lower),
  (0x1EA8, 0x1EA8, .Upper),
  (0x1EA9, 0x1EA9, .Lower),
  (0x1EAA, 0x1EAA, .Upper),
  (0x1EAB, 0x1EAB, .Lower),
  (0x1EAC, 0x1EAC, .Upper),
  (0x1EAD, 0x1EAD, .Lower),
  (0x1EAE, 0x1EAE, .Upper),
  (0x1EAF, 0x1EAF, .Lower),
  (0x1EB0, 0x1EB0, .Upper),
  (0x1EB1, 0x1EB1, .Lower),
  (0x1EB2, 0x1EB2, .Upper),
  (0x1EB3, 0x1EB3, .Lower),
  (0x1EB4, 0x1EB4, .Upper),
  (0x1EB5, 0x1EB5, .Lower),
  (0x1EB6, 0x1EB6, .Upper),
  (0x1EB7, 0x1EB7, .Lower),
  (0x1EB8, 0x1EB8, .Upper),
  (0x1EB9, 0x1EB9, .Lower),
  (0x1EBA, 0x1EBA, .Upper),
  (0x1EBB, 0x1EBB, .Lower),
  (0x1EBC, 0x1EBC, .Upper),
  (0x1EBD, 0x1EBD, .Lower),
  (0x1EBE, 0x1EBE, .Upper),
  (0x1EBF, 0x1EBF, .Lower),
  (0x1EC0, 0x1EC0, .Upper),
  (0x1EC1, 0x1EC1, .Lower),
  (0x1EC2, 0x1EC2, .Upper),
  (0x1EC3, 0x1EC3, .Lower),
  (0x1EC4, 0x1EC4, .Upper),
  (0x1EC5, 0x1EC5, .Lower),
  (0x1EC6, 0x1EC6, .Upper),
  (0x1EC7, 0x1EC7, .Lower),
  (0x1EC8, 0x1EC8, .Upper),
  (0x1EC9, 0x1EC9, .Lower),
  (0x1ECA, 0x1ECA, .Upper),
  (0x1ECB, 0x1ECB, .Lower),
  (0x1ECC, 0x1ECC, .Upper),
  (0x1ECD, 0x1ECD, .Lower),
  (0x1ECE, 0x1ECE, .Upper),
  (0x1ECF, 0x1ECF, .Lower),
  (0x1ED0, 0x1ED0, .Upper),
  (0x1ED1, 0x1ED1, .Lower),
  (0x1ED2, 0x1ED2, .Upper),
  (0x1ED3, 0x1ED3, .Lower),
  (0x1ED4, 0x1ED4, .Upper),
  (0x1ED5, 0x1ED5, .Lower),
  (0x1ED6, 0x1ED6, .Upper),
  (0x1ED7, 0x1ED7, .Lower),
  (0x1ED8, 0x1ED8, .Upper),
  (0x1ED9, 0x1ED9, .Lower),
  (0x1EDA, 0x1EDA, .Upper),
  (0x1EDB, 0x1EDB, .Lower),
  (0x1EDC, 0x1EDC, .Upper),
  (0x1EDD, 0x1EDD, .Lower),
  (0x1EDE, 0x1EDE, .Upper),
  (0x1EDF, 0x1EDF, .Lower),
  (0x1EE0, 0x1EE0, .Upper),
  (0x1EE1, 0x1EE1, .Lower),
  (0x1EE2, 0x1EE2, .Upper),
  (0x1EE3, 0x1EE3, .Lower),
  (0x1EE4, 0x1EE4, .Upper),
  (0x1EE5, 0x1EE5, .Lower)]
def sentenceBreak_19 : List (Nat × Nat × SentenceBreak) := [
  (0x1EE6, 0x1EE6, .Upper),
  (0x1EE7, 0x1EE7, .Lower),
  (0x1EE8, 0x1EE8, .Upper),
  (0x1EE9, 0x1EE9, .Lower),
  (0x1EEA, 0x1EEA, .Upper),
  (0x1EEB, 0x1EEB, .Lower),
  (0x1EEC, 0x1EEC, .Upper),
  (0x1EED, 0x1EED, .Lower),
  (0x1EEE, 0x1EEE, .Upper),
  (0x1EEF, 0x1EEF, .Lower),
  (0x1EF0, 0x1EF0, .Upper),
  (0x1EF1, 0x1EF1, .Lower),
  (0x1EF2, 0x1EF2, .Upper),
  (0x1EF3, 0x1EF3, .Lower),
  (0x1EF4, 0x1EF4, .Upper),
  (0x1EF5, 0x1EF5, .Lower),
  (0x1EF6, 0x1EF6, .Upper),
  (0x1EF7, 0x1EF7, .Lower),
  (0x1EF8, 0x1EF8, .Upper),
  (0x1EF9, 0x1EF9, .Lower),
  (0x1EFA, 0x1EFA, .Upper),
  (0x1EFB, 0x1EFB, .Lower),
  (0x1EFC, 0x1EFC, .Upper),
  (0x1EFD, 0x1EFD, .Lower),
  (0x1EFE, 0x1EFE, .Upper),
  (0x1EFF, 0x1F07, .Lower),
  (0x1F08, 0x1F0F, .Upper),
  (0x1F10, 0x1F15, .Lower),
  (0x1F18, 0x1F1D, .Upper),
  (0x1F20, 0x1F27, .Lower),
  (0x1F28, 0x1F2F, .Upper),
  (0x1F30, 0x1F37, .Lower),
  (0x1F38, 0x1F3F, .Upper),
  (0x1F40, 0x1F45, .Lower),
  (0x1F48, 0x1F4D, .Upper),
  (0x1F50, 0x1F57, .Lower),
  (0x1F59, 0x1F59, .Upper),
  (0x1F5B, 0x1F5B, .Upper),
  (0x1F5D, 0x1F5D, .Upper),
  (0x1F5F, 0x1F5F, .Upper),
  (0x1F60, 0x1F67, .Lower),
  (0x1F68, 0x1F6F, .Upper),
  (0x1F70, 0x1F7D, .Lower),
  (0x1F80, 0x1F87, .Lower),
  (0x1F88, 0x1F8F, .Upper),
  (0x1F90, 0x1F97, .Lower),
  (0x1F98, 0x1F9F, .Upper),
  (0x1FA0, 0x1FA7, .Lower),
  (0x1FA8, 0x1FAF, .Upper),
  (0x1FB0, 0x1FB4, .Lower),
  (0x1FB6, 0x1FB7, .Lower),
  (0x1FB8, 0x1FBC, .Upper),
  (0x1FBE, 0x1FBE, .Lower),
  (0x1FC2, 0x1FC4, .Lower),
  (0x1FC6, 0x1FC7, .Lower),
  (0x1FC8, 0x1FCC, .Upper),
  (0x1FD0, 0x1FD3, .Lower),
  (0x1FD6, 0x1FD7, .Lower),
  (0x1FD8, 0x1FDB, .Upper),
  (0x1FE0, 0x1FE7, .Lower),
  (0x1FE8, 0x1FEC, .Upper),
  (0x1FF2, 0x1FF4, .Lower),
  (0x1FF6, 0x1FF7, .Lower),
  (0x1FF8, 0x1FFC, .Upper)]
def sentenceBreak_20 : List (Nat × Nat × SentenceBreak) := [
  (0x2000, 0x200A, .Sp),
  (0x200B, 0x200B, .Format),
  (0x200C, 0x200D, .Extend),
  (0x200E, 0x200F, .Format),
  (0x2013, 0x2014, .SContinue),
  (0x2018, 0x201F, .Close),
  (0x2024, 0x2024, .ATerm),
  (0x2028, 0x2029, .Sep),
  (0x202A, 0x202E, .Format),
  (0x202F, 0x202F, .Sp),
  (0x2039, 0x203A, .Close),
  (0x203C, 0x203D, .STerm),
  (0x2045, 0x2046, .Close),
  (0x2047, 0x2049, .STerm),
  (0x205F, 0x205F, .Sp),
  (0x2060, 0x2064, .Format),
  (0x2066, 0x206F, .Format),
  (0x2071, 0x2071, .Lower),
  (0x207D, 0x207E, .Close),
  (0x207F, 0x207F, .Lower),
  (0x208D, 0x208E, .Close),
  (0x2090, 0x209C, .Lower),
  (0x20D0, 0x20F0, .Extend),
  (0x2102, 0x2102, .Upper),
  (0x2107, 0x2107, .Upper),
  (0x210A, 0x210A, .Lower),
  (0x210B, 0x210D, .Upper),
  (0x210E, 0x210F, .Lower),
  (0x2110, 0x2112, .Upper),
  (0x2113, 0x2113, .Lower),
  (0x2115, 0x2115, .Upper),
  (0x2119, 0x211D, .Upper),
  (0x2124, 0x2124, .Upper),
  (0x2126, 0x2126, .Upper),
  (0x2128, 0x2128, .Upper),
  (0x212A, 0x212D, .Upper),
  (0x212F, 0x212F, .Lower),
  (0x2130, 0x2133, .Upper),
  (0x2134, 0x2134, .Lower),
  (0x2135, 0x2138, .OLetter),
  (0x2139, 0x2139, .Lower),
  (0x213C, 0x213D, .Lower),
  (0x213E, 0x213F, .Upper),
  (0x2145, 0x2145, .Upper),
  (0x2146, 0x2149, .Lower),
  (0x214E, 0x214E, .Lower),
  (0x2160, 0x216F, .Upper),
  (0x2170, 0x217F, .Lower),
  (0x2180, 0x2182, .OLetter),
  (0x2183, 0x2183, .Upper),
  (0x2184, 0x2184, .Lower),
  (0x2185, 0x2188, .OLetter),
  (0x2308, 0x230B, .Close),
  (0x2329, 0x232A, .Close),
  (0x24B6, 0x24CF, .Upper),
  (0x24D0, 0x24E9, .Lower),
  (0x275B, 0x2760, .Close),
  (0x2768, 0x2775, .Close),
  (0x27C5, 0x27C6, .Close),
  (0x27E6, 0x27EF, .Close),
  (0x2983, 0x2998, .Close),
  (0x29D8, 0x29DB, .Close),
  (0x29FC, 0x29FD, .Close),
  (0x2C00, 0x2C2E, .Upper)]
def sentenceBreak_21 : List (Nat × Nat × SentenceBreak) := [
  (0x2C30, 0x2C5E, .Lower),
  (0x2C60, 0x2C60, .Upper),
  (0x2C61, 0x2C61, .Lower),
  (0x2C62, 0x2C64, .Upper),
  (0x2C65, 0x2C66, .Lower),
  (0x2C67, 0x2C67, .Upper),
  (0x2C68, 0x2C68, .Lower),
  (0x2C69, 0x2C69, .Upper),
  (0x2C6A, 0x2C6A, .Lower),
  (0x2C6B, 0x2C6B, .Upper),
  (0x2C6C, 0x2C6C, .Lower),
  (0x2C6D, 0x2C70, .Upper),
  (0x2C71, 0x2C71, .Lower),
  (0x2C72, 0x2C72, .Upper),
  (0x2C73, 0x2C74, .Lower),
  (0x2C75, 0x2C75, .Upper),
  (0x2C76, 0x2C7D, .Lower),
  (0x2C7E, 0x2C80, .Upper),
  (0x2C81, 0x2C81, .Lower),
  (0x2C82, 0x2C82, .Upper),
  (0x2C83, 0x2C83, .Lower),
  (0x2C84, 0x2C84, .Upper),
  (0x2C85, 0x2C85, .Lower),
  (0x2C86, 0x2C86, .Upper),
  (0x2C87, 0x2C87, .Lower),
  (0x2C88, 0x2C88, .Upper),
  (0x2C89, 0x2C89, .Lower),
  (0x2C8A, 0x2C8A, .Upper),
  (0x2C8B, 0x2C8B, .Lower),
  (0x2C8C, 0x2C8C, .Upper),
  (0x2C8D, 0x2C8D, .Lower),
  (0x2C8E, 0x2C8E, .Upper),
  (0x2C8F, 0x2C8F, .Lower),
  (0x2C90, 0x2C90, .Upper),
  (0x2C91, 0x2C91, .Lower),
  (0x2C92, 0x2C92, .Upper),
  (0x2C93, 0x2C93, .Lower),
  (0x2C94, 0x2C94, .Upper),
  (0x2C95, 0x2C95, .Lower),
  (0x2C96, 0x2C96, .Upper),
  (0x2C97, 0x2C97, .Lower),
  (0x2C98, 0x2C98, .Upper),
  (0x2C99, 0x2C99, .Lower),
  (0x2C9A, 0x2C9A, .Upper),
  (0x2C9B, 0x2C9B, .Lower),
  (0x2C9C, 0x2C9C, .Upper),
  (0x2C9D, 0x2C9D, .Lower),
  (0x2C9E, 0x2C9E, .Upper),
  (0x2C9F, 0x2C9F, .Lower),
  (0x2CA0, 0x2CA0, .Upper),
  (0x2CA1, 0x2CA1, .Lower),
  (0x2CA2, 0x2CA2, .Upper),
  (0x2CA3, 0x2CA3, .Lower),
  (0x2CA4, 0x2CA4, .Upper),
  (0x2CA5, 0x2CA5, .Lower),
  (0x2CA6, 0x2CA6, .Upper),
  (0x2CA7, 0x2CA7, .Lower),
  (0x2CA8, 0x2CA8, .Upper),
  (0x2CA9, 0x2CA9, .Lower),
  (0x2CAA, 0x2CAA, .Upper),
  (0x2CAB, 0x2CAB, .Lower),
  (0x2CAC, 0x2CAC, .Upper),
  (0x2CAD, 0x2CAD, .Lower),
  (0x2CAE, 0x2CAE, .Upper)]
def sentenceBreak_22 : List (Nat × Nat × SentenceBreak) := [
  (0x2CAF, 0x2CAF, .Lower),
  (0x2CB0, 0x2CB0, .Upper),
  (0x2CB1, 0x2CB1, .Lower),
  (0x2CB2, 0x2CB2, .Upper),
  (0x2CB3, 0x2CB3, .Lower),
  (0x2CB4, 0x2CB4, .Upper),
  (0x2CB5, 0x2CB5, .Lower),
  (0x2CB6, 0x2CB6, .Upper),
  (0x2CB7, 0x2CB7, .Lower),
  (0x2CB8, 0x2CB8, .Upper),
  (0x2CB9, 0x2CB9, .Lower),
  (0x2CBA, 0x2CBA, .Upper),
  (0x2CBB, 0x2CBB, .Lower),
  (0x2CBC, 0x2CBC, .Upper),
  (0x2CBD, 0x2CBD, .Lower),
  (0x2CBE, 0x2CBE, .Upper),
  (0x2CBF, 0x2CBF, .Lower),
  (0x2CC0, 0x2CC0, .Upper),
  (0x2CC1, 0x2CC1, .Lower),
  (0x2CC2, 0x2CC2, .Upper),
  (0x2CC3, 0x2CC3, .Lower),
  (0x2CC4, 0x2CC4, .Upper),
  (0x2CC5, 0x2CC5, .Lower),
  (0x2CC6, 0x2CC6, .Upper),
  (0x2CC7, 0x2CC7, .Lower),
  (0x2CC8, 0x2CC8, .Upper),
  (0x2CC9, 0x2CC9, .Lower),
  (0x2CCA, 0x2CCA, .Upper),
  (0x2CCB, 0x2CCB, .Lower),
  (0x2CCC, 0x2CCC, .Upper),
  (0x2CCD, 0x2CCD, .Lower),
  (0x2CCE, 0x2CCE, .Upper),
  (0x2CCF, 0x2CCF, .Lower),
  (0x2CD0, 0x2CD0, .Upper),
  (0x2CD1, 0x2CD1, .Lower),
  (0x2CD2, 0x2CD2, .Upper),
  (0x2CD3, 0x2CD3, .Lower),
  (0x2CD4, 0x2CD4, .Upper),
  (0x2CD5, 0x2CD5, .Lower),
  (0x2CD6, 0x2CD6, .Upper),
  (0x2CD7, 0x2CD7, .Lower),
  (0x2CD8, 0x2CD8, .Upper),
  (0x2CD9, 0x2CD9, .Lower),
  (0x2CDA, 0x2CDA, .Upper),
  (0x2CDB, 0x2CDB, .Lower),
  (0x2CDC, 0x2CDC, .Upper),
  (0x2CDD, 0x2CDD, .Lower),
  (0x2CDE, 0x2CDE, .Upper),
  (0x2CDF, 0x2CDF, .Lower),
  (0x2CE0, 0x2CE0, .Upper),
  (0x2CE1, 0x2CE1, .Lower),
  (0x2CE2, 0x2CE2, .Upper),
  (0x2CE3, 0x2CE4, .Lower),
  (0x2CEB, 0x2CEB, .Upper),
  (0x2CEC, 0x2CEC, .Lower),
  (0x2CED, 0x2CED, .Upper),
  (0x2CEE, 0x2CEE, .Lower),
  (0x2CEF, 0x2CF1, .Extend),
  (0x2CF2, 0x2CF2, .Upper),
  (0x2CF3, 0x2CF3, .Lower),
  (0x2D00, 0x2D25, .Lower),
  (0x2D27, 0x2D27, .Lower),
  (0x2D2D, 0x2D2D, .Lower),
  (0x2D30, 0x2D67, .OLetter)]
def sentenceBreak_23 : List (Nat × Nat × SentenceBreak) := [
  (0x2D6F, 0x2D6F, .OLetter),
  (0x2D7F, 0x2D7F, .Extend),
  (0x2D80, 0x2D96, .OLetter),
  (0x2DA0, 0x2DA6, .OLetter),
  (0x2DA8, 0x2DAE, .OLetter),
  (0x2DB0, 0x2DB6, .OLetter),
  (0x2DB8, 0x2DBE, .OLetter),
  (0x2DC0, 0x2DC6, .OLetter),
  (0x2DC8, 0x2DCE, .OLetter),
  (0x2DD0, 0x2DD6, .OLetter),
  (0x2DD8, 0x2DDE, .OLetter),
  (0x2DE0, 0x2DFF, .Extend),
  (0x2E00, 0x2E0D, .Close),
  (0x2E1C, 0x2E1D, .Close),
  (0x2E20, 0x2E29, .Close),
  (0x2E2E, 0x2E2E, .STerm),
  (0x2E2F, 0x2E2F, .OLetter),
  (0x2E3C, 0x2E3C, .STerm),
  (0x2E42, 0x2E42, .Close),
  (0x3000, 0x3000, .Sp),
  (0x3001, 0x3001, .SContinue),
  (0x3002, 0x3002, .STerm),
  (0x3005, 0x3007, .OLetter),
  (0x3008, 0x3011, .Close),
  (0x3014, 0x301B, .Close),
  (0x301D, 0x301F, .Close),
  (0x3021, 0x3029, .OLetter),
  (0x302A, 0x302F, .Extend),
  (0x3031, 0x3035, .OLetter),
  (0x3038, 0x303C, .OLetter),
  (0x3041, 0x3096, .OLetter),
  (0x3099, 0x309A, .Extend),
  (0x309D, 0x309F, .OLetter),
  (0x30A1, 0x30FA, .OLetter),
  (0x30FC, 0x30FF, .OLetter),
  (0x3105, 0x312E, .OLetter),
  (0x3131, 0x318E, .OLetter),
  (0x31A0, 0x31BA, .OLetter),
  (0x31F0, 0x31FF, .OLetter),
  (0x3400, 0x4DB5, .OLetter),
  (0x4E00, 0x9FEA, .OLetter),
  (0xA000, 0xA48C, .OLetter),
  (0xA4D0, 0xA4FD, .OLetter),
  (0xA4FF, 0xA4FF, .STerm),
  (0xA500, 0xA60C, .OLetter),
  (0xA60E, 0xA60F, .STerm),
  (0xA610, 0xA61F, .OLetter),
  (0xA620, 0xA629, .Numeric),
  (0xA62A, 0xA62B, .OLetter),
  (0xA640, 0xA640, .Upper),
  (0xA641, 0xA641, .Lower),
  (0xA642, 0xA642, .Upper),
  (0xA643, 0xA643, .Lower),
  (0xA644, 0xA644, .Upper),
  (0xA645, 0xA645, .Lower),
  (0xA646, 0xA646, .Upper),
  (0xA647, 0xA647, .Lower),
  (0xA648, 0xA648, .Upper),
  (0xA649, 0xA649, .Lower),
  (0xA64A, 0xA64A, .Upper),
  (0xA64B, 0xA64B, .Lower),
  (0xA64C, 0xA64C, .Upper),
  (0xA64D, 0xA64D, .Lower),
  (0xA64E, 0xA64E, .Upper)]
def sentenceBreak_24 : List (Nat × Nat × SentenceBreak) := [
  (0xA64F, 0xA64F, .Lower),
  (0xA650, 0xA650, .Upper),
  (0xA651, 0xA651, .Lower),
  (0xA652, 0xA652, .Upper),
  (0xA653, 0xA653, .Lower),
  (0xA654, 0xA654, .Upper),
  (0xA655, 0xA655, .Lower),
  (0xA656, 0xA656, .Upper),
  (0xA657, 0xA657, .Lower),
  (0xA658, 0xA658, .Upper),
  (0xA659, 0xA659, .Lower),
  (0xA65A, 0xA65A, .Upper),
  (0xA65B, 0xA65B, .Lower),
  (0xA65C, 0xA65C, .Upper),
  (0xA65D, 0xA65D, .Lower),
  (0xA65E, 0xA65E, .Upper),
  (0xA65F, 0xA65F, .Lower),
  (0xA660, 0xA660, .Upper),
  (0xA661, 0xA661, .Lower),
  (0xA662, 0xA662, .Upper),
  (0xA663, 0xA663, .Lower),
  (0xA664, 0xA664, .Upper),
  (0xA665, 0xA665, .Lower),
  (0xA666, 0xA666, .Upper),
  (0xA667, 0xA667, .Lower),
  (0xA668, 0xA668, .Upper),
  (0xA669, 0xA669, .Lower),
  (0xA66A, 0xA66A, .Upper),
  (0xA66B, 0xA66B, .Lower),
  (0xA66C, 0xA66C, .Upper),
  (0xA66D, 0xA66D, .Lower),
  (0xA66E, 0xA66E, .OLetter),
  (0xA66F, 0xA672, .Extend),
  (0xA674, 0xA67D, .Extend),
  (0xA67F, 0xA67F, .OLetter),
  (0xA680, 0xA680, .Upper),
  (0xA681, 0xA681, .Lower),
  (0xA682, 0xA682, .Upper),
  (0xA683, 0xA683, .Lower),
  (0xA684, 0xA684, .Upper),
  (0xA685, 0xA685, .Lower),
  (0xA686, 0xA686, .Upper),
  (0xA687, 0xA687, .Lower),
  (0xA688, 0xA688, .Upper),
  (0xA689, 0xA689, .Lower),
  (0xA68A, 0xA68A, .Upper),
  (0xA68B, 0xA68B, .Lower),
  (0xA68C, 0xA68C, .Upper),
  (0xA68D, 0xA68D, .Lower),
  (0xA68E, 0xA68E, .Upper),
  (0xA68F, 0xA68F, .Lower),
  (0xA690, 0xA690, .Upper),
  (0xA691, 0xA691, .Lower),
  (0xA692, 0xA692, .Upper),
  (0xA693, 0xA693, .Lower),
  (0xA694, 0xA694, .Upper),
  (0xA695, 0xA695, .Lower),
  (0xA696, 0xA696, .Upper),
  (0xA697, 0xA697, .Lower),
  (0xA698, 0xA698, .Upper),
  (0xA699, 0xA699, .Lower),
  (0xA69A, 0xA69A, .Upper),
  (0xA69B, 0xA69D, .Lower),
  (0xA69E, 0xA69F, .Extend)]
def sentenceBreak_25 : List (Nat × Nat × SentenceBreak) := [
  (0xA6A0, 0xA6EF, .OLetter),
  (0xA6F0, 0xA6F1, .Extend),
  (0xA6F3, 0xA6F3, .STerm),
  (0xA6F7, 0xA6F7, .STerm),
  (0xA717, 0xA71F, .OLetter),
  (0xA722, 0xA722, .Upper),
  (0xA723, 0xA723, .Lower),
  (0xA724, 0xA724, .Upper),
  (0xA725, 0xA725, .Lower),
  (0xA726, 0xA726, .Upper),
  (0xA727, 0xA727, .Lower),
  (0xA728, 0xA728, .Upper),
  (0xA729, 0xA729, .Lower),
  (0xA72A, 0xA72A, .Upper),
  (0xA72B, 0xA72B, .Lower),
  (0xA72C, 0xA72C, .Upper),
  (0xA72D, 0xA72D, .Lower),
  (0xA72E, 0xA72E, .Upper),
  (0xA72F, 0xA731, .Lower),
  (0xA732, 0xA732, .Upper),
  (0xA733, 0xA733, .Lower),
  (0xA734, 0xA734, .Upper),
  (0xA735, 0xA735, .Lower),
  (0xA736, 0xA736, .Upper),
  (0xA737, 0xA737, .Lower),
  (0xA738, 0xA738, .Upper),
  (0xA739, 0xA739, .Lower),
  (0xA73A, 0xA73A, .Upper),
  (0xA73B, 0xA73B, .Lower),
  (0xA73C, 0xA73C, .Upper),
  (0xA73D, 0xA73D, .Lower),
  (0xA73E, 0xA73E, .Upper),
  (0xA73F, 0xA73F, .Lower),
  (0xA740, 0xA740, .Upper),
  (0xA741, 0xA741, .Lower),
  (0xA742, 0xA742, .Upper),
  (0xA743, 0xA743, .Lower),
  (0xA744, 0xA744, .Upper),
  (0xA745, 0xA745, .Lower),
  (0xA746, 0xA746, .Upper),
  (0xA747, 0xA747, .Lower),
  (0xA748, 0xA748, .Upper),
  (0xA749, 0xA749, .Lower),
  (0xA74A, 0xA74A, .Upper),
  (0xA74B, 0xA74B, .Lower),
  (0xA74C, 0xA74C, .Upper),
  (0xA74D, 0xA74D, .Lower),
  (0xA74E, 0xA74E, .Upper),
  (0xA74F, 0xA74F, .Lower),
  (0xA750, 0xA750, .Upper),
  (0xA751, 0xA751, .Lower),
  (0xA752, 0xA752, .Upper),
  (0xA753, 0xA753, .Lower),
  (0xA754, 0xA754, .Upper),
  (0xA755, 0xA755, .Lower),
  (0xA756, 0xA756, .Upper),
  (0xA757, 0xA757, .Lower),
  (0xA758, 0xA758, .Upper),
  (0xA759, 0xA759, .Lower),
  (0xA75A, 0xA75A, .Upper),
  (0xA75B, 0xA75B, .Lower),
  (0xA75C, 0xA75C, .Upper),
  (0xA75D, 0xA75D, .Lower),
  (0xA75E, 0xA75E, .Upper)]
def sentenceBreak_26 : List (Nat × Nat × SentenceBreak) := [
  (0xA75F, 0xA75F, .Lower),
  (0xA760, 0xA760, .Upper),
  (0xA761, 0xA761, .Lower),
  (0xA762, 0xA762, .Upper),
  (0xA763, 0xA763, .Lower),
  (0xA764, 0xA764, .Upper),
  (0xA765, 0xA765, .Lower),
  (0xA766, 0xA766, .Upper),
  (0xA767, 0xA767, .Lower),
  (0xA768, 0xA768, .Upper),
  (0xA769, 0xA769, .Lower),
  (0xA76A, 0xA76A, .Upper),
  (0xA76B, 0xA76B, .Lower),
  (0xA76C, 0xA76C, .Upper),
  (0xA76D, 0xA76D, .Lower),
  (0xA76E, 0xA76E, .Upper),
  (0xA76F, 0xA778, .Lower),
  (0xA779, 0xA779, .Upper),
  (0xA77A, 0xA77A, .Lower),
  (0xA77B, 0xA77B, .Upper),
  (0xA77C, 0xA77C, .Lower),
  (0xA77D, 0xA77E, .Upper),
  (0xA77F, 0xA77F, .Lower),
  (0xA780, 0xA780, .Upper),
  (0xA781, 0xA781, .Lower),
  (0xA782, 0xA782, .Upper),
  (0xA783, 0xA783, .Lower),
  (0xA784, 0xA784, .Upper),
  (0xA785, 0xA785, .Lower),
  (0xA786, 0xA786, .Upper),
  (0xA787, 0xA787, .Lower),
  (0xA788, 0xA788, .OLetter),
  (0xA78B, 0xA78B, .Upper),
  (0xA78C, 0xA78C, .Lower),
  (0xA78D, 0xA78D, .Upper),
  (0xA78E, 0xA78E, .Lower),
  (0xA78F, 0xA78F, .OLetter),
  (0xA790, 0xA790, .Upper),
  (0xA791, 0xA791, .Lower),
  (0xA792, 0xA792, .Upper),
  (0xA793, 0xA795, .Lower),
  (0xA796, 0xA796, .Upper),
  (0xA797, 0xA797, .Lower),
  (0xA798, 0xA798, .Upper),
  (0xA799, 0xA799, .Lower),
  (0xA79A, 0xA79A, .Upper),
  (0xA79B, 0xA79B, .Lower),
  (0xA79C, 0xA79C, .Upper),
  (0xA79D, 0xA79D, .Lower),
  (0xA79E, 0xA79E, .Upper),
  (0xA79F, 0xA79F, .Lower),
  (0xA7A0, 0xA7A0, .Upper),
  (0xA7A1, 0xA7A1, .Lower),
  (0xA7A2, 0xA7A2, .Upper),
  (0xA7A3, 0xA7A3, .Lower),
  (0xA7A4, 0xA7A4, .Upper),
  (0xA7A5, 0xA7A5, .Lower),
  (0xA7A6, 0xA7A6, .Upper),
  (0xA7A7, 0xA7A7, .Lower),
  (0xA7A8, 0xA7A8, .Upper),
  (0xA7A9, 0xA7A9, .Lower),
  (0xA7AA, 0xA7AE, .Upper),
  (0xA7B0, 0xA7B4, .Upper),
  (0xA7B5, 0xA7B5, .Lower)]
def sentenceBreak_27 : List (Nat × Nat × SentenceBreak) := [
  (0xA7B6, 0xA7B6, .Upper),
  (0xA7B7, 0xA7B7, .Lower),
  (0xA7F7, 0xA7F7, .OLetter),
  (0xA7F8, 0xA7FA, .Lower),
  (0xA7FB, 0xA801, .OLetter),
  (0xA802, 0xA802, .Extend),
  (0xA803, 0xA805, .OLetter),
  (0xA806, 0xA806, .Extend),
  (0xA807, 0xA80A, .OLetter),
  (0xA80B, 0xA80B, .Extend),
  (0xA80C, 0xA822, .OLetter),
  (0xA823, 0xA827, .Extend),
  (0xA840, 0xA873, .OLetter),
  (0xA876, 0xA877, .STerm),
  (0xA880, 0xA881, .Extend),
  (0xA882, 0xA8B3, .OLetter),
  (0xA8B4, 0xA8C5, .Extend),
  (0xA8CE, 0xA8CF, .STerm),
  (0xA8D0, 0xA8D9, .Numeric),
  (0xA8E0, 0xA8F1, .Extend),
  (0xA8F2, 0xA8F7, .OLetter),
  (0xA8FB, 0xA8FB, .OLetter),
  (0xA8FD, 0xA8FD, .OLetter),
  (0xA900, 0xA909, .Numeric),
  (0xA90A, 0xA925, .OLetter),
  (0xA926, 0xA92D, .Extend),
  (0xA92F, 0xA92F, .STerm),
  (0xA930, 0xA946, .OLetter),
  (0xA947, 0xA953, .Extend),
  (0xA960, 0xA97C, .OLetter),
  (0xA980, 0xA983, .Extend),
  (0xA984, 0xA9B2, .OLetter),
  (0xA9B3, 0xA9C0, .Extend),
  (0xA9C8, 0xA9C9, .STerm),
  (0xA9CF, 0xA9CF, .OLetter),
  (0xA9D0, 0xA9D9, .Numeric),
  (0xA9E0, 0xA9E4, .OLetter),
  (0xA9E5, 0xA9E5, .Extend),
  (0xA9E6, 0xA9EF, .OLetter),
  (0xA9F0, 0xA9F9, .Numeric),
  (0xA9FA, 0xA9FE, .OLetter),
  (0xAA00, 0xAA28, .OLetter),
  (0xAA29, 0xAA36, .Extend),
  (0xAA40, 0xAA42, .OLetter),
  (0xAA43, 0xAA43, .Extend),
  (0xAA44, 0xAA4B, .OLetter),
  (0xAA4C, 0xAA4D, .Extend),
  (0xAA50, 0xAA59, .Numeric),
  (0xAA5D, 0xAA5F, .STerm),
  (0xAA60, 0xAA76, .OLetter),
  (0xAA7A, 0xAA7A, .OLetter),
  (0xAA7B, 0xAA7D, .Extend),
  (0xAA7E, 0xAAAF, .OLetter),
  (0xAAB0, 0xAAB0, .Extend),
  (0xAAB1, 0xAAB1, .OLetter),
  (0xAAB2, 0xAAB4, .Extend),
  (0xAAB5, 0xAAB6, .OLetter),
  (0xAAB7, 0xAAB8, .Extend),
  (0xAAB9, 0xAABD, .OLetter),
  (0xAABE, 0xAABF, .Extend),
  (0xAAC0, 0xAAC0, .OLetter),
  (0xAAC1, 0xAAC1, .Extend),
  (0xAAC2, 0xAAC2, .OLetter),
  (0xAADB, 0xAADD, .OLetter)]
def sentenceBreak_28 : List (Nat × Nat × SentenceBreak) := [
  (0xAAE0, 0xAAEA, .OLetter),
  (0xAAEB, 0xAAEF, .Extend),
  (0xAAF0, 0xAAF1, .STerm),
  (0xAAF2, 0xAAF4, .OLetter),
  (0xAAF5, 0xAAF6, .Extend),
  (0xAB01, 0xAB06, .OLetter),
  (0xAB09, 0xAB0E, .OLetter),
  (0xAB11, 0xAB16, .OLetter),
  (0xAB20, 0xAB26, .OLetter),
  (0xAB28, 0xAB2E, .OLetter),
  (0xAB30, 0xAB5A, .Lower),
  (0xAB5C, 0xAB65, .Lower),
  (0xAB70, 0xABBF, .Lower),
  (0xABC0, 0xABE2, .OLetter),
  (0xABE3, 0xABEA, .Extend),
  (0xABEB, 0xABEB, .STerm),
  (0xABEC, 0xABED, .Extend),
  (0xABF0, 0xABF9, .Numeric),
  (0xAC00, 0xD7A3, .OLetter),
  (0xD7B0, 0xD7C6, .OLetter),
  (0xD7CB, 0xD7FB, .OLetter),
  (0xF900, 0xFA6D, .OLetter),
  (0xFA70, 0xFAD9, .OLetter),
  (0xFB00, 0xFB06, .Lower),
  (0xFB13, 0xFB17, .Lower),
  (0xFB1D, 0xFB1D, .OLetter),
  (0xFB1E, 0xFB1E, .Extend),
  (0xFB1F, 0xFB28, .OLetter),
  (0xFB2A, 0xFB36, .OLetter),
  (0xFB38, 0xFB3C, .OLetter),
  (0xFB3E, 0xFB3E, .OLetter),
  (0xFB40, 0xFB41, .OLetter),
  (0xFB43, 0xFB44, .OLetter),
  (0xFB46, 0xFBB1, .OLetter),
  (0xFBD3, 0xFD3D, .OLetter),
  (0xFD3E, 0xFD3F, .Close),
  (0xFD50, 0xFD8F, .OLetter),
  (0xFD92, 0xFDC7, .OLetter),
  (0xFDF0, 0xFDFB, .OLetter),
  (0xFE00, 0xFE0F, .Extend),
  (0xFE10, 0xFE11, .SContinue),
  (0xFE13, 0xFE13, .SContinue),
  (0xFE17, 0xFE18, .Close),
  (0xFE20, 0xFE2F, .Extend),
  (0xFE31, 0xFE32, .SContinue),
  (0xFE35, 0xFE44, .Close),
  (0xFE47, 0xFE48, .Close),
  (0xFE50, 0xFE51, .SContinue),
  (0xFE52, 0xFE52, .ATerm),
  (0xFE55, 0xFE55, .SContinue),
  (0xFE56, 0xFE57, .STerm),
  (0xFE58, 0xFE58, .SContinue),
  (0xFE59, 0xFE5E, .Close),
  (0xFE63, 0xFE63, .SContinue),
  (0xFE70, 0xFE74, .OLetter),
  (0xFE76, 0xFEFC, .OLetter),
  (0xFEFF, 0xFEFF, .Format),
  (0xFF01, 0xFF01, .STerm),
  (0xFF08, 0xFF09, .Close),
  (0xFF0C, 0xFF0D, .SContinue),
  (0xFF0E, 0xFF0E, .ATerm),
  (0xFF1A, 0xFF1A, .SContinue),
  (0xFF1F, 0xFF1F, .STerm),
  (0xFF21, 0xFF3A, .Upper)]
def sentenceBreak_29 : List (Nat × Nat × SentenceBreak) := [
  (0xFF3B, 0xFF3B, .Close),
  (0xFF3D, 0xFF3D, .Close),
  (0xFF41, 0xFF5A, .Lower),
  (0xFF5B, 0xFF5B, .Close),
  (0xFF5D, 0xFF5D, .Close),
  (0xFF5F, 0xFF60, .Close),
  (0xFF61, 0xFF61, .STerm),
  (0xFF62, 0xFF63, .Close),
  (0xFF64, 0xFF64, .SContinue),
  (0xFF66, 0xFF9D, .OLetter),
  (0xFF9E, 0xFF9F, .Extend),
  (0xFFA0, 0xFFBE, .OLetter),
  (0xFFC2, 0xFFC7, .OLetter),
  (0xFFCA, 0xFFCF, .OLetter),
  (0xFFD2, 0xFFD7, .OLetter),
  (0xFFDA, 0xFFDC, .OLetter),
  (0xFFF9, 0xFFFB, .Format),
  (0x10000, 0x1000B, .OLetter),
  (0x1000D, 0x10026, .OLetter),
  (0x10028, 0x1003A, .OLetter),
  (0x1003C, 0x1003D, .OLetter),
  (0x1003F, 0x1004D, .OLetter),
  (0x10050, 0x1005D, .OLetter),
  (0x10080, 0x100FA, .OLetter),
  (0x10140, 0x10174, .OLetter),
  (0x101FD, 0x101FD, .Extend),
  (0x10280, 0x1029C, .OLetter),
  (0x102A0, 0x102D0, .OLetter),
  (0x102E0, 0x102E0, .Extend),
  (0x10300, 0x1031F, .OLetter),
  (0x1032D, 0x1034A, .OLetter),
  (0x10350, 0x10375, .OLetter),
  (0x10376, 0x1037A, .Extend),
  (0x10380, 0x1039D, .OLetter),
  (0x103A0, 0x103C3, .OLetter),
  (0x103C8, 0x103CF, .OLetter),
  (0x103D1, 0x103D5, .OLetter),
  (0x10400, 0x10427, .Upper),
  (0x10428, 0x1044F, .Lower),
  (0x10450, 0x1049D, .OLetter),
  (0x104A0, 0x104A9, .Numeric),
  (0x104B0, 0x104D3, .Upper),
  (0x104D8, 0x104FB, .Lower),
  (0x10500, 0x10527, .OLetter),
  (0x10530, 0x10563, .OLetter),
  (0x10600, 0x10736, .OLetter),
  (0x10740, 0x10755, .OLetter),
  (0x10760, 0x10767, .OLetter),
  (0x10800, 0x10805, .OLetter),
  (0x10808, 0x10808, .OLetter),
  (0x1080A, 0x10835, .OLetter),
  (0x10837, 0x10838, .OLetter),
  (0x1083C, 0x1083C, .OLetter),
  (0x1083F, 0x10855, .OLetter),
  (0x10860, 0x10876, .OLetter),
  (0x10880, 0x1089E, .OLetter),
  (0x108E0, 0x108F2, .OLetter),
  (0x108F4, 0x108F5, .OLetter),
  (0x10900, 0x10915, .OLetter),
  (0x10920, 0x10939, .OLetter),
  (0x10980, 0x109B7, .OLetter),
  (0x109BE, 0x109BF, .OLetter),
  (0x10A00, 0x10A00, .OLetter),
  (0x10A01, 0x10A03, .Extend)]
def sentenceBreak_30 : List (Nat × Nat × SentenceBreak) := [
  (0x10A05, 0x10A06, .Extend),
  (0x10A0C, 0x10A0F, .Extend),
  (0x10A10, 0x10A13, .OLetter),
  (0x10A15, 0x10A17, .OLetter),
  (0x10A19, 0x10A33, .OLetter),
  (0x10A38, 0x10A3A, .Extend),
  (0x10A3F, 0x10A3F, .Extend),
  (0x10A56, 0x10A57, .STerm),
  (0x10A60, 0x10A7C, .OLetter),
  (0x10A80, 0x10A9C, .OLetter),
  (0x10AC0, 0x10AC7, .OLetter),
  (0x10AC9, 0x10AE4, .OLetter),
  (0x10AE5, 0x10AE6, .Extend),
  (0x10B00, 0x10B35, .OLetter),
  (0x10B40, 0x10B55, .OLetter),
  (0x10B60, 0x10B72, .OLetter),
  (0x10B80, 0x10B91, .OLetter),
  (0x10C00, 0x10C48, .OLetter),
  (0x10C80, 0x10CB2, .Upper),
  (0x10CC0, 0x10CF2, .Lower),
  (0x11000, 0x11002, .Extend),
  (0x11003, 0x11037, .OLetter),
  (0x11038, 0x11046, .Extend),
  (0x11047, 0x11048, .STerm),
  (0x11066, 0x1106F, .Numeric),
  (0x1107F, 0x11082, .Extend),
  (0x11083, 0x110AF, .OLetter),
  (0x110B0, 0x110BA, .Extend),
  (0x110BD, 0x110BD, .Format),
  (0x110BE, 0x110C1, .STerm),
  (0x110D0, 0x110E8, .OLetter),
  (0x110F0, 0x110F9, .Numeric),
  (0x11100, 0x11102, .Extend),
  (0x11103, 0x11126, .OLetter),
  (0x11127, 0x11134, .Extend),
  (0x11136, 0x1113F, .Numeric),
  (0x11141, 0x11143, .STerm),
  (0x11150, 0x11172, .OLetter),
  (0x11173, 0x11173, .Extend),
  (0x11176, 0x11176, .OLetter),
  (0x11180, 0x11182, .Extend),
  (0x11183, 0x111B2, .OLetter),
  (0x111B3, 0x111C0, .Extend),
  (0x111C1, 0x111C4, .OLetter),
  (0x111C5, 0x111C6, .STerm),
  (0x111CA, 0x111CC, .Extend),
  (0x111CD, 0x111CD, .STerm),
  (0x111D0, 0x111D9, .Numeric),
  (0x111DA, 0x111DA, .OLetter),
  (0x111DC, 0x111DC, .OLetter),
  (0x111DE, 0x111DF, .STerm),
  (0x11200, 0x11211, .OLetter),
  (0x11213, 0x1122B, .OLetter),
  (0x1122C, 0x11237, .Extend),
  (0x11238, 0x11239, .STerm),
  (0x1123B, 0x1123C, .STerm),
  (0x1123E, 0x1123E, .Extend),
  (0x11280, 0x11286, .OLetter),
  (0x11288, 0x11288, .OLetter),
  (0x1128A, 0x1128D, .OLetter),
  (0x1128F, 0x1129D, .OLetter),
  (0x1129F, 0x112A8, .OLetter),
  (0x112A9, 0x112A9, .STerm),
  (0x112B0, 0x112DE, .OLetter)]
def sentenceBreak_31 : List (Nat × Nat × SentenceBreak) := [
  (0x112DF, 0x112EA, .Extend),
  (0x112F0, 0x112F9, .Numeric),
  (0x11300, 0x11303, .Extend),
  (0x11305, 0x1130C, .OLetter),
  (0x1130F, 0x11310, .OLetter),
  (0x11313, 0x11328, .OLetter),
  (0x1132A, 0x11330, .OLetter),
  (0x11332, 0x11333, .OLetter),
  (0x11335, 0x11339, .OLetter),
  (0x1133C, 0x1133C, .Extend),
  (0x1133D, 0x1133D, .OLetter),
  (0x1133E, 0x11344, .Extend),
  (0x11347, 0x11348, .Extend),
  (0x1134B, 0x1134D, .Extend),
  (0x11350, 0x11350, .OLetter),
  (0x11357, 0x11357, .Extend),
  (0x1135D, 0x11361, .OLetter),
  (0x11362, 0x11363, .Extend),
  (0x11366, 0x1136C, .Extend),
  (0x11370, 0x11374, .Extend),
  (0x11400, 0x11434, .OLetter),
  (0x11435, 0x11446, .Extend),
  (0x11447, 0x1144A, .OLetter),
  (0x1144B, 0x1144C, .STerm),
  (0x11450, 0x11459, .Numeric),
  (0x11480, 0x114AF, .OLetter),
  (0x114B0, 0x114C3, .Extend),
  (0x114C4, 0x114C5, .OLetter),
  (0x114C7, 0x114C7, .OLetter),
  (0x114D0, 0x114D9, .Numeric),
  (0x11580, 0x115AE, .OLetter),
  (0x115AF, 0x115B5, .Extend),
  (0x115B8, 0x115C0, .Extend),
  (0x115C2, 0x115C3, .STerm),
  (0x115C9, 0x115D7, .STerm),
  (0x115D8, 0x115DB, .OLetter),
  (0x115DC, 0x115DD, .Extend),
  (0x11600, 0x1162F, .OLetter),
  (0x11630, 0x11640, .Extend),
  (0x11641, 0x11642, .STerm),
  (0x11644, 0x11644, .OLetter),
  (0x11650, 0x11659, .Numeric),
  (0x11680, 0x116AA, .OLetter),
  (0x116AB, 0x116B7, .Extend),
  (0x116C0, 0x116C9, .Numeric),
  (0x11700, 0x11719, .OLetter),
  (0x1171D, 0x1172B, .Extend),
  (0x11730, 0x11739, .Numeric),
  (0x1173C, 0x1173E, .STerm),
  (0x118A0, 0x118BF, .Upper),
  (0x118C0, 0x118DF, .Lower),
  (0x118E0, 0x118E9, .Numeric),
  (0x118FF, 0x118FF, .OLetter),
  (0x11A00, 0x11A00, .OLetter),
  (0x11A01, 0x11A0A, .Extend),
  (0x11A0B, 0x11A32, .OLetter),
  (0x11A33, 0x11A39, .Extend),
  (0x11A3A, 0x11A3A, .OLetter),
  (0x11A3B, 0x11A3E, .Extend),
  (0x11A42, 0x11A43, .STerm),
  (0x11A47, 0x11A47, .Extend),
  (0x11A50, 0x11A50, .OLetter),
  (0x11A51, 0x11A5B, .Extend),
  (0x11A5C, 0x11A83, .OLetter)]
def sentenceBreak_32 : List (Nat × Nat × SentenceBreak) := [
  (0x11A86, 0x11A89, .OLetter),
  (0x11A8A, 0x11A99, .Extend),
  (0x11A9B, 0x11A9C, .STerm),
  (0x11AC0, 0x11AF8, .OLetter),
  (0x11C00, 0x11C08, .OLetter),
  (0x11C0A, 0x11C2E, .OLetter),
  (0x11C2F, 0x11C36, .Extend),
  (0x11C38, 0x11C3F, .Extend),
  (0x11C40, 0x11C40, .OLetter),
  (0x11C41, 0x11C42, .STerm),
  (0x11C50, 0x11C59, .Numeric),
  (0x11C72, 0x11C8F, .OLetter),
  (0x11C92, 0x11CA7, .Extend),
  (0x11CA9, 0x11CB6, .Extend),
  (0x11D00, 0x11D06, .OLetter),
  (0x11D08, 0x11D09, .OLetter),
  (0x11D0B, 0x11D30, .OLetter),
  (0x11D31, 0x11D36, .Extend),
  (0x11D3A, 0x11D3A, .Extend),
  (0x11D3C, 0x11D3D, .Extend),
  (0x11D3F, 0x11D45, .Extend),
  (0x11D46, 0x11D46, .OLetter),
  (0x11D47, 0x11D47, .Extend),
  (0x11D50, 0x11D59, .Numeric),
  (0x12000, 0x12399, .OLetter),
  (0x12400, 0x1246E, .OLetter),
  (0x12480, 0x12543, .OLetter),
  (0x13000, 0x1342E, .OLetter),
  (0x14400, 0x14646, .OLetter),
  (0x16800, 0x16A38, .OLetter),
  (0x16A40, 0x16A5E, .OLetter),
  (0x16A60, 0x16A69, .Numeric),
  (0x16A6E, 0x16A6F, .STerm),
  (0x16AD0, 0x16AED, .OLetter),
  (0x16AF0, 0x16AF4, .Extend),
  (0x16AF5, 0x16AF5, .STerm),
  (0x16B00, 0x16B2F, .OLetter),
  (0x16B30, 0x16B36, .Extend),
  (0x16B37, 0x16B38, .STerm),
  (0x16B40, 0x16B43, .OLetter),
  (0x16B44, 0x16B44, .STerm),
  (0x16B50, 0x16B59, .Numeric),
  (0x16B63, 0x16B77, .OLetter),
  (0x16B7D, 0x16B8F, .OLetter),
  (0x16F00, 0x16F44, .OLetter),
  (0x16F50, 0x16F50, .OLetter),
  (0x16F51, 0x16F7E, .Extend),
  (0x16F8F, 0x16F92, .Extend),
  (0x16F93, 0x16F9F, .OLetter),
  (0x16FE0, 0x16FE1, .OLetter),
  (0x17000, 0x187EC, .OLetter),
  (0x18800, 0x18AF2, .OLetter),
  (0x1B000, 0x1B11E, .OLetter),
  (0x1B170, 0x1B2FB, .OLetter),
  (0x1BC00, 0x1BC6A, .OLetter),
  (0x1BC70, 0x1BC7C, .OLetter),
  (0x1BC80, 0x1BC88, .OLetter),
  (0x1BC90, 0x1BC99, .OLetter),
  (0x1BC9D, 0x1BC9E, .Extend),
  (0x1BC9F, 0x1BC9F, .STerm),
  (0x1BCA0, 0x1BCA3, .Format),
  (0x1D165, 0x1D169, .Extend),
  (0x1D16D, 0x1D172, .Extend),
  (0x1D173, 0x1D17A, .Format)]
def sentenceBreak_33 : List (Nat × Nat × SentenceBreak) := [
  (0x1D17B, 0x1D182, .Extend),
  (0x1D185, 0x1D18B, .Extend),
  (0x1D1AA, 0x1D1AD, .Extend),
  (0x1D242, 0x1D244, .Extend),
  (0x1D400, 0x1D419, .Upper),
  (0x1D41A, 0x1D433, .Lower),
  (0x1D434, 0x1D44D, .Upper),
  (0x1D44E, 0x1D454, .Lower),
  (0x1D456, 0x1D467, .Lower),
  (0x1D468, 0x1D481, .Upper),
  (0x1D482, 0x1D49B, .Lower),
  (0x1D49C, 0x1D49C, .Upper),
  (0x1D49E, 0x1D49F, .Upper),
  (0x1D4A2, 0x1D4A2, .Upper),
  (0x1D4A5, 0x1D4A6, .Upper),
  (0x1D4A9, 0x1D4AC, .Upper),
  (0x1D4AE, 0x1D4B5, .Upper),
  (0x1D4B6, 0x1D4B9, .Lower),
  (0x1D4BB, 0x1D4BB, .Lower),
  (0x1D4BD, 0x1D4C3, .Lower),
  (0x1D4C5, 0x1D4CF, .Lower),
  (0x1D4D0, 0x1D4E9, .Upper),
  (0x1D4EA, 0x1D503, .Lower),
  (0x1D504, 0x1D505, .Upper),
  (0x1D507, 0x1D50A, .Upper),
  (0x1D50D, 0x1D514, .Upper),
  (0x1D516, 0x1D51C, .Upper),
  (0x1D51E, 0x1D537, .Lower),
  (0x1D538, 0x1D539, .Upper),
  (0x1D53B, 0x1D53E, .Upper),
  (0x1D540, 0x1D544, .Upper),
  (0x1D546, 0x1D546, .Upper),
  (0x1D54A, 0x1D550, .Upper),
  (0x1D552, 0x1D56B, .Lower),
  (0x1D56C, 0x1D585, .Upper),
  (0x1D586, 0x1D59F, .Lower),
  (0x1D5A0, 0x1D5B9, .Upper),
  (0x1D5BA, 0x1D5D3, .Lower),
  (0x1D5D4, 0x1D5ED, .Upper),
  (0x1D5EE, 0x1D607, .Lower),
  (0x1D608, 0x1D621, .Upper),
  (0x1D622, 0x1D63B, .Lower),
  (0x1D63C, 0x1D655, .Upper),
  (0x1D656, 0x1D66F, .Lower),
  (0x1D670, 0x1D689, .Upper),
  (0x1D68A, 0x1D6A5, .Lower),
  (0x1D6A8, 0x1D6C0, .Upper),
  (0x1D6C2, 0x1D6DA, .Lower),
  (0x1D6DC, 0x1D6E1, .Lower),
  (0x1D6E2, 0x1D6FA, .Upper),
  (0x1D6FC, 0x1D714, .Lower),
  (0x1D716, 0x1D71B, .Lower),
  (0x1D71C, 0x1D734, .Upper),
  (0x1D736, 0x1D74E, .Lower),
  (0x1D750, 0x1D755, .Lower),
  (0x1D756, 0x1D76E, .Upper),
  (0x1D770, 0x1D788, .Lower),
  (0x1D78A, 0x1D78F, .Lower),
  (0x1D790, 0x1D7A8, .Upper),
  (0x1D7AA, 0x1D7C2, .Lower),
  (0x1D7C4, 0x1D7C9, .Lower),
  (0x1D7CA, 0x1D7CA, .Upper),
  (0x1D7CB, 0x1D7CB, .Lower),
  (0x1D7CE, 0x1D7FF, .Numeric)]
def sentenceBreak_34 : List (Nat × Nat × SentenceBreak) := [
  (0x1DA00, 0x1DA36, .Extend),
  (0x1DA3B, 0x1DA6C, .Extend),
  (0x1DA75, 0x1DA75, .Extend),
  (0x1DA84, 0x1DA84, .Extend),
  (0x1DA88, 0x1DA88, .STerm),
  (0x1DA9B, 0x1DA9F, .Extend),
  (0x1DAA1, 0x1DAAF, .Extend),
  (0x1E000, 0x1E006, .Extend),
  (0x1E008, 0x1E018, .Extend),
  (0x1E01B, 0x1E021, .Extend),
  (0x1E023, 0x1E024, .Extend),
  (0x1E026, 0x1E02A, .Extend),
  (0x1E800, 0x1E8C4, .OLetter),
  (0x1E8D0, 0x1E8D6, .Extend),
  (0x1E900, 0x1E921, .Upper),
  (0x1E922, 0x1E943, .Lower),
  (0x1E944, 0x1E94A, .Extend),
  (0x1E950, 0x1E959, .Numeric),
  (0x1EE00, 0x1EE03, .OLetter),
  (0x1EE05, 0x1EE1F, .OLetter),
  (0x1EE21, 0x1EE22, .OLetter),
  (0x1EE24, 0x1EE24, .OLetter),
  (0x1EE27, 0x1EE27, .OLetter),
  (0x1EE29, 0x1EE32, .OLetter),
  (0x1EE34, 0x1EE37, .OLetter),
  (0x1EE39, 0x1EE39, .OLetter),
  (0x1EE3B, 0x1EE3B, .OLetter),
  (0x1EE42, 0x1EE42, .OLetter),
  (0x1EE47, 0x1EE47, .OLetter),
  (0x1EE49, 0x1EE49, .OLetter),
  (0x1EE4B, 0x1EE4B, .OLetter),
  (0x1EE4D, 0x1EE4F, .OLetter),
  (0x1EE51, 0x1EE52, .OLetter),
  (0x1EE54, 0x1EE54, .OLetter),
  (0x1EE57, 0x1EE57, .OLetter),
  (0x1EE59, 0x1EE59, .OLetter),
  (0x1EE5B, 0x1EE5B, .OLetter),
  (0x1EE5D, 0x1EE5D, .OLetter),
  (0x1EE5F, 0x1EE5F, .OLetter),
  (0x1EE61, 0x1EE62, .OLetter),
  (0x1EE64, 0x1EE64, .OLetter),
  (0x1EE67, 0x1EE6A, .OLetter),
  (0x1EE6C, 0x1EE72, .OLetter),
  (0x1EE74, 0x1EE77, .OLetter),
  (0x1EE79, 0x1EE7C, .OLetter),
  (0x1EE7E, 0x1EE7E, .OLetter),
  (0x1EE80, 0x1EE89, .OLetter),
  (0x1EE8B, 0x1EE9B, .OLetter),
  (0x1EEA1, 0x1EEA3, .OLetter),
  (0x1EEA5, 0x1EEA9, .OLetter),
  (0x1EEAB, 0x1EEBB, .OLetter),
  (0x1F130, 0x1F149, .Upper),
  (0x1F150, 0x1F169, .Upper),
  (0x1F170, 0x1F189, .Upper),
  (0x1F676, 0x1F678, .Close),
  (0x20000, 0x2A6D6, .OLetter),
  (0x2A700, 0x2B734, .OLetter),
  (0x2B740, 0x2B81D, .OLetter),
  (0x2B820, 0x2CEA1, .OLetter),
  (0x2CEB0, 0x2EBE0, .OLetter),
  (0x2F800, 0x2FA1D, .OLetter),
  (0xE0001, 0xE0001, .Format),
  (0xE0020, 0xE007F, .Extend),
  (0xE0100, 0xE01EF, .Extend)]
/-- unic/ucd/segment/tables/sentence_break.rsv (all 2240 entries, `CharDataTable::Range`), in chunks of 64. -/
def sentenceBreak : List (List (Nat × Nat × SentenceBreak)) := [sentenceBreak_0, sentenceBreak_1, sentenceBreak_2, sentenceBreak_3, sentenceBreak_4, sentenceBreak_5, sentenceBreak_6, sentenceBreak_7, sentenceBreak_8, sentenceBreak_9, sentenceBreak_10, sentenceBreak_11, sentenceBreak_12, sentenceBreak_13, sentenceBreak_14, sentenceBreak_15, sentenceBreak_16, sentenceBreak_17, sentenceBreak_18, sentenceBreak_19, sentenceBreak_20, sentenceBreak_21, sentenceBreak_22, sentenceBreak_23, sentenceBreak_24, sentenceBreak_25, sentenceBreak_26, sentenceBreak_27, sentenceBreak_28, sentenceBreak_29, sentenceBreak_30, sentenceBreak_31, sentenceBreak_32, sentenceBreak_33, sentenceBreak_34]

end Data
