/-! Generated by tools/gen_tables.py: literal translation of data tables. -/
namespace Data

/-- unic/idna/mapping/src/mapping.rs L15-37; a `&'static str` is its list of scalar values. -/
inductive Mapping where
  | Valid
  | Ignored
  | Mapped (s : List Nat)
  | Deviation (s : List Nat)
  | Disallowed
  | DisallowedStd3Valid
  | DisallowedStd3Mapped (s : List Nat)
deriving DecidableEq, Repr

def idnaMapping_0 : List (Nat × Nat × Mapping) := [
  (0, 0x2C, .DisallowedStd3Valid),
  (0x2D, 0x2E, .Valid),
  (0x2F, 0x2F, .DisallowedStd3Valid),
  (0x30, 0x39, .Valid),
  (0x3A, 0x40, .DisallowedStd3Valid),
  (0x41, 0x41, .Mapped [0x61]),
  (0x42, 0x42, .Mapped [0x62]),
  (0x43, 0x43, .Mapped [0x63]),
  (0x44, 0x44, .Mapped [0x64]),
  (0x45, 0x45, .Mapped [0x65]),
  (0x46, 0x46, .Mapped [0x66]),
  (0x47, 0x47, .Mapped [0x67]),
  (0x48, 0x48, .Mapped [0x68]),
  (0x49, 0x49, .Mapped [0x69]),
  (0x4A, 0x4A, .Mapped [0x6A]),
  (0x4B, 0x4B, .Mapped [0x6B]),
  (0x4C, 0x4C, .Mapped [0x6C]),
  (0x4D, 0x4D, .Mapped [0x6D]),
  (0x4E, 0x4E, .Mapped [0x6E]),
  (0x4F, 0x4F, .Mapped [0x6F]),
  (0x50, 0x50, .Mapped [0x70]),
  (0x51, 0x51, .Mapped [0x71]),
  (0x52, 0x52, .Mapped [0x72]),
  (0x53, 0x53, .Mapped [0x73]),
  (0x54, 0x54, .Mapped [0x74]),
  (0x55, 0x55, .Mapped [0x75]),
  (0x56, 0x56, .Mapped [0x76]),
  (0x57, 0x57, .Mapped [0x77]),
  (0x58, 0x58, .Mapped [0x78]),
  (0x59, 0x59, .Mapped [0x79]),
  (0x5A, 0x5A, .Mapped [0x7A]),
  (0x5B, 0x60, .DisallowedStd3Valid),
  (0x61, 0x7A, .Valid),
  (0x7B, 0x7F, .DisallowedStd3Valid),
  (0x80, 0x9F, .Disallowed),
  (0xA0, 0xA0, .DisallowedStd3Mapped [0x20]),
  (0xA1, 0xA7, .Valid),
  (0xA8, 0xA8, .DisallowedStd3Mapped [0x20, 0x308]),
  (0xA9, 0xA9, .Valid),
  (0xAA, 0xAA, .Mapped [0x61]),
  (0xAB, 0xAC, .Valid),
  (0xAD, 0xAD, .Ignored),
  (0xAE, 0xAE, .Valid),
  (0xAF, 0xAF, .DisallowedStd3Mapped [0x20, 0x304]),
  (0xB0, 0xB1, .Valid),
  (0xB2, 0xB2, .Mapped [0x32]),
  (0xB3, 0xB3, .Mapped [0x33]),
  (0xB4, 0xB4, .DisallowedStd3Mapped [0x20, 0x301]),
  (0xB5, 0xB5, .Mapped [0x3BC]),
  (0xB6, 0xB7, .Valid),
  (0xB8, 0xB8, .DisallowedStd3Mapped [0x20, 0x327]),
  (0xB9, 0xB9, .Mapped [0x31]),
  (0xBA, 0xBA, .Mapped [0x6F]),
  (0xBB, 0xBB, .Valid),
  (0xBC, 0xBC, .Mapped [0x31, 0x2044, 0x34]),
  (0xBD, 0xBD, .Mapped [0x31, 0x2044, 0x32]),
  (0xBE, 0xBE, .Mapped [0x33, 0x2044, 0x34]),
  (0xBF, 0xBF, .Valid),
  (0xC0, 0xC0, .Mapped [0xE0]),
  (0xC1, 0xC1, .Mapped [0xE1]),
  (0xC2, 0xC2, .Mapped [0xE2]),
  (0xC3, 0xC3, .Mapped [0xE3]),
  (0xC4, 0xC4, .Mapped [0xE4]),
  (0xC5, 0xC5, .Mapped [0xE5])]
def idnaMapping_1 : List (Nat × Nat × Mapping) := [
  (0xC6, 0xC6, .Mapped [0xE6]),
  (0xC7, 0xC7, .Mapped [0xE7]),
  (0xC8, 0xC8, .Mapped [0xE8]),
  (0xC9, 0xC9, .Mapped [0xE9]),
  (0xCA, 0xCA, .Mapped [0xEA]),
  (0xCB, 0xCB, .Mapped [0xEB]),
  (0xCC, 0xCC, .Mapped [0xEC]),
  (0xCD, 0xCD, .Mapped [0xED]),
  (0xCE, 0xCE, .Mapped [0xEE]),
  (0xCF, 0xCF, .Mapped [0xEF]),
  (0xD0, 0xD0, .Mapped [0xF0]),
  (0xD1, 0xD1, .Mapped [0xF1]),
  (0xD2, 0xD2, .Mapped [0xF2]),
  (0xD3, 0xD3, .Mapped [0xF3]),
  (0xD4, 0xD4, .Mapped [0xF4]),
  (0xD5, 0xD5, .Mapped [0xF5]),
  (0xD6, 0xD6, .Mapped [0xF6]),
  (0xD7, 0xD7, .Valid),
  (0xD8, 0xD8, .Mapped [0xF8]),
  (0xD9, 0xD9, .Mapped [0xF9]),
  (0xDA, 0xDA, .Mapped [0xFA]),
  (0xDB, 0xDB, .Mapped [0xFB]),
  (0xDC, 0xDC, .Mapped [0xFC]),
  (0xDD, 0xDD, .Mapped [0xFD]),
  (0xDE, 0xDE, .Mapped [0xFE]),
  (0xDF, 0xDF, .Deviation [0x73, 0x73]),
  (0xE0, 0xFF, .Valid),
  (0x100, 0x100, .Mapped [0x101]),
  (0x101, 0x101, .Valid),
  (0x102, 0x102, .Mapped [0x103]),
  (0x103, 0x103, .Valid),
  (0x104, 0x104, .Mapped [0x105]),
  (0x105, 0x105, .Valid),
  (0x106, 0x106, .Mapped [0x107]),
  (0x107, 0x107, .Valid),
  (0x108, 0x108, .Mapped [0x109]),
  (0x109, 0x109, .Valid),
  (0x10A, 0x10A, .Mapped [0x10B]),
  (0x10B, 0x10B, .Valid),
  (0x10C, 0x10C, .Mapped [0x10D]),
  (0x10D, 0x10D, .Valid),
  (0x10E, 0x10E, .Mapped [0x10F]),
  (0x10F, 0x10F, .Valid),
  (0x110, 0x110, .Mapped [0x111]),
  (0x111, 0x111, .Valid),
  (0x112, 0x112, .Mapped [0x113]),
  (0x113, 0x113, .Valid),
  (0x114, 0x114, .Mapped [0x115]),
  (0x115, 0x115, .Valid),
  (0x116, 0x116, .Mapped [0x117]),
  (0x117, 0x117, .Valid),
  (0x118, 0x118, .Mapped [0x119]),
  (0x119, 0x119, .Valid),
  (0x11A, 0x11A, .Mapped [0x11B]),
  (0x11B, 0x11B, .Valid),
  (0x11C, 0x11C, .Mapped [0x11D]),
  (0x11D, 0x11D, .Valid),
  (0x11E, 0x11E, .Mapped [0x11F]),
  (0x11F, 0x11F, .Valid),
  (0x120, 0x120, .Mapped [0x121]),
  (0x121, 0x121, .Valid),
  (0x122, 0x122, .Mapped [0x123]),
  (0x123, 0x123, .Valid),
  (0x124, 0x124, .Mapped [0x125])]
def idnaMapping_2 : List (Nat × Nat × Mapping) := [
  (0x125, 0x125, .Valid),
  (0x126, 0x126, .Mapped [0x127]),
  (0x127, 0x127, .Valid),
  (0x128, 0x128, .Mapped [0x129]),
  (0x129, 0x129, .Valid),
  (0x12A, 0x12A, .Mapped [0x12B]),
  (0x12B, 0x12B, .Valid),
  (0x12C, 0x12C, .Mapped [0x12D]),
  (0x12D, 0x12D, .Valid),
  (0x12E, 0x12E, .Mapped [0x12F]),
  (0x12F, 0x12F, .Valid),
  (0x130, 0x130, .Mapped [0x69, 0x307]),
  (0x131, 0x131, .Valid),
  (0x132, 0x133, .Mapped [0x69, 0x6A]),
  (0x134, 0x134, .Mapped [0x135]),
  (0x135, 0x135, .Valid),
  (0x136, 0x136, .Mapped [0x137]),
  (0x137, 0x138, .Valid),
  (0x139, 0x139, .Mapped [0x13A]),
  (0x13A, 0x13A, .Valid),
  (0x13B, 0x13B, .Mapped [0x13C]),
  (0x13C, 0x13C, .Valid),
  (0x13D, 0x13D, .Mapped [0x13E]),
  (0x13E, 0x13E, .Valid),
  (0x13F, 0x140, .Mapped [0x6C, 0xB7]),
  (0x141, 0x141, .Mapped [0x142]),
  (0x142, 0x142, .Valid),
  (0x143, 0x143, .Mapped [0x144]),
  (0x144, 0x144, .Valid),
  (0x145, 0x145, .Mapped [0x146]),
  (0x146, 0x146, .Valid),
  (0x147, 0x147, .Mapped [0x148]),
  (0x148, 0x148, .Valid),
  (0x149, 0x149, .Mapped [0x2BC, 0x6E]),
  (0x14A, 0x14A, .Mapped [0x14B]),
  (0x14B, 0x14B, .Valid),
  (0x14C, 0x14C, .Mapped [0x14D]),
  (0x14D, 0x14D, .Valid),
  (0x14E, 0x14E, .Mapped [0x14F]),
  (0x14F, 0x14F, .Valid),
  (0x150, 0x150, .Mapped [0x151]),
  (0x151, 0x151, .Valid),
  (0x152, 0x152, .Mapped [0x153]),
  (0x153, 0x153, .Valid),
  (0x154, 0x154, .Mapped [0x155]),
  (0x155, 0x155, .Valid),
  (0x156, 0x156, .Mapped [0x157]),
  (0x157, 0x157, .Valid),
  (0x158, 0x158, .Mapped [0x159]),
  (0x159, 0x159, .Valid),
  (0x15A, 0x15A, .Mapped [0x15B]),
  (0x15B, 0x15B, .Valid),
  (0x15C, 0x15C, .Mapped [0x15D]),
  (0x15D, 0x15D, .Valid),
  (0x15E, 0x15E, .Mapped [0x15F]),
  (0x15F, 0x15F, .Valid),
  (0x160, 0x160, .Mapped [0x161]),
  (0x161, 0x161, .Valid),
  (0x162, 0x162, .Mapped [0x163]),
  (0x163, 0x163, .Valid),
  (0x164, 0x164, .Mapped [0x165]),
  (0x165, 0x165, .Valid),
  (0x166, 0x166, .Mapped [0x167]),
  (0x167, 0x167, .Valid)]
def idnaMapping_3 : List (Nat × Nat × Mapping) := [
  (0x168, 0x168, .Mapped [0x169]),
  (0x169, 0x169, .Valid),
  (0x16A, 0x16A, .Mapped [0x16B]),
  (0x16B, 0x16B, .Valid),
  (0x16C, 0x16C, .Mapped [0x16D]),
  (0x16D, 0x16D, .Valid),
  (0x16E, 0x16E, .Mapped [0x16F]),
  (0x16F, 0x16F, .Valid),
  (0x170, 0x170, .Mapped [0x171]),
  (0x171, 0x171, .Valid),
  (0x172, 0x172, .Mapped [0x173]),
  (0x173, 0x173, .Valid),
  (0x174, 0x174, .Mapped [0x175]),
  (0x175, 0x175, .Valid),
  (0x176, 0x176, .Mapped [0x177]),
  (0x177, 0x177, .Valid),
  (0x178, 0x178, .Mapped [0xFF]),
  (0x179, 0x179, .Mapped [0x17A]),
  (0x17A, 0x17A, .Valid),
  (0x17B, 0x17B, .Mapped [0x17C]),
  (0x17C, 0x17C, .Valid),
  (0x17D, 0x17D, .Mapped [0x17E]),
  (0x17E, 0x17E, .Valid),
  (0x17F, 0x17F, .Mapped [0x73]),
  (0x180, 0x180, .Valid),
  (0x181, 0x181, .Mapped [0x253]),
  (0x182, 0x182, .Mapped [0x183]),
  (0x183, 0x183, .Valid),
  (0x184, 0x184, .Mapped [0x185]),
  (0x185, 0x185, .Valid),
  (0x186, 0x186, .Mapped [0x254]),
  (0x187, 0x187, .Mapped [0x188]),
  (0x188, 0x188, .Valid),
  (0x189, 0x189, .Mapped [0x256]),
  (0x18A, 0x18A, .Mapped [0x257]),
  (0x18B, 0x18B, .Mapped [0x18C]),
  (0x18C, 0x18D, .Valid),
  (0x18E, 0x18E, .Mapped [0x1DD]),
  (0x18F, 0x18F, .Mapped [0x259]),
  (0x190, 0x190, .Mapped [0x25B]),
  (0x191, 0x191, .Mapped [0x192]),
  (0x192, 0x192, .Valid),
  (0x193, 0x193, .Mapped [0x260]),
  (0x194, 0x194, .Mapped [0x263]),
  (0x195, 0x195, .Valid),
  (0x196, 0x196, .Mapped [0x269]),
  (0x197, 0x197, .Mapped [0x268]),
  (0x198, 0x198, .Mapped [0x199]),
  (0x199, 0x19B, .Valid),
  (0x19C, 0x19C, .Mapped [0x26F]),
  (0x19D, 0x19D, .Mapped [0x272]),
  (0x19E, 0x19E, .Valid),
  (0x19F, 0x19F, .Mapped [0x275]),
  (0x1A0, 0x1A0, .Mapped [0x1A1]),
  (0x1A1, 0x1A1, .Valid),
  (0x1A2, 0x1A2, .Mapped [0x1A3]),
  (0x1A3, 0x1A3, .Valid),
  (0x1A4, 0x1A4, .Mapped [0x1A5]),
  (0x1A5, 0x1A5, .Valid),
  (0x1A6, 0x1A6, .Mapped [0x280]),
  (0x1A7, 0x1A7, .Mapped [0x1A8]),
  (0x1A8, 0x1A8, .Valid),
  (0x1A9, 0x1A9, .Mapped [0x283]),
  (0x1AA, 0x1AB, .Valid)]
def idnaMapping_4 : List (Nat × Nat × Mapping) := [
  (0x1AC, 0x1AC, .Mapped [0x1AD]),
  (0x1AD, 0x1AD, .Valid),
  (0x1AE, 0x1AE, .Mapped [0x288]),
  (0x1AF, 0x1AF, .Mapped [0x1B0]),
  (0x1B0, 0x1B0, .Valid),
  (0x1B1, 0x1B1, .Mapped [0x28A]),
  (0x1B2, 0x1B2, .Mapped [0x28B]),
  (0x1B3, 0x1B3, .Mapped [0x1B4]),
  (0x1B4, 0x1B4, .Valid),
  (0x1B5, 0x1B5, .Mapped [0x1B6]),
  (0x1B6, 0x1B6, .Valid),
  (0x1B7, 0x1B7, .Mapped [0x292]),
  (0x1B8, 0x1B8, .Mapped [0x1B9]),
  (0x1B9, 0x1BB, .Valid),
  (0x1BC, 0x1BC, .Mapped [0x1BD]),
  (0x1BD, 0x1C3, .Valid),
  (0x1C4, 0x1C6, .Mapped [0x64, 0x17E]),
  (0x1C7, 0x1C9, .Mapped [0x6C, 0x6A]),
  (0x1CA, 0x1CC, .Mapped [0x6E, 0x6A]),
  (0x1CD, 0x1CD, .Mapped [0x1CE]),
  (0x1CE, 0x1CE, .Valid),
  (0x1CF, 0x1CF, .Mapped [0x1D0]),
  (0x1D0, 0x1D0, .Valid),
  (0x1D1, 0x1D1, .Mapped [0x1D2]),
  (0x1D2, 0x1D2, .Valid),
  (0x1D3, 0x1D3, .Mapped [0x1D4]),
  (0x1D4, 0x1D4, .Valid),
  (0x1D5, 0x1D5, .Mapped [0x1D6]),
  (0x1D6, 0x1D6, .Valid),
  (0x1D7, 0x1D7, .Mapped [0x1D8]),
  (0x1D8, 0x1D8, .Valid),
  (0x1D9, 0x1D9, .Mapped [0x1DA]),
  (0x1DA, 0x1DA, .Valid),
  (0x1DB, 0x1DB, .Mapped [0x1DC]),
  (0x1DC, 0x1DD, .Valid),
  (0x1DE, 0x1DE, .Mapped [0x1DF]),
  (0x1DF, 0x1DF, .Valid),
  (0x1E0, 0x1E0, .Mapped [0x1E1]),
  (0x1E1, 0x1E1, .Valid),
  (0x1E2, 0x1E2, .Mapped [0x1E3]),
  (0x1E3, 0x1E3, .Valid),
  (0x1E4, 0x1E4, .Mapped [0x1E5]),
  (0x1E5, 0x1E5, .Valid),
  (0x1E6, 0x1E6, .Mapped [0x1E7]),
  (0x1E7, 0x1E7, .Valid),
  (0x1E8, 0x1E8, .Mapped [0x1E9]),
  (0x1E9, 0x1E9, .Valid),
  (0x1EA, 0x1EA, .Mapped [0x1EB]),
  (0x1EB, 0x1EB, .Valid),
  (0x1EC, 0x1EC, .Mapped [0x1ED]),
  (0x1ED, 0x1ED, .Valid),
  (0x1EE, 0x1EE, .Mapped [0x1EF]),
  (0x1EF, 0x1F0, .Valid),
  (0x1F1, 0x1F3, .Mapped [0x64, 0x7A]),
  (0x1F4, 0x1F4, .Mapped [0x1F5]),
  (0x1F5, 0x1F5, .Valid),
  (0x1F6, 0x1F6, .Mapped [0x195]),
  (0x1F7, 0x1F7, .Mapped [0x1BF]),
  (0x1F8, 0x1F8, .Mapped [0x1F9]),
  (0x1F9, 0x1F9, .Valid),
  (0x1FA, 0x1FA, .Mapped [0x1FB]),
  (0x1FB, 0x1FB, .Valid),
  (0x1FC, 0x1FC, .Mapped [0x1FD]),
  (0x1FD, 0x1FD, .Valid)]
def idnaMapping_5 : List (Nat × Nat × Mapping) := [
  (0x1FE, 0x1FE, .Mapped [0x1FF]),
  (0x1FF, 0x1FF, .Valid),
  (0x200, 0x200, .Mapped [0x201]),
  (0x201, 0x201, .Valid),
  (0x202, 0x202, .Mapped [0x203]),
  (0x203, 0x203, .Valid),
  (0x204, 0x204, .Mapped [0x205]),
  (0x205, 0x205, .Valid),
  (0x206, 0x206, .Mapped [0x207]),
  (0x207, 0x207, .Valid),
  (0x208, 0x208, .Mapped [0x209]),
  (0x209, 0x209, .Valid),
  (0x20A, 0x20A, .Mapped [0x20B]),
  (0x20B, 0x20B, .Valid),
  (0x20C, 0x20C, .Mapped [0x20D]),
  (0x20D, 0x20D, .Valid),
  (0x20E, 0x20E, .Mapped [0x20F]),
  (0x20F, 0x20F, .Valid),
  (0x210, 0x210, .Mapped [0x211]),
  (0x211, 0x211, .Valid),
  (0x212, 0x212, .Mapped [0x213]),
  (0x213, 0x213, .Valid),
  (0x214, 0x214, .Mapped [0x215]),
  (0x215, 0x215, .Valid),
  (0x216, 0x216, .Mapped [0x217]),
  (0x217, 0x217, .Valid),
  (0x218, 0x218, .Mapped [0x219]),
  (0x219, 0x219, .Valid),
  (0x21A, 0x21A, .Mapped [0x21B]),
  (0x21B, 0x21B, .Valid),
  (0x21C, 0x21C, .Mapped [0x21D]),
  (0x21D, 0x21D, .Valid),
  (0x21E, 0x21E, .Mapped [0x21F]),
  (0x21F, 0x21F, .Valid),
  (0x220, 0x220, .Mapped [0x19E]),
  (0x221, 0x221, .Valid),
  (0x222, 0x222, .Mapped [0x223]),
  (0x223, 0x223, .Valid),
  (0x224, 0x224, .Mapped [0x225]),
  (0x225, 0x225, .Valid),
  (0x226, 0x226, .Mapped [0x227]),
  (0x227, 0x227, .Valid),
  (0x228, 0x228, .Mapped [0x229]),
  (0x229, 0x229, .Valid),
  (0x22A, 0x22A, .Mapped [0x22B]),
  (0x22B, 0x22B, .Valid),
  (0x22C, 0x22C, .Mapped [0x22D]),
  (0x22D, 0x22D, .Valid),
  (0x22E, 0x22E, .Mapped [0x22F]),
  (0x22F, 0x22F, .Valid),
  (0x230, 0x230, .Mapped [0x231]),
  (0x231, 0x231, .Valid),
  (0x232, 0x232, .Mapped [0x233]),
  (0x233, 0x239, .Valid),
  (0x23A, 0x23A, .Mapped [0x2C65]),
  (0x23B, 0x23B, .Mapped [0x23C]),
  (0x23C, 0x23C, .Valid),
  (0x23D, 0x23D, .Mapped [0x19A]),
  (0x23E, 0x23E, .Mapped [0x2C66]),
  (0x23F, 0x240, .Valid),
  (0x241, 0x241, .Mapped [0x242]),
  (0x242, 0x242, .Valid),
  (0x243, 0x243, .Mapped [0x180]),
  (0x244, 0x244, .Mapped [0x289])]
def idnaMapping_6 : List (Nat × Nat × Mapping) := [
  (0x245, 0x245, .Mapped [0x28C]),
  (0x246, 0x246, .Mapped [0x247]),
  (0x247, 0x247, .Valid),
  (0x248, 0x248, .Mapped [0x249]),
  (0x249, 0x249, .Valid),
  (0x24A, 0x24A, .Mapped [0x24B]),
  (0x24B, 0x24B, .Valid),
  (0x24C, 0x24C, .Mapped [0x24D]),
  (0x24D, 0x24D, .Valid),
  (0x24E, 0x24E, .Mapped [0x24F]),
  (0x24F, 0x2AF, .Valid),
  (0x2B0, 0x2B0, .Mapped [0x68]),
  (0x2B1, 0x2B1, .Mapped [0x266]),
  (0x2B2, 0x2B2, .Mapped [0x6A]),
  (0x2B3, 0x2B3, .Mapped [0x72]),
  (0x2B4, 0x2B4, .Mapped [0x279]),
  (0x2B5, 0x2B5, .Mapped [0x27B]),
  (0x2B6, 0x2B6, .Mapped [0x281]),
  (0x2B7, 0x2B7, .Mapped [0x77]),
  (0x2B8, 0x2B8, .Mapped [0x79]),
  (0x2B9, 0x2D7, .Valid),
  (0x2D8, 0x2D8, .DisallowedStd3Mapped [0x20, 0x306]),
  (0x2D9, 0x2D9, .DisallowedStd3Mapped [0x20, 0x307]),
  (0x2DA, 0x2DA, .DisallowedStd3Mapped [0x20, 0x30A]),
  (0x2DB, 0x2DB, .DisallowedStd3Mapped [0x20, 0x328]),
  (0x2DC, 0x2DC, .DisallowedStd3Mapped [0x20, 0x303]),
  (0x2DD, 0x2DD, .DisallowedStd3Mapped [0x20, 0x30B]),
  (0x2DE, 0x2DF, .Valid),
  (0x2E0, 0x2E0, .Mapped [0x263]),
  (0x2E1, 0x2E1, .Mapped [0x6C]),
  (0x2E2, 0x2E2, .Mapped [0x73]),
  (0x2E3, 0x2E3, .Mapped [0x78]),
  (0x2E4, 0x2E4, .Mapped [0x295]),
  (0x2E5, 0x33F, .Valid),
  (0x340, 0x340, .Mapped [0x300]),
  (0x341, 0x341, .Mapped [0x301]),
  (0x342, 0x342, .Valid),
  (0x343, 0x343, .Mapped [0x313]),
  (0x344, 0x344, .Mapped [0x308, 0x301]),
  (0x345, 0x345, .Mapped [0x3B9]),
  (0x346, 0x34E, .Valid),
  (0x34F, 0x34F, .Ignored),
  (0x350, 0x36F, .Valid),
  (0x370, 0x370, .Mapped [0x371]),
  (0x371, 0x371, .Valid),
  (0x372, 0x372, .Mapped [0x373]),
  (0x373, 0x373, .Valid),
  (0x374, 0x374, .Mapped [0x2B9]),
  (0x375, 0x375, .Valid),
  (0x376, 0x376, .Mapped [0x377]),
  (0x377, 0x377, .Valid),
  (0x378, 0x379, .Disallowed),
  (0x37A, 0x37A, .DisallowedStd3Mapped [0x20, 0x3B9]),
  (0x37B, 0x37D, .Valid),
  (0x37E, 0x37E, .DisallowedStd3Mapped [0x3B]),
  (0x37F, 0x37F, .Mapped [0x3F3]),
  (0x380, 0x383, .Disallowed),
  (0x384, 0x384, .DisallowedStd3Mapped [0x20, 0x301]),
  (0x385, 0x385, .DisallowedStd3Mapped [0x20, 0x308, 0x301]),
  (0x386, 0x386, .Mapped [0x3AC]),
  (0x387, 0x387, .Mapped [0xB7]),
  (0x388, 0x388, .Mapped [0x3AD]),
  (0x389, 0x389, .Mapped [0x3AE]),
  (0x38A, 0x38A, .Mapped [0x3AF])]
def idnaMapping_7 : List (Nat × Nat × Mapping) := [
  (0x38B, 0x38B, .Disallowed),
  (0x38C, 0x38C, .Mapped [0x3CC]),
  (0x38D, 0x38D, .Disallowed),
  (0x38E, 0x38E, .Mapped [0x3CD]),
  (0x38F, 0x38F, .Mapped [0x3CE]),
  (0x390, 0x390, .Valid),
  (0x391, 0x391, .Mapped [0x3B1]),
  (0x392, 0x392, .Mapped [0x3B2]),
  (0x393, 0x393, .Mapped [0x3B3]),
  (0x394, 0x394, .Mapped [0x3B4]),
  (0x395, 0x395, .Mapped [0x3B5]),
  (0x396, 0x396, .Mapped [0x3B6]),
  (0x397, 0x397, .Mapped [0x3B7]),
  (0x398, 0x398, .Mapped [0x3B8]),
  (0x399, 0x399, .Mapped [0x3B9]),
  (0x39A, 0x39A, .Mapped [0x3BA]),
  (0x39B, 0x39B, .Mapped [0x3BB]),
  (0x39C, 0x39C, .Mapped [0x3BC]),
  (0x39D, 0x39D, .Mapped [0x3BD]),
  (0x39E, 0x39E, .Mapped [0x3BE]),
  (0x39F, 0x39F, .Mapped [0x3BF]),
  (0x3A0, 0x3A0, .Mapped [0x3C0]),
  (0x3A1, 0x3A1, .Mapped [0x3C1]),
  (0x3A2, 0x3A2, .Disallowed),
  (0x3A3, 0x3A3, .Mapped [0x3C3]),
  (0x3A4, 0x3A4, .Mapped [0x3C4]),
  (0x3A5, 0x3A5, .Mapped [0x3C5]),
  (0x3A6, 0x3A6, .Mapped [0x3C6]),
  (0x3A7, 0x3A7, .Mapped [0x3C7]),
  (0x3A8, 0x3A8, .Mapped [0x3C8]),
  (0x3A9, 0x3A9, .Mapped [0x3C9]),
  (0x3AA, 0x3AA, .Mapped [0x3CA]),
  (0x3AB, 0x3AB, .Mapped [0x3CB]),
  (0x3AC, 0x3C1, .Valid),
  (0x3C2, 0x3C2, .Deviation [0x3C3]),
  (0x3C3, 0x3CE, .Valid),
  (0x3CF, 0x3CF, .Mapped [0x3D7]),
  (0x3D0, 0x3D0, .Mapped [0x3B2]),
  (0x3D1, 0x3D1, .Mapped [0x3B8]),
  (0x3D2, 0x3D2, .Mapped [0x3C5]),
  (0x3D3, 0x3D3, .Mapped [0x3CD]),
  (0x3D4, 0x3D4, .Mapped [0x3CB]),
  (0x3D5, 0x3D5, .Mapped [0x3C6]),
  (0x3D6, 0x3D6, .Mapped [0x3C0]),
  (0x3D7, 0x3D7, .Valid),
  (0x3D8, 0x3D8, .Mapped [0x3D9]),
  (0x3D9, 0x3D9, .Valid),
  (0x3DA, 0x3DA, .Mapped [0x3DB]),
  (0x3DB, 0x3DB, .Valid),
  (0x3DC, 0x3DC, .Mapped [0x3DD]),
  (0x3DD, 0x3DD, .Valid),
  (0x3DE, 0x3DE, .Mapped [0x3DF]),
  (0x3DF, 0x3DF, .Valid),
  (0x3E0, 0x3E0, .Mapped [0x3E1]),
  (0x3E1, 0x3E1, .Valid),
  (0x3E2, 0x3E2, .Mapped [0x3E3]),
  (0x3E3, 0x3E3, .Valid),
  (0x3E4, 0x3E4, .Mapped [0x3E5]),
  (0x3E5, 0x3E5, .Valid),
  (0x3E6, 0x3E6, .Mapped [0x3E7]),
  (0x3E7, 0x3E7, .Valid),
  (0x3E8, 0x3E8, .Mapped [0x3E9]),
  (0x3E9, 0x3E9, .Valid),
  (0x3EA, 0x3EA, .Mapped [0x3EB])]
def idnaMapping_8 : List (Nat × Nat × Mapping) := [
  (0x3EB, 0x3EB, .Valid),
  (0x3EC, 0x3EC, .Mapped [0x3ED]),
  (0x3ED, 0x3ED, .Valid),
  (0x3EE, 0x3EE, .Mapped [0x3EF]),
  (0x3EF, 0x3EF, .Valid),
  (0x3F0, 0x3F0, .Mapped [0x3BA]),
  (0x3F1, 0x3F1, .Mapped [0x3C1]),
  (0x3F2, 0x3F2, .Mapped [0x3C3]),
  (0x3F3, 0x3F3, .Valid),
  (0x3F4, 0x3F4, .Mapped [0x3B8]),
  (0x3F5, 0x3F5, .Mapped [0x3B5]),
  (0x3F6, 0x3F6, .Valid),
  (0x3F7, 0x3F7, .Mapped [0x3F8]),
  (0x3F8, 0x3F8, .Valid),
  (0x3F9, 0x3F9, .Mapped [0x3C3]),
  (0x3FA, 0x3FA, .Mapped [0x3FB]),
  (0x3FB, 0x3FC, .Valid),
  (0x3FD, 0x3FD, .Mapped [0x37B]),
  (0x3FE, 0x3FE, .Mapped [0x37C]),
  (0x3FF, 0x3FF, .Mapped [0x37D]),
  (0x400, 0x400, .Mapped [0x450]),
  (0x401, 0x401, .Mapped [0x451]),
  (0x402, 0x402, .Mapped [0x452]),
  (0x403, 0x403, .Mapped [0x453]),
  (0x404, 0x404, .Mapped [0x454]),
  (0x405, 0x405, .Mapped [0x455]),
  (0x406, 0x406, .Mapped [0x456]),
  (0x407, 0x407, .Mapped [0x457]),
  (0x408, 0x408, .Mapped [0x458]),
  (0x409, 0x409, .Mapped [0x459]),
  (0x40A, 0x40A, .Mapped [0x45A]),
  (0x40B, 0x40B, .Mapped [0x45B]),
  (0x40C, 0x40C, .Mapped [0x45C]),
  (0x40D, 0x40D, .Mapped [0x45D]),
  (0x40E, 0x40E, .Mapped [0x45E]),
  (0x40F, 0x40F, .Mapped [0x45F]),
  (0x410, 0x410, .Mapped [0x430]),
  (0x411, 0x411, .Mapped [0x431]),
  (0x412, 0x412, .Mapped [0x432]),
  (0x413, 0x413, .Mapped [0x433]),
  (0x414, 0x414, .Mapped [0x434]),
  (0x415, 0x415, .Mapped [0x435]),
  (0x416, 0x416, .Mapped [0x436]),
  (0x417, 0x417, .Mapped [0x437]),
  (0x418, 0x418, .Mapped [0x438]),
  (0x419, 0x419, .Mapped [0x439]),
  (0x41A, 0x41A, .Mapped [0x43A]),
  (0x41B, 0x41B, .Mapped [0x43B]),
  (0x41C, 0x41C, .Mapped [0x43C]),
  (0x41D, 0x41D, .Mapped [0x43D]),
  (0x41E, 0x41E, .Mapped [0x43E]),
  (0x41F, 0x41F, .Mapped [0x43F]),
  (0x420, 0x420, .Mapped [0x440]),
  (0x421, 0x421, .Mapped [0x441]),
  (0x422, 0x422, .Mapped [0x442]),
  (0x423, 0x423, .Mapped [0x443]),
  (0x424, 0x424, .Mapped [0x444]),
  (0x425, 0x425, .Mapped [0x445]),
  (0x426, 0x426, .Mapped [0x446]),
  (0x427, 0x427, .Mapped [0x447]),
  (0x428, 0x428, .Mapped [0x448]),
  (0x429, 0x429, .Mapped [0x449]),
  (0x42A, 0x42A, .Mapped [0x44A]),
  (0x42B, 0x42B, .Mapped [0x44B])]
def idnaMapping_9 : List (Nat × Nat × Mapping) := [
  (0x42C, 0x42C, .Mapped [0x44C]),
  (0x42D, 0x42D, .Mapped [0x44D]),
  (0x42E, 0x42E, .Mapped [0x44E]),
  (0x42F, 0x42F, .Mapped [0x44F]),
  (0x430, 0x45F, .Valid),
  (0x460, 0x460, .Mapped [0x461]),
  (0x461, 0x461, .Valid),
  (0x462, 0x462, .Mapped [0x463]),
  (0x463, 0x463, .Valid),
  (0x464, 0x464, .Mapped [0x465]),
  (0x465, 0x465, .Valid),
  (0x466, 0x466, .Mapped [0x467]),
  (0x467, 0x467, .Valid),
  (0x468, 0x468, .Mapped [0x469]),
  (0x469, 0x469, .Valid),
  (0x46A, 0x46A, .Mapped [0x46B]),
  (0x46B, 0x46B, .Valid),
  (0x46C, 0x46C, .Mapped [0x46D]),
  (0x46D, 0x46D, .Valid),
  (0x46E, 0x46E, .Mapped [0x46F]),
  (0x46F, 0x46F, .Valid),
  (0x470, 0x470, .Mapped [0x471]),
  (0x471, 0x471, .Valid),
  (0x472, 0x472, .Mapped [0x473]),
  (0x473, 0x473, .Valid),
  (0x474, 0x474, .Mapped [0x475]),
  (0x475, 0x475, .Valid),
  (0x476, 0x476, .Mapped [0x477]),
  (0x477, 0x477, .Valid),
  (0x478, 0x478, .Mapped [0x479]),
  (0x479, 0x479, .Valid),
  (0x47A, 0x47A, .Mapped [0x47B]),
  (0x47B, 0x47B, .Valid),
  (0x47C, 0x47C, .Mapped [0x47D]),
  (0x47D, 0x47D, .Valid),
  (0x47E, 0x47E, .Mapped [0x47F]),
  (0x47F, 0x47F, .Valid),
  (0x480, 0x480, .Mapped [0x481]),
  (0x481, 0x489, .Valid),
  (0x48A, 0x48A, .Mapped [0x48B]),
  (0x48B, 0x48B, .Valid),
  (0x48C, 0x48C, .Mapped [0x48D]),
  (0x48D, 0x48D, .Valid),
  (0x48E, 0x48E, .Mapped [0x48F]),
  (0x48F, 0x48F, .Valid),
  (0x490, 0x490, .Mapped [0x491]),
  (0x491, 0x491, .Valid),
  (0x492, 0x492, .Mapped [0x493]),
  (0x493, 0x493, .Valid),
  (0x494, 0x494, .Mapped [0x495]),
  (0x495, 0x495, .Valid),
  (0x496, 0x496, .Mapped [0x497]),
  (0x497, 0x497, .Valid),
  (0x498, 0x498, .Mapped [0x499]),
  (0x499, 0x499, .Valid),
  (0x49A, 0x49A, .Mapped [0x49B]),
  (0x49B, 0x49B, .Valid),
  (0x49C, 0x49C, .Mapped [0x49D]),
  (0x49D, 0x49D, .Valid),
  (0x49E, 0x49E, .Mapped [0x49F]),
  (0x49F, 0x49F, .Valid),
  (0x4A0, 0x4A0, .Mapped [0x4A1]),
  (0x4A1, 0x4A1, .Valid),
  (0x4A2, 0x4A2, .Mapped [0x4A3])]
def idnaMapping_10 : List (Nat × Nat × Mapping) := [
  (0x4A3, 0x4A3, .Valid),
  (0x4A4, 0x4A4, .Mapped [0x4A5]),
  (0x4A5, 0x4A5, .Valid),
  (0x4A6, 0x4A6, .Mapped [0x4A7]),
  (0x4A7, 0x4A7, .Valid),
  (0x4A8, 0x4A8, .Mapped [0x4A9]),
  (0x4A9, 0x4A9, .Valid),
  (0x4AA, 0x4AA, .Mapped [0x4AB]),
  (0x4AB, 0x4AB, .Valid),
  (0x4AC, 0x4AC, .Mapped [0x4AD]),
  (0x4AD, 0x4AD, .Valid),
  (0x4AE, 0x4AE, .Mapped [0x4AF]),
  (0x4AF, 0x4AF, .Valid),
  (0x4B0, 0x4B0, .Mapped [0x4B1]),
  (0x4B1, 0x4B1, .Valid),
  (0x4B2, 0x4B2, .Mapped [0x4B3]),
  (0x4B3, 0x4B3, .Valid),
  (0x4B4, 0x4B4, .Mapped [0x4B5]),
  (0x4B5, 0x4B5, .Valid),
  (0x4B6, 0x4B6, .Mapped [0x4B7]),
  (0x4B7, 0x4B7, .Valid),
  (0x4B8, 0x4B8, .Mapped [0x4B9]),
  (0x4B9, 0x4B9, .Valid),
  (0x4BA, 0x4BA, .Mapped [0x4BB]),
  (0x4BB, 0x4BB, .Valid),
  (0x4BC, 0x4BC, .Mapped [0x4BD]),
  (0x4BD, 0x4BD, .Valid),
  (0x4BE, 0x4BE, .Mapped [0x4BF]),
  (0x4BF, 0x4BF, .Valid),
  (0x4C0, 0x4C0, .Disallowed),
  (0x4C1, 0x4C1, .Mapped [0x4C2]),
  (0x4C2, 0x4C2, .Valid),
  (0x4C3, 0x4C3, .Mapped [0x4C4]),
  (0x4C4, 0x4C4, .Valid),
  (0x4C5, 0x4C5, .Mapped [0x4C6]),
  (0x4C6, 0x4C6, .Valid),
  (0x4C7, 0x4C7, .Mapped [0x4C8]),
  (0x4C8, 0x4C8, .Valid),
  (0x4C9, 0x4C9, .Mapped [0x4CA]),
  (0x4CA, 0x4CA, .Valid),
  (0x4CB, 0x4CB, .Mapped [0x4CC]),
  (0x4CC, 0x4CC, .Valid),
  (0x4CD, 0x4CD, .Mapped [0x4CE]),
  (0x4CE, 0x4CF, .Valid),
  (0x4D0, 0x4D0, .Mapped [0x4D1]),
  (0x4D1, 0x4D1, .Valid),
  (0x4D2, 0x4D2, .Mapped [0x4D3]),
  (0x4D3, 0x4D3, .Valid),
  (0x4D4, 0x4D4, .Mapped [0x4D5]),
  (0x4D5, 0x4D5, .Valid),
  (0x4D6, 0x4D6, .Mapped [0x4D7]),
  (0x4D7, 0x4D7, .Valid),
  (0x4D8, 0x4D8, .Mapped [0x4D9]),
  (0x4D9, 0x4D9, .Valid),
  (0x4DA, 0x4DA, .Mapped [0x4DB]),
  (0x4DB, 0x4DB, .Valid),
  (0x4DC, 0x4DC, .Mapped [0x4DD]),
  (0x4DD, 0x4DD, .Valid),
  (0x4DE, 0x4DE, .Mapped [0x4DF]),
  (0x4DF, 0x4DF, .Valid),
  (0x4E0, 0x4E0, .Mapped [0x4E1]),
  (0x4E1, 0x4E1, .Valid),
  (0x4E2, 0x4E2, .Mapped [0x4E3]),
  (0x4E3, 0x4E3, .Valid)]
def idnaMapping_11 : List (Nat × Nat × Mapping) := [
  (0x4E4, 0x4E4, .Mapped [0x4E5]),
  (0x4E5, 0x4E5, .Valid),
  (0x4E6, 0x4E6, .Mapped [0x4E7]),
  (0x4E7, 0x4E7, .Valid),
  (0x4E8, 0x4E8, .Mapped [0x4E9]),
  (0x4E9, 0x4E9, .Valid),
  (0x4EA, 0x4EA, .Mapped [0x4EB]),
  (0x4EB, 0x4EB, .Valid),
  (0x4EC, 0x4EC, .Mapped [0x4ED]),
  (0x4ED, 0x4ED, .Valid),
  (0x4EE, 0x4EE, .Mapped [0x4EF]),
  (0x4EF, 0x4EF, .Valid),
  (0x4F0, 0x4F0, .Mapped [0x4F1]),
  (0x4F1, 0x4F1, .Valid),
  (0x4F2, 0x4F2, .Mapped [0x4F3]),
  (0x4F3, 0x4F3, .Valid),
  (0x4F4, 0x4F4, .Mapped [0x4F5]),
  (0x4F5, 0x4F5, .Valid),
  (0x4F6, 0x4F6, .Mapped [0x4F7]),
  (0x4F7, 0x4F7, .Valid),
  (0x4F8, 0x4F8, .Mapped [0x4F9]),
  (0x4F9, 0x4F9, .Valid),
  (0x4FA, 0x4FA, .Mapped [0x4FB]),
  (0x4FB, 0x4FB, .Valid),
  (0x4FC, 0x4FC, .Mapped [0x4FD]),
  (0x4FD, 0x4FD, .Valid),
  (0x4FE, 0x4FE, .Mapped [0x4FF]),
  (0x4FF, 0x4FF, .Valid),
  (0x500, 0x500, .Mapped [0x501]),
  (0x501, 0x501, .Valid),
  (0x502, 0x502, .Mapped [0x503]),
  (0x503, 0x503, .Valid),
  (0x504, 0x504, .Mapped [0x505]),
  (0x505, 0x505, .Valid),
  (0x506, 0x506, .Mapped [0x507]),
  (0x507, 0x507, .Valid),
  (0x508, 0x508, .Mapped [0x509]),
  (0x509, 0x509, .Valid),
  (0x50A, 0x50A, .Mapped [0x50B]),
  (0x50B, 0x50B, .Valid),
  (0x50C, 0x50C, .Mapped [0x50D]),
  (0x50D, 0x50D, .Valid),
  (0x50E, 0x50E, .Mapped [0x50F]),
  (0x50F, 0x50F, .Valid),
  (0x510, 0x510, .Mapped [0x511]),
  (0x511, 0x511, .Valid),
  (0x512, 0x512, .Mapped [0x513]),
  (0x513, 0x513, .Valid),
  (0x514, 0x514, .Mapped [0x515]),
  (0x515, 0x515, .Valid),
  (0x516, 0x516, .Mapped [0x517]),
  (0x517, 0x517, .Valid),
  (0x518, 0x518, .Mapped [0x519]),
  (0x519, 0x519, .Valid),
  (0x51A, 0x51A, .Mapped [0x51B]),
  (0x51B, 0x51B, .Valid),
  (0x51C, 0x51C, .Mapped [0x51D]),
  (0x51D, 0x51D, .Valid),
  (0x51E, 0x51E, .Mapped [0x51F]),
  (0x51F, 0x51F, .Valid),
  (0x520, 0x520, .Mapped [0x521]),
  (0x521, 0x521, .Valid),
  (0x522, 0x522, .Mapped [0x523]),
  (0x523, 0x523, .Valid)]
def idnaMapping_12 : List (Nat × Nat × Mapping) := [
  (0x524, 0x524, .Mapped [0x525]),
  (0x525, 0x525, .Valid),
  (0x526, 0x526, .Mapped [0x527]),
  (0x527, 0x527, .Valid),
  (0x528, 0x528, .Mapped [0x529]),
  (0x529, 0x529, .Valid),
  (0x52A, 0x52A, .Mapped [0x52B]),
  (0x52B, 0x52B, .Valid),
  (0x52C, 0x52C, .Mapped [0x52D]),
  (0x52D, 0x52D, .Valid),
  (0x52E, 0x52E, .Mapped [0x52F]),
  (0x52F, 0x52F, .Valid),
  (0x530, 0x530, .Disallowed),
  (0x531, 0x531, .Mapped [0x561]),
  (0x532, 0x532, .Mapped [0x562]),
  (0x533, 0x533, .Mapped [0x563]),
  (0x534, 0x534, .Mapped [0x564]),
  (0x535, 0x535, .Mapped [0x565]),
  (0x536, 0x536, .Mapped [0x566]),
  (0x537, 0x537, .Mapped [0x567]),
  (0x538, 0x538, .Mapped [0x568]),
  (0x539, 0x539, .Mapped [0x569]),
  (0x53A, 0x53A, .Mapped [0x56A]),
  (0x53B, 0x53B, .Mapped [0x56B]),
  (0x53C, 0x53C, .Mapped [0x56C]),
  (0x53D, 0x53D, .Mapped [0x56D]),
  (0x53E, 0x53E, .Mapped [0x56E]),
  (0x53F, 0x53F, .Mapped [0x56F]),
  (0x540, 0x540, .Mapped [0x570]),
  (0x541, 0x541, .Mapped [0x571]),
  (0x542, 0x542, .Mapped [0x572]),
  (0x543, 0x543, .Mapped [0x573]),
  (0x544, 0x544, .Mapped [0x574]),
  (0x545, 0x545, .Mapped [0x575]),
  (0x546, 0x546, .Mapped [0x576]),
  (0x547, 0x547, .Mapped [0x577]),
  (0x548, 0x548, .Mapped [0x578]),
  (0x549, 0x549, .Mapped [0x579]),
  (0x54A, 0x54A, .Mapped [0x57A]),
  (0x54B, 0x54B, .Mapped [0x57B]),
  (0x54C, 0x54C, .Mapped [0x57C]),
  (0x54D, 0x54D, .Mapped [0x57D]),
  (0x54E, 0x54E, .Mapped [0x57E]),
  (0x54F, 0x54F, .Mapped [0x57F]),
  (0x550, 0x550, .Mapped [0x580]),
  (0x551, 0x551, .Mapped [0x581]),
  (0x552, 0x552, .Mapped [0x582]),
  (0x553, 0x553, .Mapped [0x583]),
  (0x554, 0x554, .Mapped [0x584]),
  (0x555, 0x555, .Mapped [0x585]),
  (0x556, 0x556, .Mapped [0x586]),
  (0x557, 0x558, .Disallowed),
  (0x559, 0x55F, .Valid),
  (0x560, 0x560, .Disallowed),
  (0x561, 0x586, .Valid),
  (0x587, 0x587, .Mapped [0x565, 0x582]),
  (0x588, 0x588, .Disallowed),
  (0x589, 0x58A, .Valid),
  (0x58B, 0x58C, .Disallowed),
  (0x58D, 0x58F, .Valid),
  (0x590, 0x590, .Disallowed),
  (0x591, 0x5C7, .Valid),
  (0x5C8, 0x5CF, .Disallowed),
  (0x5D0, 0x5EA, .Valid)]
def idnaMapping_13 : List (Nat × Nat × Mapping) := [
  (0x5EB, 0x5EF, .Disallowed),
  (0x5F0, 0x5F4, .Valid),
  (0x5F5, 0x605, .Disallowed),
  (0x606, 0x61B, .Valid),
  (0x61C, 0x61D, .Disallowed),
  (0x61E, 0x674, .Valid),
  (0x675, 0x675, .Mapped [0x627, 0x674]),
  (0x676, 0x676, .Mapped [0x648, 0x674]),
  (0x677, 0x677, .Mapped [0x6C7, 0x674]),
  (0x678, 0x678, .Mapped [0x64A, 0x674]),
  (0x679, 0x6DC, .Valid),
  (0x6DD, 0x6DD, .Disallowed),
  (0x6DE, 0x70D, .Valid),
  (0x70E, 0x70F, .Disallowed),
  (0x710, 0x74A, .Valid),
  (0x74B, 0x74C, .Disallowed),
  (0x74D, 0x7B1, .Valid),
  (0x7B2, 0x7BF, .Disallowed),
  (0x7C0, 0x7FA, .Valid),
  (0x7FB, 0x7FF, .Disallowed),
  (0x800, 0x82D, .Valid),
  (0x82E, 0x82F, .Disallowed),
  (0x830, 0x83E, .Valid),
  (0x83F, 0x83F, .Disallowed),
  (0x840, 0x85B, .Valid),
  (0x85C, 0x85D, .Disallowed),
  (0x85E, 0x85E, .Valid),
  (0x85F, 0x85F, .Disallowed),
  (0x860, 0x86A, .Valid),
  (0x86B, 0x89F, .Disallowed),
  (0x8A0, 0x8B4, .Valid),
  (0x8B5, 0x8B5, .Disallowed),
  (0x8B6, 0x8BD, .Valid),
  (0x8BE, 0x8D3, .Disallowed),
  (0x8D4, 0x8E1, .Valid),
  (0x8E2, 0x8E2, .Disallowed),
  (0x8E3, 0x957, .Valid),
  (0x958, 0x958, .Mapped [0x915, 0x93C]),
  (0x959, 0x959, .Mapped [0x916, 0x93C]),
  (0x95A, 0x95A, .Mapped [0x917, 0x93C]),
  (0x95B, 0x95B, .Mapped [0x91C, 0x93C]),
  (0x95C, 0x95C, .Mapped [0x921, 0x93C]),
  (0x95D, 0x95D, .Mapped [0x922, 0x93C]),
  (0x95E, 0x95E, .Mapped [0x92B, 0x93C]),
  (0x95F, 0x95F, .Mapped [0x92F, 0x93C]),
  (0x960, 0x983, .Valid),
  (0x984, 0x984, .Disallowed),
  (0x985, 0x98C, .Valid),
  (0x98D, 0x98E, .Disallowed),
  (0x98F, 0x990, .Valid),
  (0x991, 0x992, .Disallowed),
  (0x993, 0x9A8, .Valid),
  (0x9A9, 0x9A9, .Disallowed),
  (0x9AA, 0x9B0, .Valid),
  (0x9B1, 0x9B1, .Disallowed),
  (0x9B2, 0x9B2, .Valid),
  (0x9B3, 0x9B5, .Disallowed),
  (0x9B6, 0x9B9, .Valid),
  (0x9BA, 0x9BB, .Disallowed),
  (0x9BC, 0x9C4, .Valid),
  (0x9C5, 0x9C6, .Disallowed),
  (0x9C7, 0x9C8, .Valid),
  (0x9C9, 0x9CA, .Disallowed),
  (0x9CB, 0x9CE, .Valid)]
def idnaMapping_14 : List (Nat × Nat × Mapping) := [
  (0x9CF, 0x9D6, .Disallowed),
  (0x9D7, 0x9D7, .Valid),
  (0x9D8, 0x9DB, .Disallowed),
  (0x9DC, 0x9DC, .Mapped [0x9A1, 0x9BC]),
  (0x9DD, 0x9DD, .Mapped [0x9A2, 0x9BC]),
  (0x9DE, 0x9DE, .Disallowed),
  (0x9DF, 0x9DF, .Mapped [0x9AF, 0x9BC]),
  (0x9E0, 0x9E3, .Valid),
  (0x9E4, 0x9E5, .Disallowed),
  (0x9E6, 0x9FD, .Valid),
  (0x9FE, 0xA00, .Disallowed),
  (0xA01, 0xA03, .Valid),
  (0xA04, 0xA04, .Disallowed),
  (0xA05, 0xA0A, .Valid),
  (0xA0B, 0xA0E, .Disallowed),
  (0xA0F, 0xA10, .Valid),
  (0xA11, 0xA12, .Disallowed),
  (0xA13, 0xA28, .Valid),
  (0xA29, 0xA29, .Disallowed),
  (0xA2A, 0xA30, .Valid),
  (0xA31, 0xA31, .Disallowed),
  (0xA32, 0xA32, .Valid),
  (0xA33, 0xA33, .Mapped [0xA32, 0xA3C]),
  (0xA34, 0xA34, .Disallowed),
  (0xA35, 0xA35, .Valid),
  (0xA36, 0xA36, .Mapped [0xA38, 0xA3C]),
  (0xA37, 0xA37, .Disallowed),
  (0xA38, 0xA39, .Valid),
  (0xA3A, 0xA3B, .Disallowed),
  (0xA3C, 0xA3C, .Valid),
  (0xA3D, 0xA3D, .Disallowed),
  (0xA3E, 0xA42, .Valid),
  (0xA43, 0xA46, .Disallowed),
  (0xA47, 0xA48, .Valid),
  (0xA49, 0xA4A, .Disallowed),
  (0xA4B, 0xA4D, .Valid),
  (0xA4E, 0xA50, .Disallowed),
  (0xA51, 0xA51, .Valid),
  (0xA52, 0xA58, .Disallowed),
  (0xA59, 0xA59, .Mapped [0xA16, 0xA3C]),
  (0xA5A, 0xA5A, .Mapped [0xA17, 0xA3C]),
  (0xA5B, 0xA5B, .Mapped [0xA1C, 0xA3C]),
  (0xA5C, 0xA5C, .Valid),
  (0xA5D, 0xA5D, .Disallowed),
  (0xA5E, 0xA5E, .Mapped [0xA2B, 0xA3C]),
  (0xA5F, 0xA65, .Disallowed),
  (0xA66, 0xA75, .Valid),
  (0xA76, 0xA80, .Disallowed),
  (0xA81, 0xA83, .Valid),
  (0xA84, 0xA84, .Disallowed),
  (0xA85, 0xA8D, .Valid),
  (0xA8E, 0xA8E, .Disallowed),
  (0xA8F, 0xA91, .Valid),
  (0xA92, 0xA92, .Disallowed),
  (0xA93, 0xAA8, .Valid),
  (0xAA9, 0xAA9, .Disallowed),
  (0xAAA, 0xAB0, .Valid),
  (0xAB1, 0xAB1, .Disallowed),
  (0xAB2, 0xAB3, .Valid),
  (0xAB4, 0xAB4, .Disallowed),
  (0xAB5, 0xAB9, .Valid),
  (0xABA, 0xABB, .Disallowed),
  (0xABC, 0xAC5, .Valid),
  (0xAC6, 0xAC6, .Disallowed)]
def idnaMapping_15 : List (Nat × Nat × Mapping) := [
  (0xAC7, 0xAC9, .Valid),
  (0xACA, 0xACA, .Disallowed),
  (0xACB, 0xACD, .Valid),
  (0xACE, 0xACF, .Disallowed),
  (0xAD0, 0xAD0, .Valid),
  (0xAD1, 0xADF, .Disallowed),
  (0xAE0, 0xAE3, .Valid),
  (0xAE4, 0xAE5, .Disallowed),
  (0xAE6, 0xAF1, .Valid),
  (0xAF2, 0xAF8, .Disallowed),
  (0xAF9, 0xAFF, .Valid),
  (0xB00, 0xB00, .Disallowed),
  (0xB01, 0xB03, .Valid),
  (0xB04, 0xB04, .Disallowed),
  (0xB05, 0xB0C, .Valid),
  (0xB0D, 0xB0E, .Disallowed),
  (0xB0F, 0xB10, .Valid),
  (0xB11, 0xB12, .Disallowed),
  (0xB13, 0xB28, .Valid),
  (0xB29, 0xB29, .Disallowed),
  (0xB2A, 0xB30, .Valid),
  (0xB31, 0xB31, .Disallowed),
  (0xB32, 0xB33, .Valid),
  (0xB34, 0xB34, .Disallowed),
  (0xB35, 0xB39, .Valid),
  (0xB3A, 0xB3B, .Disallowed),
  (0xB3C, 0xB44, .Valid),
  (0xB45, 0xB46, .Disallowed),
  (0xB47, 0xB48, .Valid),
  (0xB49, 0xB4A, .Disallowed),
  (0xB4B, 0xB4D, .Valid),
  (0xB4E, 0xB55, .Disallowed),
  (0xB56, 0xB57, .Valid),
  (0xB58, 0xB5B, .Disallowed),
  (0xB5C, 0xB5C, .Mapped [0xB21, 0xB3C]),
  (0xB5D, 0xB5D, .Mapped [0xB22, 0xB3C]),
  (0xB5E, 0xB5E, .Disallowed),
  (0xB5F, 0xB63, .Valid),
  (0xB64, 0xB65, .Disallowed),
  (0xB66, 0xB77, .Valid),
  (0xB78, 0xB81, .Disallowed),
  (0xB82, 0xB83, .Valid),
  (0xB84, 0xB84, .Disallowed),
  (0xB85, 0xB8A, .Valid),
  (0xB8B, 0xB8D, .Disallowed),
  (0xB8E, 0xB90, .Valid),
  (0xB91, 0xB91, .Disallowed),
  (0xB92, 0xB95, .Valid),
  (0xB96, 0xB98, .Disallowed),
  (0xB99, 0xB9A, .Valid),
  (0xB9B, 0xB9B, .Disallowed),
  (0xB9C, 0xB9C, .Valid),
  (0xB9D, 0xB9D, .Disallowed),
  (0xB9E, 0xB9F, .Valid),
  (0xBA0, 0xBA2, .Disallowed),
  (0xBA3, 0xBA4, .Valid),
  (0xBA5, 0xBA7, .Disallowed),
  (0xBA8, 0xBAA, .Valid),
  (0xBAB, 0xBAD, .Disallowed),
  (0xBAE, 0xBB9, .Valid),
  (0xBBA, 0xBBD, .Disallowed),
  (0xBBE, 0xBC2, .Valid),
  (0xBC3, 0xBC5, .Disallowed),
  (0xBC6, 0xBC8, .Valid)]
def idnaMapping_16 : List (Nat × Nat × Mapping) := [
  (0xBC9, 0xBC9, .Disallowed),
  (0xBCA, 0xBCD, .Valid),
  (0xBCE, 0xBCF, .Disallowed),
  (0xBD0, 0xBD0, .Valid),
  (0xBD1, 0xBD6, .Disallowed),
  (0xBD7, 0xBD7, .Valid),
  (0xBD8, 0xBE5, .Disallowed),
  (0xBE6, 0xBFA, .Valid),
  (0xBFB, 0xBFF, .Disallowed),
  (0xC00, 0xC03, .Valid),
  (0xC04, 0xC04, .Disallowed),
  (0xC05, 0xC0C, .Valid),
  (0xC0D, 0xC0D, .Disallowed),
  (0xC0E, 0xC10, .Valid),
  (0xC11, 0xC11, .Disallowed),
  (0xC12, 0xC28, .Valid),
  (0xC29, 0xC29, .Disallowed),
  (0xC2A, 0xC39, .Valid),
  (0xC3A, 0xC3C, .Disallowed),
  (0xC3D, 0xC44, .Valid),
  (0xC45, 0xC45, .Disallowed),
  (0xC46, 0xC48, .Valid),
  (0xC49, 0xC49, .Disallowed),
  (0xC4A, 0xC4D, .Valid),
  (0xC4E, 0xC54, .Disallowed),
  (0xC55, 0xC56, .Valid),
  (0xC57, 0xC57, .Disallowed),
  (0xC58, 0xC5A, .Valid),
  (0xC5B, 0xC5F, .Disallowed),
  (0xC60, 0xC63, .Valid),
  (0xC64, 0xC65, .Disallowed),
  (0xC66, 0xC6F, .Valid),
  (0xC70, 0xC77, .Disallowed),
  (0xC78, 0xC83, .Valid),
  (0xC84, 0xC84, .Disallowed),
  (0xC85, 0xC8C, .Valid),
  (0xC8D, 0xC8D, .Disallowed),
  (0xC8E, 0xC90, .Valid),
  (0xC91, 0xC91, .Disallowed),
  (0xC92, 0xCA8, .Valid),
  (0xCA9, 0xCA9, .Disallowed),
  (0xCAA, 0xCB3, .Valid),
  (0xCB4, 0xCB4, .Disallowed),
  (0xCB5, 0xCB9, .Valid),
  (0xCBA, 0xCBB, .Disallowed),
  (0xCBC, 0xCC4, .Valid),
  (0xCC5, 0xCC5, .Disallowed),
  (0xCC6, 0xCC8, .Valid),
  (0xCC9, 0xCC9, .Disallowed),
  (0xCCA, 0xCCD, .Valid),
  (0xCCE, 0xCD4, .Disallowed),
  (0xCD5, 0xCD6, .Valid),
  (0xCD7, 0xCDD, .Disallowed),
  (0xCDE, 0xCDE, .Valid),
  (0xCDF, 0xCDF, .Disallowed),
  (0xCE0, 0xCE3, .Valid),
  (0xCE4, 0xCE5, .Disallowed),
  (0xCE6, 0xCEF, .Valid),
  (0xCF0, 0xCF0, .Disallowed),
  (0xCF1, 0xCF2, .Valid),
  (0xCF3, 0xCFF, .Disallowed),
  (0xD00, 0xD03, .Valid),
  (0xD04, 0xD04, .Disallowed),
  (0xD05, 0xD0C, .Valid)]
def idnaMapping_17 : List (Nat × Nat × Mapping) := [
  (0xD0D, 0xD0D, .Disallowed),
  (0xD0E, 0xD10, .Valid),
  (0xD11, 0xD11, .Disallowed),
  (0xD12, 0xD44, .Valid),
  (0xD45, 0xD45, .Disallowed),
  (0xD46, 0xD48, .Valid),
  (0xD49, 0xD49, .Disallowed),
  (0xD4A, 0xD4F, .Valid),
  (0xD50, 0xD53, .Disallowed),
  (0xD54, 0xD63, .Valid),
  (0xD64, 0xD65, .Disallowed),
  (0xD66, 0xD7F, .Valid),
  (0xD80, 0xD81, .Disallowed),
  (0xD82, 0xD83, .Valid),
  (0xD84, 0xD84, .Disallowed),
  (0xD85, 0xD96, .Valid),
  (0xD97, 0xD99, .Disallowed),
  (0xD9A, 0xDB1, .Valid),
  (0xDB2, 0xDB2, .Disallowed),
  (0xDB3, 0xDBB, .Valid),
  (0xDBC, 0xDBC, .Disallowed),
  (0xDBD, 0xDBD, .Valid),
  (0xDBE, 0xDBF, .Disallowed),
  (0xDC0, 0xDC6, .Valid),
  (0xDC7, 0xDC9, .Disallowed),
  (0xDCA, 0xDCA, .Valid),
  (0xDCB, 0xDCE, .Disallowed),
  (0xDCF, 0xDD4, .Valid),
  (0xDD5, 0xDD5, .Disallowed),
  (0xDD6, 0xDD6, .Valid),
  (0xDD7, 0xDD7, .Disallowed),
  (0xDD8, 0xDDF, .Valid),
  (0xDE0, 0xDE5, .Disallowed),
  (0xDE6, 0xDEF, .Valid),
  (0xDF0, 0xDF1, .Disallowed),
  (0xDF2, 0xDF4, .Valid),
  (0xDF5, 0xE00, .Disallowed),
  (0xE01, 0xE32, .Valid),
  (0xE33, 0xE33, .Mapped [0xE4D, 0xE32]),
  (0xE34, 0xE3A, .Valid),
  (0xE3B, 0xE3E, .Disallowed),
  (0xE3F, 0xE5B, .Valid),
  (0xE5C, 0xE80, .Disallowed),
  (0xE81, 0xE82, .Valid),
  (0xE83, 0xE83, .Disallowed),
  (0xE84, 0xE84, .Valid),
  (0xE85, 0xE86, .Disallowed),
  (0xE87, 0xE88, .Valid),
  (0xE89, 0xE89, .Disallowed),
  (0xE8A, 0xE8A, .Valid),
  (0xE8B, 0xE8C, .Disallowed),
  (0xE8D, 0xE8D, .Valid),
  (0xE8E, 0xE93, .Disallowed),
  (0xE94, 0xE97, .Valid),
  (0xE98, 0xE98, .Disallowed),
  (0xE99, 0xE9F, .Valid),
  (0xEA0, 0xEA0, .Disallowed),
  (0xEA1, 0xEA3, .Valid),
  (0xEA4, 0xEA4, .Disallowed),
  (0xEA5, 0xEA5, .Valid),
  (0xEA6, 0xEA6, .Disallowed),
  (0xEA7, 0xEA7, .Valid),
  (0xEA8, 0xEA9, .Disallowed),
  (0xEAA, 0xEAB, .Valid)]
def idnaMapping_18 : List (Nat × Nat × Mapping) := [
  (0xEAC, 0xEAC, .Disallowed),
  (0xEAD, 0xEB2, .Valid),
  (0xEB3, 0xEB3, .Mapped [0xECD, 0xEB2]),
  (0xEB4, 0xEB9, .Valid),
  (0xEBA, 0xEBA, .Disallowed),
  (0xEBB, 0xEBD, .Valid),
  (0xEBE, 0xEBF, .Disallowed),
  (0xEC0, 0xEC4, .Valid),
  (0xEC5, 0xEC5, .Disallowed),
  (0xEC6, 0xEC6, .Valid),
  (0xEC7, 0xEC7, .Disallowed),
  (0xEC8, 0xECD, .Valid),
  (0xECE, 0xECF, .Disallowed),
  (0xED0, 0xED9, .Valid),
  (0xEDA, 0xEDB, .Disallowed),
  (0xEDC, 0xEDC, .Mapped [0xEAB, 0xE99]),
  (0xEDD, 0xEDD, .Mapped [0xEAB, 0xEA1]),
  (0xEDE, 0xEDF, .Valid),
  (0xEE0, 0xEFF, .Disallowed),
  (0xF00, 0xF0B, .Valid),
  (0xF0C, 0xF0C, .Mapped [0xF0B]),
  (0xF0D, 0xF42, .Valid),
  (0xF43, 0xF43, .Mapped [0xF42, 0xFB7]),
  (0xF44, 0xF47, .Valid),
  (0xF48, 0xF48, .Disallowed),
  (0xF49, 0xF4C, .Valid),
  (0xF4D, 0xF4D, .Mapped [0xF4C, 0xFB7]),
  (0xF4E, 0xF51, .Valid),
  (0xF52, 0xF52, .Mapped [0xF51, 0xFB7]),
  (0xF53, 0xF56, .Valid),
  (0xF57, 0xF57, .Mapped [0xF56, 0xFB7]),
  (0xF58, 0xF5B, .Valid),
  (0xF5C, 0xF5C, .Mapped [0xF5B, 0xFB7]),
  (0xF5D, 0xF68, .Valid),
  (0xF69, 0xF69, .Mapped [0xF40, 0xFB5]),
  (0xF6A, 0xF6C, .Valid),
  (0xF6D, 0xF70, .Disallowed),
  (0xF71, 0xF72, .Valid),
  (0xF73, 0xF73, .Mapped [0xF71, 0xF72]),
  (0xF74, 0xF74, .Valid),
  (0xF75, 0xF75, .Mapped [0xF71, 0xF74]),
  (0xF76, 0xF76, .Mapped [0xFB2, 0xF80]),
  (0xF77, 0xF77, .Mapped [0xFB2, 0xF71, 0xF80]),
  (0xF78, 0xF78, .Mapped [0xFB3, 0xF80]),
  (0xF79, 0xF79, .Mapped [0xFB3, 0xF71, 0xF80]),
  (0xF7A, 0xF80, .Valid),
  (0xF81, 0xF81, .Mapped [0xF71, 0xF80]),
  (0xF82, 0xF92, .Valid),
  (0xF93, 0xF93, .Mapped [0xF92, 0xFB7]),
  (0xF94, 0xF97, .Valid),
  (0xF98, 0xF98, .Disallowed),
  (0xF99, 0xF9C, .Valid),
  (0xF9D, 0xF9D, .Mapped [0xF9C, 0xFB7]),
  (0xF9E, 0xFA1, .Valid),
  (0xFA2, 0xFA2, .Mapped [0xFA1, 0xFB7]),
  (0xFA3, 0xFA6, .Valid),
  (0xFA7, 0xFA7, .Mapped [0xFA6, 0xFB7]),
  (0xFA8, 0xFAB, .Valid),
  (0xFAC, 0xFAC, .Mapped [0xFAB, 0xFB7]),
  (0xFAD, 0xFB8, .Valid),
  (0xFB9, 0xFB9, .Mapped [0xF90, 0xFB5]),
  (0xFBA, 0xFBC, .Valid),
  (0xFBD, 0xFBD, .Disallowed),
  (0xFBE, 0xFCC, .Valid)]
def idnaMapping_19 : List (Nat × Nat × Mapping) := [
  (0xFCD, 0xFCD, .Disallowed),
  (0xFCE, 0xFDA, .Valid),
  (0xFDB, 0xFFF, .Disallowed),
  (0x1000, 0x109F, .Valid),
  (0x10A0, 0x10C6, .Disallowed),
  (0x10C7, 0x10C7, .Mapped [0x2D27]),
  (0x10C8, 0x10CC, .Disallowed),
  (0x10CD, 0x10CD, .Mapped [0x2D2D]),
  (0x10CE, 0x10CF, .Disallowed),
  (0x10D0, 0x10FB, .Valid),
  (0x10FC, 0x10FC, .Mapped [0x10DC]),
  (0x10FD, 0x115E, .Valid),
  (0x115F, 0x1160, .Disallowed),
  (0x1161, 0x1248, .Valid),
  (0x1249, 0x1249, .Disallowed),
  (0x124A, 0x124D, .Valid),
  (0x124E, 0x124F, .Disallowed),
  (0x1250, 0x1256, .Valid),
  (0x1257, 0x1257, .Disallowed),
  (0x1258, 0x1258, .Valid),
  (0x1259, 0x1259, .Disallowed),
  (0x125A, 0x125D, .Valid),
  (0x125E, 0x125F, .Disallowed),
  (0x1260, 0x1288, .Valid),
  (0x1289, 0x1289, .Disallowed),
  (0x128A, 0x128D, .Valid),
  (0x128E, 0x128F, .Disallowed),
  (0x1290, 0x12B0, .Valid),
  (0x12B1, 0x12B1, .Disallowed),
  (0x12B2, 0x12B5, .Valid),
  (0x12B6, 0x12B7, .Disallowed),
  (0x12B8, 0x12BE, .Valid),
  (0x12BF, 0x12BF, .Disallowed),
  (0x12C0, 0x12C0, .Valid),
  (0x12C1, 0x12C1, .Disallowed),
  (0x12C2, 0x12C5, .Valid),
  (0x12C6, 0x12C7, .Disallowed),
  (0x12C8, 0x12D6, .Valid),
  (0x12D7, 0x12D7, .Disallowed),
  (0x12D8, 0x1310, .Valid),
  (0x1311, 0x1311, .Disallowed),
  (0x1312, 0x1315, .Valid),
  (0x1316, 0x1317, .Disallowed),
  (0x1318, 0x135A, .Valid),
  (0x135B, 0x135C, .Disallowed),
  (0x135D, 0x137C, .Valid),
  (0x137D, 0x137F, .Disallowed),
  (0x1380, 0x1399, .Valid),
  (0x139A, 0x139F, .Disallowed),
  (0x13A0, 0x13F5, .Valid),
  (0x13F6, 0x13F7, .Disallowed),
  (0x13F8, 0x13F8, .Mapped [0x13F0]),
  (0x13F9, 0x13F9, .Mapped [0x13F1]),
  (0x13FA, 0x13FA, .Mapped [0x13F2]),
  (0x13FB, 0x13FB, .Mapped [0x13F3]),
  (0x13FC, 0x13FC, .Mapped [0x13F4]),
  (0x13FD, 0x13FD, .Mapped [0x13F5]),
  (0x13FE, 0x13FF, .Disallowed),
  (0x1400, 0x167F, .Valid),
  (0x1680, 0x1680, .Disallowed),
  (0x1681, 0x169C, .Valid),
  (0x169D, 0x169F, .Disallowed),
  (0x16A0, 0x16F8, .Valid),
  (0x16F9, 0x16FF, .Disallowed)]
def idnaMapping_20 : List (Nat × Nat × Mapping) := [
  (0x1700, 0x170C, .Valid),
  (0x170D, 0x170D, .Disallowed),
  (0x170E, 0x1714, .Valid),
  (0x1715, 0x171F, .Disallowed),
  (0x1720, 0x1736, .Valid),
  (0x1737, 0x173F, .Disallowed),
  (0x1740, 0x1753, .Valid),
  (0x1754, 0x175F, .Disallowed),
  (0x1760, 0x176C, .Valid),
  (0x176D, 0x176D, .Disallowed),
  (0x176E, 0x1770, .Valid),
  (0x1771, 0x1771, .Disallowed),
  (0x1772, 0x1773, .Valid),
  (0x1774, 0x177F, .Disallowed),
  (0x1780, 0x17B3, .Valid),
  (0x17B4, 0x17B5, .Disallowed),
  (0x17B6, 0x17DD, .Valid),
  (0x17DE, 0x17DF, .Disallowed),
  (0x17E0, 0x17E9, .Valid),
  (0x17EA, 0x17EF, .Disallowed),
  (0x17F0, 0x17F9, .Valid),
  (0x17FA, 0x17FF, .Disallowed),
  (0x1800, 0x1805, .Valid),
  (0x1806, 0x1806, .Disallowed),
  (0x1807, 0x180A, .Valid),
  (0x180B, 0x180D, .Ignored),
  (0x180E, 0x180F, .Disallowed),
  (0x1810, 0x1819, .Valid),
  (0x181A, 0x181F, .Disallowed),
  (0x1820, 0x1877, .Valid),
  (0x1878, 0x187F, .Disallowed),
  (0x1880, 0x18AA, .Valid),
  (0x18AB, 0x18AF, .Disallowed),
  (0x18B0, 0x18F5, .Valid),
  (0x18F6, 0x18FF, .Disallowed),
  (0x1900, 0x191E, .Valid),
  (0x191F, 0x191F, .Disallowed),
  (0x1920, 0x192B, .Valid),
  (0x192C, 0x192F, .Disallowed),
  (0x1930, 0x193B, .Valid),
  (0x193C, 0x193F, .Disallowed),
  (0x1940, 0x1940, .Valid),
  (0x1941, 0x1943, .Disallowed),
  (0x1944, 0x196D, .Valid),
  (0x196E, 0x196F, .Disallowed),
  (0x1970, 0x1974, .Valid),
  (0x1975, 0x197F, .Disallowed),
  (0x1980, 0x19AB, .Valid),
  (0x19AC, 0x19AF, .Disallowed),
  (0x19B0, 0x19C9, .Valid),
  (0x19CA, 0x19CF, .Disallowed),
  (0x19D0, 0x19DA, .Valid),
  (0x19DB, 0x19DD, .Disallowed),
  (0x19DE, 0x1A1B, .Valid),
  (0x1A1C, 0x1A1D, .Disallowed),
  (0x1A1E, 0x1A5E, .Valid),
  (0x1A5F, 0x1A5F, .Disallowed),
  (0x1A60, 0x1A7C, .Valid),
  (0x1A7D, 0x1A7E, .Disallowed),
  (0x1A7F, 0x1A89, .Valid),
  (0x1A8A, 0x1A8F, .Disallowed),
  (0x1A90, 0x1A99, .Valid),
  (0x1A9A, 0x1A9F, .Disallowed),
  (0x1AA0, 0x1AAD, .Valid)]
def idnaMapping_21 : List (Nat × Nat × Mapping) := [
  (0x1AAE, 0x1AAF, .Disallowed),
  (0x1AB0, 0x1ABE, .Valid),
  (0x1ABF, 0x1AFF, .Disallowed),
  (0x1B00, 0x1B4B, .Valid),
  (0x1B4C, 0x1B4F, .Disallowed),
  (0x1B50, 0x1B7C, .Valid),
  (0x1B7D, 0x1B7F, .Disallowed),
  (0x1B80, 0x1BF3, .Valid),
  (0x1BF4, 0x1BFB, .Disallowed),
  (0x1BFC, 0x1C37, .Valid),
  (0x1C38, 0x1C3A, .Disallowed),
  (0x1C3B, 0x1C49, .Valid),
  (0x1C4A, 0x1C4C, .Disallowed),
  (0x1C4D, 0x1C7F, .Valid),
  (0x1C80, 0x1C80, .Mapped [0x432]),
  (0x1C81, 0x1C81, .Mapped [0x434]),
  (0x1C82, 0x1C82, .Mapped [0x43E]),
  (0x1C83, 0x1C83, .Mapped [0x441]),
  (0x1C84, 0x1C85, .Mapped [0x442]),
  (0x1C86, 0x1C86, .Mapped [0x44A]),
  (0x1C87, 0x1C87, .Mapped [0x463]),
  (0x1C88, 0x1C88, .Mapped [0xA64B]),
  (0x1C89, 0x1CBF, .Disallowed),
  (0x1CC0, 0x1CC7, .Valid),
  (0x1CC8, 0x1CCF, .Disallowed),
  (0x1CD0, 0x1CF9, .Valid),
  (0x1CFA, 0x1CFF, .Disallowed),
  (0x1D00, 0x1D2B, .Valid),
  (0x1D2C, 0x1D2C, .Mapped [0x61]),
  (0x1D2D, 0x1D2D, .Mapped [0xE6]),
  (0x1D2E, 0x1D2E, .Mapped [0x62]),
  (0x1D2F, 0x1D2F, .Valid),
  (0x1D30, 0x1D30, .Mapped [0x64]),
  (0x1D31, 0x1D31, .Mapped [0x65]),
  (0x1D32, 0x1D32, .Mapped [0x1DD]),
  (0x1D33, 0x1D33, .Mapped [0x67]),
  (0x1D34, 0x1D34, .Mapped [0x68]),
  (0x1D35, 0x1D35, .Mapped [0x69]),
  (0x1D36, 0x1D36, .Mapped [0x6A]),
  (0x1D37, 0x1D37, .Mapped [0x6B]),
  (0x1D38, 0x1D38, .Mapped [0x6C]),
  (0x1D39, 0x1D39, .Mapped [0x6D]),
  (0x1D3A, 0x1D3A, .Mapped [0x6E]),
  (0x1D3B, 0x1D3B, .Valid),
  (0x1D3C, 0x1D3C, .Mapped [0x6F]),
  (0x1D3D, 0x1D3D, .Mapped [0x223]),
  (0x1D3E, 0x1D3E, .Mapped [0x70]),
  (0x1D3F, 0x1D3F, .Mapped [0x72]),
  (0x1D40, 0x1D40, .Mapped [0x74]),
  (0x1D41, 0x1D41, .Mapped [0x75]),
  (0x1D42, 0x1D42, .Mapped [0x77]),
  (0x1D43, 0x1D43, .Mapped [0x61]),
  (0x1D44, 0x1D44, .Mapped [0x250]),
  (0x1D45, 0x1D45, .Mapped [0x251]),
  (0x1D46, 0x1D46, .Mapped [0x1D02]),
  (0x1D47, 0x1D47, .Mapped [0x62]),
  (0x1D48, 0x1D48, .Mapped [0x64]),
  (0x1D49, 0x1D49, .Mapped [0x65]),
  (0x1D4A, 0x1D4A, .Mapped [0x259]),
  (0x1D4B, 0x1D4B, .Mapped [0x25B]),
  (0x1D4C, 0x1D4C, .Mapped [0x25C]),
  (0x1D4D, 0x1D4D, .Mapped [0x67]),
  (0x1D4E, 0x1D4E, .Valid),
  (0x1D4F, 0x1D4F, .Mapped [0x6B])]
def idnaMapping_22 : List (Nat × Nat × Mapping) := [
  (0x1D50, 0x1D50, .Mapped [0x6D]),
  (0x1D51, 0x1D51, .Mapped [0x14B]),
  (0x1D52, 0x1D52, .Mapped [0x6F]),
  (0x1D53, 0x1D53, .Mapped [0x254]),
  (0x1D54, 0x1D54, .Mapped [0x1D16]),
  (0x1D55, 0x1D55, .Mapped [0x1D17]),
  (0x1D56, 0x1D56, .Mapped [0x70]),
  (0x1D57, 0x1D57, .Mapped [0x74]),
  (0x1D58, 0x1D58, .Mapped [0x75]),
  (0x1D59, 0x1D59, .Mapped [0x1D1D]),
  (0x1D5A, 0x1D5A, .Mapped [0x26F]),
  (0x1D5B, 0x1D5B, .Mapped [0x76]),
  (0x1D5C, 0x1D5C, .Mapped [0x1D25]),
  (0x1D5D, 0x1D5D, .Mapped [0x3B2]),
  (0x1D5E, 0x1D5E, .Mapped [0x3B3]),
  (0x1D5F, 0x1D5F, .Mapped [0x3B4]),
  (0x1D60, 0x1D60, .Mapped [0x3C6]),
  (0x1D61, 0x1D61, .Mapped [0x3C7]),
  (0x1D62, 0x1D62, .Mapped [0x69]),
  (0x1D63, 0x1D63, .Mapped [0x72]),
  (0x1D64, 0x1D64, .Mapped [0x75]),
  (0x1D65, 0x1D65, .Mapped [0x76]),
  (0x1D66, 0x1D66, .Mapped [0x3B2]),
  (0x1D67, 0x1D67, .Mapped [0x3B3]),
  (0x1D68, 0x1D68, .Mapped [0x3C1]),
  (0x1D69, 0x1D69, .Mapped [0x3C6]),
  (0x1D6A, 0x1D6A, .Mapped [0x3C7]),
  (0x1D6B, 0x1D77, .Valid),
  (0x1D78, 0x1D78, .Mapped [0x43D]),
  (0x1D79, 0x1D9A, .Valid),
  (0x1D9B, 0x1D9B, .Mapped [0x252]),
  (0x1D9C, 0x1D9C, .Mapped [0x63]),
  (0x1D9D, 0x1D9D, .Mapped [0x255]),
  (0x1D9E, 0x1D9E, .Mapped [0xF0]),
  (0x1D9F, 0x1D9F, .Mapped [0x25C]),
  (0x1DA0, 0x1DA0, .Mapped [0x66]),
  (0x1DA1, 0x1DA1, .Mapped [0x25F]),
  (0x1DA2, 0x1DA2, .Mapped [0x261]),
  (0x1DA3, 0x1DA3, .Mapped [0x265]),
  (0x1DA4, 0x1DA4, .Mapped [0x268]),
  (0x1DA5, 0x1DA5, .Mapped [0x269]),
  (0x1DA6, 0x1DA6, .Mapped [0x26A]),
  (0x1DA7, 0x1DA7, .Mapped [0x1D7B]),
  (0x1DA8, 0x1DA8, .Mapped [0x29D]),
  (0x1DA9, 0x1DA9, .Mapped [0x26D]),
  (0x1DAA, 0x1DAA, .Mapped [0x1D85]),
  (0x1DAB, 0x1DAB, .Mapped [0x29F]),
  (0x1DAC, 0x1DAC, .Mapped [0x271]),
  (0x1DAD, 0x1DAD, .Mapped [0x270]),
  (0x1DAE, 0x1DAE, .Mapped [0x272]),
  (0x1DAF, 0x1DAF, .Mapped [0x273]),
  (0x1DB0, 0x1DB0, .Mapped [0x274]),
  (0x1DB1, 0x1DB1, .Mapped [0x275]),
  (0x1DB2, 0x1DB2, .Mapped [0x278]),
  (0x1DB3, 0x1DB3, .Mapped [0x282]),
  (0x1DB4, 0x1DB4, .Mapped [0x283]),
  (0x1DB5, 0x1DB5, .Mapped [0x1AB]),
  (0x1DB6, 0x1DB6, .Mapped [0x289]),
  (0x1DB7, 0x1DB7, .Mapped [0x28A]),
  (0x1DB8, 0x1DB8, .Mapped [0x1D1C]),
  (0x1DB9, 0x1DB9, .Mapped [0x28B]),
  (0x1DBA, 0x1DBA, .Mapped [0x28C]),
  (0x1DBB, 0x1DBB, .Mapped [0x7A]),
  (0x1DBC, 0x1DBC, .Mapped [0x290])]
def idnaMapping_23 : List (Nat × Nat × Mapping) := [
  (0x1DBD, 0x1DBD, .Mapped [0x291]),
  (0x1DBE, 0x1DBE, .Mapped [0x292]),
  (0x1DBF, 0x1DBF, .Mapped [0x3B8]),
  (0x1DC0, 0x1DF9, .Valid),
  (0x1DFA, 0x1DFA, .Disallowed),
  (0x1DFB, 0x1DFF, .Valid),
  (0x1E00, 0x1E00, .Mapped [0x1E01]),
  (0x1E01, 0x1E01, .Valid),
  (0x1E02, 0x1E02, .Mapped [0x1E03]),
  (0x1E03, 0x1E03, .Valid),
  (0x1E04, 0x1E04, .Mapped [0x1E05]),
  (0x1E05, 0x1E05, .Valid),
  (0x1E06, 0x1E06, .Mapped [0x1E07]),
  (0x1E07, 0x1E07, .Valid),
  (0x1E08, 0x1E08, .Mapped [0x1E09]),
  (0x1E09, 0x1E09, .Valid),
  (0x1E0A, 0x1E0A, .Mapped [0x1E0B]),
  (0x1E0B, 0x1E0B, .Valid),
  (0x1E0C, 0x1E0C, .Mapped [0x1E0D]),
  (0x1E0D, 0x1E0D, .Valid),
  (0x1E0E, 0x1E0E, .Mapped [0x1E0F]),
  (0x1E0F, 0x1E0F, .Valid),
  (0x1E10, 0x1E10, .Mapped [0x1E11]),
  (0x1E11, 0x1E11, .Valid),
  (0x1E12, 0x1E12, .Mapped [0x1E13]),
  (0x1E13, 0x1E13, .Valid),
  (0x1E14, 0x1E14, .Mapped [0x1E15]),
  (0x1E15, 0x1E15, .Valid),
  (0x1E16, 0x1E16, .Mapped [0x1E17]),
  (0x1E17, 0x1E17, .Valid),
  (0x1E18, 0x1E18, .Mapped [0x1E19]),
  (0x1E19, 0x1E19, .Valid),
  (0x1E1A, 0x1E1A, .Mapped [0x1E1B]),
  (0x1E1B, 0x1E1B, .Valid),
  (0x1E1C, 0x1E1C, .Mapped [0x1E1D]),
  (0x1E1D, 0x1E1D, .Valid),
  (0x1E1E, 0x1E1E, .Mapped [0x1E1F]),
  (0x1E1F, 0x1E1F, .Valid),
  (0x1E20, 0x1E20, .Mapped [0x1E21]),
  (0x1E21, 0x1E21, .Valid),
  (0x1E22, 0x1E22, .Mapped [0x1E23]),
  (0x1E23, 0x1E23, .Valid),
  (0x1E24, 0x1E24, .Mapped [0x1E25]),
  (0x1E25, 0x1E25, .Valid),
  (0x1E26, 0x1E26, .Mapped [0x1E27]),
  (0x1E27, 0x1E27, .Valid),
  (0x1E28, 0x1E28, .Mapped [0x1E29]),
  (0x1E29, 0x1E29, .Valid),
  (0x1E2A, 0x1E2A, .Mapped [0x1E2B]),
  (0x1E2B, 0x1E2B, .Valid),
  (0x1E2C, 0x1E2C, .Mapped [0x1E2D]),
  (0x1E2D, 0x1E2D, .Valid),
  (0x1E2E, 0x1E2E, .Mapped [0x1E2F]),
  (0x1E2F, 0x1E2F, .Valid),
  (0x1E30, 0x1E30, .Mapped [0x1E31]),
  (0x1E31, 0x1E31, .Valid),
  (0x1E32, 0x1E32, .Mapped [0x1E33]),
  (0x1E33, 0x1E33, .Valid),
  (0x1E34, 0x1E34, .Mapped [0x1E35]),
  (0x1E35, 0x1E35, .Valid),
  (0x1E36, 0x1E36, .Mapped [0x1E37]),
  (0x1E37, 0x1E37, .Valid),
  (0x1E38, 0x1E38, .Mapped [0x1E39]),
  (0x1E39, 0x1E39, .Valid)]
def idnaMapping_24 : List (Nat × Nat × Mapping) := [
  (0x1E3A, 0x1E3A, .Mapped [0x1E3B]),
  (0x1E3B, 0x1E3B, .Valid),
  (0x1E3C, 0x1E3C, .Mapped [0x1E3D]),
  (0x1E3D, 0x1E3D, .Valid),
  (0x1E3E, 0x1E3E, .Mapped [0x1E3F]),
  (0x1E3F, 0x1E3F, .Valid),
  (0x1E40, 0x1E40, .Mapped [0x1E41]),
  (0x1E41, 0x1E41, .Valid),
  (0x1E42, 0x1E42, .Mapped [0x1E43]),
  (0x1E43, 0x1E43, .Valid),
  (0x1E44, 0x1E44, .Mapped [0x1E45]),
  (0x1E45, 0x1E45, .Valid),
  (0x1E46, 0x1E46, .Mapped [0x1E47]),
  (0x1E47, 0x1E47, .Valid),
  (0x1E48, 0x1E48, .Mapped [0x1E49]),
  (0x1E49, 0x1E49, .Valid),
  (0x1E4A, 0x1E4A, .Mapped [0x1E4B]),
  (0x1E4B, 0x1E4B, .Valid),
  (0x1E4C, 0x1E4C, .Mapped [0x1E4D]),
  (0x1E4D, 0x1E4D, .Valid),
  (0x1E4E, 0x1E4E, .Mapped [0x1E4F]),
  (0x1E4F, 0x1E4F, .Valid),
  (0x1E50, 0x1E50, .Mapped [0x1E51]),
  (0x1E51, 0x1E51, .Valid),
  (0x1E52, 0x1E52, .Mapped [0x1E53]),
  (0x1E53, 0x1E53, .Valid),
  (0x1E54, 0x1E54, .Mapped [0x1E55]),
  (0x1E55, 0x1E55, .Valid),
  (0x1E56, 0x1E56, .Mapped [0x1E57]),
  (0x1E57, 0x1E57, .Valid),
  (0x1E58, 0x1E58, .Mapped [0x1E59]),
  (0x1E59, 0x1E59, .Valid),
  (0x1E5A, 0x1E5A, .Mapped [0x1E5B]),
  (0x1E5B, 0x1E5B, .Valid),
  (0x1E5C, 0x1E5C, .Mapped [0x1E5D]),
  (0x1E5D, 0x1E5D, .Valid),
  (0x1E5E, 0x1E5E, .Mapped [0x1E5F]),
  (0x1E5F, 0x1E5F, .Valid),
  (0x1E60, 0x1E60, .Mapped [0x1E61]),
  (0x1E61, 0x1E61, .Valid),
  (0x1E62, 0x1E62, .Mapped [0x1E63]),
  (0x1E63, 0x1E63, .Valid),
  (0x1E64, 0x1E64, .Mapped [0x1E65]),
  (0x1E65, 0x1E65, .Valid),
  (0x1E66, 0x1E66, .Mapped [0x1E67]),
  (0x1E67, 0x1E67, .Valid),
  (0x1E68, 0x1E68, .Mapped [0x1E69]),
  (0x1E69, 0x1E69, .Valid),
  (0x1E6A, 0x1E6A, .Mapped [0x1E6B]),
  (0x1E6B, 0x1E6B, .Valid),
  (0x1E6C, 0x1E6C, .Mapped [0x1E6D]),
  (0x1E6D, 0x1E6D, .Valid),
  (0x1E6E, 0x1E6E, .Mapped [0x1E6F]),
  (0x1E6F, 0x1E6F, .Valid),
  (0x1E70, 0x1E70, .Mapped [0x1E71]),
  (0x1E71, 0x1E71, .Valid),
  (0x1E72, 0x1E72, .Mapped [0x1E73]),
  (0x1E73, 0x1E73, .Valid),
  (0x1E74, 0x1E74, .Mapped [0x1E75]),
  (0x1E75, 0x1E75, .Valid),
  (0x1E76, 0x1E76, .Mapped [0x1E77]),
  (0x1E77, 0x1E77, .Valid),
  (0x1E78, 0x1E78, .Mapped [0x1E79]),
  (0x1E79, 0x1E79, .Valid)]
def idnaMapping_25 : List (Nat × Nat × Mapping) := [
  (0x1E7A, 0x1E7A, .Mapped [0x1E7B]),
  (0x1E7B, 0x1E7B, .Valid),
  (0x1E7C, 0x1E7C, .Mapped [0x1E7D]),
  (0x1E7D, 0x1E7D, .Valid),
  (0x1E7E, 0x1E7E, .Mapped [0x1E7F]),
  (0x1E7F, 0x1E7F, .Valid),
  (0x1E80, 0x1E80, .Mapped [0x1E81]),
  (0x1E81, 0x1E81, .Valid),
  (0x1E82, 0x1E82, .Mapped [0x1E83]),
  (0x1E83, 0x1E83, .Valid),
  (0x1E84, 0x1E84, .Mapped [0x1E85]),
  (0x1E85, 0x1E85, .Valid),
  (0x1E86, 0x1E86, .Mapped [0x1E87]),
  (0x1E87, 0x1E87, .Valid),
  (0x1E88, 0x1E88, .Mapped [0x1E89]),
  (0x1E89, 0x1E89, .Valid),
  (0x1E8A, 0x1E8A, .Mapped [0x1E8B]),
  (0x1E8B, 0x1E8B, .Valid),
  (0x1E8C, 0x1E8C, .Mapped [0x1E8D]),
  (0x1E8D, 0x1E8D, .Valid),
  (0x1E8E, 0x1E8E, .Mapped [0x1E8F]),
  (0x1E8F, 0x1E8F, .Valid),
  (0x1E90, 0x1E90, .Mapped [0x1E91]),
  (0x1E91, 0x1E91, .Valid),
  (0x1E92, 0x1E92, .Mapped [0x1E93]),
  (0x1E93, 0x1E93, .Valid),
  (0x1E94, 0x1E94, .Mapped [0x1E95]),
  (0x1E95, 0x1E99, .Valid),
  (0x1E9A, 0x1E9A, .Mapped [0x61, 0x2BE]),
  (0x1E9B, 0x1E9B, .Mapped [0x1E61]),
  (0x1E9C, 0x1E9D, .Valid),
  (0x1E9E, 0x1E9E, .Mapped [0x73, 0x73]),
  (0x1E9F, 0x1E9F, .Valid),
  (0x1EA0, 0x1EA0, .Mapped [0x1EA1]),
  (0x1EA1, 0x1EA1, .Valid),
  (0x1EA2, 0x1EA2, .Mapped [0x1EA3]),
  (0x1EA3, 0x1EA3, .Valid),
  (0x1EA4, 0x1EA4, .Mapped [0x1EA5]),
  (0x1EA5, 0x1EA5, .Valid),
  (0x1EA6, 0x1EA6, .Mapped [0x1EA7]),
  (0x1EA7, 0x1EA7, .Valid),
  (0x1EA8, 0x1EA8, .Mapped [0x1EA9]),
  (0x1EA9, 0x1EA9, .Valid),
  (0x1EAA, 0x1EAA, .Mapped [0x1EAB]),
  (0x1EAB, 0x1EAB, .Valid),
  (0x1EAC, 0x1EAC, .Mapped [0x1EAD]),
  (0x1EAD, 0x1EAD, .Valid),
  (0x1EAE, 0x1EAE, .Mapped [0x1EAF]),
  (0x1EAF, 0x1EAF, .Valid),
  (0x1EB0, 0x1EB0, .Mapped [0x1EB1]),
  (0x1EB1, 0x1EB1, .Valid),
  (0x1EB2, 0x1EB2, .Mapped [0x1EB3]),
  (0x1EB3, 0x1EB3, .Valid),
  (0x1EB4, 0x1EB4, .Mapped [0x1EB5]),
  (0x1EB5, 0x1EB5, .Valid),
  (0x1EB6, 0x1EB6, .Mapped [0x1EB7]),
  (0x1EB7, 0x1EB7, .Valid),
  (0x1EB8, 0x1EB8, .Mapped [0x1EB9]),
  (0x1EB9, 0x1EB9, .Valid),
  (0x1EBA, 0x1EBA, .Mapped [0x1EBB]),
  (0x1EBB, 0x1EBB, .Valid),
  (0x1EBC, 0x1EBC, .Mapped [0x1EBD]),
  (0x1EBD, 0x1EBD, .Valid),
  (0x1EBE, 0x1EBE, .Mapped [0x1EBF])]
def idnaMapping_26 : List (Nat × Nat × Mapping) := [
  (0x1EBF, 0x1EBF, .Valid),
  (0x1EC0, 0x1EC0, .Mapped [0x1EC1]),
  (0x1EC1, 0x1EC1, .Valid),
  (0x1EC2, 0x1EC2, .Mapped [0x1EC3]),
  (0x1EC3, 0x1EC3, .Valid),
  (0x1EC4, 0x1EC4, .Mapped [0x1EC5]),
  (0x1EC5, 0x1EC5, .Valid),
  (0x1EC6, 0x1EC6, .Mapped [0x1EC7]),
  (0x1EC7, 0x1EC7, .Valid),
  (0x1EC8, 0x1EC8, .Mapped [0x1EC9]),
  (0x1EC9, 0x1EC9, .Valid),
  (0x1ECA, 0x1ECA, .Mapped [0x1ECB]),
  (0x1ECB, 0x1ECB, .Valid),
  (0x1ECC, 0x1ECC, .Mapped [0x1ECD]),
  (0x1ECD, 0x1ECD, .Valid),
  (0x1ECE, 0x1ECE, .Mapped [0x1ECF]),
  (0x1ECF, 0x1ECF, .Valid),
  (0x1ED0, 0x1ED0, .Mapped [0x1ED1]),
  (0x1ED1, 0x1ED1, .Valid),
  (0x1ED2, 0x1ED2, .Mapped [0x1ED3]),
  (0x1ED3, 0x1ED3, .Valid),
  (0x1ED4, 0x1ED4, .Mapped [0x1ED5]),
  (0x1ED5, 0x1ED5, .Valid),
  (0x1ED6, 0x1ED6, .Mapped [0x1ED7]),
  (0x1ED7, 0x1ED7, .Valid),
  (0x1ED8, 0x1ED8, .Mapped [0x1ED9]),
  (0x1ED9, 0x1ED9, .Valid),
  (0x1EDA, 0x1EDA, .Mapped [0x1EDB]),
  (0x1EDB, 0x1EDB, .Valid),
  (0x1EDC, 0x1EDC, .Mapped [0x1EDD]),
  (0x1EDD, 0x1EDD, .Valid),
  (0x1EDE, 0x1EDE, .Mapped [0x1EDF]),
  (0x1EDF, 0x1EDF, .Valid),
  (0x1EE0, 0x1EE0, .Mapped [0x1EE1]),
  (0x1EE1, 0x1EE1, .Valid),
  (0x1EE2, 0x1EE2, .Mapped [0x1EE3]),
  (0x1EE3, 0x1EE3, .Valid),
  (0x1EE4, 0x1EE4, .Mapped [0x1EE5]),
  (0x1EE5, 0x1EE5, .Valid),
  (0x1EE6, 0x1EE6, .Mapped [0x1EE7]),
  (0x1EE7, 0x1EE7, .Valid),
  (0x1EE8, 0x1EE8, .Mapped [0x1EE9]),
  (0x1EE9, 0x1EE9, .Valid),
  (0x1EEA, 0x1EEA, .Mapped [0x1EEB]),
  (0x1EEB, 0x1EEB, .Valid),
  (0x1EEC, 0x1EEC, .Mapped [0x1EED]),
  (0x1EED, 0x1EED, .Valid),
  (0x1EEE, 0x1EEE, .Mapped [0x1EEF]),
  (0x1EEF, 0x1EEF, .Valid),
  (0x1EF0, 0x1EF0, .Mapped [0x1EF1]),
  (0x1EF1, 0x1EF1, .Valid),
  (0x1EF2, 0x1EF2, .Mapped [0x1EF3]),
  (0x1EF3, 0x1EF3, .Valid),
  (0x1EF4, 0x1EF4, .Mapped [0x1EF5]),
  (0x1EF5, 0x1EF5, .Valid),
  (0x1EF6, 0x1EF6, .Mapped [0x1EF7]),
  (0x1EF7, 0x1EF7, .Valid),
  (0x1EF8, 0x1EF8, .Mapped [0x1EF9]),
  (0x1EF9, 0x1EF9, .Valid),
  (0x1EFA, 0x1EFA, .Mapped [0x1EFB]),
  (0x1EFB, 0x1EFB, .Valid),
  (0x1EFC, 0x1EFC, .Mapped [0x1EFD]),
  (0x1EFD, 0x1EFD, .Valid),
  (0x1EFE, 0x1EFE, .Mapped [0x1EFF])]
def idnaMapping_27 : List (Nat × Nat × Mapping) := [
  (0x1EFF, 0x1F07, .Valid),
  (0x1F08, 0x1F08, .Mapped [0x1F00]),
  (0x1F09, 0x1F09, .Mapped [0x1F01]),
  (0x1F0A, 0x1F0A, .Mapped [0x1F02]),
  (0x1F0B, 0x1F0B, .Mapped [0x1F03]),
  (0x1F0C, 0x1F0C, .Mapped [0x1F04]),
  (0x1F0D, 0x1F0D, .Mapped [0x1F05]),
  (0x1F0E, 0x1F0E, .Mapped [0x1F06]),
  (0x1F0F, 0x1F0F, .Mapped [0x1F07]),
  (0x1F10, 0x1F15, .Valid),
  (0x1F16, 0x1F17, .Disallowed),
  (0x1F18, 0x1F18, .Mapped [0x1F10]),
  (0x1F19, 0x1F19, .Mapped [0x1F11]),
  (0x1F1A, 0x1F1A, .Mapped [0x1F12]),
  (0x1F1B, 0x1F1B, .Mapped [0x1F13]),
  (0x1F1C, 0x1F1C, .Mapped [0x1F14]),
  (0x1F1D, 0x1F1D, .Mapped [0x1F15]),
  (0x1F1E, 0x1F1F, .Disallowed),
  (0x1F20, 0x1F27, .Valid),
  (0x1F28, 0x1F28, .Mapped [0x1F20]),
  (0x1F29, 0x1F29, .Mapped [0x1F21]),
  (0x1F2A, 0x1F2A, .Mapped [0x1F22]),
  (0x1F2B, 0x1F2B, .Mapped [0x1F23]),
  (0x1F2C, 0x1F2C, .Mapped [0x1F24]),
  (0x1F2D, 0x1F2D, .Mapped [0x1F25]),
  (0x1F2E, 0x1F2E, .Mapped [0x1F26]),
  (0x1F2F, 0x1F2F, .Mapped [0x1F27]),
  (0x1F30, 0x1F37, .Valid),
  (0x1F38, 0x1F38, .Mapped [0x1F30]),
  (0x1F39, 0x1F39, .Mapped [0x1F31]),
  (0x1F3A, 0x1F3A, .Mapped [0x1F32]),
  (0x1F3B, 0x1F3B, .Mapped [0x1F33]),
  (0x1F3C, 0x1F3C, .Mapped [0x1F34]),
  (0x1F3D, 0x1F3D, .Mapped [0x1F35]),
  (0x1F3E, 0x1F3E, .Mapped [0x1F36]),
  (0x1F3F, 0x1F3F, .Mapped [0x1F37]),
  (0x1F40, 0x1F45, .Valid),
  (0x1F46, 0x1F47, .Disallowed),
  (0x1F48, 0x1F48, .Mapped [0x1F40]),
  (0x1F49, 0x1F49, .Mapped [0x1F41]),
  (0x1F4A, 0x1F4A, .Mapped [0x1F42]),
  (0x1F4B, 0x1F4B, .Mapped [0x1F43]),
  (0x1F4C, 0x1F4C, .Mapped [0x1F44]),
  (0x1F4D, 0x1F4D, .Mapped [0x1F45]),
  (0x1F4E, 0x1F4F, .Disallowed),
  (0x1F50, 0x1F57, .Valid),
  (0x1F58, 0x1F58, .Disallowed),
  (0x1F59, 0x1F59, .Mapped [0x1F51]),
  (0x1F5A, 0x1F5A, .Disallowed),
  (0x1F5B, 0x1F5B, .Mapped [0x1F53]),
  (0x1F5C, 0x1F5C, .Disallowed),
  (0x1F5D, 0x1F5D, .Mapped [0x1F55]),
  (0x1F5E, 0x1F5E, .Disallowed),
  (0x1F5F, 0x1F5F, .Mapped [0x1F57]),
  (0x1F60, 0x1F67, .Valid),
  (0x1F68, 0x1F68, .Mapped [0x1F60]),
  (0x1F69, 0x1F69, .Mapped [0x1F61]),
  (0x1F6A, 0x1F6A, .Mapped [0x1F62]),
  (0x1F6B, 0x1F6B, .Mapped [0x1F63]),
  (0x1F6C, 0x1F6C, .Mapped [0x1F64]),
  (0x1F6D, 0x1F6D, .Mapped [0x1F65]),
  (0x1F6E, 0x1F6E, .Mapped [0x1F66]),
  (0x1F6F, 0x1F6F, .Mapped [0x1F67]),
  (0x1F70, 0x1F70, .Valid)]
def idnaMapping_28 : List (Nat × Nat × Mapping) := [
  (0x1F71, 0x1F71, .Mapped [0x3AC]),
  (0x1F72, 0x1F72, .Valid),
  (0x1F73, 0x1F73, .Mapped [0x3AD]),
  (0x1F74, 0x1F74, .Valid),
  (0x1F75, 0x1F75, .Mapped [0x3AE]),
  (0x1F76, 0x1F76, .Valid),
  (0x1F77, 0x1F77, .Mapped [0x3AF]),
  (0x1F78, 0x1F78, .Valid),
  (0x1F79, 0x1F79, .Mapped [0x3CC]),
  (0x1F7A, 0x1F7A, .Valid),
  (0x1F7B, 0x1F7B, .Mapped [0x3CD]),
  (0x1F7C, 0x1F7C, .Valid),
  (0x1F7D, 0x1F7D, .Mapped [0x3CE]),
  (0x1F7E, 0x1F7F, .Disallowed),
  (0x1F80, 0x1F80, .Mapped [0x1F00, 0x3B9]),
  (0x1F81, 0x1F81, .Mapped [0x1F01, 0x3B9]),
  (0x1F82, 0x1F82, .Mapped [0x1F02, 0x3B9]),
  (0x1F83, 0x1F83, .Mapped [0x1F03, 0x3B9]),
  (0x1F84, 0x1F84, .Mapped [0x1F04, 0x3B9]),
  (0x1F85, 0x1F85, .Mapped [0x1F05, 0x3B9]),
  (0x1F86, 0x1F86, .Mapped [0x1F06, 0x3B9]),
  (0x1F87, 0x1F87, .Mapped [0x1F07, 0x3B9]),
  (0x1F88, 0x1F88, .Mapped [0x1F00, 0x3B9]),
  (0x1F89, 0x1F89, .Mapped [0x1F01, 0x3B9]),
  (0x1F8A, 0x1F8A, .Mapped [0x1F02, 0x3B9]),
  (0x1F8B, 0x1F8B, .Mapped [0x1F03, 0x3B9]),
  (0x1F8C, 0x1F8C, .Mapped [0x1F04, 0x3B9]),
  (0x1F8D, 0x1F8D, .Mapped [0x1F05, 0x3B9]),
  (0x1F8E, 0x1F8E, .Mapped [0x1F06, 0x3B9]),
  (0x1F8F, 0x1F8F, .Mapped [0x1F07, 0x3B9]),
  (0x1F90, 0x1F90, .Mapped [0x1F20, 0x3B9]),
  (0x1F91, 0x1F91, .Mapped [0x1F21, 0x3B9]),
  (0x1F92, 0x1F92, .Mapped [0x1F22, 0x3B9]),
  (0x1F93, 0x1F93, .Mapped [0x1F23, 0x3B9]),
  (0x1F94, 0x1F94, .Mapped [0x1F24, 0x3B9]),
  (0x1F95, 0x1F95, .Mapped [0x1F25, 0x3B9]),
  (0x1F96, 0x1F96, .Mapped [0x1F26, 0x3B9]),
  (0x1F97, 0x1F97, .Mapped [0x1F27, 0x3B9]),
  (0x1F98, 0x1F98, .Mapped [0x1F20, 0x3B9]),
  (0x1F99, 0x1F99, .Mapped [0x1F21, 0x3B9]),
  (0x1F9A, 0x1F9A, .Mapped [0x1F22, 0x3B9]),
  (0x1F9B, 0x1F9B, .Mapped [0x1F23, 0x3B9]),
  (0x1F9C, 0x1F9C, .Mapped [0x1F24, 0x3B9]),
  (0x1F9D, 0x1F9D, .Mapped [0x1F25, 0x3B9]),
  (0x1F9E, 0x1F9E, .Mapped [0x1F26, 0x3B9]),
  (0x1F9F, 0x1F9F, .Mapped [0x1F27, 0x3B9]),
  (0x1FA0, 0x1FA0, .Mapped [0x1F60, 0x3B9]),
  (0x1FA1, 0x1FA1, .Mapped [0x1F61, 0x3B9]),
  (0x1FA2, 0x1FA2, .Mapped [0x1F62, 0x3B9]),
  (0x1FA3, 0x1FA3, .Mapped [0x1F63, 0x3B9]),
  (0x1FA4, 0x1FA4, .Mapped [0x1F64, 0x3B9]),
  (0x1FA5, 0x1FA5, .Mapped [0x1F65, 0x3B9]),
  (0x1FA6, 0x1FA6, .Mapped [0x1F66, 0x3B9]),
  (0x1FA7, 0x1FA7, .Mapped [0x1F67, 0x3B9]),
  (0x1FA8, 0x1FA8, .Mapped [0x1F60, 0x3B9]),
  (0x1FA9, 0x1FA9, .Mapped [0x1F61, 0x3B9]),
  (0x1FAA, 0x1FAA, .Mapped [0x1F62, 0x3B9]),
  (0x1FAB, 0x1FAB, .Mapped [0x1F63, 0x3B9]),
  (0x1FAC, 0x1FAC, .Mapped [0x1F64, 0x3B9]),
  (0x1FAD, 0x1FAD, .Mapped [0x1F65, 0x3B9]),
  (0x1FAE, 0x1FAE, .Mapped [0x1F66, 0x3B9]),
  (0x1FAF, 0x1FAF, .Mapped [0x1F67, 0x3B9]),
  (0x1FB0, 0x1FB1, .Valid),
  (0x1FB2, 0x1FB2, .Mapped [0x1F70, 0x3B9])]
def idnaMapping_29 : List (Nat × Nat × Mapping) := [
  (0x1FB3, 0x1FB3, .Mapped [0x3B1, 0x3B9]),
  (0x1FB4, 0x1FB4, .Mapped [0x3AC, 0x3B9]),
  (0x1FB5, 0x1FB5, .Disallowed),
  (0x1FB6, 0x1FB6, .Valid),
  (0x1FB7, 0x1FB7, .Mapped [0x1FB6, 0x3B9]),
  (0x1FB8, 0x1FB8, .Mapped [0x1FB0]),
  (0x1FB9, 0x1FB9, .Mapped [0x1FB1]),
  (0x1FBA, 0x1FBA, .Mapped [0x1F70]),
  (0x1FBB, 0x1FBB, .Mapped [0x3AC]),
  (0x1FBC, 0x1FBC, .Mapped [0x3B1, 0x3B9]),
  (0x1FBD, 0x1FBD, .DisallowedStd3Mapped [0x20, 0x313]),
  (0x1FBE, 0x1FBE, .Mapped [0x3B9]),
  (0x1FBF, 0x1FBF, .DisallowedStd3Mapped [0x20, 0x313]),
  (0x1FC0, 0x1FC0, .DisallowedStd3Mapped [0x20, 0x342]),
  (0x1FC1, 0x1FC1, .DisallowedStd3Mapped [0x20, 0x308, 0x342]),
  (0x1FC2, 0x1FC2, .Mapped [0x1F74, 0x3B9]),
  (0x1FC3, 0x1FC3, .Mapped [0x3B7, 0x3B9]),
  (0x1FC4, 0x1FC4, .Mapped [0x3AE, 0x3B9]),
  (0x1FC5, 0x1FC5, .Disallowed),
  (0x1FC6, 0x1FC6, .Valid),
  (0x1FC7, 0x1FC7, .Mapped [0x1FC6, 0x3B9]),
  (0x1FC8, 0x1FC8, .Mapped [0x1F72]),
  (0x1FC9, 0x1FC9, .Mapped [0x3AD]),
  (0x1FCA, 0x1FCA, .Mapped [0x1F74]),
  (0x1FCB, 0x1FCB, .Mapped [0x3AE]),
  (0x1FCC, 0x1FCC, .Mapped [0x3B7, 0x3B9]),
  (0x1FCD, 0x1FCD, .DisallowedStd3Mapped [0x20, 0x313, 0x300]),
  (0x1FCE, 0x1FCE, .DisallowedStd3Mapped [0x20, 0x313, 0x301]),
  (0x1FCF, 0x1FCF, .DisallowedStd3Mapped [0x20, 0x313, 0x342]),
  (0x1FD0, 0x1FD2, .Valid),
  (0x1FD3, 0x1FD3, .Mapped [0x390]),
  (0x1FD4, 0x1FD5, .Disallowed),
  (0x1FD6, 0x1FD7, .Valid),
  (0x1FD8, 0x1FD8, .Mapped [0x1FD0]),
  (0x1FD9, 0x1FD9, .Mapped [0x1FD1]),
  (0x1FDA, 0x1FDA, .Mapped [0x1F76]),
  (0x1FDB, 0x1FDB, .Mapped [0x3AF]),
  (0x1FDC, 0x1FDC, .Disallowed),
  (0x1FDD, 0x1FDD, .DisallowedStd3Mapped [0x20, 0x314, 0x300]),
  (0x1FDE, 0x1FDE, .DisallowedStd3Mapped [0x20, 0x314, 0x301]),
  (0x1FDF, 0x1FDF, .DisallowedStd3Mapped [0x20, 0x314, 0x342]),
  (0x1FE0, 0x1FE2, .Valid),
  (0x1FE3, 0x1FE3, .Mapped [0x3B0]),
  (0x1FE4, 0x1FE7, .Valid),
  (0x1FE8, 0x1FE8, .Mapped [0x1FE0]),
  (0x1FE9, 0x1FE9, .Mapped [0x1FE1]),
  (0x1FEA, 0x1FEA, .Mapped [0x1F7A]),
  (0x1FEB, 0x1FEB, .Mapped [0x3CD]),
  (0x1FEC, 0x1FEC, .Mapped [0x1FE5]),
  (0x1FED, 0x1FED, .DisallowedStd3Mapped [0x20, 0x308, 0x300]),
  (0x1FEE, 0x1FEE, .DisallowedStd3Mapped [0x20, 0x308, 0x301]),
  (0x1FEF, 0x1FEF, .DisallowedStd3Mapped [0x60]),
  (0x1FF0, 0x1FF1, .Disallowed),
  (0x1FF2, 0x1FF2, .Mapped [0x1F7C, 0x3B9]),
  (0x1FF3, 0x1FF3, .Mapped [0x3C9, 0x3B9]),
  (0x1FF4, 0x1FF4, .Mapped [0x3CE, 0x3B9]),
  (0x1FF5, 0x1FF5, .Disallowed),
  (0x1FF6, 0x1FF6, .Valid),
  (0x1FF7, 0x1FF7, .Mapped [0x1FF6, 0x3B9]),
  (0x1FF8, 0x1FF8, .Mapped [0x1F78]),
  (0x1FF9, 0x1FF9, .Mapped [0x3CC]),
  (0x1FFA, 0x1FFA, .Mapped [0x1F7C]),
  (0x1FFB, 0x1FFB, .Mapped [0x3CE]),
  (0x1FFC, 0x1FFC, .Mapped [0x3C9, 0x3B9])]
def idnaMapping_30 : List (Nat × Nat × Mapping) := [
  (0x1FFD, 0x1FFD, .DisallowedStd3Mapped [0x20, 0x301]),
  (0x1FFE, 0x1FFE, .DisallowedStd3Mapped [0x20, 0x314]),
  (0x1FFF, 0x1FFF, .Disallowed),
  (0x2000, 0x200A, .DisallowedStd3Mapped [0x20]),
  (0x200B, 0x200B, .Ignored),
  (0x200C, 0x200D, .Deviation []),
  (0x200E, 0x200F, .Disallowed),
  (0x2010, 0x2010, .Valid),
  (0x2011, 0x2011, .Mapped [0x2010]),
  (0x2012, 0x2016, .Valid),
  (0x2017, 0x2017, .DisallowedStd3Mapped [0x20, 0x333]),
  (0x2018, 0x2023, .Valid),
  (0x2024, 0x2026, .Disallowed),
  (0x2027, 0x2027, .Valid),
  (0x2028, 0x202E, .Disallowed),
  (0x202F, 0x202F, .DisallowedStd3Mapped [0x20]),
  (0x2030, 0x2032, .Valid),
  (0x2033, 0x2033, .Mapped [0x2032, 0x2032]),
  (0x2034, 0x2034, .Mapped [0x2032, 0x2032, 0x2032]),
  (0x2035, 0x2035, .Valid),
  (0x2036, 0x2036, .Mapped [0x2035, 0x2035]),
  (0x2037, 0x2037, .Mapped [0x2035, 0x2035, 0x2035]),
  (0x2038, 0x203B, .Valid),
  (0x203C, 0x203C, .DisallowedStd3Mapped [0x21, 0x21]),
  (0x203D, 0x203D, .Valid),
  (0x203E, 0x203E, .DisallowedStd3Mapped [0x20, 0x305]),
  (0x203F, 0x2046, .Valid),
  (0x2047, 0x2047, .DisallowedStd3Mapped [0x3F, 0x3F]),
  (0x2048, 0x2048, .DisallowedStd3Mapped [0x3F, 0x21]),
  (0x2049, 0x2049, .DisallowedStd3Mapped [0x21, 0x3F]),
  (0x204A, 0x2056, .Valid),
  (0x2057, 0x2057, .Mapped [0x2032, 0x2032, 0x2032, 0x2032]),
  (0x2058, 0x205E, .Valid),
  (0x205F, 0x205F, .DisallowedStd3Mapped [0x20]),
  (0x2060, 0x2060, .Ignored),
  (0x2061, 0x2063, .Disallowed),
  (0x2064, 0x2064, .Ignored),
  (0x2065, 0x206F, .Disallowed),
  (0x2070, 0x2070, .Mapped [0x30]),
  (0x2071, 0x2071, .Mapped [0x69]),
  (0x2072, 0x2073, .Disallowed),
  (0x2074, 0x2074, .Mapped [0x34]),
  (0x2075, 0x2075, .Mapped [0x35]),
  (0x2076, 0x2076, .Mapped [0x36]),
  (0x2077, 0x2077, .Mapped [0x37]),
  (0x2078, 0x2078, .Mapped [0x38]),
  (0x2079, 0x2079, .Mapped [0x39]),
  (0x207A, 0x207A, .DisallowedStd3Mapped [0x2B]),
  (0x207B, 0x207B, .Mapped [0x2212]),
  (0x207C, 0x207C, .DisallowedStd3Mapped [0x3D]),
  (0x207D, 0x207D, .DisallowedStd3Mapped [0x28]),
  (0x207E, 0x207E, .DisallowedStd3Mapped [0x29]),
  (0x207F, 0x207F, .Mapped [0x6E]),
  (0x2080, 0x2080, .Mapped [0x30]),
  (0x2081, 0x2081, .Mapped [0x31]),
  (0x2082, 0x2082, .Mapped [0x32]),
  (0x2083, 0x2083, .Mapped [0x33]),
  (0x2084, 0x2084, .Mapped [0x34]),
  (0x2085, 0x2085, .Mapped [0x35]),
  (0x2086, 0x2086, .Mapped [0x36]),
  (0x2087, 0x2087, .Mapped [0x37]),
  (0x2088, 0x2088, .Mapped [0x38]),
  (0x2089, 0x2089, .Mapped [0x39]),
  (0x208A, 0x208A, .DisallowedStd3Mapped [0x2B])]
def idnaMapping_31 : List (Nat × Nat × Mapping) := [
  (0x208B, 0x208B, .Mapped [0x2212]),
  (0x208C, 0x208C, .DisallowedStd3Mapped [0x3D]),
  (0x208D, 0x208D, .DisallowedStd3Mapped [0x28]),
  (0x208E, 0x208E, .DisallowedStd3Mapped [0x29]),
  (0x208F, 0x208F, .Disallowed),
  (0x2090, 0x2090, .Mapped [0x61]),
  (0x2091, 0x2091, .Mapped [0x65]),
  (0x2092, 0x2092, .Mapped [0x6F]),
  (0x2093, 0x2093, .Mapped [0x78]),
  (0x2094, 0x2094, .Mapped [0x259]),
  (0x2095, 0x2095, .Mapped [0x68]),
  (0x2096, 0x2096, .Mapped [0x6B]),
  (0x2097, 0x2097, .Mapped [0x6C]),
  (0x2098, 0x2098, .Mapped [0x6D]),
  (0x2099, 0x2099, .Mapped [0x6E]),
  (0x209A, 0x209A, .Mapped [0x70]),
  (0x209B, 0x209B, .Mapped [0x73]),
  (0x209C, 0x209C, .Mapped [0x74]),
  (0x209D, 0x209F, .Disallowed),
  (0x20A0, 0x20A7, .Valid),
  (0x20A8, 0x20A8, .Mapped [0x72, 0x73]),
  (0x20A9, 0x20BF, .Valid),
  (0x20C0, 0x20CF, .Disallowed),
  (0x20D0, 0x20F0, .Valid),
  (0x20F1, 0x20FF, .Disallowed),
  (0x2100, 0x2100, .DisallowedStd3Mapped [0x61, 0x2F, 0x63]),
  (0x2101, 0x2101, .DisallowedStd3Mapped [0x61, 0x2F, 0x73]),
  (0x2102, 0x2102, .Mapped [0x63]),
  (0x2103, 0x2103, .Mapped [0xB0, 0x63]),
  (0x2104, 0x2104, .Valid),
  (0x2105, 0x2105, .DisallowedStd3Mapped [0x63, 0x2F, 0x6F]),
  (0x2106, 0x2106, .DisallowedStd3Mapped [0x63, 0x2F, 0x75]),
  (0x2107, 0x2107, .Mapped [0x25B]),
  (0x2108, 0x2108, .Valid),
  (0x2109, 0x2109, .Mapped [0xB0, 0x66]),
  (0x210A, 0x210A, .Mapped [0x67]),
  (0x210B, 0x210E, .Mapped [0x68]),
  (0x210F, 0x210F, .Mapped [0x127]),
  (0x2110, 0x2111, .Mapped [0x69]),
  (0x2112, 0x2113, .Mapped [0x6C]),
  (0x2114, 0x2114, .Valid),
  (0x2115, 0x2115, .Mapped [0x6E]),
  (0x2116, 0x2116, .Mapped [0x6E, 0x6F]),
  (0x2117, 0x2118, .Valid),
  (0x2119, 0x2119, .Mapped [0x70]),
  (0x211A, 0x211A, .Mapped [0x71]),
  (0x211B, 0x211D, .Mapped [0x72]),
  (0x211E, 0x211F, .Valid),
  (0x2120, 0x2120, .Mapped [0x73, 0x6D]),
  (0x2121, 0x2121, .Mapped [0x74, 0x65, 0x6C]),
  (0x2122, 0x2122, .Mapped [0x74, 0x6D]),
  (0x2123, 0x2123, .Valid),
  (0x2124, 0x2124, .Mapped [0x7A]),
  (0x2125, 0x2125, .Valid),
  (0x2126, 0x2126, .Mapped [0x3C9]),
  (0x2127, 0x2127, .Valid),
  (0x2128, 0x2128, .Mapped [0x7A]),
  (0x2129, 0x2129, .Valid),
  (0x212A, 0x212A, .Mapped [0x6B]),
  (0x212B, 0x212B, .Mapped [0xE5]),
  (0x212C, 0x212C, .Mapped [0x62]),
  (0x212D, 0x212D, .Mapped [0x63]),
  (0x212E, 0x212E, .Valid),
  (0x212F, 0x2130, .Mapped [0x65])]
def idnaMapping_32 : List (Nat × Nat × Mapping) := [
  (0x2131, 0x2131, .Mapped [0x66]),
  (0x2132, 0x2132, .Disallowed),
  (0x2133, 0x2133, .Mapped [0x6D]),
  (0x2134, 0x2134, .Mapped [0x6F]),
  (0x2135, 0x2135, .Mapped [0x5D0]),
  (0x2136, 0x2136, .Mapped [0x5D1]),
  (0x2137, 0x2137, .Mapped [0x5D2]),
  (0x2138, 0x2138, .Mapped [0x5D3]),
  (0x2139, 0x2139, .Mapped [0x69]),
  (0x213A, 0x213A, .Valid),
  (0x213B, 0x213B, .Mapped [0x66, 0x61, 0x78]),
  (0x213C, 0x213C, .Mapped [0x3C0]),
  (0x213D, 0x213E, .Mapped [0x3B3]),
  (0x213F, 0x213F, .Mapped [0x3C0]),
  (0x2140, 0x2140, .Mapped [0x2211]),
  (0x2141, 0x2144, .Valid),
  (0x2145, 0x2146, .Mapped [0x64]),
  (0x2147, 0x2147, .Mapped [0x65]),
  (0x2148, 0x2148, .Mapped [0x69]),
  (0x2149, 0x2149, .Mapped [0x6A]),
  (0x214A, 0x214F, .Valid),
  (0x2150, 0x2150, .Mapped [0x31, 0x2044, 0x37]),
  (0x2151, 0x2151, .Mapped [0x31, 0x2044, 0x39]),
  (0x2152, 0x2152, .Mapped [0x31, 0x2044, 0x31, 0x30]),
  (0x2153, 0x2153, .Mapped [0x31, 0x2044, 0x33]),
  (0x2154, 0x2154, .Mapped [0x32, 0x2044, 0x33]),
  (0x2155, 0x2155, .Mapped [0x31, 0x2044, 0x35]),
  (0x2156, 0x2156, .Mapped [0x32, 0x2044, 0x35]),
  (0x2157, 0x2157, .Mapped [0x33, 0x2044, 0x35]),
  (0x2158, 0x2158, .Mapped [0x34, 0x2044, 0x35]),
  (0x2159, 0x2159, .Mapped [0x31, 0x2044, 0x36]),
  (0x215A, 0x215A, .Mapped [0x35, 0x2044, 0x36]),
  (0x215B, 0x215B, .Mapped [0x31, 0x2044, 0x38]),
  (0x215C, 0x215C, .Mapped [0x33, 0x2044, 0x38]),
  (0x215D, 0x215D, .Mapped [0x35, 0x2044, 0x38]),
  (0x215E, 0x215E, .Mapped [0x37, 0x2044, 0x38]),
  (0x215F, 0x215F, .Mapped [0x31, 0x2044]),
  (0x2160, 0x2160, .Mapped [0x69]),
  (0x2161, 0x2161, .Mapped [0x69, 0x69]),
  (0x2162, 0x2162, .Mapped [0x69, 0x69, 0x69]),
  (0x2163, 0x2163, .Mapped [0x69, 0x76]),
  (0x2164, 0x2164, .Mapped [0x76]),
  (0x2165, 0x2165, .Mapped [0x76, 0x69]),
  (0x2166, 0x2166, .Mapped [0x76, 0x69, 0x69]),
  (0x2167, 0x2167, .Mapped [0x76, 0x69, 0x69, 0x69]),
  (0x2168, 0x2168, .Mapped [0x69, 0x78]),
  (0x2169, 0x2169, .Mapped [0x78]),
  (0x216A, 0x216A, .Mapped [0x78, 0x69]),
  (0x216B, 0x216B, .Mapped [0x78, 0x69, 0x69]),
  (0x216C, 0x216C, .Mapped [0x6C]),
  (0x216D, 0x216D, .Mapped [0x63]),
  (0x216E, 0x216E, .Mapped [0x64]),
  (0x216F, 0x216F, .Mapped [0x6D]),
  (0x2170, 0x2170, .Mapped [0x69]),
  (0x2171, 0x2171, .Mapped [0x69, 0x69]),
  (0x2172, 0x2172, .Mapped [0x69, 0x69, 0x69]),
  (0x2173, 0x2173, .Mapped [0x69, 0x76]),
  (0x2174, 0x2174, .Mapped [0x76]),
  (0x2175, 0x2175, .Mapped [0x76, 0x69]),
  (0x2176, 0x2176, .Mapped [0x76, 0x69, 0x69]),
  (0x2177, 0x2177, .Mapped [0x76, 0x69, 0x69, 0x69]),
  (0x2178, 0x2178, .Mapped [0x69, 0x78]),
  (0x2179, 0x2179, .Mapped [0x78]),
  (0x217A, 0x217A, .Mapped [0x78, 0x69])]
def idnaMapping_33 : List (Nat × Nat × Mapping) := [
  (0x217B, 0x217B, .Mapped [0x78, 0x69, 0x69]),
  (0x217C, 0x217C, .Mapped [0x6C]),
  (0x217D, 0x217D, .Mapped [0x63]),
  (0x217E, 0x217E, .Mapped [0x64]),
  (0x217F, 0x217F, .Mapped [0x6D]),
  (0x2180, 0x2182, .Valid),
  (0x2183, 0x2183, .Disallowed),
  (0x2184, 0x2188, .Valid),
  (0x2189, 0x2189, .Mapped [0x30, 0x2044, 0x33]),
  (0x218A, 0x218B, .Valid),
  (0x218C, 0x218F, .Disallowed),
  (0x2190, 0x222B, .Valid),
  (0x222C, 0x222C, .Mapped [0x222B, 0x222B]),
  (0x222D, 0x222D, .Mapped [0x222B, 0x222B, 0x222B]),
  (0x222E, 0x222E, .Valid),
  (0x222F, 0x222F, .Mapped [0x222E, 0x222E]),
  (0x2230, 0x2230, .Mapped [0x222E, 0x222E, 0x222E]),
  (0x2231, 0x225F, .Valid),
  (0x2260, 0x2260, .DisallowedStd3Valid),
  (0x2261, 0x226D, .Valid),
  (0x226E, 0x226F, .DisallowedStd3Valid),
  (0x2270, 0x2328, .Valid),
  (0x2329, 0x2329, .Mapped [0x3008]),
  (0x232A, 0x232A, .Mapped [0x3009]),
  (0x232B, 0x2426, .Valid),
  (0x2427, 0x243F, .Disallowed),
  (0x2440, 0x244A, .Valid),
  (0x244B, 0x245F, .Disallowed),
  (0x2460, 0x2460, .Mapped [0x31]),
  (0x2461, 0x2461, .Mapped [0x32]),
  (0x2462, 0x2462, .Mapped [0x33]),
  (0x2463, 0x2463, .Mapped [0x34]),
  (0x2464, 0x2464, .Mapped [0x35]),
  (0x2465, 0x2465, .Mapped [0x36]),
  (0x2466, 0x2466, .Mapped [0x37]),
  (0x2467, 0x2467, .Mapped [0x38]),
  (0x2468, 0x2468, .Mapped [0x39]),
  (0x2469, 0x2469, .Mapped [0x31, 0x30]),
  (0x246A, 0x246A, .Mapped [0x31, 0x31]),
  (0x246B, 0x246B, .Mapped [0x31, 0x32]),
  (0x246C, 0x246C, .Mapped [0x31, 0x33]),
  (0x246D, 0x246D, .Mapped [0x31, 0x34]),
  (0x246E, 0x246E, .Mapped [0x31, 0x35]),
  (0x246F, 0x246F, .Mapped [0x31, 0x36]),
  (0x2470, 0x2470, .Mapped [0x31, 0x37]),
  (0x2471, 0x2471, .Mapped [0x31, 0x38]),
  (0x2472, 0x2472, .Mapped [0x31, 0x39]),
  (0x2473, 0x2473, .Mapped [0x32, 0x30]),
  (0x2474, 0x2474, .DisallowedStd3Mapped [0x28, 0x31, 0x29]),
  (0x2475, 0x2475, .DisallowedStd3Mapped [0x28, 0x32, 0x29]),
  (0x2476, 0x2476, .DisallowedStd3Mapped [0x28, 0x33, 0x29]),
  (0x2477, 0x2477, .DisallowedStd3Mapped [0x28, 0x34, 0x29]),
  (0x2478, 0x2478, .DisallowedStd3Mapped [0x28, 0x35, 0x29]),
  (0x2479, 0x2479, .DisallowedStd3Mapped [0x28, 0x36, 0x29]),
  (0x247A, 0x247A, .DisallowedStd3Mapped [0x28, 0x37, 0x29]),
  (0x247B, 0x247B, .DisallowedStd3Mapped [0x28, 0x38, 0x29]),
  (0x247C, 0x247C, .DisallowedStd3Mapped [0x28, 0x39, 0x29]),
  (0x247D, 0x247D, .DisallowedStd3Mapped [0x28, 0x31, 0x30, 0x29]),
  (0x247E, 0x247E, .DisallowedStd3Mapped [0x28, 0x31, 0x31, 0x29]),
  (0x247F, 0x247F, .DisallowedStd3Mapped [0x28, 0x31, 0x32, 0x29]),
  (0x2480, 0x2480, .DisallowedStd3Mapped [0x28, 0x31, 0x33, 0x29]),
  (0x2481, 0x2481, .DisallowedStd3Mapped [0x28, 0x31, 0x34, 0x29]),
  (0x2482, 0x2482, .DisallowedStd3Mapped [0x28, 0x31, 0x35, 0x29]),
  (0x2483, 0x2483, .DisallowedStd3Mapped [0x28, 0x31, 0x36, 0x29])]
def idnaMapping_34 : List (Nat × Nat × Mapping) := [
  (0x2484, 0x2484, .DisallowedStd3Mapped [0x28, 0x31, 0x37, 0x29]),
  (0x2485, 0x2485, .DisallowedStd3Mapped [0x28, 0x31, 0x38, 0x29]),
  (0x2486, 0x2486, .DisallowedStd3Mapped [0x28, 0x31, 0x39, 0x29]),
  (0x2487, 0x2487, .DisallowedStd3Mapped [0x28, 0x32, 0x30, 0x29]),
  (0x2488, 0x249B, .Disallowed),
  (0x249C, 0x249C, .DisallowedStd3Mapped [0x28, 0x61, 0x29]),
  (0x249D, 0x249D, .DisallowedStd3Mapped [0x28, 0x62, 0x29]),
  (0x249E, 0x249E, .DisallowedStd3Mapped [0x28, 0x63, 0x29]),
  (0x249F, 0x249F, .DisallowedStd3Mapped [0x28, 0x64, 0x29]),
  (0x24A0, 0x24A0, .DisallowedStd3Mapped [0x28, 0x65, 0x29]),
  (0x24A1, 0x24A1, .DisallowedStd3Mapped [0x28, 0x66, 0x29]),
  (0x24A2, 0x24A2, .DisallowedStd3Mapped [0x28, 0x67, 0x29]),
  (0x24A3, 0x24A3, .DisallowedStd3Mapped [0x28, 0x68, 0x29]),
  (0x24A4, 0x24A4, .DisallowedStd3Mapped [0x28, 0x69, 0x29]),
  (0x24A5, 0x24A5, .DisallowedStd3Mapped [0x28, 0x6A, 0x29]),
  (0x24A6, 0x24A6, .DisallowedStd3Mapped [0x28, 0x6B, 0x29]),
  (0x24A7, 0x24A7, .DisallowedStd3Mapped [0x28, 0x6C, 0x29]),
  (0x24A8, 0x24A8, .DisallowedStd3Mapped [0x28, 0x6D, 0x29]),
  (0x24A9, 0x24A9, .DisallowedStd3Mapped [0x28, 0x6E, 0x29]),
  (0x24AA, 0x24AA, .DisallowedStd3Mapped [0x28, 0x6F, 0x29]),
  (0x24AB, 0x24AB, .DisallowedStd3Mapped [0x28, 0x70, 0x29]),
  (0x24AC, 0x24AC, .DisallowedStd3Mapped [0x28, 0x71, 0x29]),
  (0x24AD, 0x24AD, .DisallowedStd3Mapped [0x28, 0x72, 0x29]),
  (0x24AE, 0x24AE, .DisallowedStd3Mapped [0x28, 0x73, 0x29]),
  (0x24AF, 0x24AF, .DisallowedStd3Mapped [0x28, 0x74, 0x29]),
  (0x24B0, 0x24B0, .DisallowedStd3Mapped [0x28, 0x75, 0x29]),
  (0x24B1, 0x24B1, .DisallowedStd3Mapped [0x28, 0x76, 0x29]),
  (0x24B2, 0x24B2, .DisallowedStd3Mapped [0x28, 0x77, 0x29]),
  (0x24B3, 0x24B3, .DisallowedStd3Mapped [0x28, 0x78, 0x29]),
  (0x24B4, 0x24B4, .DisallowedStd3Mapped [0x28, 0x79, 0x29]),
  (0x24B5, 0x24B5, .DisallowedStd3Mapped [0x28, 0x7A, 0x29]),
  (0x24B6, 0x24B6, .Mapped [0x61]),
  (0x24B7, 0x24B7, .Mapped [0x62]),
  (0x24B8, 0x24B8, .Mapped [0x63]),
  (0x24B9, 0x24B9, .Mapped [0x64]),
  (0x24BA, 0x24BA, .Mapped [0x65]),
  (0x24BB, 0x24BB, .Mapped [0x66]),
  (0x24BC, 0x24BC, .Mapped [0x67]),
  (0x24BD, 0x24BD, .Mapped [0x68]),
  (0x24BE, 0x24BE, .Mapped [0x69]),
  (0x24BF, 0x24BF, .Mapped [0x6A]),
  (0x24C0, 0x24C0, .Mapped [0x6B]),
  (0x24C1, 0x24C1, .Mapped [0x6C]),
  (0x24C2, 0x24C2, .Mapped [0x6D]),
  (0x24C3, 0x24C3, .Mapped [0x6E]),
  (0x24C4, 0x24C4, .Mapped [0x6F]),
  (0x24C5, 0x24C5, .Mapped [0x70]),
  (0x24C6, 0x24C6, .Mapped [0x71]),
  (0x24C7, 0x24C7, .Mapped [0x72]),
  (0x24C8, 0x24C8, .Mapped [0x73]),
  (0x24C9, 0x24C9, .Mapped [0x74]),
  (0x24CA, 0x24CA, .Mapped [0x75]),
  (0x24CB, 0x24CB, .Mapped [0x76]),
  (0x24CC, 0x24CC, .Mapped [0x77]),
  (0x24CD, 0x24CD, .Mapped [0x78]),
  (0x24CE, 0x24CE, .Mapped [0x79]),
  (0x24CF, 0x24CF, .Mapped [0x7A]),
  (0x24D0, 0x24D0, .Mapped [0x61]),
  (0x24D1, 0x24D1, .Mapped [0x62]),
  (0x24D2, 0x24D2, .Mapped [0x63]),
  (0x24D3, 0x24D3, .Mapped [0x64]),
  (0x24D4, 0x24D4, .Mapped [0x65]),
  (0x24D5, 0x24D5, .Mapped [0x66]),
  (0x24D6, 0x24D6, .Mapped [0x67])]
def idnaMapping_35 : List (Nat × Nat × Mapping) := [
  (0x24D7, 0x24D7, .Mapped [0x68]),
  (0x24D8, 0x24D8, .Mapped [0x69]),
  (0x24D9, 0x24D9, .Mapped [0x6A]),
  (0x24DA, 0x24DA, .Mapped [0x6B]),
  (0x24DB, 0x24DB, .Mapped [0x6C]),
  (0x24DC, 0x24DC, .Mapped [0x6D]),
  (0x24DD, 0x24DD, .Mapped [0x6E]),
  (0x24DE, 0x24DE, .Mapped [0x6F]),
  (0x24DF, 0x24DF, .Mapped [0x70]),
  (0x24E0, 0x24E0, .Mapped [0x71]),
  (0x24E1, 0x24E1, .Mapped [0x72]),
  (0x24E2, 0x24E2, .Mapped [0x73]),
  (0x24E3, 0x24E3, .Mapped [0x74]),
  (0x24E4, 0x24E4, .Mapped [0x75]),
  (0x24E5, 0x24E5, .Mapped [0x76]),
  (0x24E6, 0x24E6, .Mapped [0x77]),
  (0x24E7, 0x24E7, .Mapped [0x78]),
  (0x24E8, 0x24E8, .Mapped [0x79]),
  (0x24E9, 0x24E9, .Mapped [0x7A]),
  (0x24EA, 0x24EA, .Mapped [0x30]),
  (0x24EB, 0x2A0B, .Valid),
  (0x2A0C, 0x2A0C, .Mapped [0x222B, 0x222B, 0x222B, 0x222B]),
  (0x2A0D, 0x2A73, .Valid),
  (0x2A74, 0x2A74, .DisallowedStd3Mapped [0x3A, 0x3A, 0x3D]),
  (0x2A75, 0x2A75, .DisallowedStd3Mapped [0x3D, 0x3D]),
  (0x2A76, 0x2A76, .DisallowedStd3Mapped [0x3D, 0x3D, 0x3D]),
  (0x2A77, 0x2ADB, .Valid),
  (0x2ADC, 0x2ADC, .Mapped [0x2ADD, 0x338]),
  (0x2ADD, 0x2B73, .Valid),
  (0x2B74, 0x2B75, .Disallowed),
  (0x2B76, 0x2B95, .Valid),
  (0x2B96, 0x2B97, .Disallowed),
  (0x2B98, 0x2BB9, .Valid),
  (0x2BBA, 0x2BBC, .Disallowed),
  (0x2BBD, 0x2BC8, .Valid),
  (0x2BC9, 0x2BC9, .Disallowed),
  (0x2BCA, 0x2BD2, .Valid),
  (0x2BD3, 0x2BEB, .Disallowed),
  (0x2BEC, 0x2BEF, .Valid),
  (0x2BF0, 0x2BFF, .Disallowed),
  (0x2C00, 0x2C00, .Mapped [0x2C30]),
  (0x2C01, 0x2C01, .Mapped [0x2C31]),
  (0x2C02, 0x2C02, .Mapped [0x2C32]),
  (0x2C03, 0x2C03, .Mapped [0x2C33]),
  (0x2C04, 0x2C04, .Mapped [0x2C34]),
  (0x2C05, 0x2C05, .Mapped [0x2C35]),
  (0x2C06, 0x2C06, .Mapped [0x2C36]),
  (0x2C07, 0x2C07, .Mapped [0x2C37]),
  (0x2C08, 0x2C08, .Mapped [0x2C38]),
  (0x2C09, 0x2C09, .Mapped [0x2C39]),
  (0x2C0A, 0x2C0A, .Mapped [0x2C3A]),
  (0x2C0B, 0x2C0B, .Mapped [0x2C3B]),
  (0x2C0C, 0x2C0C, .Mapped [0x2C3C]),
  (0x2C0D, 0x2C0D, .Mapped [0x2C3D]),
  (0x2C0E, 0x2C0E, .Mapped [0x2C3E]),
  (0x2C0F, 0x2C0F, .Mapped [0x2C3F]),
  (0x2C10, 0x2C10, .Mapped [0x2C40]),
  (0x2C11, 0x2C11, .Mapped [0x2C41]),
  (0x2C12, 0x2C12, .Mapped [0x2C42]),
  (0x2C13, 0x2C13, .Mapped [0x2C43]),
  (0x2C14, 0x2C14, .Mapped [0x2C44]),
  (0x2C15, 0x2C15, .Mapped [0x2C45]),
  (0x2C16, 0x2C16, .Mapped [0x2C46]),
  (0x2C17, 0x2C17, .Mapped [0x2C47])]
def idnaMapping_36 : List (Nat × Nat × Mapping) := [
  (0x2C18, 0x2C18, .Mapped [0x2C48]),
  (0x2C19, 0x2C19, .Mapped [0x2C49]),
  (0x2C1A, 0x2C1A, .Mapped [0x2C4A]),
  (0x2C1B, 0x2C1B, .Mapped [0x2C4B]),
  (0x2C1C, 0x2C1C, .Mapped [0x2C4C]),
  (0x2C1D, 0x2C1D, .Mapped [0x2C4D]),
  (0x2C1E, 0x2C1E, .Mapped [0x2C4E]),
  (0x2C1F, 0x2C1F, .Mapped [0x2C4F]),
  (0x2C20, 0x2C20, .Mapped [0x2C50]),
  (0x2C21, 0x2C21, .Mapped [0x2C51]),
  (0x2C22, 0x2C22, .Mapped [0x2C52]),
  (0x2C23, 0x2C23, .Mapped [0x2C53]),
  (0x2C24, 0x2C24, .Mapped [0x2C54]),
  (0x2C25, 0x2C25, .Mapped [0x2C55]),
  (0x2C26, 0x2C26, .Mapped [0x2C56]),
  (0x2C27, 0x2C27, .Mapped [0x2C57]),
  (0x2C28, 0x2C28, .Mapped [0x2C58]),
  (0x2C29, 0x2C29, .Mapped [0x2C59]),
  (0x2C2A, 0x2C2A, .Mapped [0x2C5A]),
  (0x2C2B, 0x2C2B, .Mapped [0x2C5B]),
  (0x2C2C, 0x2C2C, .Mapped [0x2C5C]),
  (0x2C2D, 0x2C2D, .Mapped [0x2C5D]),
  (0x2C2E, 0x2C2E, .Mapped [0x2C5E]),
  (0x2C2F, 0x2C2F, .Disallowed),
  (0x2C30, 0x2C5E, .Valid),
  (0x2C5F, 0x2C5F, .Disallowed),
  (0x2C60, 0x2C60, .Mapped [0x2C61]),
  (0x2C61, 0x2C61, .Valid),
  (0x2C62, 0x2C62, .Mapped [0x26B]),
  (0x2C63, 0x2C63, .Mapped [0x1D7D]),
  (0x2C64, 0x2C64, .Mapped [0x27D]),
  (0x2C65, 0x2C66, .Valid),
  (0x2C67, 0x2C67, .Mapped [0x2C68]),
  (0x2C68, 0x2C68, .Valid),
  (0x2C69, 0x2C69, .Mapped [0x2C6A]),
  (0x2C6A, 0x2C6A, .Valid),
  (0x2C6B, 0x2C6B, .Mapped [0x2C6C]),
  (0x2C6C, 0x2C6C, .Valid),
  (0x2C6D, 0x2C6D, .Mapped [0x251]),
  (0x2C6E, 0x2C6E, .Mapped [0x271]),
  (0x2C6F, 0x2C6F, .Mapped [0x250]),
  (0x2C70, 0x2C70, .Mapped [0x252]),
  (0x2C71, 0x2C71, .Valid),
  (0x2C72, 0x2C72, .Mapped [0x2C73]),
  (0x2C73, 0x2C74, .Valid),
  (0x2C75, 0x2C75, .Mapped [0x2C76]),
  (0x2C76, 0x2C7B, .Valid),
  (0x2C7C, 0x2C7C, .Mapped [0x6A]),
  (0x2C7D, 0x2C7D, .Mapped [0x76]),
  (0x2C7E, 0x2C7E, .Mapped [0x23F]),
  (0x2C7F, 0x2C7F, .Mapped [0x240]),
  (0x2C80, 0x2C80, .Mapped [0x2C81]),
  (0x2C81, 0x2C81, .Valid),
  (0x2C82, 0x2C82, .Mapped [0x2C83]),
  (0x2C83, 0x2C83, .Valid),
  (0x2C84, 0x2C84, .Mapped [0x2C85]),
  (0x2C85, 0x2C85, .Valid),
  (0x2C86, 0x2C86, .Mapped [0x2C87]),
  (0x2C87, 0x2C87, .Valid),
  (0x2C88, 0x2C88, .Mapped [0x2C89]),
  (0x2C89, 0x2C89, .Valid),
  (0x2C8A, 0x2C8A, .Mapped [0x2C8B]),
  (0x2C8B, 0x2C8B, .Valid),
  (0x2C8C, 0x2C8C, .Mapped [0x2C8D])]
def idnaMapping_37 : List (Nat × Nat × Mapping) := [
  (0x2C8D, 0x2C8D, .Valid),
  (0x2C8E, 0x2C8E, .Mapped [0x2C8F]),
  (0x2C8F, 0x2C8F, .Valid),
  (0x2C90, 0x2C90, .Mapped [0x2C91]),
  (0x2C91, 0x2C91, .Valid),
  (0x2C92, 0x2C92, .Mapped [0x2C93]),
  (0x2C93, 0x2C93, .Valid),
  (0x2C94, 0x2C94, .Mapped [0x2C95]),
  (0x2C95, 0x2C95, .Valid),
  (0x2C96, 0x2C96, .Mapped [0x2C97]),
  (0x2C97, 0x2C97, .Valid),
  (0x2C98, 0x2C98, .Mapped [0x2C99]),
  (0x2C99, 0x2C99, .Valid),
  (0x2C9A, 0x2C9A, .Mapped [0x2C9B]),
  (0x2C9B, 0x2C9B, .Valid),
  (0x2C9C, 0x2C9C, .Mapped [0x2C9D]),
  (0x2C9D, 0x2C9D, .Valid),
  (0x2C9E, 0x2C9E, .Mapped [0x2C9F]),
  (0x2C9F, 0x2C9F, .Valid),
  (0x2CA0, 0x2CA0, .Mapped [0x2CA1]),
  (0x2CA1, 0x2CA1, .Valid),
  (0x2CA2, 0x2CA2, .Mapped [0x2CA3]),
  (0x2CA3, 0x2CA3, .Valid),
  (0x2CA4, 0x2CA4, .Mapped [0x2CA5]),
  (0x2CA5, 0x2CA5, .Valid),
  (0x2CA6, 0x2CA6, .Mapped [0x2CA7]),
  (0x2CA7, 0x2CA7, .Valid),
  (0x2CA8, 0x2CA8, .Mapped [0x2CA9]),
  (0x2CA9, 0x2CA9, .Valid),
  (0x2CAA, 0x2CAA, .Mapped [0x2CAB]),
  (0x2CAB, 0x2CAB, .Valid),
  (0x2CAC, 0x2CAC, .Mapped [0x2CAD]),
  (0x2CAD, 0x2CAD, .Valid),
  (0x2CAE, 0x2CAE, .Mapped [0x2CAF]),
  (0x2CAF, 0x2CAF, .Valid),
  (0x2CB0, 0x2CB0, .Mapped [0x2CB1]),
  (0x2CB1, 0x2CB1, .Valid),
  (0x2CB2, 0x2CB2, .Mapped [0x2CB3]),
  (0x2CB3, 0x2CB3, .Valid),
  (0x2CB4, 0x2CB4, .Mapped [0x2CB5]),
  (0x2CB5, 0x2CB5, .Valid),
  (0x2CB6, 0x2CB6, .Mapped [0x2CB7]),
  (0x2CB7, 0x2CB7, .Valid),
  (0x2CB8, 0x2CB8, .Mapped [0x2CB9]),
  (0x2CB9, 0x2CB9, .Valid),
  (0x2CBA, 0x2CBA, .Mapped [0x2CBB]),
  (0x2CBB, 0x2CBB, .Valid),
  (0x2CBC, 0x2CBC, .Mapped [0x2CBD]),
  (0x2CBD, 0x2CBD, .Valid),
  (0x2CBE, 0x2CBE, .Mapped [0x2CBF]),
  (0x2CBF, 0x2CBF, .Valid),
  (0x2CC0, 0x2CC0, .Mapped [0x2CC1]),
  (0x2CC1, 0x2CC1, .Valid),
  (0x2CC2, 0x2CC2, .Mapped [0x2CC3]),
  (0x2CC3, 0x2CC3, .Valid),
  (0x2CC4, 0x2CC4, .Mapped [0x2CC5]),
  (0x2CC5, 0x2CC5, .Valid),
  (0x2CC6, 0x2CC6, .Mapped [0x2CC7]),
  (0x2CC7, 0x2CC7, .Valid),
  (0x2CC8, 0x2CC8, .Mapped [0x2CC9]),
  (0x2CC9, 0x2CC9, .Valid),
  (0x2CCA, 0x2CCA, .Mapped [0x2CCB]),
  (0x2CCB, 0x2CCB, .Valid),
  (0x2CCC, 0x2CCC, .Mapped [0x2CCD])]
def idnaMapping_38 : List (Nat × Nat × Mapping) := [
  (0x2CCD, 0x2CCD, .Valid),
  (0x2CCE, 0x2CCE, .Mapped [0x2CCF]),
  (0x2CCF, 0x2CCF, .Valid),
  (0x2CD0, 0x2CD0, .Mapped [0x2CD1]),
  (0x2CD1, 0x2CD1, .Valid),
  (0x2CD2, 0x2CD2, .Mapped [0x2CD3]),
  (0x2CD3, 0x2CD3, .Valid),
  (0x2CD4, 0x2CD4, .Mapped [0x2CD5]),
  (0x2CD5, 0x2CD5, .Valid),
  (0x2CD6, 0x2CD6, .Mapped [0x2CD7]),
  (0x2CD7, 0x2CD7, .Valid),
  (0x2CD8, 0x2CD8, .Mapped [0x2CD9]),
  (0x2CD9, 0x2CD9, .Valid),
  (0x2CDA, 0x2CDA, .Mapped [0x2CDB]),
  (0x2CDB, 0x2CDB, .Valid),
  (0x2CDC, 0x2CDC, .Mapped [0x2CDD]),
  (0x2CDD, 0x2CDD, .Valid),
  (0x2CDE, 0x2CDE, .Mapped [0x2CDF]),
  (0x2CDF, 0x2CDF, .Valid),
  (0x2CE0, 0x2CE0, .Mapped [0x2CE1]),
  (0x2CE1, 0x2CE1, .Valid),
  (0x2CE2, 0x2CE2, .Mapped [0x2CE3]),
  (0x2CE3, 0x2CEA, .Valid),
  (0x2CEB, 0x2CEB, .Mapped [0x2CEC]),
  (0x2CEC, 0x2CEC, .Valid),
  (0x2CED, 0x2CED, .Mapped [0x2CEE]),
  (0x2CEE, 0x2CF1, .Valid),
  (0x2CF2, 0x2CF2, .Mapped [0x2CF3]),
  (0x2CF3, 0x2CF3, .Valid),
  (0x2CF4, 0x2CF8, .Disallowed),
  (0x2CF9, 0x2D25, .Valid),
  (0x2D26, 0x2D26, .Disallowed),
  (0x2D27, 0x2D27, .Valid),
  (0x2D28, 0x2D2C, .Disallowed),
  (0x2D2D, 0x2D2D, .Valid),
  (0x2D2E, 0x2D2F, .Disallowed),
  (0x2D30, 0x2D67, .Valid),
  (0x2D68, 0x2D6E, .Disallowed),
  (0x2D6F, 0x2D6F, .Mapped [0x2D61]),
  (0x2D70, 0x2D70, .Valid),
  (0x2D71, 0x2D7E, .Disallowed),
  (0x2D7F, 0x2D96, .Valid),
  (0x2D97, 0x2D9F, .Disallowed),
  (0x2DA0, 0x2DA6, .Valid),
  (0x2DA7, 0x2DA7, .Disallowed),
  (0x2DA8, 0x2DAE, .Valid),
  (0x2DAF, 0x2DAF, .Disallowed),
  (0x2DB0, 0x2DB6, .Valid),
  (0x2DB7, 0x2DB7, .Disallowed),
  (0x2DB8, 0x2DBE, .Valid),
  (0x2DBF, 0x2DBF, .Disallowed),
  (0x2DC0, 0x2DC6, .Valid),
  (0x2DC7, 0x2DC7, .Disallowed),
  (0x2DC8, 0x2DCE, .Valid),
  (0x2DCF, 0x2DCF, .Disallowed),
  (0x2DD0, 0x2DD6, .Valid),
  (0x2DD7, 0x2DD7, .Disallowed),
  (0x2DD8, 0x2DDE, .Valid),
  (0x2DDF, 0x2DDF, .Disallowed),
  (0x2DE0, 0x2E49, .Valid),
  (0x2E4A, 0x2E7F, .Disallowed),
  (0x2E80, 0x2E99, .Valid),
  (0x2E9A, 0x2E9A, .Disallowed),
  (0x2E9B, 0x2E9E, .Valid)]
def idnaMapping_39 : List (Nat × Nat × Mapping) := [
  (0x2E9F, 0x2E9F, .Mapped [0x6BCD]),
  (0x2EA0, 0x2EF2, .Valid),
  (0x2EF3, 0x2EF3, .Mapped [0x9F9F]),
  (0x2EF4, 0x2EFF, .Disallowed),
  (0x2F00, 0x2F00, .Mapped [0x4E00]),
  (0x2F01, 0x2F01, .Mapped [0x4E28]),
  (0x2F02, 0x2F02, .Mapped [0x4E36]),
  (0x2F03, 0x2F03, .Mapped [0x4E3F]),
  (0x2F04, 0x2F04, .Mapped [0x4E59]),
  (0x2F05, 0x2F05, .Mapped [0x4E85]),
  (0x2F06, 0x2F06, .Mapped [0x4E8C]),
  (0x2F07, 0x2F07, .Mapped [0x4EA0]),
  (0x2F08, 0x2F08, .Mapped [0x4EBA]),
  (0x2F09, 0x2F09, .Mapped [0x513F]),
  (0x2F0A, 0x2F0A, .Mapped [0x5165]),
  (0x2F0B, 0x2F0B, .Mapped [0x516B]),
  (0x2F0C, 0x2F0C, .Mapped [0x5182]),
  (0x2F0D, 0x2F0D, .Mapped [0x5196]),
  (0x2F0E, 0x2F0E, .Mapped [0x51AB]),
  (0x2F0F, 0x2F0F, .Mapped [0x51E0]),
  (0x2F10, 0x2F10, .Mapped [0x51F5]),
  (0x2F11, 0x2F11, .Mapped [0x5200]),
  (0x2F12, 0x2F12, .Mapped [0x529B]),
  (0x2F13, 0x2F13, .Mapped [0x52F9]),
  (0x2F14, 0x2F14, .Mapped [0x5315]),
  (0x2F15, 0x2F15, .Mapped [0x531A]),
  (0x2F16, 0x2F16, .Mapped [0x5338]),
  (0x2F17, 0x2F17, .Mapped [0x5341]),
  (0x2F18, 0x2F18, .Mapped [0x535C]),
  (0x2F19, 0x2F19, .Mapped [0x5369]),
  (0x2F1A, 0x2F1A, .Mapped [0x5382]),
  (0x2F1B, 0x2F1B, .Mapped [0x53B6]),
  (0x2F1C, 0x2F1C, .Mapped [0x53C8]),
  (0x2F1D, 0x2F1D, .Mapped [0x53E3]),
  (0x2F1E, 0x2F1E, .Mapped [0x56D7]),
  (0x2F1F, 0x2F1F, .Mapped [0x571F]),
  (0x2F20, 0x2F20, .Mapped [0x58EB]),
  (0x2F21, 0x2F21, .Mapped [0x5902]),
  (0x2F22, 0x2F22, .Mapped [0x590A]),
  (0x2F23, 0x2F23, .Mapped [0x5915]),
  (0x2F24, 0x2F24, .Mapped [0x5927]),
  (0x2F25, 0x2F25, .Mapped [0x5973]),
  (0x2F26, 0x2F26, .Mapped [0x5B50]),
  (0x2F27, 0x2F27, .Mapped [0x5B80]),
  (0x2F28, 0x2F28, .Mapped [0x5BF8]),
  (0x2F29, 0x2F29, .Mapped [0x5C0F]),
  (0x2F2A, 0x2F2A, .Mapped [0x5C22]),
  (0x2F2B, 0x2F2B, .Mapped [0x5C38]),
  (0x2F2C, 0x2F2C, .Mapped [0x5C6E]),
  (0x2F2D, 0x2F2D, .Mapped [0x5C71]),
  (0x2F2E, 0x2F2E, .Mapped [0x5DDB]),
  (0x2F2F, 0x2F2F, .Mapped [0x5DE5]),
  (0x2F30, 0x2F30, .Mapped [0x5DF1]),
  (0x2F31, 0x2F31, .Mapped [0x5DFE]),
  (0x2F32, 0x2F32, .Mapped [0x5E72]),
  (0x2F33, 0x2F33, .Mapped [0x5E7A]),
  (0x2F34, 0x2F34, .Mapped [0x5E7F]),
  (0x2F35, 0x2F35, .Mapped [0x5EF4]),
  (0x2F36, 0x2F36, .Mapped [0x5EFE]),
  (0x2F37, 0x2F37, .Mapped [0x5F0B]),
  (0x2F38, 0x2F38, .Mapped [0x5F13]),
  (0x2F39, 0x2F39, .Mapped [0x5F50]),
  (0x2F3A, 0x2F3A, .Mapped [0x5F61]),
  (0x2F3B, 0x2F3B, .Mapped [0x5F73])]
def idnaMapping_40 : List (Nat × Nat × Mapping) := [
  (0x2F3C, 0x2F3C, .Mapped [0x5FC3]),
  (0x2F3D, 0x2F3D, .Mapped [0x6208]),
  (0x2F3E, 0x2F3E, .Mapped [0x6236]),
  (0x2F3F, 0x2F3F, .Mapped [0x624B]),
  (0x2F40, 0x2F40, .Mapped [0x652F]),
  (0x2F41, 0x2F41, .Mapped [0x6534]),
  (0x2F42, 0x2F42, .Mapped [0x6587]),
  (0x2F43, 0x2F43, .Mapped [0x6597]),
  (0x2F44, 0x2F44, .Mapped [0x65A4]),
  (0x2F45, 0x2F45, .Mapped [0x65B9]),
  (0x2F46, 0x2F46, .Mapped [0x65E0]),
  (0x2F47, 0x2F47, .Mapped [0x65E5]),
  (0x2F48, 0x2F48, .Mapped [0x66F0]),
  (0x2F49, 0x2F49, .Mapped [0x6708]),
  (0x2F4A, 0x2F4A, .Mapped [0x6728]),
  (0x2F4B, 0x2F4B, .Mapped [0x6B20]),
  (0x2F4C, 0x2F4C, .Mapped [0x6B62]),
  (0x2F4D, 0x2F4D, .Mapped [0x6B79]),
  (0x2F4E, 0x2F4E, .Mapped [0x6BB3]),
  (0x2F4F, 0x2F4F, .Mapped [0x6BCB]),
  (0x2F50, 0x2F50, .Mapped [0x6BD4]),
  (0x2F51, 0x2F51, .Mapped [0x6BDB]),
  (0x2F52, 0x2F52, .Mapped [0x6C0F]),
  (0x2F53, 0x2F53, .Mapped [0x6C14]),
  (0x2F54, 0x2F54, .Mapped [0x6C34]),
  (0x2F55, 0x2F55, .Mapped [0x706B]),
  (0x2F56, 0x2F56, .Mapped [0x722A]),
  (0x2F57, 0x2F57, .Mapped [0x7236]),
  (0x2F58, 0x2F58, .Mapped [0x723B]),
  (0x2F59, 0x2F59, .Mapped [0x723F]),
  (0x2F5A, 0x2F5A, .Mapped [0x7247]),
  (0x2F5B, 0x2F5B, .Mapped [0x7259]),
  (0x2F5C, 0x2F5C, .Mapped [0x725B]),
  (0x2F5D, 0x2F5D, .Mapped [0x72AC]),
  (0x2F5E, 0x2F5E, .Mapped [0x7384]),
  (0x2F5F, 0x2F5F, .Mapped [0x7389]),
  (0x2F60, 0x2F60, .Mapped [0x74DC]),
  (0x2F61, 0x2F61, .Mapped [0x74E6]),
  (0x2F62, 0x2F62, .Mapped [0x7518]),
  (0x2F63, 0x2F63, .Mapped [0x751F]),
  (0x2F64, 0x2F64, .Mapped [0x7528]),
  (0x2F65, 0x2F65, .Mapped [0x7530]),
  (0x2F66, 0x2F66, .Mapped [0x758B]),
  (0x2F67, 0x2F67, .Mapped [0x7592]),
  (0x2F68, 0x2F68, .Mapped [0x7676]),
  (0x2F69, 0x2F69, .Mapped [0x767D]),
  (0x2F6A, 0x2F6A, .Mapped [0x76AE]),
  (0x2F6B, 0x2F6B, .Mapped [0x76BF]),
  (0x2F6C, 0x2F6C, .Mapped [0x76EE]),
  (0x2F6D, 0x2F6D, .Mapped [0x77DB]),
  (0x2F6E, 0x2F6E, .Mapped [0x77E2]),
  (0x2F6F, 0x2F6F, .Mapped [0x77F3]),
  (0x2F70, 0x2F70, .Mapped [0x793A]),
  (0x2F71, 0x2F71, .Mapped [0x79B8]),
  (0x2F72, 0x2F72, .Mapped [0x79BE]),
  (0x2F73, 0x2F73, .Mapped [0x7A74]),
  (0x2F74, 0x2F74, .Mapped [0x7ACB]),
  (0x2F75, 0x2F75, .Mapped [0x7AF9]),
  (0x2F76, 0x2F76, .Mapped [0x7C73]),
  (0x2F77, 0x2F77, .Mapped [0x7CF8]),
  (0x2F78, 0x2F78, .Mapped [0x7F36]),
  (0x2F79, 0x2F79, .Mapped [0x7F51]),
  (0x2F7A, 0x2F7A, .Mapped [0x7F8A]),
  (0x2F7B, 0x2F7B, .Mapped [0x7FBD])]
def idnaMapping_41 : List (Nat × Nat × Mapping) := [
  (0x2F7C, 0x2F7C, .Mapped [0x8001]),
  (0x2F7D, 0x2F7D, .Mapped [0x800C]),
  (0x2F7E, 0x2F7E, .Mapped [0x8012]),
  (0x2F7F, 0x2F7F, .Mapped [0x8033]),
  (0x2F80, 0x2F80, .Mapped [0x807F]),
  (0x2F81, 0x2F81, .Mapped [0x8089]),
  (0x2F82, 0x2F82, .Mapped [0x81E3]),
  (0x2F83, 0x2F83, .Mapped [0x81EA]),
  (0x2F84, 0x2F84, .Mapped [0x81F3]),
  (0x2F85, 0x2F85, .Mapped [0x81FC]),
  (0x2F86, 0x2F86, .Mapped [0x820C]),
  (0x2F87, 0x2F87, .Mapped [0x821B]),
  (0x2F88, 0x2F88, .Mapped [0x821F]),
  (0x2F89, 0x2F89, .Mapped [0x826E]),
  (0x2F8A, 0x2F8A, .Mapped [0x8272]),
  (0x2F8B, 0x2F8B, .Mapped [0x8278]),
  (0x2F8C, 0x2F8C, .Mapped [0x864D]),
  (0x2F8D, 0x2F8D, .Mapped [0x866B]),
  (0x2F8E, 0x2F8E, .Mapped [0x8840]),
  (0x2F8F, 0x2F8F, .Mapped [0x884C]),
  (0x2F90, 0x2F90, .Mapped [0x8863]),
  (0x2F91, 0x2F91, .Mapped [0x897E]),
  (0x2F92, 0x2F92, .Mapped [0x898B]),
  (0x2F93, 0x2F93, .Mapped [0x89D2]),
  (0x2F94, 0x2F94, .Mapped [0x8A00]),
  (0x2F95, 0x2F95, .Mapped [0x8C37]),
  (0x2F96, 0x2F96, .Mapped [0x8C46]),
  (0x2F97, 0x2F97, .Mapped [0x8C55]),
  (0x2F98, 0x2F98, .Mapped [0x8C78]),
  (0x2F99, 0x2F99, .Mapped [0x8C9D]),
  (0x2F9A, 0x2F9A, .Mapped [0x8D64]),
  (0x2F9B, 0x2F9B, .Mapped [0x8D70]),
  (0x2F9C, 0x2F9C, .Mapped [0x8DB3]),
  (0x2F9D, 0x2F9D, .Mapped [0x8EAB]),
  (0x2F9E, 0x2F9E, .Mapped [0x8ECA]),
  (0x2F9F, 0x2F9F, .Mapped [0x8F9B]),
  (0x2FA0, 0x2FA0, .Mapped [0x8FB0]),
  (0x2FA1, 0x2FA1, .Mapped [0x8FB5]),
  (0x2FA2, 0x2FA2, .Mapped [0x9091]),
  (0x2FA3, 0x2FA3, .Mapped [0x9149]),
  (0x2FA4, 0x2FA4, .Mapped [0x91C6]),
  (0x2FA5, 0x2FA5, .Mapped [0x91CC]),
  (0x2FA6, 0x2FA6, .Mapped [0x91D1]),
  (0x2FA7, 0x2FA7, .Mapped [0x9577]),
  (0x2FA8, 0x2FA8, .Mapped [0x9580]),
  (0x2FA9, 0x2FA9, .Mapped [0x961C]),
  (0x2FAA, 0x2FAA, .Mapped [0x96B6]),
  (0x2FAB, 0x2FAB, .Mapped [0x96B9]),
  (0x2FAC, 0x2FAC, .Mapped [0x96E8]),
  (0x2FAD, 0x2FAD, .Mapped [0x9751]),
  (0x2FAE, 0x2FAE, .Mapped [0x975E]),
  (0x2FAF, 0x2FAF, .Mapped [0x9762]),
  (0x2FB0, 0x2FB0, .Mapped [0x9769]),
  (0x2FB1, 0x2FB1, .Mapped [0x97CB]),
  (0x2FB2, 0x2FB2, .Mapped [0x97ED]),
  (0x2FB3, 0x2FB3, .Mapped [0x97F3]),
  (0x2FB4, 0x2FB4, .Mapped [0x9801]),
  (0x2FB5, 0x2FB5, .Mapped [0x98A8]),
  (0x2FB6, 0x2FB6, .Mapped [0x98DB]),
  (0x2FB7, 0x2FB7, .Mapped [0x98DF]),
  (0x2FB8, 0x2FB8, .Mapped [0x9996]),
  (0x2FB9, 0x2FB9, .Mapped [0x9999]),
  (0x2FBA, 0x2FBA, .Mapped [0x99AC]),
  (0x2FBB, 0x2FBB, .Mapped [0x9AA8])]
def idnaMapping_42 : List (Nat × Nat × Mapping) := [
  (0x2FBC, 0x2FBC, .Mapped [0x9AD8]),
  (0x2FBD, 0x2FBD, .Mapped [0x9ADF]),
  (0x2FBE, 0x2FBE, .Mapped [0x9B25]),
  (0x2FBF, 0x2FBF, .Mapped [0x9B2F]),
  (0x2FC0, 0x2FC0, .Mapped [0x9B32]),
  (0x2FC1, 0x2FC1, .Mapped [0x9B3C]),
  (0x2FC2, 0x2FC2, .Mapped [0x9B5A]),
  (0x2FC3, 0x2FC3, .Mapped [0x9CE5]),
  (0x2FC4, 0x2FC4, .Mapped [0x9E75]),
  (0x2FC5, 0x2FC5, .Mapped [0x9E7F]),
  (0x2FC6, 0x2FC6, .Mapped [0x9EA5]),
  (0x2FC7, 0x2FC7, .Mapped [0x9EBB]),
  (0x2FC8, 0x2FC8, .Mapped [0x9EC3]),
  (0x2FC9, 0x2FC9, .Mapped [0x9ECD]),
  (0x2FCA, 0x2FCA, .Mapped [0x9ED1]),
  (0x2FCB, 0x2FCB, .Mapped [0x9EF9]),
  (0x2FCC, 0x2FCC, .Mapped [0x9EFD]),
  (0x2FCD, 0x2FCD, .Mapped [0x9F0E]),
  (0x2FCE, 0x2FCE, .Mapped [0x9F13]),
  (0x2FCF, 0x2FCF, .Mapped [0x9F20]),
  (0x2FD0, 0x2FD0, .Mapped [0x9F3B]),
  (0x2FD1, 0x2FD1, .Mapped [0x9F4A]),
  (0x2FD2, 0x2FD2, .Mapped [0x9F52]),
  (0x2FD3, 0x2FD3, .Mapped [0x9F8D]),
  (0x2FD4, 0x2FD4, .Mapped [0x9F9C]),
  (0x2FD5, 0x2FD5, .Mapped [0x9FA0]),
  (0x2FD6, 0x2FFF, .Disallowed),
  (0x3000, 0x3000, .DisallowedStd3Mapped [0x20]),
  (0x3001, 0x3001, .Valid),
  (0x3002, 0x3002, .Mapped [0x2E]),
  (0x3003, 0x3035, .Valid),
  (0x3036, 0x3036, .Mapped [0x3012]),
  (0x3037, 0x3037, .Valid),
  (0x3038, 0x3038, .Mapped [0x5341]),
  (0x3039, 0x3039, .Mapped [0x5344]),
  (0x303A, 0x303A, .Mapped [0x5345]),
  (0x303B, 0x303F, .Valid),
  (0x3040, 0x3040, .Disallowed),
  (0x3041, 0x3096, .Valid),
  (0x3097, 0x3098, .Disallowed),
  (0x3099, 0x309A, .Valid),
  (0x309B, 0x309B, .DisallowedStd3Mapped [0x20, 0x3099]),
  (0x309C, 0x309C, .DisallowedStd3Mapped [0x20, 0x309A]),
  (0x309D, 0x309E, .Valid),
  (0x309F, 0x309F, .Mapped [0x3088, 0x308A]),
  (0x30A0, 0x30FE, .Valid),
  (0x30FF, 0x30FF, .Mapped [0x30B3, 0x30C8]),
  (0x3100, 0x3104, .Disallowed),
  (0x3105, 0x312E, .Valid),
  (0x312F, 0x3130, .Disallowed),
  (0x3131, 0x3131, .Mapped [0x1100]),
  (0x3132, 0x3132, .Mapped [0x1101]),
  (0x3133, 0x3133, .Mapped [0x11AA]),
  (0x3134, 0x3134, .Mapped [0x1102]),
  (0x3135, 0x3135, .Mapped [0x11AC]),
  (0x3136, 0x3136, .Mapped [0x11AD]),
  (0x3137, 0x3137, .Mapped [0x1103]),
  (0x3138, 0x3138, .Mapped [0x1104]),
  (0x3139, 0x3139, .Mapped [0x1105]),
  (0x313A, 0x313A, .Mapped [0x11B0]),
  (0x313B, 0x313B, .Mapped [0x11B1]),
  (0x313C, 0x313C, .Mapped [0x11B2]),
  (0x313D, 0x313D, .Mapped [0x11B3]),
  (0x313E, 0x313E, .Mapped [0x11B4])]
def idnaMapping_43 : List (Nat × Nat × Mapping) := [
  (0x313F, 0x313F, .Mapped [0x11B5]),
  (0x3140, 0x3140, .Mapped [0x111A]),
  (0x3141, 0x3141, .Mapped [0x1106]),
  (0x3142, 0x3142, .Mapped [0x1107]),
  (0x3143, 0x3143, .Mapped [0x1108]),
  (0x3144, 0x3144, .Mapped [0x1121]),
  (0x3145, 0x3145, .Mapped [0x1109]),
  (0x3146, 0x3146, .Mapped [0x110A]),
  (0x3147, 0x3147, .Mapped [0x110B]),
  (0x3148, 0x3148, .Mapped [0x110C]),
  (0x3149, 0x3149, .Mapped [0x110D]),
  (0x314A, 0x314A, .Mapped [0x110E]),
  (0x314B, 0x314B, .Mapped [0x110F]),
  (0x314C, 0x314C, .Mapped [0x1110]),
  (0x314D, 0x314D, .Mapped [0x1111]),
  (0x314E, 0x314E, .Mapped [0x1112]),
  (0x314F, 0x314F, .Mapped [0x1161]),
  (0x3150, 0x3150, .Mapped [0x1162]),
  (0x3151, 0x3151, .Mapped [0x1163]),
  (0x3152, 0x3152, .Mapped [0x1164]),
  (0x3153, 0x3153, .Mapped [0x1165]),
  (0x3154, 0x3154, .Mapped [0x1166]),
  (0x3155, 0x3155, .Mapped [0x1167]),
  (0x3156, 0x3156, .Mapped [0x1168]),
  (0x3157, 0x3157, .Mapped [0x1169]),
  (0x3158, 0x3158, .Mapped [0x116A]),
  (0x3159, 0x3159, .Mapped [0x116B]),
  (0x315A, 0x315A, .Mapped [0x116C]),
  (0x315B, 0x315B, .Mapped [0x116D]),
  (0x315C, 0x315C, .Mapped [0x116E]),
  (0x315D, 0x315D, .Mapped [0x116F]),
  (0x315E, 0x315E, .Mapped [0x1170]),
  (0x315F, 0x315F, .Mapped [0x1171]),
  (0x3160, 0x3160, .Mapped [0x1172]),
  (0x3161, 0x3161, .Mapped [0x1173]),
  (0x3162, 0x3162, .Mapped [0x1174]),
  (0x3163, 0x3163, .Mapped [0x1175]),
  (0x3164, 0x3164, .Disallowed),
  (0x3165, 0x3165, .Mapped [0x1114]),
  (0x3166, 0x3166, .Mapped [0x1115]),
  (0x3167, 0x3167, .Mapped [0x11C7]),
  (0x3168, 0x3168, .Mapped [0x11C8]),
  (0x3169, 0x3169, .Mapped [0x11CC]),
  (0x316A, 0x316A, .Mapped [0x11CE]),
  (0x316B, 0x316B, .Mapped [0x11D3]),
  (0x316C, 0x316C, .Mapped [0x11D7]),
  (0x316D, 0x316D, .Mapped [0x11D9]),
  (0x316E, 0x316E, .Mapped [0x111C]),
  (0x316F, 0x316F, .Mapped [0x11DD]),
  (0x3170, 0x3170, .Mapped [0x11DF]),
  (0x3171, 0x3171, .Mapped [0x111D]),
  (0x3172, 0x3172, .Mapped [0x111E]),
  (0x3173, 0x3173, .Mapped [0x1120]),
  (0x3174, 0x3174, .Mapped [0x1122]),
  (0x3175, 0x3175, .Mapped [0x1123]),
  (0x3176, 0x3176, .Mapped [0x1127]),
  (0x3177, 0x3177, .Mapped [0x1129]),
  (0x3178, 0x3178, .Mapped [0x112B]),
  (0x3179, 0x3179, .Mapped [0x112C]),
  (0x317A, 0x317A, .Mapped [0x112D]),
  (0x317B, 0x317B, .Mapped [0x112E]),
  (0x317C, 0x317C, .Mapped [0x112F]),
  (0x317D, 0x317D, .Mapped [0x1132]),
  (0x317E, 0x317E, .Mapped [0x1136])]
def idnaMapping_44 : List (Nat × Nat × Mapping) := [
  (0x317F, 0x317F, .Mapped [0x1140]),
  (0x3180, 0x3180, .Mapped [0x1147]),
  (0x3181, 0x3181, .Mapped [0x114C]),
  (0x3182, 0x3182, .Mapped [0x11F1]),
  (0x3183, 0x3183, .Mapped [0x11F2]),
  (0x3184, 0x3184, .Mapped [0x1157]),
  (0x3185, 0x3185, .Mapped [0x1158]),
  (0x3186, 0x3186, .Mapped [0x1159]),
  (0x3187, 0x3187, .Mapped [0x1184]),
  (0x3188, 0x3188, .Mapped [0x1185]),
  (0x3189, 0x3189, .Mapped [0x1188]),
  (0x318A, 0x318A, .Mapped [0x1191]),
  (0x318B, 0x318B, .Mapped [0x1192]),
  (0x318C, 0x318C, .Mapped [0x1194]),
  (0x318D, 0x318D, .Mapped [0x119E]),
  (0x318E, 0x318E, .Mapped [0x11A1]),
  (0x318F, 0x318F, .Disallowed),
  (0x3190, 0x3191, .Valid),
  (0x3192, 0x3192, .Mapped [0x4E00]),
  (0x3193, 0x3193, .Mapped [0x4E8C]),
  (0x3194, 0x3194, .Mapped [0x4E09]),
  (0x3195, 0x3195, .Mapped [0x56DB]),
  (0x3196, 0x3196, .Mapped [0x4E0A]),
  (0x3197, 0x3197, .Mapped [0x4E2D]),
  (0x3198, 0x3198, .Mapped [0x4E0B]),
  (0x3199, 0x3199, .Mapped [0x7532]),
  (0x319A, 0x319A, .Mapped [0x4E59]),
  (0x319B, 0x319B, .Mapped [0x4E19]),
  (0x319C, 0x319C, .Mapped [0x4E01]),
  (0x319D, 0x319D, .Mapped [0x5929]),
  (0x319E, 0x319E, .Mapped [0x5730]),
  (0x319F, 0x319F, .Mapped [0x4EBA]),
  (0x31A0, 0x31BA, .Valid),
  (0x31BB, 0x31BF, .Disallowed),
  (0x31C0, 0x31E3, .Valid),
  (0x31E4, 0x31EF, .Disallowed),
  (0x31F0, 0x31FF, .Valid),
  (0x3200, 0x3200, .DisallowedStd3Mapped [0x28, 0x1100, 0x29]),
  (0x3201, 0x3201, .DisallowedStd3Mapped [0x28, 0x1102, 0x29]),
  (0x3202, 0x3202, .DisallowedStd3Mapped [0x28, 0x1103, 0x29]),
  (0x3203, 0x3203, .DisallowedStd3Mapped [0x28, 0x1105, 0x29]),
  (0x3204, 0x3204, .DisallowedStd3Mapped [0x28, 0x1106, 0x29]),
  (0x3205, 0x3205, .DisallowedStd3Mapped [0x28, 0x1107, 0x29]),
  (0x3206, 0x3206, .DisallowedStd3Mapped [0x28, 0x1109, 0x29]),
  (0x3207, 0x3207, .DisallowedStd3Mapped [0x28, 0x110B, 0x29]),
  (0x3208, 0x3208, .DisallowedStd3Mapped [0x28, 0x110C, 0x29]),
  (0x3209, 0x3209, .DisallowedStd3Mapped [0x28, 0x110E, 0x29]),
  (0x320A, 0x320A, .DisallowedStd3Mapped [0x28, 0x110F, 0x29]),
  (0x320B, 0x320B, .DisallowedStd3Mapped [0x28, 0x1110, 0x29]),
  (0x320C, 0x320C, .DisallowedStd3Mapped [0x28, 0x1111, 0x29]),
  (0x320D, 0x320D, .DisallowedStd3Mapped [0x28, 0x1112, 0x29]),
  (0x320E, 0x320E, .DisallowedStd3Mapped [0x28, 0xAC00, 0x29]),
  (0x320F, 0x320F, .DisallowedStd3Mapped [0x28, 0xB098, 0x29]),
  (0x3210, 0x3210, .DisallowedStd3Mapped [0x28, 0xB2E4, 0x29]),
  (0x3211, 0x3211, .DisallowedStd3Mapped [0x28, 0xB77C, 0x29]),
  (0x3212, 0x3212, .DisallowedStd3Mapped [0x28, 0xB9C8, 0x29]),
  (0x3213, 0x3213, .DisallowedStd3Mapped [0x28, 0xBC14, 0x29]),
  (0x3214, 0x3214, .DisallowedStd3Mapped [0x28, 0xC0AC, 0x29]),
  (0x3215, 0x3215, .DisallowedStd3Mapped [0x28, 0xC544, 0x29]),
  (0x3216, 0x3216, .DisallowedStd3Mapped [0x28, 0xC790, 0x29]),
  (0x3217, 0x3217, .DisallowedStd3Mapped [0x28, 0xCC28, 0x29]),
  (0x3218, 0x3218, .DisallowedStd3Mapped [0x28, 0xCE74, 0x29]),
  (0x3219, 0x3219, .DisallowedStd3Mapped [0x28, 0xD0C0, 0x29]),
  (0x321A, 0x321A, .DisallowedStd3Mapped [0x28, 0xD30C, 0x29])]
def idnaMapping_45 : List (Nat × Nat × Mapping) := [
  (0x321B, 0x321B, .DisallowedStd3Mapped [0x28, 0xD558, 0x29]),
  (0x321C, 0x321C, .DisallowedStd3Mapped [0x28, 0xC8FC, 0x29]),
  (0x321D, 0x321D, .DisallowedStd3Mapped [0x28, 0xC624, 0xC804, 0x29]),
  (0x321E, 0x321E, .DisallowedStd3Mapped [0x28, 0xC624, 0xD6C4, 0x29]),
  (0x321F, 0x321F, .Disallowed),
  (0x3220, 0x3220, .DisallowedStd3Mapped [0x28, 0x4E00, 0x29]),
  (0x3221, 0x3221, .DisallowedStd3Mapped [0x28, 0x4E8C, 0x29]),
  (0x3222, 0x3222, .DisallowedStd3Mapped [0x28, 0x4E09, 0x29]),
  (0x3223, 0x3223, .DisallowedStd3Mapped [0x28, 0x56DB, 0x29]),
  (0x3224, 0x3224, .DisallowedStd3Mapped [0x28, 0x4E94, 0x29]),
  (0x3225, 0x3225, .DisallowedStd3Mapped [0x28, 0x516D, 0x29]),
  (0x3226, 0x3226, .DisallowedStd3Mapped [0x28, 0x4E03, 0x29]),
  (0x3227, 0x3227, .DisallowedStd3Mapped [0x28, 0x516B, 0x29]),
  (0x3228, 0x3228, .DisallowedStd3Mapped [0x28, 0x4E5D, 0x29]),
  (0x3229, 0x3229, .DisallowedStd3Mapped [0x28, 0x5341, 0x29]),
  (0x322A, 0x322A, .DisallowedStd3Mapped [0x28, 0x6708, 0x29]),
  (0x322B, 0x322B, .DisallowedStd3Mapped [0x28, 0x706B, 0x29]),
  (0x322C, 0x322C, .DisallowedStd3Mapped [0x28, 0x6C34, 0x29]),
  (0x322D, 0x322D, .DisallowedStd3Mapped [0x28, 0x6728, 0x29]),
  (0x322E, 0x322E, .DisallowedStd3Mapped [0x28, 0x91D1, 0x29]),
  (0x322F, 0x322F, .DisallowedStd3Mapped [0x28, 0x571F, 0x29]),
  (0x3230, 0x3230, .DisallowedStd3Mapped [0x28, 0x65E5, 0x29]),
  (0x3231, 0x3231, .DisallowedStd3Mapped [0x28, 0x682A, 0x29]),
  (0x3232, 0x3232, .DisallowedStd3Mapped [0x28, 0x6709, 0x29]),
  (0x3233, 0x3233, .DisallowedStd3Mapped [0x28, 0x793E, 0x29]),
  (0x3234, 0x3234, .DisallowedStd3Mapped [0x28, 0x540D, 0x29]),
  (0x3235, 0x3235, .DisallowedStd3Mapped [0x28, 0x7279, 0x29]),
  (0x3236, 0x3236, .DisallowedStd3Mapped [0x28, 0x8CA1, 0x29]),
  (0x3237, 0x3237, .DisallowedStd3Mapped [0x28, 0x795D, 0x29]),
  (0x3238, 0x3238, .DisallowedStd3Mapped [0x28, 0x52B4, 0x29]),
  (0x3239, 0x3239, .DisallowedStd3Mapped [0x28, 0x4EE3, 0x29]),
  (0x323A, 0x323A, .DisallowedStd3Mapped [0x28, 0x547C, 0x29]),
  (0x323B, 0x323B, .DisallowedStd3Mapped [0x28, 0x5B66, 0x29]),
  (0x323C, 0x323C, .DisallowedStd3Mapped [0x28, 0x76E3, 0x29]),
  (0x323D, 0x323D, .DisallowedStd3Mapped [0x28, 0x4F01, 0x29]),
  (0x323E, 0x323E, .DisallowedStd3Mapped [0x28, 0x8CC7, 0x29]),
  (0x323F, 0x323F, .DisallowedStd3Mapped [0x28, 0x5354, 0x29]),
  (0x3240, 0x3240, .DisallowedStd3Mapped [0x28, 0x796D, 0x29]),
  (0x3241, 0x3241, .DisallowedStd3Mapped [0x28, 0x4F11, 0x29]),
  (0x3242, 0x3242, .DisallowedStd3Mapped [0x28, 0x81EA, 0x29]),
  (0x3243, 0x3243, .DisallowedStd3Mapped [0x28, 0x81F3, 0x29]),
  (0x3244, 0x3244, .Mapped [0x554F]),
  (0x3245, 0x3245, .Mapped [0x5E7C]),
  (0x3246, 0x3246, .Mapped [0x6587]),
  (0x3247, 0x3247, .Mapped [0x7B8F]),
  (0x3248, 0x324F, .Valid),
  (0x3250, 0x3250, .Mapped [0x70, 0x74, 0x65]),
  (0x3251, 0x3251, .Mapped [0x32, 0x31]),
  (0x3252, 0x3252, .Mapped [0x32, 0x32]),
  (0x3253, 0x3253, .Mapped [0x32, 0x33]),
  (0x3254, 0x3254, .Mapped [0x32, 0x34]),
  (0x3255, 0x3255, .Mapped [0x32, 0x35]),
  (0x3256, 0x3256, .Mapped [0x32, 0x36]),
  (0x3257, 0x3257, .Mapped [0x32, 0x37]),
  (0x3258, 0x3258, .Mapped [0x32, 0x38]),
  (0x3259, 0x3259, .Mapped [0x32, 0x39]),
  (0x325A, 0x325A, .Mapped [0x33, 0x30]),
  (0x325B, 0x325B, .Mapped [0x33, 0x31]),
  (0x325C, 0x325C, .Mapped [0x33, 0x32]),
  (0x325D, 0x325D, .Mapped [0x33, 0x33]),
  (0x325E, 0x325E, .Mapped [0x33, 0x34]),
  (0x325F, 0x325F, .Mapped [0x33, 0x35]),
  (0x3260, 0x3260, .Mapped [0x1100]),
  (0x3261, 0x3261, .Mapped [0x1102])]
def idnaMapping_46 : List (Nat × Nat × Mapping) := [
  (0x3262, 0x3262, .Mapped [0x1103]),
  (0x3263, 0x3263, .Mapped [0x1105]),
  (0x3264, 0x3264, .Mapped [0x1106]),
  (0x3265, 0x3265, .Mapped [0x1107]),
  (0x3266, 0x3266, .Mapped [0x1109]),
  (0x3267, 0x3267, .Mapped [0x110B]),
  (0x3268, 0x3268, .Mapped [0x110C]),
  (0x3269, 0x3269, .Mapped [0x110E]),
  (0x326A, 0x326A, .Mapped [0x110F]),
  (0x326B, 0x326B, .Mapped [0x1110]),
  (0x326C, 0x326C, .Mapped [0x1111]),
  (0x326D, 0x326D, .Mapped [0x1112]),
  (0x326E, 0x326E, .Mapped [0xAC00]),
  (0x326F, 0x326F, .Mapped [0xB098]),
  (0x3270, 0x3270, .Mapped [0xB2E4]),
  (0x3271, 0x3271, .Mapped [0xB77C]),
  (0x3272, 0x3272, .Mapped [0xB9C8]),
  (0x3273, 0x3273, .Mapped [0xBC14]),
  (0x3274, 0x3274, .Mapped [0xC0AC]),
  (0x3275, 0x3275, .Mapped [0xC544]),
  (0x3276, 0x3276, .Mapped [0xC790]),
  (0x3277, 0x3277, .Mapped [0xCC28]),
  (0x3278, 0x3278, .Mapped [0xCE74]),
  (0x3279, 0x3279, .Mapped [0xD0C0]),
  (0x327A, 0x327A, .Mapped [0xD30C]),
  (0x327B, 0x327B, .Mapped [0xD558]),
  (0x327C, 0x327C, .Mapped [0xCC38, 0xACE0]),
  (0x327D, 0x327D, .Mapped [0xC8FC, 0xC758]),
  (0x327E, 0x327E, .Mapped [0xC6B0]),
  (0x327F, 0x327F, .Valid),
  (0x3280, 0x3280, .Mapped [0x4E00]),
  (0x3281, 0x3281, .Mapped [0x4E8C]),
  (0x3282, 0x3282, .Mapped [0x4E09]),
  (0x3283, 0x3283, .Mapped [0x56DB]),
  (0x3284, 0x3284, .Mapped [0x4E94]),
  (0x3285, 0x3285, .Mapped [0x516D]),
  (0x3286, 0x3286, .Mapped [0x4E03]),
  (0x3287, 0x3287, .Mapped [0x516B]),
  (0x3288, 0x3288, .Mapped [0x4E5D]),
  (0x3289, 0x3289, .Mapped [0x5341]),
  (0x328A, 0x328A, .Mapped [0x6708]),
  (0x328B, 0x328B, .Mapped [0x706B]),
  (0x328C, 0x328C, .Mapped [0x6C34]),
  (0x328D, 0x328D, .Mapped [0x6728]),
  (0x328E, 0x328E, .Mapped [0x91D1]),
  (0x328F, 0x328F, .Mapped [0x571F]),
  (0x3290, 0x3290, .Mapped [0x65E5]),
  (0x3291, 0x3291, .Mapped [0x682A]),
  (0x3292, 0x3292, .Mapped [0x6709]),
  (0x3293, 0x3293, .Mapped [0x793E]),
  (0x3294, 0x3294, .Mapped [0x540D]),
  (0x3295, 0x3295, .Mapped [0x7279]),
  (0x3296, 0x3296, .Mapped [0x8CA1]),
  (0x3297, 0x3297, .Mapped [0x795D]),
  (0x3298, 0x3298, .Mapped [0x52B4]),
  (0x3299, 0x3299, .Mapped [0x79D8]),
  (0x329A, 0x329A, .Mapped [0x7537]),
  (0x329B, 0x329B, .Mapped [0x5973]),
  (0x329C, 0x329C, .Mapped [0x9069]),
  (0x329D, 0x329D, .Mapped [0x512A]),
  (0x329E, 0x329E, .Mapped [0x5370]),
  (0x329F, 0x329F, .Mapped [0x6CE8]),
  (0x32A0, 0x32A0, .Mapped [0x9805]),
  (0x32A1, 0x32A1, .Mapped [0x4F11])]
def idnaMapping_47 : List (Nat × Nat × Mapping) := [
  (0x32A2, 0x32A2, .Mapped [0x5199]),
  (0x32A3, 0x32A3, .Mapped [0x6B63]),
  (0x32A4, 0x32A4, .Mapped [0x4E0A]),
  (0x32A5, 0x32A5, .Mapped [0x4E2D]),
  (0x32A6, 0x32A6, .Mapped [0x4E0B]),
  (0x32A7, 0x32A7, .Mapped [0x5DE6]),
  (0x32A8, 0x32A8, .Mapped [0x53F3]),
  (0x32A9, 0x32A9, .Mapped [0x533B]),
  (0x32AA, 0x32AA, .Mapped [0x5B97]),
  (0x32AB, 0x32AB, .Mapped [0x5B66]),
  (0x32AC, 0x32AC, .Mapped [0x76E3]),
  (0x32AD, 0x32AD, .Mapped [0x4F01]),
  (0x32AE, 0x32AE, .Mapped [0x8CC7]),
  (0x32AF, 0x32AF, .Mapped [0x5354]),
  (0x32B0, 0x32B0, .Mapped [0x591C]),
  (0x32B1, 0x32B1, .Mapped [0x33, 0x36]),
  (0x32B2, 0x32B2, .Mapped [0x33, 0x37]),
  (0x32B3, 0x32B3, .Mapped [0x33, 0x38]),
  (0x32B4, 0x32B4, .Mapped [0x33, 0x39]),
  (0x32B5, 0x32B5, .Mapped [0x34, 0x30]),
  (0x32B6, 0x32B6, .Mapped [0x34, 0x31]),
  (0x32B7, 0x32B7, .Mapped [0x34, 0x32]),
  (0x32B8, 0x32B8, .Mapped [0x34, 0x33]),
  (0x32B9, 0x32B9, .Mapped [0x34, 0x34]),
  (0x32BA, 0x32BA, .Mapped [0x34, 0x35]),
  (0x32BB, 0x32BB, .Mapped [0x34, 0x36]),
  (0x32BC, 0x32BC, .Mapped [0x34, 0x37]),
  (0x32BD, 0x32BD, .Mapped [0x34, 0x38]),
  (0x32BE, 0x32BE, .Mapped [0x34, 0x39]),
  (0x32BF, 0x32BF, .Mapped [0x35, 0x30]),
  (0x32C0, 0x32C0, .Mapped [0x31, 0x6708]),
  (0x32C1, 0x32C1, .Mapped [0x32, 0x6708]),
  (0x32C2, 0x32C2, .Mapped [0x33, 0x6708]),
  (0x32C3, 0x32C3, .Mapped [0x34, 0x6708]),
  (0x32C4, 0x32C4, .Mapped [0x35, 0x6708]),
  (0x32C5, 0x32C5, .Mapped [0x36, 0x6708]),
  (0x32C6, 0x32C6, .Mapped [0x37, 0x6708]),
  (0x32C7, 0x32C7, .Mapped [0x38, 0x6708]),
  (0x32C8, 0x32C8, .Mapped [0x39, 0x6708]),
  (0x32C9, 0x32C9, .Mapped [0x31, 0x30, 0x6708]),
  (0x32CA, 0x32CA, .Mapped [0x31, 0x31, 0x6708]),
  (0x32CB, 0x32CB, .Mapped [0x31, 0x32, 0x6708]),
  (0x32CC, 0x32CC, .Mapped [0x68, 0x67]),
  (0x32CD, 0x32CD, .Mapped [0x65, 0x72, 0x67]),
  (0x32CE, 0x32CE, .Mapped [0x65, 0x76]),
  (0x32CF, 0x32CF, .Mapped [0x6C, 0x74, 0x64]),
  (0x32D0, 0x32D0, .Mapped [0x30A2]),
  (0x32D1, 0x32D1, .Mapped [0x30A4]),
  (0x32D2, 0x32D2, .Mapped [0x30A6]),
  (0x32D3, 0x32D3, .Mapped [0x30A8]),
  (0x32D4, 0x32D4, .Mapped [0x30AA]),
  (0x32D5, 0x32D5, .Mapped [0x30AB]),
  (0x32D6, 0x32D6, .Mapped [0x30AD]),
  (0x32D7, 0x32D7, .Mapped [0x30AF]),
  (0x32D8, 0x32D8, .Mapped [0x30B1]),
  (0x32D9, 0x32D9, .Mapped [0x30B3]),
  (0x32DA, 0x32DA, .Mapped [0x30B5]),
  (0x32DB, 0x32DB, .Mapped [0x30B7]),
  (0x32DC, 0x32DC, .Mapped [0x30B9]),
  (0x32DD, 0x32DD, .Mapped [0x30BB]),
  (0x32DE, 0x32DE, .Mapped [0x30BD]),
  (0x32DF, 0x32DF, .Mapped [0x30BF]),
  (0x32E0, 0x32E0, .Mapped [0x30C1]),
  (0x32E1, 0x32E1, .Mapped [0x30C4])]
def idnaMapping_48 : List (Nat × Nat × Mapping) := [
  (0x32E2, 0x32E2, .Mapped [0x30C6]),
  (0x32E3, 0x32E3, .Mapped [0x30C8]),
  (0x32E4, 0x32E4, .Mapped [0x30CA]),
  (0x32E5, 0x32E5, .Mapped [0x30CB]),
  (0x32E6, 0x32E6, .Mapped [0x30CC]),
  (0x32E7, 0x32E7, .Mapped [0x30CD]),
  (0x32E8, 0x32E8, .Mapped [0x30CE]),
  (0x32E9, 0x32E9, .Mapped [0x30CF]),
  (0x32EA, 0x32EA, .Mapped [0x30D2]),
  (0x32EB, 0x32EB, .Mapped [0x30D5]),
  (0x32EC, 0x32EC, .Mapped [0x30D8]),
  (0x32ED, 0x32ED, .Mapped [0x30DB]),
  (0x32EE, 0x32EE, .Mapped [0x30DE]),
  (0x32EF, 0x32EF, .Mapped [0x30DF]),
  (0x32F0, 0x32F0, .Mapped [0x30E0]),
  (0x32F1, 0x32F1, .Mapped [0x30E1]),
  (0x32F2, 0x32F2, .Mapped [0x30E2]),
  (0x32F3, 0x32F3, .Mapped [0x30E4]),
  (0x32F4, 0x32F4, .Mapped [0x30E6]),
  (0x32F5, 0x32F5, .Mapped [0x30E8]),
  (0x32F6, 0x32F6, .Mapped [0x30E9]),
  (0x32F7, 0x32F7, .Mapped [0x30EA]),
  (0x32F8, 0x32F8, .Mapped [0x30EB]),
  (0x32F9, 0x32F9, .Mapped [0x30EC]),
  (0x32FA, 0x32FA, .Mapped [0x30ED]),
  (0x32FB, 0x32FB, .Mapped [0x30EF]),
  (0x32FC, 0x32FC, .Mapped [0x30F0]),
  (0x32FD, 0x32FD, .Mapped [0x30F1]),
  (0x32FE, 0x32FE, .Mapped [0x30F2]),
  (0x32FF, 0x32FF, .Disallowed),
  (0x3300, 0x3300, .Mapped [0x30A2, 0x30D1, 0x30FC, 0x30C8]),
  (0x3301, 0x3301, .Mapped [0x30A2, 0x30EB, 0x30D5, 0x30A1]),
  (0x3302, 0x3302, .Mapped [0x30A2, 0x30F3, 0x30DA, 0x30A2]),
  (0x3303, 0x3303, .Mapped [0x30A2, 0x30FC, 0x30EB]),
  (0x3304, 0x3304, .Mapped [0x30A4, 0x30CB, 0x30F3, 0x30B0]),
  (0x3305, 0x3305, .Mapped [0x30A4, 0x30F3, 0x30C1]),
  (0x3306, 0x3306, .Mapped [0x30A6, 0x30A9, 0x30F3]),
  (0x3307, 0x3307, .Mapped [0x30A8, 0x30B9, 0x30AF, 0x30FC, 0x30C9]),
  (0x3308, 0x3308, .Mapped [0x30A8, 0x30FC, 0x30AB, 0x30FC]),
  (0x3309, 0x3309, .Mapped [0x30AA, 0x30F3, 0x30B9]),
  (0x330A, 0x330A, .Mapped [0x30AA, 0x30FC, 0x30E0]),
  (0x330B, 0x330B, .Mapped [0x30AB, 0x30A4, 0x30EA]),
  (0x330C, 0x330C, .Mapped [0x30AB, 0x30E9, 0x30C3, 0x30C8]),
  (0x330D, 0x330D, .Mapped [0x30AB, 0x30ED, 0x30EA, 0x30FC]),
  (0x330E, 0x330E, .Mapped [0x30AC, 0x30ED, 0x30F3]),
  (0x330F, 0x330F, .Mapped [0x30AC, 0x30F3, 0x30DE]),
  (0x3310, 0x3310, .Mapped [0x30AE, 0x30AC]),
  (0x3311, 0x3311, .Mapped [0x30AE, 0x30CB, 0x30FC]),
  (0x3312, 0x3312, .Mapped [0x30AD, 0x30E5, 0x30EA, 0x30FC]),
  (0x3313, 0x3313, .Mapped [0x30AE, 0x30EB, 0x30C0, 0x30FC]),
  (0x3314, 0x3314, .Mapped [0x30AD, 0x30ED]),
  (0x3315, 0x3315, .Mapped [0x30AD, 0x30ED, 0x30B0, 0x30E9, 0x30E0]),
  (0x3316, 0x3316, .Mapped [0x30AD, 0x30ED, 0x30E1, 0x30FC, 0x30C8, 0x30EB]),
  (0x3317, 0x3317, .Mapped [0x30AD, 0x30ED, 0x30EF, 0x30C3, 0x30C8]),
  (0x3318, 0x3318, .Mapped [0x30B0, 0x30E9, 0x30E0]),
  (0x3319, 0x3319, .Mapped [0x30B0, 0x30E9, 0x30E0, 0x30C8, 0x30F3]),
  (0x331A, 0x331A, .Mapped [0x30AF, 0x30EB, 0x30BC, 0x30A4, 0x30ED]),
  (0x331B, 0x331B, .Mapped [0x30AF, 0x30ED, 0x30FC, 0x30CD]),
  (0x331C, 0x331C, .Mapped [0x30B1, 0x30FC, 0x30B9]),
  (0x331D, 0x331D, .Mapped [0x30B3, 0x30EB, 0x30CA]),
  (0x331E, 0x331E, .Mapped [0x30B3, 0x30FC, 0x30DD]),
  (0x331F, 0x331F, .Mapped [0x30B5, 0x30A4, 0x30AF, 0x30EB]),
  (0x3320, 0x3320, .Mapped [0x30B5, 0x30F3, 0x30C1, 0x30FC, 0x30E0]),
  (0x3321, 0x3321, .Mapped [0x30B7, 0x30EA, 0x30F3, 0x30B0])]
def idnaMapping_49 : List (Nat × Nat × Mapping) := [
  (0x3322, 0x3322, .Mapped [0x30BB, 0x30F3, 0x30C1]),
  (0x3323, 0x3323, .Mapped [0x30BB, 0x30F3, 0x30C8]),
  (0x3324, 0x3324, .Mapped [0x30C0, 0x30FC, 0x30B9]),
  (0x3325, 0x3325, .Mapped [0x30C7, 0x30B7]),
  (0x3326, 0x3326, .Mapped [0x30C9, 0x30EB]),
  (0x3327, 0x3327, .Mapped [0x30C8, 0x30F3]),
  (0x3328, 0x3328, .Mapped [0x30CA, 0x30CE]),
  (0x3329, 0x3329, .Mapped [0x30CE, 0x30C3, 0x30C8]),
  (0x332A, 0x332A, .Mapped [0x30CF, 0x30A4, 0x30C4]),
  (0x332B, 0x332B, .Mapped [0x30D1, 0x30FC, 0x30BB, 0x30F3, 0x30C8]),
  (0x332C, 0x332C, .Mapped [0x30D1, 0x30FC, 0x30C4]),
  (0x332D, 0x332D, .Mapped [0x30D0, 0x30FC, 0x30EC, 0x30EB]),
  (0x332E, 0x332E, .Mapped [0x30D4, 0x30A2, 0x30B9, 0x30C8, 0x30EB]),
  (0x332F, 0x332F, .Mapped [0x30D4, 0x30AF, 0x30EB]),
  (0x3330, 0x3330, .Mapped [0x30D4, 0x30B3]),
  (0x3331, 0x3331, .Mapped [0x30D3, 0x30EB]),
  (0x3332, 0x3332, .Mapped [0x30D5, 0x30A1, 0x30E9, 0x30C3, 0x30C9]),
  (0x3333, 0x3333, .Mapped [0x30D5, 0x30A3, 0x30FC, 0x30C8]),
  (0x3334, 0x3334, .Mapped [0x30D6, 0x30C3, 0x30B7, 0x30A7, 0x30EB]),
  (0x3335, 0x3335, .Mapped [0x30D5, 0x30E9, 0x30F3]),
  (0x3336, 0x3336, .Mapped [0x30D8, 0x30AF, 0x30BF, 0x30FC, 0x30EB]),
  (0x3337, 0x3337, .Mapped [0x30DA, 0x30BD]),
  (0x3338, 0x3338, .Mapped [0x30DA, 0x30CB, 0x30D2]),
  (0x3339, 0x3339, .Mapped [0x30D8, 0x30EB, 0x30C4]),
  (0x333A, 0x333A, .Mapped [0x30DA, 0x30F3, 0x30B9]),
  (0x333B, 0x333B, .Mapped [0x30DA, 0x30FC, 0x30B8]),
  (0x333C, 0x333C, .Mapped [0x30D9, 0x30FC, 0x30BF]),
  (0x333D, 0x333D, .Mapped [0x30DD, 0x30A4, 0x30F3, 0x30C8]),
  (0x333E, 0x333E, .Mapped [0x30DC, 0x30EB, 0x30C8]),
  (0x333F, 0x333F, .Mapped [0x30DB, 0x30F3]),
  (0x3340, 0x3340, .Mapped [0x30DD, 0x30F3, 0x30C9]),
  (0x3341, 0x3341, .Mapped [0x30DB, 0x30FC, 0x30EB]),
  (0x3342, 0x3342, .Mapped [0x30DB, 0x30FC, 0x30F3]),
  (0x3343, 0x3343, .Mapped [0x30DE, 0x30A4, 0x30AF, 0x30ED]),
  (0x3344, 0x3344, .Mapped [0x30DE, 0x30A4, 0x30EB]),
  (0x3345, 0x3345, .Mapped [0x30DE, 0x30C3, 0x30CF]),
  (0x3346, 0x3346, .Mapped [0x30DE, 0x30EB, 0x30AF]),
  (0x3347, 0x3347, .Mapped [0x30DE, 0x30F3, 0x30B7, 0x30E7, 0x30F3]),
  (0x3348, 0x3348, .Mapped [0x30DF, 0x30AF, 0x30ED, 0x30F3]),
  (0x3349, 0x3349, .Mapped [0x30DF, 0x30EA]),
  (0x334A, 0x334A, .Mapped [0x30DF, 0x30EA, 0x30D0, 0x30FC, 0x30EB]),
  (0x334B, 0x334B, .Mapped [0x30E1, 0x30AC]),
  (0x334C, 0x334C, .Mapped [0x30E1, 0x30AC, 0x30C8, 0x30F3]),
  (0x334D, 0x334D, .Mapped [0x30E1, 0x30FC, 0x30C8, 0x30EB]),
  (0x334E, 0x334E, .Mapped [0x30E4, 0x30FC, 0x30C9]),
  (0x334F, 0x334F, .Mapped [0x30E4, 0x30FC, 0x30EB]),
  (0x3350, 0x3350, .Mapped [0x30E6, 0x30A2, 0x30F3]),
  (0x3351, 0x3351, .Mapped [0x30EA, 0x30C3, 0x30C8, 0x30EB]),
  (0x3352, 0x3352, .Mapped [0x30EA, 0x30E9]),
  (0x3353, 0x3353, .Mapped [0x30EB, 0x30D4, 0x30FC]),
  (0x3354, 0x3354, .Mapped [0x30EB, 0x30FC, 0x30D6, 0x30EB]),
  (0x3355, 0x3355, .Mapped [0x30EC, 0x30E0]),
  (0x3356, 0x3356, .Mapped [0x30EC, 0x30F3, 0x30C8, 0x30B2, 0x30F3]),
  (0x3357, 0x3357, .Mapped [0x30EF, 0x30C3, 0x30C8]),
  (0x3358, 0x3358, .Mapped [0x30, 0x70B9]),
  (0x3359, 0x3359, .Mapped [0x31, 0x70B9]),
  (0x335A, 0x335A, .Mapped [0x32, 0x70B9]),
  (0x335B, 0x335B, .Mapped [0x33, 0x70B9]),
  (0x335C, 0x335C, .Mapped [0x34, 0x70B9]),
  (0x335D, 0x335D, .Mapped [0x35, 0x70B9]),
  (0x335E, 0x335E, .Mapped [0x36, 0x70B9]),
  (0x335F, 0x335F, .Mapped [0x37, 0x70B9]),
  (0x3360, 0x3360, .Mapped [0x38, 0x70B9]),
  (0x3361, 0x3361, .Mapped [0x39, 0x70B9])]
def idnaMapping_50 : List (Nat × Nat × Mapping) := [
  (0x3362, 0x3362, .Mapped [0x31, 0x30, 0x70B9]),
  (0x3363, 0x3363, .Mapped [0x31, 0x31, 0x70B9]),
  (0x3364, 0x3364, .Mapped [0x31, 0x32, 0x70B9]),
  (0x3365, 0x3365, .Mapped [0x31, 0x33, 0x70B9]),
  (0x3366, 0x3366, .Mapped [0x31, 0x34, 0x70B9]),
  (0x3367, 0x3367, .Mapped [0x31, 0x35, 0x70B9]),
  (0x3368, 0x3368, .Mapped [0x31, 0x36, 0x70B9]),
  (0x3369, 0x3369, .Mapped [0x31, 0x37, 0x70B9]),
  (0x336A, 0x336A, .Mapped [0x31, 0x38, 0x70B9]),
  (0x336B, 0x336B, .Mapped [0x31, 0x39, 0x70B9]),
  (0x336C, 0x336C, .Mapped [0x32, 0x30, 0x70B9]),
  (0x336D, 0x336D, .Mapped [0x32, 0x31, 0x70B9]),
  (0x336E, 0x336E, .Mapped [0x32, 0x32, 0x70B9]),
  (0x336F, 0x336F, .Mapped [0x32, 0x33, 0x70B9]),
  (0x3370, 0x3370, .Mapped [0x32, 0x34, 0x70B9]),
  (0x3371, 0x3371, .Mapped [0x68, 0x70, 0x61]),
  (0x3372, 0x3372, .Mapped [0x64, 0x61]),
  (0x3373, 0x3373, .Mapped [0x61, 0x75]),
  (0x3374, 0x3374, .Mapped [0x62, 0x61, 0x72]),
  (0x3375, 0x3375, .Mapped [0x6F, 0x76]),
  (0x3376, 0x3376, .Mapped [0x70, 0x63]),
  (0x3377, 0x3377, .Mapped [0x64, 0x6D]),
  (0x3378, 0x3378, .Mapped [0x64, 0x6D, 0x32]),
  (0x3379, 0x3379, .Mapped [0x64, 0x6D, 0x33]),
  (0x337A, 0x337A, .Mapped [0x69, 0x75]),
  (0x337B, 0x337B, .Mapped [0x5E73, 0x6210]),
  (0x337C, 0x337C, .Mapped [0x662D, 0x548C]),
  (0x337D, 0x337D, .Mapped [0x5927, 0x6B63]),
  (0x337E, 0x337E, .Mapped [0x660E, 0x6CBB]),
  (0x337F, 0x337F, .Mapped [0x682A, 0x5F0F, 0x4F1A, 0x793E]),
  (0x3380, 0x3380, .Mapped [0x70, 0x61]),
  (0x3381, 0x3381, .Mapped [0x6E, 0x61]),
  (0x3382, 0x3382, .Mapped [0x3BC, 0x61]),
  (0x3383, 0x3383, .Mapped [0x6D, 0x61]),
  (0x3384, 0x3384, .Mapped [0x6B, 0x61]),
  (0x3385, 0x3385, .Mapped [0x6B, 0x62]),
  (0x3386, 0x3386, .Mapped [0x6D, 0x62]),
  (0x3387, 0x3387, .Mapped [0x67, 0x62]),
  (0x3388, 0x3388, .Mapped [0x63, 0x61, 0x6C]),
  (0x3389, 0x3389, .Mapped [0x6B, 0x63, 0x61, 0x6C]),
  (0x338A, 0x338A, .Mapped [0x70, 0x66]),
  (0x338B, 0x338B, .Mapped [0x6E, 0x66]),
  (0x338C, 0x338C, .Mapped [0x3BC, 0x66]),
  (0x338D, 0x338D, .Mapped [0x3BC, 0x67]),
  (0x338E, 0x338E, .Mapped [0x6D, 0x67]),
  (0x338F, 0x338F, .Mapped [0x6B, 0x67]),
  (0x3390, 0x3390, .Mapped [0x68, 0x7A]),
  (0x3391, 0x3391, .Mapped [0x6B, 0x68, 0x7A]),
  (0x3392, 0x3392, .Mapped [0x6D, 0x68, 0x7A]),
  (0x3393, 0x3393, .Mapped [0x67, 0x68, 0x7A]),
  (0x3394, 0x3394, .Mapped [0x74, 0x68, 0x7A]),
  (0x3395, 0x3395, .Mapped [0x3BC, 0x6C]),
  (0x3396, 0x3396, .Mapped [0x6D, 0x6C]),
  (0x3397, 0x3397, .Mapped [0x64, 0x6C]),
  (0x3398, 0x3398, .Mapped [0x6B, 0x6C]),
  (0x3399, 0x3399, .Mapped [0x66, 0x6D]),
  (0x339A, 0x339A, .Mapped [0x6E, 0x6D]),
  (0x339B, 0x339B, .Mapped [0x3BC, 0x6D]),
  (0x339C, 0x339C, .Mapped [0x6D, 0x6D]),
  (0x339D, 0x339D, .Mapped [0x63, 0x6D]),
  (0x339E, 0x339E, .Mapped [0x6B, 0x6D]),
  (0x339F, 0x339F, .Mapped [0x6D, 0x6D, 0x32]),
  (0x33A0, 0x33A0, .Mapped [0x63, 0x6D, 0x32]),
  (0x33A1, 0x33A1, .Mapped [0x6D, 0x32])]
def idnaMapping_51 : List (Nat × Nat × Mapping) := [
  (0x33A2, 0x33A2, .Mapped [0x6B, 0x6D, 0x32]),
  (0x33A3, 0x33A3, .Mapped [0x6D, 0x6D, 0x33]),
  (0x33A4, 0x33A4, .Mapped [0x63, 0x6D, 0x33]),
  (0x33A5, 0x33A5, .Mapped [0x6D, 0x33]),
  (0x33A6, 0x33A6, .Mapped [0x6B, 0x6D, 0x33]),
  (0x33A7, 0x33A7, .Mapped [0x6D, 0x2215, 0x73]),
  (0x33A8, 0x33A8, .Mapped [0x6D, 0x2215, 0x73, 0x32]),
  (0x33A9, 0x33A9, .Mapped [0x70, 0x61]),
  (0x33AA, 0x33AA, .Mapped [0x6B, 0x70, 0x61]),
  (0x33AB, 0x33AB, .Mapped [0x6D, 0x70, 0x61]),
  (0x33AC, 0x33AC, .Mapped [0x67, 0x70, 0x61]),
  (0x33AD, 0x33AD, .Mapped [0x72, 0x61, 0x64]),
  (0x33AE, 0x33AE, .Mapped [0x72, 0x61, 0x64, 0x2215, 0x73]),
  (0x33AF, 0x33AF, .Mapped [0x72, 0x61, 0x64, 0x2215, 0x73, 0x32]),
  (0x33B0, 0x33B0, .Mapped [0x70, 0x73]),
  (0x33B1, 0x33B1, .Mapped [0x6E, 0x73]),
  (0x33B2, 0x33B2, .Mapped [0x3BC, 0x73]),
  (0x33B3, 0x33B3, .Mapped [0x6D, 0x73]),
  (0x33B4, 0x33B4, .Mapped [0x70, 0x76]),
  (0x33B5, 0x33B5, .Mapped [0x6E, 0x76]),
  (0x33B6, 0x33B6, .Mapped [0x3BC, 0x76]),
  (0x33B7, 0x33B7, .Mapped [0x6D, 0x76]),
  (0x33B8, 0x33B8, .Mapped [0x6B, 0x76]),
  (0x33B9, 0x33B9, .Mapped [0x6D, 0x76]),
  (0x33BA, 0x33BA, .Mapped [0x70, 0x77]),
  (0x33BB, 0x33BB, .Mapped [0x6E, 0x77]),
  (0x33BC, 0x33BC, .Mapped [0x3BC, 0x77]),
  (0x33BD, 0x33BD, .Mapped [0x6D, 0x77]),
  (0x33BE, 0x33BE, .Mapped [0x6B, 0x77]),
  (0x33BF, 0x33BF, .Mapped [0x6D, 0x77]),
  (0x33C0, 0x33C0, .Mapped [0x6B, 0x3C9]),
  (0x33C1, 0x33C1, .Mapped [0x6D, 0x3C9]),
  (0x33C2, 0x33C2, .Disallowed),
  (0x33C3, 0x33C3, .Mapped [0x62, 0x71]),
  (0x33C4, 0x33C4, .Mapped [0x63, 0x63]),
  (0x33C5, 0x33C5, .Mapped [0x63, 0x64]),
  (0x33C6, 0x33C6, .Mapped [0x63, 0x2215, 0x6B, 0x67]),
  (0x33C7, 0x33C7, .Disallowed),
  (0x33C8, 0x33C8, .Mapped [0x64, 0x62]),
  (0x33C9, 0x33C9, .Mapped [0x67, 0x79]),
  (0x33CA, 0x33CA, .Mapped [0x68, 0x61]),
  (0x33CB, 0x33CB, .Mapped [0x68, 0x70]),
  (0x33CC, 0x33CC, .Mapped [0x69, 0x6E]),
  (0x33CD, 0x33CD, .Mapped [0x6B, 0x6B]),
  (0x33CE, 0x33CE, .Mapped [0x6B, 0x6D]),
  (0x33CF, 0x33CF, .Mapped [0x6B, 0x74]),
  (0x33D0, 0x33D0, .Mapped [0x6C, 0x6D]),
  (0x33D1, 0x33D1, .Mapped [0x6C, 0x6E]),
  (0x33D2, 0x33D2, .Mapped [0x6C, 0x6F, 0x67]),
  (0x33D3, 0x33D3, .Mapped [0x6C, 0x78]),
  (0x33D4, 0x33D4, .Mapped [0x6D, 0x62]),
  (0x33D5, 0x33D5, .Mapped [0x6D, 0x69, 0x6C]),
  (0x33D6, 0x33D6, .Mapped [0x6D, 0x6F, 0x6C]),
  (0x33D7, 0x33D7, .Mapped [0x70, 0x68]),
  (0x33D8, 0x33D8, .Disallowed),
  (0x33D9, 0x33D9, .Mapped [0x70, 0x70, 0x6D]),
  (0x33DA, 0x33DA, .Mapped [0x70, 0x72]),
  (0x33DB, 0x33DB, .Mapped [0x73, 0x72]),
  (0x33DC, 0x33DC, .Mapped [0x73, 0x76]),
  (0x33DD, 0x33DD, .Mapped [0x77, 0x62]),
  (0x33DE, 0x33DE, .Mapped [0x76, 0x2215, 0x6D]),
  (0x33DF, 0x33DF, .Mapped [0x61, 0x2215, 0x6D]),
  (0x33E0, 0x33E0, .Mapped [0x31, 0x65E5]),
  (0x33E1, 0x33E1, .Mapped [0x32, 0x65E5])]
def idnaMapping_52 : List (Nat × Nat × Mapping) := [
  (0x33E2, 0x33E2, .Mapped [0x33, 0x65E5]),
  (0x33E3, 0x33E3, .Mapped [0x34, 0x65E5]),
  (0x33E4, 0x33E4, .Mapped [0x35, 0x65E5]),
  (0x33E5, 0x33E5, .Mapped [0x36, 0x65E5]),
  (0x33E6, 0x33E6, .Mapped [0x37, 0x65E5]),
  (0x33E7, 0x33E7, .Mapped [0x38, 0x65E5]),
  (0x33E8, 0x33E8, .Mapped [0x39, 0x65E5]),
  (0x33E9, 0x33E9, .Mapped [0x31, 0x30, 0x65E5]),
  (0x33EA, 0x33EA, .Mapped [0x31, 0x31, 0x65E5]),
  (0x33EB, 0x33EB, .Mapped [0x31, 0x32, 0x65E5]),
  (0x33EC, 0x33EC, .Mapped [0x31, 0x33, 0x65E5]),
  (0x33ED, 0x33ED, .Mapped [0x31, 0x34, 0x65E5]),
  (0x33EE, 0x33EE, .Mapped [0x31, 0x35, 0x65E5]),
  (0x33EF, 0x33EF, .Mapped [0x31, 0x36, 0x65E5]),
  (0x33F0, 0x33F0, .Mapped [0x31, 0x37, 0x65E5]),
  (0x33F1, 0x33F1, .Mapped [0x31, 0x38, 0x65E5]),
  (0x33F2, 0x33F2, .Mapped [0x31, 0x39, 0x65E5]),
  (0x33F3, 0x33F3, .Mapped [0x32, 0x30, 0x65E5]),
  (0x33F4, 0x33F4, .Mapped [0x32, 0x31, 0x65E5]),
  (0x33F5, 0x33F5, .Mapped [0x32, 0x32, 0x65E5]),
  (0x33F6, 0x33F6, .Mapped [0x32, 0x33, 0x65E5]),
  (0x33F7, 0x33F7, .Mapped [0x32, 0x34, 0x65E5]),
  (0x33F8, 0x33F8, .Mapped [0x32, 0x35, 0x65E5]),
  (0x33F9, 0x33F9, .Mapped [0x32, 0x36, 0x65E5]),
  (0x33FA, 0x33FA, .Mapped [0x32, 0x37, 0x65E5]),
  (0x33FB, 0x33FB, .Mapped [0x32, 0x38, 0x65E5]),
  (0x33FC, 0x33FC, .Mapped [0x32, 0x39, 0x65E5]),
  (0x33FD, 0x33FD, .Mapped [0x33, 0x30, 0x65E5]),
  (0x33FE, 0x33FE, .Mapped [0x33, 0x31, 0x65E5]),
  (0x33FF, 0x33FF, .Mapped [0x67, 0x61, 0x6C]),
  (0x3400, 0x4DB5, .Valid),
  (0x4DB6, 0x4DBF, .Disallowed),
  (0x4DC0, 0x9FEA, .Valid),
  (0x9FEB, 0x9FFF, .Disallowed),
  (0xA000, 0xA48C, .Valid),
  (0xA48D, 0xA48F, .Disallowed),
  (0xA490, 0xA4C6, .Valid),
  (0xA4C7, 0xA4CF, .Disallowed),
  (0xA4D0, 0xA62B, .Valid),
  (0xA62C, 0xA63F, .Disallowed),
  (0xA640, 0xA640, .Mapped [0xA641]),
  (0xA641, 0xA641, .Valid),
  (0xA642, 0xA642, .Mapped [0xA643]),
  (0xA643, 0xA643, .Valid),
  (0xA644, 0xA644, .Mapped [0xA645]),
  (0xA645, 0xA645, .Valid),
  (0xA646, 0xA646, .Mapped [0xA647]),
  (0xA647, 0xA647, .Valid),
  (0xA648, 0xA648, .Mapped [0xA649]),
  (0xA649, 0xA649, .Valid),
  (0xA64A, 0xA64A, .Mapped [0xA64B]),
  (0xA64B, 0xA64B, .Valid),
  (0xA64C, 0xA64C, .Mapped [0xA64D]),
  (0xA64D, 0xA64D, .Valid),
  (0xA64E, 0xA64E, .Mapped [0xA64F]),
  (0xA64F, 0xA64F, .Valid),
  (0xA650, 0xA650, .Mapped [0xA651]),
  (0xA651, 0xA651, .Valid),
  (0xA652, 0xA652, .Mapped [0xA653]),
  (0xA653, 0xA653, .Valid),
  (0xA654, 0xA654, .Mapped [0xA655]),
  (0xA655, 0xA655, .Valid),
  (0xA656, 0xA656, .Mapped [0xA657]),
  (0xA657, 0xA657, .Valid)]
def idnaMapping_53 : List (Nat × Nat × Mapping) := [
  (0xA658, 0xA658, .Mapped [0xA659]),
  (0xA659, 0xA659, .Valid),
  (0xA65A, 0xA65A, .Mapped [0xA65B]),
  (0xA65B, 0xA65B, .Valid),
  (0xA65C, 0xA65C, .Mapped [0xA65D]),
  (0xA65D, 0xA65D, .Valid),
  (0xA65E, 0xA65E, .Mapped [0xA65F]),
  (0xA65F, 0xA65F, .Valid),
  (0xA660, 0xA660, .Mapped [0xA661]),
  (0xA661, 0xA661, .Valid),
  (0xA662, 0xA662, .Mapped [0xA663]),
  (0xA663, 0xA663, .Valid),
  (0xA664, 0xA664, .Mapped [0xA665]),
  (0xA665, 0xA665, .Valid),
  (0xA666, 0xA666, .Mapped [0xA667]),
  (0xA667, 0xA667, .Valid),
  (0xA668, 0xA668, .Mapped [0xA669]),
  (0xA669, 0xA669, .Valid),
  (0xA66A, 0xA66A, .Mapped [0xA66B]),
  (0xA66B, 0xA66B, .Valid),
  (0xA66C, 0xA66C, .Mapped [0xA66D]),
  (0xA66D, 0xA67F, .Valid),
  (0xA680, 0xA680, .Mapped [0xA681]),
  (0xA681, 0xA681, .Valid),
  (0xA682, 0xA682, .Mapped [0xA683]),
  (0xA683, 0xA683, .Valid),
  (0xA684, 0xA684, .Mapped [0xA685]),
  (0xA685, 0xA685, .Valid),
  (0xA686, 0xA686, .Mapped [0xA687]),
  (0xA687, 0xA687, .Valid),
  (0xA688, 0xA688, .Mapped [0xA689]),
  (0xA689, 0xA689, .Valid),
  (0xA68A, 0xA68A, .Mapped [0xA68B]),
  (0xA68B, 0xA68B, .Valid),
  (0xA68C, 0xA68C, .Mapped [0xA68D]),
  (0xA68D, 0xA68D, .Valid),
  (0xA68E, 0xA68E, .Mapped [0xA68F]),
  (0xA68F, 0xA68F, .Valid),
  (0xA690, 0xA690, .Mapped [0xA691]),
  (0xA691, 0xA691, .Valid),
  (0xA692, 0xA692, .Mapped [0xA693]),
  (0xA693, 0xA693, .Valid),
  (0xA694, 0xA694, .Mapped [0xA695]),
  (0xA695, 0xA695, .Valid),
  (0xA696, 0xA696, .Mapped [0xA697]),
  (0xA697, 0xA697, .Valid),
  (0xA698, 0xA698, .Mapped [0xA699]),
  (0xA699, 0xA699, .Valid),
  (0xA69A, 0xA69A, .Mapped [0xA69B]),
  (0xA69B, 0xA69B, .Valid),
  (0xA69C, 0xA69C, .Mapped [0x44A]),
  (0xA69D, 0xA69D, .Mapped [0x44C]),
  (0xA69E, 0xA6F7, .Valid),
  (0xA6F8, 0xA6FF, .Disallowed),
  (0xA700, 0xA721, .Valid),
  (0xA722, 0xA722, .Mapped [0xA723]),
  (0xA723, 0xA723, .Valid),
  (0xA724, 0xA724, .Mapped [0xA725]),
  (0xA725, 0xA725, .Valid),
  (0xA726, 0xA726, .Mapped [0xA727]),
  (0xA727, 0xA727, .Valid),
  (0xA728, 0xA728, .Mapped [0xA729]),
  (0xA729, 0xA729, .Valid),
  (0xA72A, 0xA72A, .Mapped [0xA72B])]
def idnaMapping_54 : List (Nat × Nat × Mapping) := [
  (0xA72B, 0xA72B, .Valid),
  (0xA72C, 0xA72C, .Mapped [0xA72D]),
  (0xA72D, 0xA72D, .Valid),
  (0xA72E, 0xA72E, .Mapped [0xA72F]),
  (0xA72F, 0xA731, .Valid),
  (0xA732, 0xA732, .Mapped [0xA733]),
  (0xA733, 0xA733, .Valid),
  (0xA734, 0xA734, .Mapped [0xA735]),
  (0xA735, 0xA735, .Valid),
  (0xA736, 0xA736, .Mapped [0xA737]),
  (0xA737, 0xA737, .Valid),
  (0xA738, 0xA738, .Mapped [0xA739]),
  (0xA739, 0xA739, .Valid),
  (0xA73A, 0xA73A, .Mapped [0xA73B]),
  (0xA73B, 0xA73B, .Valid),
  (0xA73C, 0xA73C, .Mapped [0xA73D]),
  (0xA73D, 0xA73D, .Valid),
  (0xA73E, 0xA73E, .Mapped [0xA73F]),
  (0xA73F, 0xA73F, .Valid),
  (0xA740, 0xA740, .Mapped [0xA741]),
  (0xA741, 0xA741, .Valid),
  (0xA742, 0xA742, .Mapped [0xA743]),
  (0xA743, 0xA743, .Valid),
  (0xA744, 0xA744, .Mapped [0xA745]),
  (0xA745, 0xA745, .Valid),
  (0xA746, 0xA746, .Mapped [0xA747]),
  (0xA747, 0xA747, .Valid),
  (0xA748, 0xA748, .Mapped [0xA749]),
  (0xA749, 0xA749, .Valid),
  (0xA74A, 0xA74A, .Mapped [0xA74B]),
  (0xA74B, 0xA74B, .Valid),
  (0xA74C, 0xA74C, .Mapped [0xA74D]),
  (0xA74D, 0xA74D, .Valid),
  (0xA74E, 0xA74E, .Mapped [0xA74F]),
  (0xA74F, 0xA74F, .Valid),
  (0xA750, 0xA750, .Mapped [0xA751]),
  (0xA751, 0xA751, .Valid),
  (0xA752, 0xA752, .Mapped [0xA753]),
  (0xA753, 0xA753, .Valid),
  (0xA754, 0xA754, .Mapped [0xA755]),
  (0xA755, 0xA755, .Valid),
  (0xA756, 0xA756, .Mapped [0xA757]),
  (0xA757, 0xA757, .Valid),
  (0xA758, 0xA758, .Mapped [0xA759]),
  (0xA759, 0xA759, .Valid),
  (0xA75A, 0xA75A, .Mapped [0xA75B]),
  (0xA75B, 0xA75B, .Valid),
  (0xA75C, 0xA75C, .Mapped [0xA75D]),
  (0xA75D, 0xA75D, .Valid),
  (0xA75E, 0xA75E, .Mapped [0xA75F]),
  (0xA75F, 0xA75F, .Valid),
  (0xA760, 0xA760, .Mapped [0xA761]),
  (0xA761, 0xA761, .Valid),
  (0xA762, 0xA762, .Mapped [0xA763]),
  (0xA763, 0xA763, .Valid),
  (0xA764, 0xA764, .Mapped [0xA765]),
  (0xA765, 0xA765, .Valid),
  (0xA766, 0xA766, .Mapped [0xA767]),
  (0xA767, 0xA767, .Valid),
  (0xA768, 0xA768, .Mapped [0xA769]),
  (0xA769, 0xA769, .Valid),
  (0xA76A, 0xA76A, .Mapped [0xA76B]),
  (0xA76B, 0xA76B, .Valid),
  (0xA76C, 0xA76C, .Mapped [0xA76D])]
def idnaMapping_55 : List (Nat × Nat × Mapping) := [
  (0xA76D, 0xA76D, .Valid),
  (0xA76E, 0xA76E, .Mapped [0xA76F]),
  (0xA76F, 0xA76F, .Valid),
  (0xA770, 0xA770, .Mapped [0xA76F]),
  (0xA771, 0xA778, .Valid),
  (0xA779, 0xA779, .Mapped [0xA77A]),
  (0xA77A, 0xA77A, .Valid),
  (0xA77B, 0xA77B, .Mapped [0xA77C]),
  (0xA77C, 0xA77C, .Valid),
  (0xA77D, 0xA77D, .Mapped [0x1D79]),
  (0xA77E, 0xA77E, .Mapped [0xA77F]),
  (0xA77F, 0xA77F, .Valid),
  (0xA780, 0xA780, .Mapped [0xA781]),
  (0xA781, 0xA781, .Valid),
  (0xA782, 0xA782, .Mapped [0xA783]),
  (0xA783, 0xA783, .Valid),
  (0xA784, 0xA784, .Mapped [0xA785]),
  (0xA785, 0xA785, .Valid),
  (0xA786, 0xA786, .Mapped [0xA787]),
  (0xA787, 0xA78A, .Valid),
  (0xA78B, 0xA78B, .Mapped [0xA78C]),
  (0xA78C, 0xA78C, .Valid),
  (0xA78D, 0xA78D, .Mapped [0x265]),
  (0xA78E, 0xA78F, .Valid),
  (0xA790, 0xA790, .Mapped [0xA791]),
  (0xA791, 0xA791, .Valid),
  (0xA792, 0xA792, .Mapped [0xA793]),
  (0xA793, 0xA795, .Valid),
  (0xA796, 0xA796, .Mapped [0xA797]),
  (0xA797, 0xA797, .Valid),
  (0xA798, 0xA798, .Mapped [0xA799]),
  (0xA799, 0xA799, .Valid),
  (0xA79A, 0xA79A, .Mapped [0xA79B]),
  (0xA79B, 0xA79B, .Valid),
  (0xA79C, 0xA79C, .Mapped [0xA79D]),
  (0xA79D, 0xA79D, .Valid),
  (0xA79E, 0xA79E, .Mapped [0xA79F]),
  (0xA79F, 0xA79F, .Valid),
  (0xA7A0, 0xA7A0, .Mapped [0xA7A1]),
  (0xA7A1, 0xA7A1, .Valid),
  (0xA7A2, 0xA7A2, .Mapped [0xA7A3]),
  (0xA7A3, 0xA7A3, .Valid),
  (0xA7A4, 0xA7A4, .Mapped [0xA7A5]),
  (0xA7A5, 0xA7A5, .Valid),
  (0xA7A6, 0xA7A6, .Mapped [0xA7A7]),
  (0xA7A7, 0xA7A7, .Valid),
  (0xA7A8, 0xA7A8, .Mapped [0xA7A9]),
  (0xA7A9, 0xA7A9, .Valid),
  (0xA7AA, 0xA7AA, .Mapped [0x266]),
  (0xA7AB, 0xA7AB, .Mapped [0x25C]),
  (0xA7AC, 0xA7AC, .Mapped [0x261]),
  (0xA7AD, 0xA7AD, .Mapped [0x26C]),
  (0xA7AE, 0xA7AE, .Mapped [0x26A]),
  (0xA7AF, 0xA7AF, .Disallowed),
  (0xA7B0, 0xA7B0, .Mapped [0x29E]),
  (0xA7B1, 0xA7B1, .Mapped [0x287]),
  (0xA7B2, 0xA7B2, .Mapped [0x29D]),
  (0xA7B3, 0xA7B3, .Mapped [0xAB53]),
  (0xA7B4, 0xA7B4, .Mapped [0xA7B5]),
  (0xA7B5, 0xA7B5, .Valid),
  (0xA7B6, 0xA7B6, .Mapped [0xA7B7]),
  (0xA7B7, 0xA7B7, .Valid),
  (0xA7B8, 0xA7F6, .Disallowed),
  (0xA7F7, 0xA7F7, .Valid)]
def idnaMapping_56 : List (Nat × Nat × Mapping) := [
  (0xA7F8, 0xA7F8, .Mapped [0x127]),
  (0xA7F9, 0xA7F9, .Mapped [0x153]),
  (0xA7FA, 0xA82B, .Valid),
  (0xA82C, 0xA82F, .Disallowed),
  (0xA830, 0xA839, .Valid),
  (0xA83A, 0xA83F, .Disallowed),
  (0xA840, 0xA877, .Valid),
  (0xA878, 0xA87F, .Disallowed),
  (0xA880, 0xA8C5, .Valid),
  (0xA8C6, 0xA8CD, .Disallowed),
  (0xA8CE, 0xA8D9, .Valid),
  (0xA8DA, 0xA8DF, .Disallowed),
  (0xA8E0, 0xA8FD, .Valid),
  (0xA8FE, 0xA8FF, .Disallowed),
  (0xA900, 0xA953, .Valid),
  (0xA954, 0xA95E, .Disallowed),
  (0xA95F, 0xA97C, .Valid),
  (0xA97D, 0xA97F, .Disallowed),
  (0xA980, 0xA9CD, .Valid),
  (0xA9CE, 0xA9CE, .Disallowed),
  (0xA9CF, 0xA9D9, .Valid),
  (0xA9DA, 0xA9DD, .Disallowed),
  (0xA9DE, 0xA9FE, .Valid),
  (0xA9FF, 0xA9FF, .Disallowed),
  (0xAA00, 0xAA36, .Valid),
  (0xAA37, 0xAA3F, .Disallowed),
  (0xAA40, 0xAA4D, .Valid),
  (0xAA4E, 0xAA4F, .Disallowed),
  (0xAA50, 0xAA59, .Valid),
  (0xAA5A, 0xAA5B, .Disallowed),
  (0xAA5C, 0xAAC2, .Valid),
  (0xAAC3, 0xAADA, .Disallowed),
  (0xAADB, 0xAAF6, .Valid),
  (0xAAF7, 0xAB00, .Disallowed),
  (0xAB01, 0xAB06, .Valid),
  (0xAB07, 0xAB08, .Disallowed),
  (0xAB09, 0xAB0E, .Valid),
  (0xAB0F, 0xAB10, .Disallowed),
  (0xAB11, 0xAB16, .Valid),
  (0xAB17, 0xAB1F, .Disallowed),
  (0xAB20, 0xAB26, .Valid),
  (0xAB27, 0xAB27, .Disallowed),
  (0xAB28, 0xAB2E, .Valid),
  (0xAB2F, 0xAB2F, .Disallowed),
  (0xAB30, 0xAB5B, .Valid),
  (0xAB5C, 0xAB5C, .Mapped [0xA727]),
  (0xAB5D, 0xAB5D, .Mapped [0xAB37]),
  (0xAB5E, 0xAB5E, .Mapped [0x26B]),
  (0xAB5F, 0xAB5F, .Mapped [0xAB52]),
  (0xAB60, 0xAB65, .Valid),
  (0xAB66, 0xAB6F, .Disallowed),
  (0xAB70, 0xAB70, .Mapped [0x13A0]),
  (0xAB71, 0xAB71, .Mapped [0x13A1]),
  (0xAB72, 0xAB72, .Mapped [0x13A2]),
  (0xAB73, 0xAB73, .Mapped [0x13A3]),
  (0xAB74, 0xAB74, .Mapped [0x13A4]),
  (0xAB75, 0xAB75, .Mapped [0x13A5]),
  (0xAB76, 0xAB76, .Mapped [0x13A6]),
  (0xAB77, 0xAB77, .Mapped [0x13A7]),
  (0xAB78, 0xAB78, .Mapped [0x13A8]),
  (0xAB79, 0xAB79, .Mapped [0x13A9]),
  (0xAB7A, 0xAB7A, .Mapped [0x13AA]),
  (0xAB7B, 0xAB7B, .Mapped [0x13AB]),
  (0xAB7C, 0xAB7C, .Mapped [0x13AC])]
def idnaMapping_57 : List (Nat × Nat × Mapping) := [
  (0xAB7D, 0xAB7D, .Mapped [0x13AD]),
  (0xAB7E, 0xAB7E, .Mapped [0x13AE]),
  (0xAB7F, 0xAB7F, .Mapped [0x13AF]),
  (0xAB80, 0xAB80, .Mapped [0x13B0]),
  (0xAB81, 0xAB81, .Mapped [0x13B1]),
  (0xAB82, 0xAB82, .Mapped [0x13B2]),
  (0xAB83, 0xAB83, .Mapped [0x13B3]),
  (0xAB84, 0xAB84, .Mapped [0x13B4]),
  (0xAB85, 0xAB85, .Mapped [0x13B5]),
  (0xAB86, 0xAB86, .Mapped [0x13B6]),
  (0xAB87, 0xAB87, .Mapped [0x13B7]),
  (0xAB88, 0xAB88, .Mapped [0x13B8]),
  (0xAB89, 0xAB89, .Mapped [0x13B9]),
  (0xAB8A, 0xAB8A, .Mapped [0x13BA]),
  (0xAB8B, 0xAB8B, .Mapped [0x13BB]),
  (0xAB8C, 0xAB8C, .Mapped [0x13BC]),
  (0xAB8D, 0xAB8D, .Mapped [0x13BD]),
  (0xAB8E, 0xAB8E, .Mapped [0x13BE]),
  (0xAB8F, 0xAB8F, .Mapped [0x13BF]),
  (0xAB90, 0xAB90, .Mapped [0x13C0]),
  (0xAB91, 0xAB91, .Mapped [0x13C1]),
  (0xAB92, 0xAB92, .Mapped [0x13C2]),
  (0xAB93, 0xAB93, .Mapped [0x13C3]),
  (0xAB94, 0xAB94, .Mapped [0x13C4]),
  (0xAB95, 0xAB95, .Mapped [0x13C5]),
  (0xAB96, 0xAB96, .Mapped [0x13C6]),
  (0xAB97, 0xAB97, .Mapped [0x13C7]),
  (0xAB98, 0xAB98, .Mapped [0x13C8]),
  (0xAB99, 0xAB99, .Mapped [0x13C9]),
  (0xAB9A, 0xAB9A, .Mapped [0x13CA]),
  (0xAB9B, 0xAB9B, .Mapped [0x13CB]),
  (0xAB9C, 0xAB9C, .Mapped [0x13CC]),
  (0xAB9D, 0xAB9D, .Mapped [0x13CD]),
  (0xAB9E, 0xAB9E, .Mapped [0x13CE]),
  (0xAB9F, 0xAB9F, .Mapped [0x13CF]),
  (0xABA0, 0xABA0, .Mapped [0x13D0]),
  (0xABA1, 0xABA1, .Mapped [0x13D1]),
  (0xABA2, 0xABA2, .Mapped [0x13D2]),
  (0xABA3, 0xABA3, .Mapped [0x13D3]),
  (0xABA4, 0xABA4, .Mapped [0x13D4]),
  (0xABA5, 0xABA5, .Mapped [0x13D5]),
  (0xABA6, 0xABA6, .Mapped [0x13D6]),
  (0xABA7, 0xABA7, .Mapped [0x13D7]),
  (0xABA8, 0xABA8, .Mapped [0x13D8]),
  (0xABA9, 0xABA9, .Mapped [0x13D9]),
  (0xABAA, 0xABAA, .Mapped [0x13DA]),
  (0xABAB, 0xABAB, .Mapped [0x13DB]),
  (0xABAC, 0xABAC, .Mapped [0x13DC]),
  (0xABAD, 0xABAD, .Mapped [0x13DD]),
  (0xABAE, 0xABAE, .Mapped [0x13DE]),
  (0xABAF, 0xABAF, .Mapped [0x13DF]),
  (0xABB0, 0xABB0, .Mapped [0x13E0]),
  (0xABB1, 0xABB1, .Mapped [0x13E1]),
  (0xABB2, 0xABB2, .Mapped [0x13E2]),
  (0xABB3, 0xABB3, .Mapped [0x13E3]),
  (0xABB4, 0xABB4, .Mapped [0x13E4]),
  (0xABB5, 0xABB5, .Mapped [0x13E5]),
  (0xABB6, 0xABB6, .Mapped [0x13E6]),
  (0xABB7, 0xABB7, .Mapped [0x13E7]),
  (0xABB8, 0xABB8, .Mapped [0x13E8]),
  (0xABB9, 0xABB9, .Mapped [0x13E9]),
  (0xABBA, 0xABBA, .Mapped [0x13EA]),
  (0xABBB, 0xABBB, .Mapped [0x13EB]),
  (0xABBC, 0xABBC, .Mapped [0x13EC])]
def idnaMapping_58 : List (Nat × Nat × Mapping) := [
  (0xABBD, 0xABBD, .Mapped [0x13ED]),
  (0xABBE, 0xABBE, .Mapped [0x13EE]),
  (0xABBF, 0xABBF, .Mapped [0x13EF]),
  (0xABC0, 0xABED, .Valid),
  (0xABEE, 0xABEF, .Disallowed),
  (0xABF0, 0xABF9, .Valid),
  (0xABFA, 0xABFF, .Disallowed),
  (0xAC00, 0xD7A3, .Valid),
  (0xD7A4, 0xD7AF, .Disallowed),
  (0xD7B0, 0xD7C6, .Valid),
  (0xD7C7, 0xD7CA, .Disallowed),
  (0xD7CB, 0xD7FB, .Valid),
  (0xD7FC, 0xD7FF, .Disallowed),
  (0xE000, 0xF8FF, .Disallowed),
  (0xF900, 0xF900, .Mapped [0x8C48]),
  (0xF901, 0xF901, .Mapped [0x66F4]),
  (0xF902, 0xF902, .Mapped [0x8ECA]),
  (0xF903, 0xF903, .Mapped [0x8CC8]),
  (0xF904, 0xF904, .Mapped [0x6ED1]),
  (0xF905, 0xF905, .Mapped [0x4E32]),
  (0xF906, 0xF906, .Mapped [0x53E5]),
  (0xF907, 0xF908, .Mapped [0x9F9C]),
  (0xF909, 0xF909, .Mapped [0x5951]),
  (0xF90A, 0xF90A, .Mapped [0x91D1]),
  (0xF90B, 0xF90B, .Mapped [0x5587]),
  (0xF90C, 0xF90C, .Mapped [0x5948]),
  (0xF90D, 0xF90D, .Mapped [0x61F6]),
  (0xF90E, 0xF90E, .Mapped [0x7669]),
  (0xF90F, 0xF90F, .Mapped [0x7F85]),
  (0xF910, 0xF910, .Mapped [0x863F]),
  (0xF911, 0xF911, .Mapped [0x87BA]),
  (0xF912, 0xF912, .Mapped [0x88F8]),
  (0xF913, 0xF913, .Mapped [0x908F]),
  (0xF914, 0xF914, .Mapped [0x6A02]),
  (0xF915, 0xF915, .Mapped [0x6D1B]),
  (0xF916, 0xF916, .Mapped [0x70D9]),
  (0xF917, 0xF917, .Mapped [0x73DE]),
  (0xF918, 0xF918, .Mapped [0x843D]),
  (0xF919, 0xF919, .Mapped [0x916A]),
  (0xF91A, 0xF91A, .Mapped [0x99F1]),
  (0xF91B, 0xF91B, .Mapped [0x4E82]),
  (0xF91C, 0xF91C, .Mapped [0x5375]),
  (0xF91D, 0xF91D, .Mapped [0x6B04]),
  (0xF91E, 0xF91E, .Mapped [0x721B]),
  (0xF91F, 0xF91F, .Mapped [0x862D]),
  (0xF920, 0xF920, .Mapped [0x9E1E]),
  (0xF921, 0xF921, .Mapped [0x5D50]),
  (0xF922, 0xF922, .Mapped [0x6FEB]),
  (0xF923, 0xF923, .Mapped [0x85CD]),
  (0xF924, 0xF924, .Mapped [0x8964]),
  (0xF925, 0xF925, .Mapped [0x62C9]),
  (0xF926, 0xF926, .Mapped [0x81D8]),
  (0xF927, 0xF927, .Mapped [0x881F]),
  (0xF928, 0xF928, .Mapped [0x5ECA]),
  (0xF929, 0xF929, .Mapped [0x6717]),
  (0xF92A, 0xF92A, .Mapped [0x6D6A]),
  (0xF92B, 0xF92B, .Mapped [0x72FC]),
  (0xF92C, 0xF92C, .Mapped [0x90CE]),
  (0xF92D, 0xF92D, .Mapped [0x4F86]),
  (0xF92E, 0xF92E, .Mapped [0x51B7]),
  (0xF92F, 0xF92F, .Mapped [0x52DE]),
  (0xF930, 0xF930, .Mapped [0x64C4]),
  (0xF931, 0xF931, .Mapped [0x6AD3]),
  (0xF932, 0xF932, .Mapped [0x7210])]
def idnaMapping_59 : List (Nat × Nat × Mapping) := [
  (0xF933, 0xF933, .Mapped [0x76E7]),
  (0xF934, 0xF934, .Mapped [0x8001]),
  (0xF935, 0xF935, .Mapped [0x8606]),
  (0xF936, 0xF936, .Mapped [0x865C]),
  (0xF937, 0xF937, .Mapped [0x8DEF]),
  (0xF938, 0xF938, .Mapped [0x9732]),
  (0xF939, 0xF939, .Mapped [0x9B6F]),
  (0xF93A, 0xF93A, .Mapped [0x9DFA]),
  (0xF93B, 0xF93B, .Mapped [0x788C]),
  (0xF93C, 0xF93C, .Mapped [0x797F]),
  (0xF93D, 0xF93D, .Mapped [0x7DA0]),
  (0xF93E, 0xF93E, .Mapped [0x83C9]),
  (0xF93F, 0xF93F, .Mapped [0x9304]),
  (0xF940, 0xF940, .Mapped [0x9E7F]),
  (0xF941, 0xF941, .Mapped [0x8AD6]),
  (0xF942, 0xF942, .Mapped [0x58DF]),
  (0xF943, 0xF943, .Mapped [0x5F04]),
  (0xF944, 0xF944, .Mapped [0x7C60]),
  (0xF945, 0xF945, .Mapped [0x807E]),
  (0xF946, 0xF946, .Mapped [0x7262]),
  (0xF947, 0xF947, .Mapped [0x78CA]),
  (0xF948, 0xF948, .Mapped [0x8CC2]),
  (0xF949, 0xF949, .Mapped [0x96F7]),
  (0xF94A, 0xF94A, .Mapped [0x58D8]),
  (0xF94B, 0xF94B, .Mapped [0x5C62]),
  (0xF94C, 0xF94C, .Mapped [0x6A13]),
  (0xF94D, 0xF94D, .Mapped [0x6DDA]),
  (0xF94E, 0xF94E, .Mapped [0x6F0F]),
  (0xF94F, 0xF94F, .Mapped [0x7D2F]),
  (0xF950, 0xF950, .Mapped [0x7E37]),
  (0xF951, 0xF951, .Mapped [0x964B]),
  (0xF952, 0xF952, .Mapped [0x52D2]),
  (0xF953, 0xF953, .Mapped [0x808B]),
  (0xF954, 0xF954, .Mapped [0x51DC]),
  (0xF955, 0xF955, .Mapped [0x51CC]),
  (0xF956, 0xF956, .Mapped [0x7A1C]),
  (0xF957, 0xF957, .Mapped [0x7DBE]),
  (0xF958, 0xF958, .Mapped [0x83F1]),
  (0xF959, 0xF959, .Mapped [0x9675]),
  (0xF95A, 0xF95A, .Mapped [0x8B80]),
  (0xF95B, 0xF95B, .Mapped [0x62CF]),
  (0xF95C, 0xF95C, .Mapped [0x6A02]),
  (0xF95D, 0xF95D, .Mapped [0x8AFE]),
  (0xF95E, 0xF95E, .Mapped [0x4E39]),
  (0xF95F, 0xF95F, .Mapped [0x5BE7]),
  (0xF960, 0xF960, .Mapped [0x6012]),
  (0xF961, 0xF961, .Mapped [0x7387]),
  (0xF962, 0xF962, .Mapped [0x7570]),
  (0xF963, 0xF963, .Mapped [0x5317]),
  (0xF964, 0xF964, .Mapped [0x78FB]),
  (0xF965, 0xF965, .Mapped [0x4FBF]),
  (0xF966, 0xF966, .Mapped [0x5FA9]),
  (0xF967, 0xF967, .Mapped [0x4E0D]),
  (0xF968, 0xF968, .Mapped [0x6CCC]),
  (0xF969, 0xF969, .Mapped [0x6578]),
  (0xF96A, 0xF96A, .Mapped [0x7D22]),
  (0xF96B, 0xF96B, .Mapped [0x53C3]),
  (0xF96C, 0xF96C, .Mapped [0x585E]),
  (0xF96D, 0xF96D, .Mapped [0x7701]),
  (0xF96E, 0xF96E, .Mapped [0x8449]),
  (0xF96F, 0xF96F, .Mapped [0x8AAA]),
  (0xF970, 0xF970, .Mapped [0x6BBA]),
  (0xF971, 0xF971, .Mapped [0x8FB0]),
  (0xF972, 0xF972, .Mapped [0x6C88])]
def idnaMapping_60 : List (Nat × Nat × Mapping) := [
  (0xF973, 0xF973, .Mapped [0x62FE]),
  (0xF974, 0xF974, .Mapped [0x82E5]),
  (0xF975, 0xF975, .Mapped [0x63A0]),
  (0xF976, 0xF976, .Mapped [0x7565]),
  (0xF977, 0xF977, .Mapped [0x4EAE]),
  (0xF978, 0xF978, .Mapped [0x5169]),
  (0xF979, 0xF979, .Mapped [0x51C9]),
  (0xF97A, 0xF97A, .Mapped [0x6881]),
  (0xF97B, 0xF97B, .Mapped [0x7CE7]),
  (0xF97C, 0xF97C, .Mapped [0x826F]),
  (0xF97D, 0xF97D, .Mapped [0x8AD2]),
  (0xF97E, 0xF97E, .Mapped [0x91CF]),
  (0xF97F, 0xF97F, .Mapped [0x52F5]),
  (0xF980, 0xF980, .Mapped [0x5442]),
  (0xF981, 0xF981, .Mapped [0x5973]),
  (0xF982, 0xF982, .Mapped [0x5EEC]),
  (0xF983, 0xF983, .Mapped [0x65C5]),
  (0xF984, 0xF984, .Mapped [0x6FFE]),
  (0xF985, 0xF985, .Mapped [0x792A]),
  (0xF986, 0xF986, .Mapped [0x95AD]),
  (0xF987, 0xF987, .Mapped [0x9A6A]),
  (0xF988, 0xF988, .Mapped [0x9E97]),
  (0xF989, 0xF989, .Mapped [0x9ECE]),
  (0xF98A, 0xF98A, .Mapped [0x529B]),
  (0xF98B, 0xF98B, .Mapped [0x66C6]),
  (0xF98C, 0xF98C, .Mapped [0x6B77]),
  (0xF98D, 0xF98D, .Mapped [0x8F62]),
  (0xF98E, 0xF98E, .Mapped [0x5E74]),
  (0xF98F, 0xF98F, .Mapped [0x6190]),
  (0xF990, 0xF990, .Mapped [0x6200]),
  (0xF991, 0xF991, .Mapped [0x649A]),
  (0xF992, 0xF992, .Mapped [0x6F23]),
  (0xF993, 0xF993, .Mapped [0x7149]),
  (0xF994, 0xF994, .Mapped [0x7489]),
  (0xF995, 0xF995, .Mapped [0x79CA]),
  (0xF996, 0xF996, .Mapped [0x7DF4]),
  (0xF997, 0xF997, .Mapped [0x806F]),
  (0xF998, 0xF998, .Mapped [0x8F26]),
  (0xF999, 0xF999, .Mapped [0x84EE]),
  (0xF99A, 0xF99A, .Mapped [0x9023]),
  (0xF99B, 0xF99B, .Mapped [0x934A]),
  (0xF99C, 0xF99C, .Mapped [0x5217]),
  (0xF99D, 0xF99D, .Mapped [0x52A3]),
  (0xF99E, 0xF99E, .Mapped [0x54BD]),
  (0xF99F, 0xF99F, .Mapped [0x70C8]),
  (0xF9A0, 0xF9A0, .Mapped [0x88C2]),
  (0xF9A1, 0xF9A1, .Mapped [0x8AAA]),
  (0xF9A2, 0xF9A2, .Mapped [0x5EC9]),
  (0xF9A3, 0xF9A3, .Mapped [0x5FF5]),
  (0xF9A4, 0xF9A4, .Mapped [0x637B]),
  (0xF9A5, 0xF9A5, .Mapped [0x6BAE]),
  (0xF9A6, 0xF9A6, .Mapped [0x7C3E]),
  (0xF9A7, 0xF9A7, .Mapped [0x7375]),
  (0xF9A8, 0xF9A8, .Mapped [0x4EE4]),
  (0xF9A9, 0xF9A9, .Mapped [0x56F9]),
  (0xF9AA, 0xF9AA, .Mapped [0x5BE7]),
  (0xF9AB, 0xF9AB, .Mapped [0x5DBA]),
  (0xF9AC, 0xF9AC, .Mapped [0x601C]),
  (0xF9AD, 0xF9AD, .Mapped [0x73B2]),
  (0xF9AE, 0xF9AE, .Mapped [0x7469]),
  (0xF9AF, 0xF9AF, .Mapped [0x7F9A]),
  (0xF9B0, 0xF9B0, .Mapped [0x8046]),
  (0xF9B1, 0xF9B1, .Mapped [0x9234]),
  (0xF9B2, 0xF9B2, .Mapped [0x96F6])]
def idnaMapping_61 : List (Nat × Nat × Mapping) := [
  (0xF9B3, 0xF9B3, .Mapped [0x9748]),
  (0xF9B4, 0xF9B4, .Mapped [0x9818]),
  (0xF9B5, 0xF9B5, .Mapped [0x4F8B]),
  (0xF9B6, 0xF9B6, .Mapped [0x79AE]),
  (0xF9B7, 0xF9B7, .Mapped [0x91B4]),
  (0xF9B8, 0xF9B8, .Mapped [0x96B8]),
  (0xF9B9, 0xF9B9, .Mapped [0x60E1]),
  (0xF9BA, 0xF9BA, .Mapped [0x4E86]),
  (0xF9BB, 0xF9BB, .Mapped [0x50DA]),
  (0xF9BC, 0xF9BC, .Mapped [0x5BEE]),
  (0xF9BD, 0xF9BD, .Mapped [0x5C3F]),
  (0xF9BE, 0xF9BE, .Mapped [0x6599]),
  (0xF9BF, 0xF9BF, .Mapped [0x6A02]),
  (0xF9C0, 0xF9C0, .Mapped [0x71CE]),
  (0xF9C1, 0xF9C1, .Mapped [0x7642]),
  (0xF9C2, 0xF9C2, .Mapped [0x84FC]),
  (0xF9C3, 0xF9C3, .Mapped [0x907C]),
  (0xF9C4, 0xF9C4, .Mapped [0x9F8D]),
  (0xF9C5, 0xF9C5, .Mapped [0x6688]),
  (0xF9C6, 0xF9C6, .Mapped [0x962E]),
  (0xF9C7, 0xF9C7, .Mapped [0x5289]),
  (0xF9C8, 0xF9C8, .Mapped [0x677B]),
  (0xF9C9, 0xF9C9, .Mapped [0x67F3]),
  (0xF9CA, 0xF9CA, .Mapped [0x6D41]),
  (0xF9CB, 0xF9CB, .Mapped [0x6E9C]),
  (0xF9CC, 0xF9CC, .Mapped [0x7409]),
  (0xF9CD, 0xF9CD, .Mapped [0x7559]),
  (0xF9CE, 0xF9CE, .Mapped [0x786B]),
  (0xF9CF, 0xF9CF, .Mapped [0x7D10]),
  (0xF9D0, 0xF9D0, .Mapped [0x985E]),
  (0xF9D1, 0xF9D1, .Mapped [0x516D]),
  (0xF9D2, 0xF9D2, .Mapped [0x622E]),
  (0xF9D3, 0xF9D3, .Mapped [0x9678]),
  (0xF9D4, 0xF9D4, .Mapped [0x502B]),
  (0xF9D5, 0xF9D5, .Mapped [0x5D19]),
  (0xF9D6, 0xF9D6, .Mapped [0x6DEA]),
  (0xF9D7, 0xF9D7, .Mapped [0x8F2A]),
  (0xF9D8, 0xF9D8, .Mapped [0x5F8B]),
  (0xF9D9, 0xF9D9, .Mapped [0x6144]),
  (0xF9DA, 0xF9DA, .Mapped [0x6817]),
  (0xF9DB, 0xF9DB, .Mapped [0x7387]),
  (0xF9DC, 0xF9DC, .Mapped [0x9686]),
  (0xF9DD, 0xF9DD, .Mapped [0x5229]),
  (0xF9DE, 0xF9DE, .Mapped [0x540F]),
  (0xF9DF, 0xF9DF, .Mapped [0x5C65]),
  (0xF9E0, 0xF9E0, .Mapped [0x6613]),
  (0xF9E1, 0xF9E1, .Mapped [0x674E]),
  (0xF9E2, 0xF9E2, .Mapped [0x68A8]),
  (0xF9E3, 0xF9E3, .Mapped [0x6CE5]),
  (0xF9E4, 0xF9E4, .Mapped [0x7406]),
  (0xF9E5, 0xF9E5, .Mapped [0x75E2]),
  (0xF9E6, 0xF9E6, .Mapped [0x7F79]),
  (0xF9E7, 0xF9E7, .Mapped [0x88CF]),
  (0xF9E8, 0xF9E8, .Mapped [0x88E1]),
  (0xF9E9, 0xF9E9, .Mapped [0x91CC]),
  (0xF9EA, 0xF9EA, .Mapped [0x96E2]),
  (0xF9EB, 0xF9EB, .Mapped [0x533F]),
  (0xF9EC, 0xF9EC, .Mapped [0x6EBA]),
  (0xF9ED, 0xF9ED, .Mapped [0x541D]),
  (0xF9EE, 0xF9EE, .Mapped [0x71D0]),
  (0xF9EF, 0xF9EF, .Mapped [0x7498]),
  (0xF9F0, 0xF9F0, .Mapped [0x85FA]),
  (0xF9F1, 0xF9F1, .Mapped [0x96A3]),
  (0xF9F2, 0xF9F2, .Mapped [0x9C57])]
def idnaMapping_62 : List (Nat × Nat × Mapping) := [
  (0xF9F3, 0xF9F3, .Mapped [0x9E9F]),
  (0xF9F4, 0xF9F4, .Mapped [0x6797]),
  (0xF9F5, 0xF9F5, .Mapped [0x6DCB]),
  (0xF9F6, 0xF9F6, .Mapped [0x81E8]),
  (0xF9F7, 0xF9F7, .Mapped [0x7ACB]),
  (0xF9F8, 0xF9F8, .Mapped [0x7B20]),
  (0xF9F9, 0xF9F9, .Mapped [0x7C92]),
  (0xF9FA, 0xF9FA, .Mapped [0x72C0]),
  (0xF9FB, 0xF9FB, .Mapped [0x7099]),
  (0xF9FC, 0xF9FC, .Mapped [0x8B58]),
  (0xF9FD, 0xF9FD, .Mapped [0x4EC0]),
  (0xF9FE, 0xF9FE, .Mapped [0x8336]),
  (0xF9FF, 0xF9FF, .Mapped [0x523A]),
  (0xFA00, 0xFA00, .Mapped [0x5207]),
  (0xFA01, 0xFA01, .Mapped [0x5EA6]),
  (0xFA02, 0xFA02, .Mapped [0x62D3]),
  (0xFA03, 0xFA03, .Mapped [0x7CD6]),
  (0xFA04, 0xFA04, .Mapped [0x5B85]),
  (0xFA05, 0xFA05, .Mapped [0x6D1E]),
  (0xFA06, 0xFA06, .Mapped [0x66B4]),
  (0xFA07, 0xFA07, .Mapped [0x8F3B]),
  (0xFA08, 0xFA08, .Mapped [0x884C]),
  (0xFA09, 0xFA09, .Mapped [0x964D]),
  (0xFA0A, 0xFA0A, .Mapped [0x898B]),
  (0xFA0B, 0xFA0B, .Mapped [0x5ED3]),
  (0xFA0C, 0xFA0C, .Mapped [0x5140]),
  (0xFA0D, 0xFA0D, .Mapped [0x55C0]),
  (0xFA0E, 0xFA0F, .Valid),
  (0xFA10, 0xFA10, .Mapped [0x585A]),
  (0xFA11, 0xFA11, .Valid),
  (0xFA12, 0xFA12, .Mapped [0x6674]),
  (0xFA13, 0xFA14, .Valid),
  (0xFA15, 0xFA15, .Mapped [0x51DE]),
  (0xFA16, 0xFA16, .Mapped [0x732A]),
  (0xFA17, 0xFA17, .Mapped [0x76CA]),
  (0xFA18, 0xFA18, .Mapped [0x793C]),
  (0xFA19, 0xFA19, .Mapped [0x795E]),
  (0xFA1A, 0xFA1A, .Mapped [0x7965]),
  (0xFA1B, 0xFA1B, .Mapped [0x798F]),
  (0xFA1C, 0xFA1C, .Mapped [0x9756]),
  (0xFA1D, 0xFA1D, .Mapped [0x7CBE]),
  (0xFA1E, 0xFA1E, .Mapped [0x7FBD]),
  (0xFA1F, 0xFA1F, .Valid),
  (0xFA20, 0xFA20, .Mapped [0x8612]),
  (0xFA21, 0xFA21, .Valid),
  (0xFA22, 0xFA22, .Mapped [0x8AF8]),
  (0xFA23, 0xFA24, .Valid),
  (0xFA25, 0xFA25, .Mapped [0x9038]),
  (0xFA26, 0xFA26, .Mapped [0x90FD]),
  (0xFA27, 0xFA29, .Valid),
  (0xFA2A, 0xFA2A, .Mapped [0x98EF]),
  (0xFA2B, 0xFA2B, .Mapped [0x98FC]),
  (0xFA2C, 0xFA2C, .Mapped [0x9928]),
  (0xFA2D, 0xFA2D, .Mapped [0x9DB4]),
  (0xFA2E, 0xFA2E, .Mapped [0x90DE]),
  (0xFA2F, 0xFA2F, .Mapped [0x96B7]),
  (0xFA30, 0xFA30, .Mapped [0x4FAE]),
  (0xFA31, 0xFA31, .Mapped [0x50E7]),
  (0xFA32, 0xFA32, .Mapped [0x514D]),
  (0xFA33, 0xFA33, .Mapped [0x52C9]),
  (0xFA34, 0xFA34, .Mapped [0x52E4]),
  (0xFA35, 0xFA35, .Mapped [0x5351]),
  (0xFA36, 0xFA36, .Mapped [0x559D]),
  (0xFA37, 0xFA37, .Mapped [0x5606])]
def idnaMapping_63 : List (Nat × Nat × Mapping) := [
  (0xFA38, 0xFA38, .Mapped [0x5668]),
  (0xFA39, 0xFA39, .Mapped [0x5840]),
  (0xFA3A, 0xFA3A, .Mapped [0x58A8]),
  (0xFA3B, 0xFA3B, .Mapped [0x5C64]),
  (0xFA3C, 0xFA3C, .Mapped [0x5C6E]),
  (0xFA3D, 0xFA3D, .Mapped [0x6094]),
  (0xFA3E, 0xFA3E, .Mapped [0x6168]),
  (0xFA3F, 0xFA3F, .Mapped [0x618E]),
  (0xFA40, 0xFA40, .Mapped [0x61F2]),
  (0xFA41, 0xFA41, .Mapped [0x654F]),
  (0xFA42, 0xFA42, .Mapped [0x65E2]),
  (0xFA43, 0xFA43, .Mapped [0x6691]),
  (0xFA44, 0xFA44, .Mapped [0x6885]),
  (0xFA45, 0xFA45, .Mapped [0x6D77]),
  (0xFA46, 0xFA46, .Mapped [0x6E1A]),
  (0xFA47, 0xFA47, .Mapped [0x6F22]),
  (0xFA48, 0xFA48, .Mapped [0x716E]),
  (0xFA49, 0xFA49, .Mapped [0x722B]),
  (0xFA4A, 0xFA4A, .Mapped [0x7422]),
  (0xFA4B, 0xFA4B, .Mapped [0x7891]),
  (0xFA4C, 0xFA4C, .Mapped [0x793E]),
  (0xFA4D, 0xFA4D, .Mapped [0x7949]),
  (0xFA4E, 0xFA4E, .Mapped [0x7948]),
  (0xFA4F, 0xFA4F, .Mapped [0x7950]),
  (0xFA50, 0xFA50, .Mapped [0x7956]),
  (0xFA51, 0xFA51, .Mapped [0x795D]),
  (0xFA52, 0xFA52, .Mapped [0x798D]),
  (0xFA53, 0xFA53, .Mapped [0x798E]),
  (0xFA54, 0xFA54, .Mapped [0x7A40]),
  (0xFA55, 0xFA55, .Mapped [0x7A81]),
  (0xFA56, 0xFA56, .Mapped [0x7BC0]),
  (0xFA57, 0xFA57, .Mapped [0x7DF4]),
  (0xFA58, 0xFA58, .Mapped [0x7E09]),
  (0xFA59, 0xFA59, .Mapped [0x7E41]),
  (0xFA5A, 0xFA5A, .Mapped [0x7F72]),
  (0xFA5B, 0xFA5B, .Mapped [0x8005]),
  (0xFA5C, 0xFA5C, .Mapped [0x81ED]),
  (0xFA5D, 0xFA5E, .Mapped [0x8279]),
  (0xFA5F, 0xFA5F, .Mapped [0x8457]),
  (0xFA60, 0xFA60, .Mapped [0x8910]),
  (0xFA61, 0xFA61, .Mapped [0x8996]),
  (0xFA62, 0xFA62, .Mapped [0x8B01]),
  (0xFA63, 0xFA63, .Mapped [0x8B39]),
  (0xFA64, 0xFA64, .Mapped [0x8CD3]),
  (0xFA65, 0xFA65, .Mapped [0x8D08]),
  (0xFA66, 0xFA66, .Mapped [0x8FB6]),
  (0xFA67, 0xFA67, .Mapped [0x9038]),
  (0xFA68, 0xFA68, .Mapped [0x96E3]),
  (0xFA69, 0xFA69, .Mapped [0x97FF]),
  (0xFA6A, 0xFA6A, .Mapped [0x983B]),
  (0xFA6B, 0xFA6B, .Mapped [0x6075]),
  (0xFA6C, 0xFA6C, .Mapped [0x242EE]),
  (0xFA6D, 0xFA6D, .Mapped [0x8218]),
  (0xFA6E, 0xFA6F, .Disallowed),
  (0xFA70, 0xFA70, .Mapped [0x4E26]),
  (0xFA71, 0xFA71, .Mapped [0x51B5]),
  (0xFA72, 0xFA72, .Mapped [0x5168]),
  (0xFA73, 0xFA73, .Mapped [0x4F80]),
  (0xFA74, 0xFA74, .Mapped [0x5145]),
  (0xFA75, 0xFA75, .Mapped [0x5180]),
  (0xFA76, 0xFA76, .Mapped [0x52C7]),
  (0xFA77, 0xFA77, .Mapped [0x52FA]),
  (0xFA78, 0xFA78, .Mapped [0x559D]),
  (0xFA79, 0xFA79, .Mapped [0x5555])]
def idnaMapping_64 : List (Nat × Nat × Mapping) := [
  (0xFA7A, 0xFA7A, .Mapped [0x5599]),
  (0xFA7B, 0xFA7B, .Mapped [0x55E2]),
  (0xFA7C, 0xFA7C, .Mapped [0x585A]),
  (0xFA7D, 0xFA7D, .Mapped [0x58B3]),
  (0xFA7E, 0xFA7E, .Mapped [0x5944]),
  (0xFA7F, 0xFA7F, .Mapped [0x5954]),
  (0xFA80, 0xFA80, .Mapped [0x5A62]),
  (0xFA81, 0xFA81, .Mapped [0x5B28]),
  (0xFA82, 0xFA82, .Mapped [0x5ED2]),
  (0xFA83, 0xFA83, .Mapped [0x5ED9]),
  (0xFA84, 0xFA84, .Mapped [0x5F69]),
  (0xFA85, 0xFA85, .Mapped [0x5FAD]),
  (0xFA86, 0xFA86, .Mapped [0x60D8]),
  (0xFA87, 0xFA87, .Mapped [0x614E]),
  (0xFA88, 0xFA88, .Mapped [0x6108]),
  (0xFA89, 0xFA89, .Mapped [0x618E]),
  (0xFA8A, 0xFA8A, .Mapped [0x6160]),
  (0xFA8B, 0xFA8B, .Mapped [0x61F2]),
  (0xFA8C, 0xFA8C, .Mapped [0x6234]),
  (0xFA8D, 0xFA8D, .Mapped [0x63C4]),
  (0xFA8E, 0xFA8E, .Mapped [0x641C]),
  (0xFA8F, 0xFA8F, .Mapped [0x6452]),
  (0xFA90, 0xFA90, .Mapped [0x6556]),
  (0xFA91, 0xFA91, .Mapped [0x6674]),
  (0xFA92, 0xFA92, .Mapped [0x6717]),
  (0xFA93, 0xFA93, .Mapped [0x671B]),
  (0xFA94, 0xFA94, .Mapped [0x6756]),
  (0xFA95, 0xFA95, .Mapped [0x6B79]),
  (0xFA96, 0xFA96, .Mapped [0x6BBA]),
  (0xFA97, 0xFA97, .Mapped [0x6D41]),
  (0xFA98, 0xFA98, .Mapped [0x6EDB]),
  (0xFA99, 0xFA99, .Mapped [0x6ECB]),
  (0xFA9A, 0xFA9A, .Mapped [0x6F22]),
  (0xFA9B, 0xFA9B, .Mapped [0x701E]),
  (0xFA9C, 0xFA9C, .Mapped [0x716E]),
  (0xFA9D, 0xFA9D, .Mapped [0x77A7]),
  (0xFA9E, 0xFA9E, .Mapped [0x7235]),
  (0xFA9F, 0xFA9F, .Mapped [0x72AF]),
  (0xFAA0, 0xFAA0, .Mapped [0x732A]),
  (0xFAA1, 0xFAA1, .Mapped [0x7471]),
  (0xFAA2, 0xFAA2, .Mapped [0x7506]),
  (0xFAA3, 0xFAA3, .Mapped [0x753B]),
  (0xFAA4, 0xFAA4, .Mapped [0x761D]),
  (0xFAA5, 0xFAA5, .Mapped [0x761F]),
  (0xFAA6, 0xFAA6, .Mapped [0x76CA]),
  (0xFAA7, 0xFAA7, .Mapped [0x76DB]),
  (0xFAA8, 0xFAA8, .Mapped [0x76F4]),
  (0xFAA9, 0xFAA9, .Mapped [0x774A]),
  (0xFAAA, 0xFAAA, .Mapped [0x7740]),
  (0xFAAB, 0xFAAB, .Mapped [0x78CC]),
  (0xFAAC, 0xFAAC, .Mapped [0x7AB1]),
  (0xFAAD, 0xFAAD, .Mapped [0x7BC0]),
  (0xFAAE, 0xFAAE, .Mapped [0x7C7B]),
  (0xFAAF, 0xFAAF, .Mapped [0x7D5B]),
  (0xFAB0, 0xFAB0, .Mapped [0x7DF4]),
  (0xFAB1, 0xFAB1, .Mapped [0x7F3E]),
  (0xFAB2, 0xFAB2, .Mapped [0x8005]),
  (0xFAB3, 0xFAB3, .Mapped [0x8352]),
  (0xFAB4, 0xFAB4, .Mapped [0x83EF]),
  (0xFAB5, 0xFAB5, .Mapped [0x8779]),
  (0xFAB6, 0xFAB6, .Mapped [0x8941]),
  (0xFAB7, 0xFAB7, .Mapped [0x8986]),
  (0xFAB8, 0xFAB8, .Mapped [0x8996]),
  (0xFAB9, 0xFAB9, .Mapped [0x8ABF])]
def idnaMapping_65 : List (Nat × Nat × Mapping) := [
  (0xFABA, 0xFABA, .Mapped [0x8AF8]),
  (0xFABB, 0xFABB, .Mapped [0x8ACB]),
  (0xFABC, 0xFABC, .Mapped [0x8B01]),
  (0xFABD, 0xFABD, .Mapped [0x8AFE]),
  (0xFABE, 0xFABE, .Mapped [0x8AED]),
  (0xFABF, 0xFABF, .Mapped [0x8B39]),
  (0xFAC0, 0xFAC0, .Mapped [0x8B8A]),
  (0xFAC1, 0xFAC1, .Mapped [0x8D08]),
  (0xFAC2, 0xFAC2, .Mapped [0x8F38]),
  (0xFAC3, 0xFAC3, .Mapped [0x9072]),
  (0xFAC4, 0xFAC4, .Mapped [0x9199]),
  (0xFAC5, 0xFAC5, .Mapped [0x9276]),
  (0xFAC6, 0xFAC6, .Mapped [0x967C]),
  (0xFAC7, 0xFAC7, .Mapped [0x96E3]),
  (0xFAC8, 0xFAC8, .Mapped [0x9756]),
  (0xFAC9, 0xFAC9, .Mapped [0x97DB]),
  (0xFACA, 0xFACA, .Mapped [0x97FF]),
  (0xFACB, 0xFACB, .Mapped [0x980B]),
  (0xFACC, 0xFACC, .Mapped [0x983B]),
  (0xFACD, 0xFACD, .Mapped [0x9B12]),
  (0xFACE, 0xFACE, .Mapped [0x9F9C]),
  (0xFACF, 0xFACF, .Mapped [0x2284A]),
  (0xFAD0, 0xFAD0, .Mapped [0x22844]),
  (0xFAD1, 0xFAD1, .Mapped [0x233D5]),
  (0xFAD2, 0xFAD2, .Mapped [0x3B9D]),
  (0xFAD3, 0xFAD3, .Mapped [0x4018]),
  (0xFAD4, 0xFAD4, .Mapped [0x4039]),
  (0xFAD5, 0xFAD5, .Mapped [0x25249]),
  (0xFAD6, 0xFAD6, .Mapped [0x25CD0]),
  (0xFAD7, 0xFAD7, .Mapped [0x27ED3]),
  (0xFAD8, 0xFAD8, .Mapped [0x9F43]),
  (0xFAD9, 0xFAD9, .Mapped [0x9F8E]),
  (0xFADA, 0xFAFF, .Disallowed),
  (0xFB00, 0xFB00, .Mapped [0x66, 0x66]),
  (0xFB01, 0xFB01, .Mapped [0x66, 0x69]),
  (0xFB02, 0xFB02, .Mapped [0x66, 0x6C]),
  (0xFB03, 0xFB03, .Mapped [0x66, 0x66, 0x69]),
  (0xFB04, 0xFB04, .Mapped [0x66, 0x66, 0x6C]),
  (0xFB05, 0xFB06, .Mapped [0x73, 0x74]),
  (0xFB07, 0xFB12, .Disallowed),
  (0xFB13, 0xFB13, .Mapped [0x574, 0x576]),
  (0xFB14, 0xFB14, .Mapped [0x574, 0x565]),
  (0xFB15, 0xFB15, .Mapped [0x574, 0x56B]),
  (0xFB16, 0xFB16, .Mapped [0x57E, 0x576]),
  (0xFB17, 0xFB17, .Mapped [0x574, 0x56D]),
  (0xFB18, 0xFB1C, .Disallowed),
  (0xFB1D, 0xFB1D, .Mapped [0x5D9, 0x5B4]),
  (0xFB1E, 0xFB1E, .Valid),
  (0xFB1F, 0xFB1F, .Mapped [0x5F2, 0x5B7]),
  (0xFB20, 0xFB20, .Mapped [0x5E2]),
  (0xFB21, 0xFB21, .Mapped [0x5D0]),
  (0xFB22, 0xFB22, .Mapped [0x5D3]),
  (0xFB23, 0xFB23, .Mapped [0x5D4]),
  (0xFB24, 0xFB24, .Mapped [0x5DB]),
  (0xFB25, 0xFB25, .Mapped [0x5DC]),
  (0xFB26, 0xFB26, .Mapped [0x5DD]),
  (0xFB27, 0xFB27, .Mapped [0x5E8]),
  (0xFB28, 0xFB28, .Mapped [0x5EA]),
  (0xFB29, 0xFB29, .DisallowedStd3Mapped [0x2B]),
  (0xFB2A, 0xFB2A, .Mapped [0x5E9, 0x5C1]),
  (0xFB2B, 0xFB2B, .Mapped [0x5E9, 0x5C2]),
  (0xFB2C, 0xFB2C, .Mapped [0x5E9, 0x5BC, 0x5C1]),
  (0xFB2D, 0xFB2D, .Mapped [0x5E9, 0x5BC, 0x5C2]),
  (0xFB2E, 0xFB2E, .Mapped [0x5D0, 0x5B7])]
def idnaMapping_66 : List (Nat × Nat × Mapping) := [
  (0xFB2F, 0xFB2F, .Mapped [0x5D0, 0x5B8]),
  (0xFB30, 0xFB30, .Mapped [0x5D0, 0x5BC]),
  (0xFB31, 0xFB31, .Mapped [0x5D1, 0x5BC]),
  (0xFB32, 0xFB32, .Mapped [0x5D2, 0x5BC]),
  (0xFB33, 0xFB33, .Mapped [0x5D3, 0x5BC]),
  (0xFB34, 0xFB34, .Mapped [0x5D4, 0x5BC]),
  (0xFB35, 0xFB35, .Mapped [0x5D5, 0x5BC]),
  (0xFB36, 0xFB36, .Mapped [0x5D6, 0x5BC]),
  (0xFB37, 0xFB37, .Disallowed),
  (0xFB38, 0xFB38, .Mapped [0x5D8, 0x5BC]),
  (0xFB39, 0xFB39, .Mapped [0x5D9, 0x5BC]),
  (0xFB3A, 0xFB3A, .Mapped [0x5DA, 0x5BC]),
  (0xFB3B, 0xFB3B, .Mapped [0x5DB, 0x5BC]),
  (0xFB3C, 0xFB3C, .Mapped [0x5DC, 0x5BC]),
  (0xFB3D, 0xFB3D, .Disallowed),
  (0xFB3E, 0xFB3E, .Mapped [0x5DE, 0x5BC]),
  (0xFB3F, 0xFB3F, .Disallowed),
  (0xFB40, 0xFB40, .Mapped [0x5E0, 0x5BC]),
  (0xFB41, 0xFB41, .Mapped [0x5E1, 0x5BC]),
  (0xFB42, 0xFB42, .Disallowed),
  (0xFB43, 0xFB43, .Mapped [0x5E3, 0x5BC]),
  (0xFB44, 0xFB44, .Mapped [0x5E4, 0x5BC]),
  (0xFB45, 0xFB45, .Disallowed),
  (0xFB46, 0xFB46, .Mapped [0x5E6, 0x5BC]),
  (0xFB47, 0xFB47, .Mapped [0x5E7, 0x5BC]),
  (0xFB48, 0xFB48, .Mapped [0x5E8, 0x5BC]),
  (0xFB49, 0xFB49, .Mapped [0x5E9, 0x5BC]),
  (0xFB4A, 0xFB4A, .Mapped [0x5EA, 0x5BC]),
  (0xFB4B, 0xFB4B, .Mapped [0x5D5, 0x5B9]),
  (0xFB4C, 0xFB4C, .Mapped [0x5D1, 0x5BF]),
  (0xFB4D, 0xFB4D, .Mapped [0x5DB, 0x5BF]),
  (0xFB4E, 0xFB4E, .Mapped [0x5E4, 0x5BF]),
  (0xFB4F, 0xFB4F, .Mapped [0x5D0, 0x5DC]),
  (0xFB50, 0xFB51, .Mapped [0x671]),
  (0xFB52, 0xFB55, .Mapped [0x67B]),
  (0xFB56, 0xFB59, .Mapped [0x67E]),
  (0xFB5A, 0xFB5D, .Mapped [0x680]),
  (0xFB5E, 0xFB61, .Mapped [0x67A]),
  (0xFB62, 0xFB65, .Mapped [0x67F]),
  (0xFB66, 0xFB69, .Mapped [0x679]),
  (0xFB6A, 0xFB6D, .Mapped [0x6A4]),
  (0xFB6E, 0xFB71, .Mapped [0x6A6]),
  (0xFB72, 0xFB75, .Mapped [0x684]),
  (0xFB76, 0xFB79, .Mapped [0x683]),
  (0xFB7A, 0xFB7D, .Mapped [0x686]),
  (0xFB7E, 0xFB81, .Mapped [0x687]),
  (0xFB82, 0xFB83, .Mapped [0x68D]),
  (0xFB84, 0xFB85, .Mapped [0x68C]),
  (0xFB86, 0xFB87, .Mapped [0x68E]),
  (0xFB88, 0xFB89, .Mapped [0x688]),
  (0xFB8A, 0xFB8B, .Mapped [0x698]),
  (0xFB8C, 0xFB8D, .Mapped [0x691]),
  (0xFB8E, 0xFB91, .Mapped [0x6A9]),
  (0xFB92, 0xFB95, .Mapped [0x6AF]),
  (0xFB96, 0xFB99, .Mapped [0x6B3]),
  (0xFB9A, 0xFB9D, .Mapped [0x6B1]),
  (0xFB9E, 0xFB9F, .Mapped [0x6BA]),
  (0xFBA0, 0xFBA3, .Mapped [0x6BB]),
  (0xFBA4, 0xFBA5, .Mapped [0x6C0]),
  (0xFBA6, 0xFBA9, .Mapped [0x6C1]),
  (0xFBAA, 0xFBAD, .Mapped [0x6BE]),
  (0xFBAE, 0xFBAF, .Mapped [0x6D2]),
  (0xFBB0, 0xFBB1, .Mapped [0x6D3]),
  (0xFBB2, 0xFBC1, .Valid)]
def idnaMapping_67 : List (Nat × Nat × Mapping) := [
  (0xFBC2, 0xFBD2, .Disallowed),
  (0xFBD3, 0xFBD6, .Mapped [0x6AD]),
  (0xFBD7, 0xFBD8, .Mapped [0x6C7]),
  (0xFBD9, 0xFBDA, .Mapped [0x6C6]),
  (0xFBDB, 0xFBDC, .Mapped [0x6C8]),
  (0xFBDD, 0xFBDD, .Mapped [0x6C7, 0x674]),
  (0xFBDE, 0xFBDF, .Mapped [0x6CB]),
  (0xFBE0, 0xFBE1, .Mapped [0x6C5]),
  (0xFBE2, 0xFBE3, .Mapped [0x6C9]),
  (0xFBE4, 0xFBE7, .Mapped [0x6D0]),
  (0xFBE8, 0xFBE9, .Mapped [0x649]),
  (0xFBEA, 0xFBEB, .Mapped [0x626, 0x627]),
  (0xFBEC, 0xFBED, .Mapped [0x626, 0x6D5]),
  (0xFBEE, 0xFBEF, .Mapped [0x626, 0x648]),
  (0xFBF0, 0xFBF1, .Mapped [0x626, 0x6C7]),
  (0xFBF2, 0xFBF3, .Mapped [0x626, 0x6C6]),
  (0xFBF4, 0xFBF5, .Mapped [0x626, 0x6C8]),
  (0xFBF6, 0xFBF8, .Mapped [0x626, 0x6D0]),
  (0xFBF9, 0xFBFB, .Mapped [0x626, 0x649]),
  (0xFBFC, 0xFBFF, .Mapped [0x6CC]),
  (0xFC00, 0xFC00, .Mapped [0x626, 0x62C]),
  (0xFC01, 0xFC01, .Mapped [0x626, 0x62D]),
  (0xFC02, 0xFC02, .Mapped [0x626, 0x645]),
  (0xFC03, 0xFC03, .Mapped [0x626, 0x649]),
  (0xFC04, 0xFC04, .Mapped [0x626, 0x64A]),
  (0xFC05, 0xFC05, .Mapped [0x628, 0x62C]),
  (0xFC06, 0xFC06, .Mapped [0x628, 0x62D]),
  (0xFC07, 0xFC07, .Mapped [0x628, 0x62E]),
  (0xFC08, 0xFC08, .Mapped [0x628, 0x645]),
  (0xFC09, 0xFC09, .Mapped [0x628, 0x649]),
  (0xFC0A, 0xFC0A, .Mapped [0x628, 0x64A]),
  (0xFC0B, 0xFC0B, .Mapped [0x62A, 0x62C]),
  (0xFC0C, 0xFC0C, .Mapped [0x62A, 0x62D]),
  (0xFC0D, 0xFC0D, .Mapped [0x62A, 0x62E]),
  (0xFC0E, 0xFC0E, .Mapped [0x62A, 0x645]),
  (0xFC0F, 0xFC0F, .Mapped [0x62A, 0x649]),
  (0xFC10, 0xFC10, .Mapped [0x62A, 0x64A]),
  (0xFC11, 0xFC11, .Mapped [0x62B, 0x62C]),
  (0xFC12, 0xFC12, .Mapped [0x62B, 0x645]),
  (0xFC13, 0xFC13, .Mapped [0x62B, 0x649]),
  (0xFC14, 0xFC14, .Mapped [0x62B, 0x64A]),
  (0xFC15, 0xFC15, .Mapped [0x62C, 0x62D]),
  (0xFC16, 0xFC16, .Mapped [0x62C, 0x645]),
  (0xFC17, 0xFC17, .Mapped [0x62D, 0x62C]),
  (0xFC18, 0xFC18, .Mapped [0x62D, 0x645]),
  (0xFC19, 0xFC19, .Mapped [0x62E, 0x62C]),
  (0xFC1A, 0xFC1A, .Mapped [0x62E, 0x62D]),
  (0xFC1B, 0xFC1B, .Mapped [0x62E, 0x645]),
  (0xFC1C, 0xFC1C, .Mapped [0x633, 0x62C]),
  (0xFC1D, 0xFC1D, .Mapped [0x633, 0x62D]),
  (0xFC1E, 0xFC1E, .Mapped [0x633, 0x62E]),
  (0xFC1F, 0xFC1F, .Mapped [0x633, 0x645]),
  (0xFC20, 0xFC20, .Mapped [0x635, 0x62D]),
  (0xFC21, 0xFC21, .Mapped [0x635, 0x645]),
  (0xFC22, 0xFC22, .Mapped [0x636, 0x62C]),
  (0xFC23, 0xFC23, .Mapped [0x636, 0x62D]),
  (0xFC24, 0xFC24, .Mapped [0x636, 0x62E]),
  (0xFC25, 0xFC25, .Mapped [0x636, 0x645]),
  (0xFC26, 0xFC26, .Mapped [0x637, 0x62D]),
  (0xFC27, 0xFC27, .Mapped [0x637, 0x645]),
  (0xFC28, 0xFC28, .Mapped [0x638, 0x645]),
  (0xFC29, 0xFC29, .Mapped [0x639, 0x62C]),
  (0xFC2A, 0xFC2A, .Mapped [0x639, 0x645]),
  (0xFC2B, 0xFC2B, .Mapped [0x63A, 0x62C])]
def idnaMapping_68 : List (Nat × Nat × Mapping) := [
  (0xFC2C, 0xFC2C, .Mapped [0x63A, 0x645]),
  (0xFC2D, 0xFC2D, .Mapped [0x641, 0x62C]),
  (0xFC2E, 0xFC2E, .Mapped [0x641, 0x62D]),
  (0xFC2F, 0xFC2F, .Mapped [0x641, 0x62E]),
  (0xFC30, 0xFC30, .Mapped [0x641, 0x645]),
  (0xFC31, 0xFC31, .Mapped [0x641, 0x649]),
  (0xFC32, 0xFC32, .Mapped [0x641, 0x64A]),
  (0xFC33, 0xFC33, .Mapped [0x642, 0x62D]),
  (0xFC34, 0xFC34, .Mapped [0x642, 0x645]),
  (0xFC35, 0xFC35, .Mapped [0x642, 0x649]),
  (0xFC36, 0xFC36, .Mapped [0x642, 0x64A]),
  (0xFC37, 0xFC37, .Mapped [0x643, 0x627]),
  (0xFC38, 0xFC38, .Mapped [0x643, 0x62C]),
  (0xFC39, 0xFC39, .Mapped [0x643, 0x62D]),
  (0xFC3A, 0xFC3A, .Mapped [0x643, 0x62E]),
  (0xFC3B, 0xFC3B, .Mapped [0x643, 0x644]),
  (0xFC3C, 0xFC3C, .Mapped [0x643, 0x645]),
  (0xFC3D, 0xFC3D, .Mapped [0x643, 0x649]),
  (0xFC3E, 0xFC3E, .Mapped [0x643, 0x64A]),
  (0xFC3F, 0xFC3F, .Mapped [0x644, 0x62C]),
  (0xFC40, 0xFC40, .Mapped [0x644, 0x62D]),
  (0xFC41, 0xFC41, .Mapped [0x644, 0x62E]),
  (0xFC42, 0xFC42, .Mapped [0x644, 0x645]),
  (0xFC43, 0xFC43, .Mapped [0x644, 0x649]),
  (0xFC44, 0xFC44, .Mapped [0x644, 0x64A]),
  (0xFC45, 0xFC45, .Mapped [0x645, 0x62C]),
  (0xFC46, 0xFC46, .Mapped [0x645, 0x62D]),
  (0xFC47, 0xFC47, .Mapped [0x645, 0x62E]),
  (0xFC48, 0xFC48, .Mapped [0x645, 0x645]),
  (0xFC49, 0xFC49, .Mapped [0x645, 0x649]),
  (0xFC4A, 0xFC4A, .Mapped [0x645, 0x64A]),
  (0xFC4B, 0xFC4B, .Mapped [0x646, 0x62C]),
  (0xFC4C, 0xFC4C, .Mapped [0x646, 0x62D]),
  (0xFC4D, 0xFC4D, .Mapped [0x646, 0x62E]),
  (0xFC4E, 0xFC4E, .Mapped [0x646, 0x645]),
  (0xFC4F, 0xFC4F, .Mapped [0x646, 0x649]),
  (0xFC50, 0xFC50, .Mapped [0x646, 0x64A]),
  (0xFC51, 0xFC51, .Mapped [0x647, 0x62C]),
  (0xFC52, 0xFC52, .Mapped [0x647, 0x645]),
  (0xFC53, 0xFC53, .Mapped [0x647, 0x649]),
  (0xFC54, 0xFC54, .Mapped [0x647, 0x64A]),
  (0xFC55, 0xFC55, .Mapped [0x64A, 0x62C]),
  (0xFC56, 0xFC56, .Mapped [0x64A, 0x62D]),
  (0xFC57, 0xFC57, .Mapped [0x64A, 0x62E]),
  (0xFC58, 0xFC58, .Mapped [0x64A, 0x645]),
  (0xFC59, 0xFC59, .Mapped [0x64A, 0x649]),
  (0xFC5A, 0xFC5A, .Mapped [0x64A, 0x64A]),
  (0xFC5B, 0xFC5B, .Mapped [0x630, 0x670]),
  (0xFC5C, 0xFC5C, .Mapped [0x631, 0x670]),
  (0xFC5D, 0xFC5D, .Mapped [0x649, 0x670]),
  (0xFC5E, 0xFC5E, .DisallowedStd3Mapped [0x20, 0x64C, 0x651]),
  (0xFC5F, 0xFC5F, .DisallowedStd3Mapped [0x20, 0x64D, 0x651]),
  (0xFC60, 0xFC60, .DisallowedStd3Mapped [0x20, 0x64E, 0x651]),
  (0xFC61, 0xFC61, .DisallowedStd3Mapped [0x20, 0x64F, 0x651]),
  (0xFC62, 0xFC62, .DisallowedStd3Mapped [0x20, 0x650, 0x651]),
  (0xFC63, 0xFC63, .DisallowedStd3Mapped [0x20, 0x651, 0x670]),
  (0xFC64, 0xFC64, .Mapped [0x626, 0x631]),
  (0xFC65, 0xFC65, .Mapped [0x626, 0x632]),
  (0xFC66, 0xFC66, .Mapped [0x626, 0x645]),
  (0xFC67, 0xFC67, .Mapped [0x626, 0x646]),
  (0xFC68, 0xFC68, .Mapped [0x626, 0x649]),
  (0xFC69, 0xFC69, .Mapped [0x626, 0x64A]),
  (0xFC6A, 0xFC6A, .Mapped [0x628, 0x631]),
  (0xFC6B, 0xFC6B, .Mapped [0x628, 0x632])]
def idnaMapping_69 : List (Nat × Nat × Mapping) := [
  (0xFC6C, 0xFC6C, .Mapped [0x628, 0x645]),
  (0xFC6D, 0xFC6D, .Mapped [0x628, 0x646]),
  (0xFC6E, 0xFC6E, .Mapped [0x628, 0x649]),
  (0xFC6F, 0xFC6F, .Mapped [0x628, 0x64A]),
  (0xFC70, 0xFC70, .Mapped [0x62A, 0x631]),
  (0xFC71, 0xFC71, .Mapped [0x62A, 0x632]),
  (0xFC72, 0xFC72, .Mapped [0x62A, 0x645]),
  (0xFC73, 0xFC73, .Mapped [0x62A, 0x646]),
  (0xFC74, 0xFC74, .Mapped [0x62A, 0x649]),
  (0xFC75, 0xFC75, .Mapped [0x62A, 0x64A]),
  (0xFC76, 0xFC76, .Mapped [0x62B, 0x631]),
  (0xFC77, 0xFC77, .Mapped [0x62B, 0x632]),
  (0xFC78, 0xFC78, .Mapped [0x62B, 0x645]),
  (0xFC79, 0xFC79, .Mapped [0x62B, 0x646]),
  (0xFC7A, 0xFC7A, .Mapped [0x62B, 0x649]),
  (0xFC7B, 0xFC7B, .Mapped [0x62B, 0x64A]),
  (0xFC7C, 0xFC7C, .Mapped [0x641, 0x649]),
  (0xFC7D, 0xFC7D, .Mapped [0x641, 0x64A]),
  (0xFC7E, 0xFC7E, .Mapped [0x642, 0x649]),
  (0xFC7F, 0xFC7F, .Mapped [0x642, 0x64A]),
  (0xFC80, 0xFC80, .Mapped [0x643, 0x627]),
  (0xFC81, 0xFC81, .Mapped [0x643, 0x644]),
  (0xFC82, 0xFC82, .Mapped [0x643, 0x645]),
  (0xFC83, 0xFC83, .Mapped [0x643, 0x649]),
  (0xFC84, 0xFC84, .Mapped [0x643, 0x64A]),
  (0xFC85, 0xFC85, .Mapped [0x644, 0x645]),
  (0xFC86, 0xFC86, .Mapped [0x644, 0x649]),
  (0xFC87, 0xFC87, .Mapped [0x644, 0x64A]),
  (0xFC88, 0xFC88, .Mapped [0x645, 0x627]),
  (0xFC89, 0xFC89, .Mapped [0x645, 0x645]),
  (0xFC8A, 0xFC8A, .Mapped [0x646, 0x631]),
  (0xFC8B, 0xFC8B, .Mapped [0x646, 0x632]),
  (0xFC8C, 0xFC8C, .Mapped [0x646, 0x645]),
  (0xFC8D, 0xFC8D, .Mapped [0x646, 0x646]),
  (0xFC8E, 0xFC8E, .Mapped [0x646, 0x649]),
  (0xFC8F, 0xFC8F, .Mapped [0x646, 0x64A]),
  (0xFC90, 0xFC90, .Mapped [0x649, 0x670]),
  (0xFC91, 0xFC91, .Mapped [0x64A, 0x631]),
  (0xFC92, 0xFC92, .Mapped [0x64A, 0x632]),
  (0xFC93, 0xFC93, .Mapped [0x64A, 0x645]),
  (0xFC94, 0xFC94, .Mapped [0x64A, 0x646]),
  (0xFC95, 0xFC95, .Mapped [0x64A, 0x649]),
  (0xFC96, 0xFC96, .Mapped [0x64A, 0x64A]),
  (0xFC97, 0xFC97, .Mapped [0x626, 0x62C]),
  (0xFC98, 0xFC98, .Mapped [0x626, 0x62D]),
  (0xFC99, 0xFC99, .Mapped [0x626, 0x62E]),
  (0xFC9A, 0xFC9A, .Mapped [0x626, 0x645]),
  (0xFC9B, 0xFC9B, .Mapped [0x626, 0x647]),
  (0xFC9C, 0xFC9C, .Mapped [0x628, 0x62C]),
  (0xFC9D, 0xFC9D, .Mapped [0x628, 0x62D]),
  (0xFC9E, 0xFC9E, .Mapped [0x628, 0x62E]),
  (0xFC9F, 0xFC9F, .Mapped [0x628, 0x645]),
  (0xFCA0, 0xFCA0, .Mapped [0x628, 0x647]),
  (0xFCA1, 0xFCA1, .Mapped [0x62A, 0x62C]),
  (0xFCA2, 0xFCA2, .Mapped [0x62A, 0x62D]),
  (0xFCA3, 0xFCA3, .Mapped [0x62A, 0x62E]),
  (0xFCA4, 0xFCA4, .Mapped [0x62A, 0x645]),
  (0xFCA5, 0xFCA5, .Mapped [0x62A, 0x647]),
  (0xFCA6, 0xFCA6, .Mapped [0x62B, 0x645]),
  (0xFCA7, 0xFCA7, .Mapped [0x62C, 0x62D]),
  (0xFCA8, 0xFCA8, .Mapped [0x62C, 0x645]),
  (0xFCA9, 0xFCA9, .Mapped [0x62D, 0x62C]),
  (0xFCAA, 0xFCAA, .Mapped [0x62D, 0x645]),
  (0xFCAB, 0xFCAB, .Mapped [0x62E, 0x62C])]
def idnaMapping_70 : List (Nat × Nat × Mapping) := [
  (0xFCAC, 0xFCAC, .Mapped [0x62E, 0x645]),
  (0xFCAD, 0xFCAD, .Mapped [0x633, 0x62C]),
  (0xFCAE, 0xFCAE, .Mapped [0x633, 0x62D]),
  (0xFCAF, 0xFCAF, .Mapped [0x633, 0x62E]),
  (0xFCB0, 0xFCB0, .Mapped [0x633, 0x645]),
  (0xFCB1, 0xFCB1, .Mapped [0x635, 0x62D]),
  (0xFCB2, 0xFCB2, .Mapped [0x635, 0x62E]),
  (0xFCB3, 0xFCB3, .Mapped [0x635, 0x645]),
  (0xFCB4, 0xFCB4, .Mapped [0x636, 0x62C]),
  (0xFCB5, 0xFCB5, .Mapped [0x636, 0x62D]),
  (0xFCB6, 0xFCB6, .Mapped [0x636, 0x62E]),
  (0xFCB7, 0xFCB7, .Mapped [0x636, 0x645]),
  (0xFCB8, 0xFCB8, .Mapped [0x637, 0x62D]),
  (0xFCB9, 0xFCB9, .Mapped [0x638, 0x645]),
  (0xFCBA, 0xFCBA, .Mapped [0x639, 0x62C]),
  (0xFCBB, 0xFCBB, .Mapped [0x639, 0x645]),
  (0xFCBC, 0xFCBC, .Mapped [0x63A, 0x62C]),
  (0xFCBD, 0xFCBD, .Mapped [0x63A, 0x645]),
  (0xFCBE, 0xFCBE, .Mapped [0x641, 0x62C]),
  (0xFCBF, 0xFCBF, .Mapped [0x641, 0x62D]),
  (0xFCC0, 0xFCC0, .Mapped [0x641, 0x62E]),
  (0xFCC1, 0xFCC1, .Mapped [0x641, 0x645]),
  (0xFCC2, 0xFCC2, .Mapped [0x642, 0x62D]),
  (0xFCC3, 0xFCC3, .Mapped [0x642, 0x645]),
  (0xFCC4, 0xFCC4, .Mapped [0x643, 0x62C]),
  (0xFCC5, 0xFCC5, .Mapped [0x643, 0x62D]),
  (0xFCC6, 0xFCC6, .Mapped [0x643, 0x62E]),
  (0xFCC7, 0xFCC7, .Mapped [0x643, 0x644]),
  (0xFCC8, 0xFCC8, .Mapped [0x643, 0x645]),
  (0xFCC9, 0xFCC9, .Mapped [0x644, 0x62C]),
  (0xFCCA, 0xFCCA, .Mapped [0x644, 0x62D]),
  (0xFCCB, 0xFCCB, .Mapped [0x644, 0x62E]),
  (0xFCCC, 0xFCCC, .Mapped [0x644, 0x645]),
  (0xFCCD, 0xFCCD, .Mapped [0x644, 0x647]),
  (0xFCCE, 0xFCCE, .Mapped [0x645, 0x62C]),
  (0xFCCF, 0xFCCF, .Mapped [0x645, 0x62D]),
  (0xFCD0, 0xFCD0, .Mapped [0x645, 0x62E]),
  (0xFCD1, 0xFCD1, .Mapped [0x645, 0x645]),
  (0xFCD2, 0xFCD2, .Mapped [0x646, 0x62C]),
  (0xFCD3, 0xFCD3, .Mapped [0x646, 0x62D]),
  (0xFCD4, 0xFCD4, .Mapped [0x646, 0x62E]),
  (0xFCD5, 0xFCD5, .Mapped [0x646, 0x645]),
  (0xFCD6, 0xFCD6, .Mapped [0x646, 0x647]),
  (0xFCD7, 0xFCD7, .Mapped [0x647, 0x62C]),
  (0xFCD8, 0xFCD8, .Mapped [0x647, 0x645]),
  (0xFCD9, 0xFCD9, .Mapped [0x647, 0x670]),
  (0xFCDA, 0xFCDA, .Mapped [0x64A, 0x62C]),
  (0xFCDB, 0xFCDB, .Mapped [0x64A, 0x62D]),
  (0xFCDC, 0xFCDC, .Mapped [0x64A, 0x62E]),
  (0xFCDD, 0xFCDD, .Mapped [0x64A, 0x645]),
  (0xFCDE, 0xFCDE, .Mapped [0x64A, 0x647]),
  (0xFCDF, 0xFCDF, .Mapped [0x626, 0x645]),
  (0xFCE0, 0xFCE0, .Mapped [0x626, 0x647]),
  (0xFCE1, 0xFCE1, .Mapped [0x628, 0x645]),
  (0xFCE2, 0xFCE2, .Mapped [0x628, 0x647]),
  (0xFCE3, 0xFCE3, .Mapped [0x62A, 0x645]),
  (0xFCE4, 0xFCE4, .Mapped [0x62A, 0x647]),
  (0xFCE5, 0xFCE5, .Mapped [0x62B, 0x645]),
  (0xFCE6, 0xFCE6, .Mapped [0x62B, 0x647]),
  (0xFCE7, 0xFCE7, .Mapped [0x633, 0x645]),
  (0xFCE8, 0xFCE8, .Mapped [0x633, 0x647]),
  (0xFCE9, 0xFCE9, .Mapped [0x634, 0x645]),
  (0xFCEA, 0xFCEA, .Mapped [0x634, 0x647]),
  (0xFCEB, 0xFCEB, .Mapped [0x643, 0x644])]
def idnaMapping_71 : List (Nat × Nat × Mapping) := [
  (0xFCEC, 0xFCEC, .Mapped [0x643, 0x645]),
  (0xFCED, 0xFCED, .Mapped [0x644, 0x645]),
  (0xFCEE, 0xFCEE, .Mapped [0x646, 0x645]),
  (0xFCEF, 0xFCEF, .Mapped [0x646, 0x647]),
  (0xFCF0, 0xFCF0, .Mapped [0x64A, 0x645]),
  (0xFCF1, 0xFCF1, .Mapped [0x64A, 0x647]),
  (0xFCF2, 0xFCF2, .Mapped [0x640, 0x64E, 0x651]),
  (0xFCF3, 0xFCF3, .Mapped [0x640, 0x64F, 0x651]),
  (0xFCF4, 0xFCF4, .Mapped [0x640, 0x650, 0x651]),
  (0xFCF5, 0xFCF5, .Mapped [0x637, 0x649]),
  (0xFCF6, 0xFCF6, .Mapped [0x637, 0x64A]),
  (0xFCF7, 0xFCF7, .Mapped [0x639, 0x649]),
  (0xFCF8, 0xFCF8, .Mapped [0x639, 0x64A]),
  (0xFCF9, 0xFCF9, .Mapped [0x63A, 0x649]),
  (0xFCFA, 0xFCFA, .Mapped [0x63A, 0x64A]),
  (0xFCFB, 0xFCFB, .Mapped [0x633, 0x649]),
  (0xFCFC, 0xFCFC, .Mapped [0x633, 0x64A]),
  (0xFCFD, 0xFCFD, .Mapped [0x634, 0x649]),
  (0xFCFE, 0xFCFE, .Mapped [0x634, 0x64A]),
  (0xFCFF, 0xFCFF, .Mapped [0x62D, 0x649]),
  (0xFD00, 0xFD00, .Mapped [0x62D, 0x64A]),
  (0xFD01, 0xFD01, .Mapped [0x62C, 0x649]),
  (0xFD02, 0xFD02, .Mapped [0x62C, 0x64A]),
  (0xFD03, 0xFD03, .Mapped [0x62E, 0x649]),
  (0xFD04, 0xFD04, .Mapped [0x62E, 0x64A]),
  (0xFD05, 0xFD05, .Mapped [0x635, 0x649]),
  (0xFD06, 0xFD06, .Mapped [0x635, 0x64A]),
  (0xFD07, 0xFD07, .Mapped [0x636, 0x649]),
  (0xFD08, 0xFD08, .Mapped [0x636, 0x64A]),
  (0xFD09, 0xFD09, .Mapped [0x634, 0x62C]),
  (0xFD0A, 0xFD0A, .Mapped [0x634, 0x62D]),
  (0xFD0B, 0xFD0B, .Mapped [0x634, 0x62E]),
  (0xFD0C, 0xFD0C, .Mapped [0x634, 0x645]),
  (0xFD0D, 0xFD0D, .Mapped [0x634, 0x631]),
  (0xFD0E, 0xFD0E, .Mapped [0x633, 0x631]),
  (0xFD0F, 0xFD0F, .Mapped [0x635, 0x631]),
  (0xFD10, 0xFD10, .Mapped [0x636, 0x631]),
  (0xFD11, 0xFD11, .Mapped [0x637, 0x649]),
  (0xFD12, 0xFD12, .Mapped [0x637, 0x64A]),
  (0xFD13, 0xFD13, .Mapped [0x639, 0x649]),
  (0xFD14, 0xFD14, .Mapped [0x639, 0x64A]),
  (0xFD15, 0xFD15, .Mapped [0x63A, 0x649]),
  (0xFD16, 0xFD16, .Mapped [0x63A, 0x64A]),
  (0xFD17, 0xFD17, .Mapped [0x633, 0x649]),
  (0xFD18, 0xFD18, .Mapped [0x633, 0x64A]),
  (0xFD19, 0xFD19, .Mapped [0x634, 0x649]),
  (0xFD1A, 0xFD1A, .Mapped [0x634, 0x64A]),
  (0xFD1B, 0xFD1B, .Mapped [0x62D, 0x649]),
  (0xFD1C, 0xFD1C, .Mapped [0x62D, 0x64A]),
  (0xFD1D, 0xFD1D, .Mapped [0x62C, 0x649]),
  (0xFD1E, 0xFD1E, .Mapped [0x62C, 0x64A]),
  (0xFD1F, 0xFD1F, .Mapped [0x62E, 0x649]),
  (0xFD20, 0xFD20, .Mapped [0x62E, 0x64A]),
  (0xFD21, 0xFD21, .Mapped [0x635, 0x649]),
  (0xFD22, 0xFD22, .Mapped [0x635, 0x64A]),
  (0xFD23, 0xFD23, .Mapped [0x636, 0x649]),
  (0xFD24, 0xFD24, .Mapped [0x636, 0x64A]),
  (0xFD25, 0xFD25, .Mapped [0x634, 0x62C]),
  (0xFD26, 0xFD26, .Mapped [0x634, 0x62D]),
  (0xFD27, 0xFD27, .Mapped [0x634, 0x62E]),
  (0xFD28, 0xFD28, .Mapped [0x634, 0x645]),
  (0xFD29, 0xFD29, .Mapped [0x634, 0x631]),
  (0xFD2A, 0xFD2A, .Mapped [0x633, 0x631]),
  (0xFD2B, 0xFD2B, .Mapped [0x635, 0x631])]
def idnaMapping_72 : List (Nat × Nat × Mapping) := [
  (0xFD2C, 0xFD2C, .Mapped [0x636, 0x631]),
  (0xFD2D, 0xFD2D, .Mapped [0x634, 0x62C]),
  (0xFD2E, 0xFD2E, .Mapped [0x634, 0x62D]),
  (0xFD2F, 0xFD2F, .Mapped [0x634, 0x62E]),
  (0xFD30, 0xFD30, .Mapped [0x634, 0x645]),
  (0xFD31, 0xFD31, .Mapped [0x633, 0x647]),
  (0xFD32, 0xFD32, .Mapped [0x634, 0x647]),
  (0xFD33, 0xFD33, .Mapped [0x637, 0x645]),
  (0xFD34, 0xFD34, .Mapped [0x633, 0x62C]),
  (0xFD35, 0xFD35, .Mapped [0x633, 0x62D]),
  (0xFD36, 0xFD36, .Mapped [0x633, 0x62E]),
  (0xFD37, 0xFD37, .Mapped [0x634, 0x62C]),
  (0xFD38, 0xFD38, .Mapped [0x634, 0x62D]),
  (0xFD39, 0xFD39, .Mapped [0x634, 0x62E]),
  (0xFD3A, 0xFD3A, .Mapped [0x637, 0x645]),
  (0xFD3B, 0xFD3B, .Mapped [0x638, 0x645]),
  (0xFD3C, 0xFD3D, .Mapped [0x627, 0x64B]),
  (0xFD3E, 0xFD3F, .Valid),
  (0xFD40, 0xFD4F, .Disallowed),
  (0xFD50, 0xFD50, .Mapped [0x62A, 0x62C, 0x645]),
  (0xFD51, 0xFD52, .Mapped [0x62A, 0x62D, 0x62C]),
  (0xFD53, 0xFD53, .Mapped [0x62A, 0x62D, 0x645]),
  (0xFD54, 0xFD54, .Mapped [0x62A, 0x62E, 0x645]),
  (0xFD55, 0xFD55, .Mapped [0x62A, 0x645, 0x62C]),
  (0xFD56, 0xFD56, .Mapped [0x62A, 0x645, 0x62D]),
  (0xFD57, 0xFD57, .Mapped [0x62A, 0x645, 0x62E]),
  (0xFD58, 0xFD59, .Mapped [0x62C, 0x645, 0x62D]),
  (0xFD5A, 0xFD5A, .Mapped [0x62D, 0x645, 0x64A]),
  (0xFD5B, 0xFD5B, .Mapped [0x62D, 0x645, 0x649]),
  (0xFD5C, 0xFD5C, .Mapped [0x633, 0x62D, 0x62C]),
  (0xFD5D, 0xFD5D, .Mapped [0x633, 0x62C, 0x62D]),
  (0xFD5E, 0xFD5E, .Mapped [0x633, 0x62C, 0x649]),
  (0xFD5F, 0xFD60, .Mapped [0x633, 0x645, 0x62D]),
  (0xFD61, 0xFD61, .Mapped [0x633, 0x645, 0x62C]),
  (0xFD62, 0xFD63, .Mapped [0x633, 0x645, 0x645]),
  (0xFD64, 0xFD65, .Mapped [0x635, 0x62D, 0x62D]),
  (0xFD66, 0xFD66, .Mapped [0x635, 0x645, 0x645]),
  (0xFD67, 0xFD68, .Mapped [0x634, 0x62D, 0x645]),
  (0xFD69, 0xFD69, .Mapped [0x634, 0x62C, 0x64A]),
  (0xFD6A, 0xFD6B, .Mapped [0x634, 0x645, 0x62E]),
  (0xFD6C, 0xFD6D, .Mapped [0x634, 0x645, 0x645]),
  (0xFD6E, 0xFD6E, .Mapped [0x636, 0x62D, 0x649]),
  (0xFD6F, 0xFD70, .Mapped [0x636, 0x62E, 0x645]),
  (0xFD71, 0xFD72, .Mapped [0x637, 0x645, 0x62D]),
  (0xFD73, 0xFD73, .Mapped [0x637, 0x645, 0x645]),
  (0xFD74, 0xFD74, .Mapped [0x637, 0x645, 0x64A]),
  (0xFD75, 0xFD75, .Mapped [0x639, 0x62C, 0x645]),
  (0xFD76, 0xFD77, .Mapped [0x639, 0x645, 0x645]),
  (0xFD78, 0xFD78, .Mapped [0x639, 0x645, 0x649]),
  (0xFD79, 0xFD79, .Mapped [0x63A, 0x645, 0x645]),
  (0xFD7A, 0xFD7A, .Mapped [0x63A, 0x645, 0x64A]),
  (0xFD7B, 0xFD7B, .Mapped [0x63A, 0x645, 0x649]),
  (0xFD7C, 0xFD7D, .Mapped [0x641, 0x62E, 0x645]),
  (0xFD7E, 0xFD7E, .Mapped [0x642, 0x645, 0x62D]),
  (0xFD7F, 0xFD7F, .Mapped [0x642, 0x645, 0x645]),
  (0xFD80, 0xFD80, .Mapped [0x644, 0x62D, 0x645]),
  (0xFD81, 0xFD81, .Mapped [0x644, 0x62D, 0x64A]),
  (0xFD82, 0xFD82, .Mapped [0x644, 0x62D, 0x649]),
  (0xFD83, 0xFD84, .Mapped [0x644, 0x62C, 0x62C]),
  (0xFD85, 0xFD86, .Mapped [0x644, 0x62E, 0x645]),
  (0xFD87, 0xFD88, .Mapped [0x644, 0x645, 0x62D]),
  (0xFD89, 0xFD89, .Mapped [0x645, 0x62D, 0x62C]),
  (0xFD8A, 0xFD8A, .Mapped [0x645, 0x62D, 0x645]),
  (0xFD8B, 0xFD8B, .Mapped [0x645, 0x62D, 0x64A])]
def idnaMapping_73 : List (Nat × Nat × Mapping) := [
  (0xFD8C, 0xFD8C, .Mapped [0x645, 0x62C, 0x62D]),
  (0xFD8D, 0xFD8D, .Mapped [0x645, 0x62C, 0x645]),
  (0xFD8E, 0xFD8E, .Mapped [0x645, 0x62E, 0x62C]),
  (0xFD8F, 0xFD8F, .Mapped [0x645, 0x62E, 0x645]),
  (0xFD90, 0xFD91, .Disallowed),
  (0xFD92, 0xFD92, .Mapped [0x645, 0x62C, 0x62E]),
  (0xFD93, 0xFD93, .Mapped [0x647, 0x645, 0x62C]),
  (0xFD94, 0xFD94, .Mapped [0x647, 0x645, 0x645]),
  (0xFD95, 0xFD95, .Mapped [0x646, 0x62D, 0x645]),
  (0xFD96, 0xFD96, .Mapped [0x646, 0x62D, 0x649]),
  (0xFD97, 0xFD98, .Mapped [0x646, 0x62C, 0x645]),
  (0xFD99, 0xFD99, .Mapped [0x646, 0x62C, 0x649]),
  (0xFD9A, 0xFD9A, .Mapped [0x646, 0x645, 0x64A]),
  (0xFD9B, 0xFD9B, .Mapped [0x646, 0x645, 0x649]),
  (0xFD9C, 0xFD9D, .Mapped [0x64A, 0x645, 0x645]),
  (0xFD9E, 0xFD9E, .Mapped [0x628, 0x62E, 0x64A]),
  (0xFD9F, 0xFD9F, .Mapped [0x62A, 0x62C, 0x64A]),
  (0xFDA0, 0xFDA0, .Mapped [0x62A, 0x62C, 0x649]),
  (0xFDA1, 0xFDA1, .Mapped [0x62A, 0x62E, 0x64A]),
  (0xFDA2, 0xFDA2, .Mapped [0x62A, 0x62E, 0x649]),
  (0xFDA3, 0xFDA3, .Mapped [0x62A, 0x645, 0x64A]),
  (0xFDA4, 0xFDA4, .Mapped [0x62A, 0x645, 0x649]),
  (0xFDA5, 0xFDA5, .Mapped [0x62C, 0x645, 0x64A]),
  (0xFDA6, 0xFDA6, .Mapped [0x62C, 0x62D, 0x649]),
  (0xFDA7, 0xFDA7, .Mapped [0x62C, 0x645, 0x649]),
  (0xFDA8, 0xFDA8, .Mapped [0x633, 0x62E, 0x649]),
  (0xFDA9, 0xFDA9, .Mapped [0x635, 0x62D, 0x64A]),
  (0xFDAA, 0xFDAA, .Mapped [0x634, 0x62D, 0x64A]),
  (0xFDAB, 0xFDAB, .Mapped [0x636, 0x62D, 0x64A]),
  (0xFDAC, 0xFDAC, .Mapped [0x644, 0x62C, 0x64A]),
  (0xFDAD, 0xFDAD, .Mapped [0x644, 0x645, 0x64A]),
  (0xFDAE, 0xFDAE, .Mapped [0x64A, 0x62D, 0x64A]),
  (0xFDAF, 0xFDAF, .Mapped [0x64A, 0x62C, 0x64A]),
  (0xFDB0, 0xFDB0, .Mapped [0x64A, 0x645, 0x64A]),
  (0xFDB1, 0xFDB1, .Mapped [0x645, 0x645, 0x64A]),
  (0xFDB2, 0xFDB2, .Mapped [0x642, 0x645, 0x64A]),
  (0xFDB3, 0xFDB3, .Mapped [0x646, 0x62D, 0x64A]),
  (0xFDB4, 0xFDB4, .Mapped [0x642, 0x645, 0x62D]),
  (0xFDB5, 0xFDB5, .Mapped [0x644, 0x62D, 0x645]),
  (0xFDB6, 0xFDB6, .Mapped [0x639, 0x645, 0x64A]),
  (0xFDB7, 0xFDB7, .Mapped [0x643, 0x645, 0x64A]),
  (0xFDB8, 0xFDB8, .Mapped [0x646, 0x62C, 0x62D]),
  (0xFDB9, 0xFDB9, .Mapped [0x645, 0x62E, 0x64A]),
  (0xFDBA, 0xFDBA, .Mapped [0x644, 0x62C, 0x645]),
  (0xFDBB, 0xFDBB, .Mapped [0x643, 0x645, 0x645]),
  (0xFDBC, 0xFDBC, .Mapped [0x644, 0x62C, 0x645]),
  (0xFDBD, 0xFDBD, .Mapped [0x646, 0x62C, 0x62D]),
  (0xFDBE, 0xFDBE, .Mapped [0x62C, 0x62D, 0x64A]),
  (0xFDBF, 0xFDBF, .Mapped [0x62D, 0x62C, 0x64A]),
  (0xFDC0, 0xFDC0, .Mapped [0x645, 0x62C, 0x64A]),
  (0xFDC1, 0xFDC1, .Mapped [0x641, 0x645, 0x64A]),
  (0xFDC2, 0xFDC2, .Mapped [0x628, 0x62D, 0x64A]),
  (0xFDC3, 0xFDC3, .Mapped [0x643, 0x645, 0x645]),
  (0xFDC4, 0xFDC4, .Mapped [0x639, 0x62C, 0x645]),
  (0xFDC5, 0xFDC5, .Mapped [0x635, 0x645, 0x645]),
  (0xFDC6, 0xFDC6, .Mapped [0x633, 0x62E, 0x64A]),
  (0xFDC7, 0xFDC7, .Mapped [0x646, 0x62C, 0x64A]),
  (0xFDC8, 0xFDEF, .Disallowed),
  (0xFDF0, 0xFDF0, .Mapped [0x635, 0x644, 0x6D2]),
  (0xFDF1, 0xFDF1, .Mapped [0x642, 0x644, 0x6D2]),
  (0xFDF2, 0xFDF2, .Mapped [0x627, 0x644, 0x644, 0x647]),
  (0xFDF3, 0xFDF3, .Mapped [0x627, 0x643, 0x628, 0x631]),
  (0xFDF4, 0xFDF4, .Mapped [0x645, 0x62D, 0x645, 0x62F]),
  (0xFDF5, 0xFDF5, .Mapped [0x635, 0x644, 0x639, 0x645])]
def idnaMapping_74 : List (Nat × Nat × Mapping) := [
  (0xFDF6, 0xFDF6, .Mapped [0x631, 0x633, 0x648, 0x644]),
  (0xFDF7, 0xFDF7, .Mapped [0x639, 0x644, 0x64A, 0x647]),
  (0xFDF8, 0xFDF8, .Mapped [0x648, 0x633, 0x644, 0x645]),
  (0xFDF9, 0xFDF9, .Mapped [0x635, 0x644, 0x649]),
  (0xFDFA, 0xFDFA, .DisallowedStd3Mapped [0x635, 0x644, 0x649, 0x20, 0x627, 0x644, 0x644, 0x647, 0x20, 0x639, 0x644, 0x64A, 0x647, 0x20, 0x648, 0x633, 0x644, 0x645]),
  (0xFDFB, 0xFDFB, .DisallowedStd3Mapped [0x62C, 0x644, 0x20, 0x62C, 0x644, 0x627, 0x644, 0x647]),
  (0xFDFC, 0xFDFC, .Mapped [0x631, 0x6CC, 0x627, 0x644]),
  (0xFDFD, 0xFDFD, .Valid),
  (0xFDFE, 0xFDFF, .Disallowed),
  (0xFE00, 0xFE0F, .Ignored),
  (0xFE10, 0xFE10, .DisallowedStd3Mapped [0x2C]),
  (0xFE11, 0xFE11, .Mapped [0x3001]),
  (0xFE12, 0xFE12, .Disallowed),
  (0xFE13, 0xFE13, .DisallowedStd3Mapped [0x3A]),
  (0xFE14, 0xFE14, .DisallowedStd3Mapped [0x3B]),
  (0xFE15, 0xFE15, .DisallowedStd3Mapped [0x21]),
  (0xFE16, 0xFE16, .DisallowedStd3Mapped [0x3F]),
  (0xFE17, 0xFE17, .Mapped [0x3016]),
  (0xFE18, 0xFE18, .Mapped [0x3017]),
  (0xFE19, 0xFE1F, .Disallowed),
  (0xFE20, 0xFE2F, .Valid),
  (0xFE30, 0xFE30, .Disallowed),
  (0xFE31, 0xFE31, .Mapped [0x2014]),
  (0xFE32, 0xFE32, .Mapped [0x2013]),
  (0xFE33, 0xFE34, .DisallowedStd3Mapped [0x5F]),
  (0xFE35, 0xFE35, .DisallowedStd3Mapped [0x28]),
  (0xFE36, 0xFE36, .DisallowedStd3Mapped [0x29]),
  (0xFE37, 0xFE37, .DisallowedStd3Mapped [0x7B]),
  (0xFE38, 0xFE38, .DisallowedStd3Mapped [0x7D]),
  (0xFE39, 0xFE39, .Mapped [0x3014]),
  (0xFE3A, 0xFE3A, .Mapped [0x3015]),
  (0xFE3B, 0xFE3B, .Mapped [0x3010]),
  (0xFE3C, 0xFE3C, .Mapped [0x3011]),
  (0xFE3D, 0xFE3D, .Mapped [0x300A]),
  (0xFE3E, 0xFE3E, .Mapped [0x300B]),
  (0xFE3F, 0xFE3F, .Mapped [0x3008]),
  (0xFE40, 0xFE40, .Mapped [0x3009]),
  (0xFE41, 0xFE41, .Mapped [0x300C]),
  (0xFE42, 0xFE42, .Mapped [0x300D]),
  (0xFE43, 0xFE43, .Mapped [0x300E]),
  (0xFE44, 0xFE44, .Mapped [0x300F]),
  (0xFE45, 0xFE46, .Valid),
  (0xFE47, 0xFE47, .DisallowedStd3Mapped [0x5B]),
  (0xFE48, 0xFE48, .DisallowedStd3Mapped [0x5D]),
  (0xFE49, 0xFE4C, .DisallowedStd3Mapped [0x20, 0x305]),
  (0xFE4D, 0xFE4F, .DisallowedStd3Mapped [0x5F]),
  (0xFE50, 0xFE50, .DisallowedStd3Mapped [0x2C]),
  (0xFE51, 0xFE51, .Mapped [0x3001]),
  (0xFE52, 0xFE53, .Disallowed),
  (0xFE54, 0xFE54, .DisallowedStd3Mapped [0x3B]),
  (0xFE55, 0xFE55, .DisallowedStd3Mapped [0x3A]),
  (0xFE56, 0xFE56, .DisallowedStd3Mapped [0x3F]),
  (0xFE57, 0xFE57, .DisallowedStd3Mapped [0x21]),
  (0xFE58, 0xFE58, .Mapped [0x2014]),
  (0xFE59, 0xFE59, .DisallowedStd3Mapped [0x28]),
  (0xFE5A, 0xFE5A, .DisallowedStd3Mapped [0x29]),
  (0xFE5B, 0xFE5B, .DisallowedStd3Mapped [0x7B]),
  (0xFE5C, 0xFE5C, .DisallowedStd3Mapped [0x7D]),
  (0xFE5D, 0xFE5D, .Mapped [0x3014]),
  (0xFE5E, 0xFE5E, .Mapped [0x3015]),
  (0xFE5F, 0xFE5F, .DisallowedStd3Mapped [0x23]),
  (0xFE60, 0xFE60, .DisallowedStd3Mapped [0x26]),
  (0xFE61, 0xFE61, .DisallowedStd3Mapped [0x2A]),
  (0xFE62, 0xFE62, .DisallowedStd3Mapped [0x2B])]
def idnaMapping_75 : List (Nat × Nat × Mapping) := [
  (0xFE63, 0xFE63, .Mapped [0x2D]),
  (0xFE64, 0xFE64, .DisallowedStd3Mapped [0x3C]),
  (0xFE65, 0xFE65, .DisallowedStd3Mapped [0x3E]),
  (0xFE66, 0xFE66, .DisallowedStd3Mapped [0x3D]),
  (0xFE67, 0xFE67, .Disallowed),
  (0xFE68, 0xFE68, .DisallowedStd3Mapped [0x5C]),
  (0xFE69, 0xFE69, .DisallowedStd3Mapped [0x24]),
  (0xFE6A, 0xFE6A, .DisallowedStd3Mapped [0x25]),
  (0xFE6B, 0xFE6B, .DisallowedStd3Mapped [0x40]),
  (0xFE6C, 0xFE6F, .Disallowed),
  (0xFE70, 0xFE70, .DisallowedStd3Mapped [0x20, 0x64B]),
  (0xFE71, 0xFE71, .Mapped [0x640, 0x64B]),
  (0xFE72, 0xFE72, .DisallowedStd3Mapped [0x20, 0x64C]),
  (0xFE73, 0xFE73, .Valid),
  (0xFE74, 0xFE74, .DisallowedStd3Mapped [0x20, 0x64D]),
  (0xFE75, 0xFE75, .Disallowed),
  (0xFE76, 0xFE76, .DisallowedStd3Mapped [0x20, 0x64E]),
  (0xFE77, 0xFE77, .Mapped [0x640, 0x64E]),
  (0xFE78, 0xFE78, .DisallowedStd3Mapped [0x20, 0x64F]),
  (0xFE79, 0xFE79, .Mapped [0x640, 0x64F]),
  (0xFE7A, 0xFE7A, .DisallowedStd3Mapped [0x20, 0x650]),
  (0xFE7B, 0xFE7B, .Mapped [0x640, 0x650]),
  (0xFE7C, 0xFE7C, .DisallowedStd3Mapped [0x20, 0x651]),
  (0xFE7D, 0xFE7D, .Mapped [0x640, 0x651]),
  (0xFE7E, 0xFE7E, .DisallowedStd3Mapped [0x20, 0x652]),
  (0xFE7F, 0xFE7F, .Mapped [0x640, 0x652]),
  (0xFE80, 0xFE80, .Mapped [0x621]),
  (0xFE81, 0xFE82, .Mapped [0x622]),
  (0xFE83, 0xFE84, .Mapped [0x623]),
  (0xFE85, 0xFE86, .Mapped [0x624]),
  (0xFE87, 0xFE88, .Mapped [0x625]),
  (0xFE89, 0xFE8C, .Mapped [0x626]),
  (0xFE8D, 0xFE8E, .Mapped [0x627]),
  (0xFE8F, 0xFE92, .Mapped [0x628]),
  (0xFE93, 0xFE94, .Mapped [0x629]),
  (0xFE95, 0xFE98, .Mapped [0x62A]),
  (0xFE99, 0xFE9C, .Mapped [0x62B]),
  (0xFE9D, 0xFEA0, .Mapped [0x62C]),
  (0xFEA1, 0xFEA4, .Mapped [0x62D]),
  (0xFEA5, 0xFEA8, .Mapped [0x62E]),
  (0xFEA9, 0xFEAA, .Mapped [0x62F]),
  (0xFEAB, 0xFEAC, .Mapped [0x630]),
  (0xFEAD, 0xFEAE, .Mapped [0x631]),
  (0xFEAF, 0xFEB0, .Mapped [0x632]),
  (0xFEB1, 0xFEB4, .Mapped [0x633]),
  (0xFEB5, 0xFEB8, .Mapped [0x634]),
  (0xFEB9, 0xFEBC, .Mapped [0x635]),
  (0xFEBD, 0xFEC0, .Mapped [0x636]),
  (0xFEC1, 0xFEC4, .Mapped [0x637]),
  (0xFEC5, 0xFEC8, .Mapped [0x638]),
  (0xFEC9, 0xFECC, .Mapped [0x639]),
  (0xFECD, 0xFED0, .Mapped [0x63A]),
  (0xFED1, 0xFED4, .Mapped [0x641]),
  (0xFED5, 0xFED8, .Mapped [0x642]),
  (0xFED9, 0xFEDC, .Mapped [0x643]),
  (0xFEDD, 0xFEE0, .Mapped [0x644]),
  (0xFEE1, 0xFEE4, .Mapped [0x645]),
  (0xFEE5, 0xFEE8, .Mapped [0x646]),
  (0xFEE9, 0xFEEC, .Mapped [0x647]),
  (0xFEED, 0xFEEE, .Mapped [0x648]),
  (0xFEEF, 0xFEF0, .Mapped [0x649]),
  (0xFEF1, 0xFEF4, .Mapped [0x64A]),
  (0xFEF5, 0xFEF6, .Mapped [0x644, 0x622]),
  (0xFEF7, 0xFEF8, .Mapped [0x644, 0x623])]
def idnaMapping_76 : List (Nat × Nat × Mapping) := [
  (0xFEF9, 0xFEFA, .Mapped [0x644, 0x625]),
  (0xFEFB, 0xFEFC, .Mapped [0x644, 0x627]),
  (0xFEFD, 0xFEFE, .Disallowed),
  (0xFEFF, 0xFEFF, .Ignored),
  (0xFF00, 0xFF00, .Disallowed),
  (0xFF01, 0xFF01, .DisallowedStd3Mapped [0x21]),
  (0xFF02, 0xFF02, .DisallowedStd3Mapped [0x22]),
  (0xFF03, 0xFF03, .DisallowedStd3Mapped [0x23]),
  (0xFF04, 0xFF04, .DisallowedStd3Mapped [0x24]),
  (0xFF05, 0xFF05, .DisallowedStd3Mapped [0x25]),
  (0xFF06, 0xFF06, .DisallowedStd3Mapped [0x26]),
  (0xFF07, 0xFF07, .DisallowedStd3Mapped [0x27]),
  (0xFF08, 0xFF08, .DisallowedStd3Mapped [0x28]),
  (0xFF09, 0xFF09, .DisallowedStd3Mapped [0x29]),
  (0xFF0A, 0xFF0A, .DisallowedStd3Mapped [0x2A]),
  (0xFF0B, 0xFF0B, .DisallowedStd3Mapped [0x2B]),
  (0xFF0C, 0xFF0C, .DisallowedStd3Mapped [0x2C]),
  (0xFF0D, 0xFF0D, .Mapped [0x2D]),
  (0xFF0E, 0xFF0E, .Mapped [0x2E]),
  (0xFF0F, 0xFF0F, .DisallowedStd3Mapped [0x2F]),
  (0xFF10, 0xFF10, .Mapped [0x30]),
  (0xFF11, 0xFF11, .Mapped [0x31]),
  (0xFF12, 0xFF12, .Mapped [0x32]),
  (0xFF13, 0xFF13, .Mapped [0x33]),
  (0xFF14, 0xFF14, .Mapped [0x34]),
  (0xFF15, 0xFF15, .Mapped [0x35]),
  (0xFF16, 0xFF16, .Mapped [0x36]),
  (0xFF17, 0xFF17, .Mapped [0x37]),
  (0xFF18, 0xFF18, .Mapped [0x38]),
  (0xFF19, 0xFF19, .Mapped [0x39]),
  (0xFF1A, 0xFF1A, .DisallowedStd3Mapped [0x3A]),
  (0xFF1B, 0xFF1B, .DisallowedStd3Mapped [0x3B]),
  (0xFF1C, 0xFF1C, .DisallowedStd3Mapped [0x3C]),
  (0xFF1D, 0xFF1D, .DisallowedStd3Mapped [0x3D]),
  (0xFF1E, 0xFF1E, .DisallowedStd3Mapped [0x3E]),
  (0xFF1F, 0xFF1F, .DisallowedStd3Mapped [0x3F]),
  (0xFF20, 0xFF20, .DisallowedStd3Mapped [0x40]),
  (0xFF21, 0xFF21, .Mapped [0x61]),
  (0xFF22, 0xFF22, .Mapped [0x62]),
  (0xFF23, 0xFF23, .Mapped [0x63]),
  (0xFF24, 0xFF24, .Mapped [0x64]),
  (0xFF25, 0xFF25, .Mapped [0x65]),
  (0xFF26, 0xFF26, .Mapped [0x66]),
  (0xFF27, 0xFF27, .Mapped [0x67]),
  (0xFF28, 0xFF28, .Mapped [0x68]),
  (0xFF29, 0xFF29, .Mapped [0x69]),
  (0xFF2A, 0xFF2A, .Mapped [0x6A]),
  (0xFF2B, 0xFF2B, .Mapped [0x6B]),
  (0xFF2C, 0xFF2C, .Mapped [0x6C]),
  (0xFF2D, 0xFF2D, .Mapped [0x6D]),
  (0xFF2E, 0xFF2E, .Mapped [0x6E]),
  (0xFF2F, 0xFF2F, .Mapped [0x6F]),
  (0xFF30, 0xFF30, .Mapped [0x70]),
  (0xFF31, 0xFF31, .Mapped [0x71]),
  (0xFF32, 0xFF32, .Mapped [0x72]),
  (0xFF33, 0xFF33, .Mapped [0x73]),
  (0xFF34, 0xFF34, .Mapped [0x74]),
  (0xFF35, 0xFF35, .Mapped [0x75]),
  (0xFF36, 0xFF36, .Mapped [0x76]),
  (0xFF37, 0xFF37, .Mapped [0x77]),
  (0xFF38, 0xFF38, .Mapped [0x78]),
  (0xFF39, 0xFF39, .Mapped [0x79]),
  (0xFF3A, 0xFF3A, .Mapped [0x7A]),
  (0xFF3B, 0xFF3B, .DisallowedStd3Mapped [0x5B])]
def idnaMapping_77 : List (Nat × Nat × Mapping) := [
  (0xFF3C, 0xFF3C, .DisallowedStd3Mapped [0x5C]),
  (0xFF3D, 0xFF3D, .DisallowedStd3Mapped [0x5D]),
  (0xFF3E, 0xFF3E, .DisallowedStd3Mapped [0x5E]),
  (0xFF3F, 0xFF3F, .DisallowedStd3Mapped [0x5F]),
  (0xFF40, 0xFF40, .DisallowedStd3Mapped [0x60]),
  (0xFF41, 0xFF41, .Mapped [0x61]),
  (0xFF42, 0xFF42, .Mapped [0x62]),
  (0xFF43, 0xFF43, .Mapped [0x63]),
  (0xFF44, 0xFF44, .Mapped [0x64]),
  (0xFF45, 0xFF45, .Mapped [0x65]),
  (0xFF46, 0xFF46, .Mapped [0x66]),
  (0xFF47, 0xFF47, .Mapped [0x67]),
  (0xFF48, 0xFF48, .Mapped [0x68]),
  (0xFF49, 0xFF49, .Mapped [0x69]),
  (0xFF4A, 0xFF4A, .Mapped [0x6A]),
  (0xFF4B, 0xFF4B, .Mapped [0x6B]),
  (0xFF4C, 0xFF4C, .Mapped [0x6C]),
  (0xFF4D, 0xFF4D, .Mapped [0x6D]),
  (0xFF4E, 0xFF4E, .Mapped [0x6E]),
  (0xFF4F, 0xFF4F, .Mapped [0x6F]),
  (0xFF50, 0xFF50, .Mapped [0x70]),
  (0xFF51, 0xFF51, .Mapped [0x71]),
  (0xFF52, 0xFF52, .Mapped [0x72]),
  (0xFF53, 0xFF53, .Mapped [0x73]),
  (0xFF54, 0xFF54, .Mapped [0x74]),
  (0xFF55, 0xFF55, .Mapped [0x75]),
  (0xFF56, 0xFF56, .Mapped [0x76]),
  (0xFF57, 0xFF57, .Mapped [0x77]),
  (0xFF58, 0xFF58, .Mapped [0x78]),
  (0xFF59, 0xFF59, .Mapped [0x79]),
  (0xFF5A, 0xFF5A, .Mapped [0x7A]),
  (0xFF5B, 0xFF5B, .DisallowedStd3Mapped [0x7B]),
  (0xFF5C, 0xFF5C, .DisallowedStd3Mapped [0x7C]),
  (0xFF5D, 0xFF5D, .DisallowedStd3Mapped [0x7D]),
  (0xFF5E, 0xFF5E, .DisallowedStd3Mapped [0x7E]),
  (0xFF5F, 0xFF5F, .Mapped [0x2985]),
  (0xFF60, 0xFF60, .Mapped [0x2986]),
  (0xFF61, 0xFF61, .Mapped [0x2E]),
  (0xFF62, 0xFF62, .Mapped [0x300C]),
  (0xFF63, 0xFF63, .Mapped [0x300D]),
  (0xFF64, 0xFF64, .Mapped [0x3001]),
  (0xFF65, 0xFF65, .Mapped [0x30FB]),
  (0xFF66, 0xFF66, .Mapped [0x30F2]),
  (0xFF67, 0xFF67, .Mapped [0x30A1]),
  (0xFF68, 0xFF68, .Mapped [0x30A3]),
  (0xFF69, 0xFF69, .Mapped [0x30A5]),
  (0xFF6A, 0xFF6A, .Mapped [0x30A7]),
  (0xFF6B, 0xFF6B, .Mapped [0x30A9]),
  (0xFF6C, 0xFF6C, .Mapped [0x30E3]),
  (0xFF6D, 0xFF6D, .Mapped [0x30E5]),
  (0xFF6E, 0xFF6E, .Mapped [0x30E7]),
  (0xFF6F, 0xFF6F, .Mapped [0x30C3]),
  (0xFF70, 0xFF70, .Mapped [0x30FC]),
  (0xFF71, 0xFF71, .Mapped [0x30A2]),
  (0xFF72, 0xFF72, .Mapped [0x30A4]),
  (0xFF73, 0xFF73, .Mapped [0x30A6]),
  (0xFF74, 0xFF74, .Mapped [0x30A8]),
  (0xFF75, 0xFF75, .Mapped [0x30AA]),
  (0xFF76, 0xFF76, .Mapped [0x30AB]),
  (0xFF77, 0xFF77, .Mapped [0x30AD]),
  (0xFF78, 0xFF78, .Mapped [0x30AF]),
  (0xFF79, 0xFF79, .Mapped [0x30B1]),
  (0xFF7A, 0xFF7A, .Mapped [0x30B3]),
  (0xFF7B, 0xFF7B, .Mapped [0x30B5])]
def idnaMapping_78 : List (Nat × Nat × Mapping) := [
  (0xFF7C, 0xFF7C, .Mapped [0x30B7]),
  (0xFF7D, 0xFF7D, .Mapped [0x30B9]),
  (0xFF7E, 0xFF7E, .Mapped [0x30BB]),
  (0xFF7F, 0xFF7F, .Mapped [0x30BD]),
  (0xFF80, 0xFF80, .Mapped [0x30BF]),
  (0xFF81, 0xFF81, .Mapped [0x30C1]),
  (0xFF82, 0xFF82, .Mapped [0x30C4]),
  (0xFF83, 0xFF83, .Mapped [0x30C6]),
  (0xFF84, 0xFF84, .Mapped [0x30C8]),
  (0xFF85, 0xFF85, .Mapped [0x30CA]),
  (0xFF86, 0xFF86, .Mapped [0x30CB]),
  (0xFF87, 0xFF87, .Mapped [0x30CC]),
  (0xFF88, 0xFF88, .Mapped [0x30CD]),
  (0xFF89, 0xFF89, .Mapped [0x30CE]),
  (0xFF8A, 0xFF8A, .Mapped [0x30CF]),
  (0xFF8B, 0xFF8B, .Mapped [0x30D2]),
  (0xFF8C, 0xFF8C, .Mapped [0x30D5]),
  (0xFF8D, 0xFF8D, .Mapped [0x30D8]),
  (0xFF8E, 0xFF8E, .Mapped [0x30DB]),
  (0xFF8F, 0xFF8F, .Mapped [0x30DE]),
  (0xFF90, 0xFF90, .Mapped [0x30DF]),
  (0xFF91, 0xFF91, .Mapped [0x30E0]),
  (0xFF92, 0xFF92, .Mapped [0x30E1]),
  (0xFF93, 0xFF93, .Mapped [0x30E2]),
  (0xFF94, 0xFF94, .Mapped [0x30E4]),
  (0xFF95, 0xFF95, .Mapped [0x30E6]),
  (0xFF96, 0xFF96, .Mapped [0x30E8]),
  (0xFF97, 0xFF97, .Mapped [0x30E9]),
  (0xFF98, 0xFF98, .Mapped [0x30EA]),
  (0xFF99, 0xFF99, .Mapped [0x30EB]),
  (0xFF9A, 0xFF9A, .Mapped [0x30EC]),
  (0xFF9B, 0xFF9B, .Mapped [0x30ED]),
  (0xFF9C, 0xFF9C, .Mapped [0x30EF]),
  (0xFF9D, 0xFF9D, .Mapped [0x30F3]),
  (0xFF9E, 0xFF9E, .Mapped [0x3099]),
  (0xFF9F, 0xFF9F, .Mapped [0x309A]),
  (0xFFA0, 0xFFA0, .Disallowed),
  (0xFFA1, 0xFFA1, .Mapped [0x1100]),
  (0xFFA2, 0xFFA2, .Mapped [0x1101]),
  (0xFFA3, 0xFFA3, .Mapped [0x11AA]),
  (0xFFA4, 0xFFA4, .Mapped [0x1102]),
  (0xFFA5, 0xFFA5, .Mapped [0x11AC]),
  (0xFFA6, 0xFFA6, .Mapped [0x11AD]),
  (0xFFA7, 0xFFA7, .Mapped [0x1103]),
  (0xFFA8, 0xFFA8, .Mapped [0x1104]),
  (0xFFA9, 0xFFA9, .Mapped [0x1105]),
  (0xFFAA, 0xFFAA, .Mapped [0x11B0]),
  (0xFFAB, 0xFFAB, .Mapped [0x11B1]),
  (0xFFAC, 0xFFAC, .Mapped [0x11B2]),
  (0xFFAD, 0xFFAD, .Mapped [0x11B3]),
  (0xFFAE, 0xFFAE, .Mapped [0x11B4]),
  (0xFFAF, 0xFFAF, .Mapped [0x11B5]),
  (0xFFB0, 0xFFB0, .Mapped [0x111A]),
  (0xFFB1, 0xFFB1, .Mapped [0x1106]),
  (0xFFB2, 0xFFB2, .Mapped [0x1107]),
  (0xFFB3, 0xFFB3, .Mapped [0x1108]),
  (0xFFB4, 0xFFB4, .Mapped [0x1121]),
  (0xFFB5, 0xFFB5, .Mapped [0x1109]),
  (0xFFB6, 0xFFB6, .Mapped [0x110A]),
  (0xFFB7, 0xFFB7, .Mapped [0x110B]),
  (0xFFB8, 0xFFB8, .Mapped [0x110C]),
  (0xFFB9, 0xFFB9, .Mapped [0x110D]),
  (0xFFBA, 0xFFBA, .Mapped [0x110E]),
  (0xFFBB, 0xFFBB, .Mapped [0x110F])]
def idnaMapping_79 : List (Nat × Nat × Mapping) := [
  (0xFFBC, 0xFFBC, .Mapped [0x1110]),
  (0xFFBD, 0xFFBD, .Mapped [0x1111]),
  (0xFFBE, 0xFFBE, .Mapped [0x1112]),
  (0xFFBF, 0xFFC1, .Disallowed),
  (0xFFC2, 0xFFC2, .Mapped [0x1161]),
  (0xFFC3, 0xFFC3, .Mapped [0x1162]),
  (0xFFC4, 0xFFC4, .Mapped [0x1163]),
  (0xFFC5, 0xFFC5, .Mapped [0x1164]),
  (0xFFC6, 0xFFC6, .Mapped [0x1165]),
  (0xFFC7, 0xFFC7, .Mapped [0x1166]),
  (0xFFC8, 0xFFC9, .Disallowed),
  (0xFFCA, 0xFFCA, .Mapped [0x1167]),
  (0xFFCB, 0xFFCB, .Mapped [0x1168]),
  (0xFFCC, 0xFFCC, .Mapped [0x1169]),
  (0xFFCD, 0xFFCD, .Mapped [0x116A]),
  (0xFFCE, 0xFFCE, .Mapped [0x116B]),
  (0xFFCF, 0xFFCF, .Mapped [0x116C]),
  (0xFFD0, 0xFFD1, .Disallowed),
  (0xFFD2, 0xFFD2, .Mapped [0x116D]),
  (0xFFD3, 0xFFD3, .Mapped [0x116E]),
  (0xFFD4, 0xFFD4, .Mapped [0x116F]),
  (0xFFD5, 0xFFD5, .Mapped [0x1170]),
  (0xFFD6, 0xFFD6, .Mapped [0x1171]),
  (0xFFD7, 0xFFD7, .Mapped [0x1172]),
  (0xFFD8, 0xFFD9, .Disallowed),
  (0xFFDA, 0xFFDA, .Mapped [0x1173]),
  (0xFFDB, 0xFFDB, .Mapped [0x1174]),
  (0xFFDC, 0xFFDC, .Mapped [0x1175]),
  (0xFFDD, 0xFFDF, .Disallowed),
  (0xFFE0, 0xFFE0, .Mapped [0xA2]),
  (0xFFE1, 0xFFE1, .Mapped [0xA3]),
  (0xFFE2, 0xFFE2, .Mapped [0xAC]),
  (0xFFE3, 0xFFE3, .DisallowedStd3Mapped [0x20, 0x304]),
  (0xFFE4, 0xFFE4, .Mapped [0xA6]),
  (0xFFE5, 0xFFE5, .Mapped [0xA5]),
  (0xFFE6, 0xFFE6, .Mapped [0x20A9]),
  (0xFFE7, 0xFFE7, .Disallowed),
  (0xFFE8, 0xFFE8, .Mapped [0x2502]),
  (0xFFE9, 0xFFE9, .Mapped [0x2190]),
  (0xFFEA, 0xFFEA, .Mapped [0x2191]),
  (0xFFEB, 0xFFEB, .Mapped [0x2192]),
  (0xFFEC, 0xFFEC, .Mapped [0x2193]),
  (0xFFED, 0xFFED, .Mapped [0x25A0]),
  (0xFFEE, 0xFFEE, .Mapped [0x25CB]),
  (0xFFEF, 0xFFFF, .Disallowed),
  (0x10000, 0x1000B, .Valid),
  (0x1000C, 0x1000C, .Disallowed),
  (0x1000D, 0x10026, .Valid),
  (0x10027, 0x10027, .Disallowed),
  (0x10028, 0x1003A, .Valid),
  (0x1003B, 0x1003B, .Disallowed),
  (0x1003C, 0x1003D, .Valid),
  (0x1003E, 0x1003E, .Disallowed),
  (0x1003F, 0x1004D, .Valid),
  (0x1004E, 0x1004F, .Disallowed),
  (0x10050, 0x1005D, .Valid),
  (0x1005E, 0x1007F, .Disallowed),
  (0x10080, 0x100FA, .Valid),
  (0x100FB, 0x100FF, .Disallowed),
  (0x10100, 0x10102, .Valid),
  (0x10103, 0x10106, .Disallowed),
  (0x10107, 0x10133, .Valid),
  (0x10134, 0x10136, .Disallowed),
  (0x10137, 0x1018E, .Valid)]
def idnaMapping_80 : List (Nat × Nat × Mapping) := [
  (0x1018F, 0x1018F, .Disallowed),
  (0x10190, 0x1019B, .Valid),
  (0x1019C, 0x1019F, .Disallowed),
  (0x101A0, 0x101A0, .Valid),
  (0x101A1, 0x101CF, .Disallowed),
  (0x101D0, 0x101FD, .Valid),
  (0x101FE, 0x1027F, .Disallowed),
  (0x10280, 0x1029C, .Valid),
  (0x1029D, 0x1029F, .Disallowed),
  (0x102A0, 0x102D0, .Valid),
  (0x102D1, 0x102DF, .Disallowed),
  (0x102E0, 0x102FB, .Valid),
  (0x102FC, 0x102FF, .Disallowed),
  (0x10300, 0x10323, .Valid),
  (0x10324, 0x1032C, .Disallowed),
  (0x1032D, 0x1034A, .Valid),
  (0x1034B, 0x1034F, .Disallowed),
  (0x10350, 0x1037A, .Valid),
  (0x1037B, 0x1037F, .Disallowed),
  (0x10380, 0x1039D, .Valid),
  (0x1039E, 0x1039E, .Disallowed),
  (0x1039F, 0x103C3, .Valid),
  (0x103C4, 0x103C7, .Disallowed),
  (0x103C8, 0x103D5, .Valid),
  (0x103D6, 0x103FF, .Disallowed),
  (0x10400, 0x10400, .Mapped [0x10428]),
  (0x10401, 0x10401, .Mapped [0x10429]),
  (0x10402, 0x10402, .Mapped [0x1042A]),
  (0x10403, 0x10403, .Mapped [0x1042B]),
  (0x10404, 0x10404, .Mapped [0x1042C]),
  (0x10405, 0x10405, .Mapped [0x1042D]),
  (0x10406, 0x10406, .Mapped [0x1042E]),
  (0x10407, 0x10407, .Mapped [0x1042F]),
  (0x10408, 0x10408, .Mapped [0x10430]),
  (0x10409, 0x10409, .Mapped [0x10431]),
  (0x1040A, 0x1040A, .Mapped [0x10432]),
  (0x1040B, 0x1040B, .Mapped [0x10433]),
  (0x1040C, 0x1040C, .Mapped [0x10434]),
  (0x1040D, 0x1040D, .Mapped [0x10435]),
  (0x1040E, 0x1040E, .Mapped [0x10436]),
  (0x1040F, 0x1040F, .Mapped [0x10437]),
  (0x10410, 0x10410, .Mapped [0x10438]),
  (0x10411, 0x10411, .Mapped [0x10439]),
  (0x10412, 0x10412, .Mapped [0x1043A]),
  (0x10413, 0x10413, .Mapped [0x1043B]),
  (0x10414, 0x10414, .Mapped [0x1043C]),
  (0x10415, 0x10415, .Mapped [0x1043D]),
  (0x10416, 0x10416, .Mapped [0x1043E]),
  (0x10417, 0x10417, .Mapped [0x1043F]),
  (0x10418, 0x10418, .Mapped [0x10440]),
  (0x10419, 0x10419, .Mapped [0x10441]),
  (0x1041A, 0x1041A, .Mapped [0x10442]),
  (0x1041B, 0x1041B, .Mapped [0x10443]),
  (0x1041C, 0x1041C, .Mapped [0x10444]),
  (0x1041D, 0x1041D, .Mapped [0x10445]),
  (0x1041E, 0x1041E, .Mapped [0x10446]),
  (0x1041F, 0x1041F, .Mapped [0x10447]),
  (0x10420, 0x10420, .Mapped [0x10448]),
  (0x10421, 0x10421, .Mapped [0x10449]),
  (0x10422, 0x10422, .Mapped [0x1044A]),
  (0x10423, 0x10423, .Mapped [0x1044B]),
  (0x10424, 0x10424, .Mapped [0x1044C]),
  (0x10425, 0x10425, .Mapped [0x1044D]),
  (0x10426, 0x10426, .Mapped [0x1044E])]
def idnaMapping_81 : List (Nat × Nat × Mapping) := [
  (0x10427, 0x10427, .Mapped [0x1044F]),
  (0x10428, 0x1049D, .Valid),
  (0x1049E, 0x1049F, .Disallowed),
  (0x104A0, 0x104A9, .Valid),
  (0x104AA, 0x104AF, .Disallowed),
  (0x104B0, 0x104B0, .Mapped [0x104D8]),
  (0x104B1, 0x104B1, .Mapped [0x104D9]),
  (0x104B2, 0x104B2, .Mapped [0x104DA]),
  (0x104B3, 0x104B3, .Mapped [0x104DB]),
  (0x104B4, 0x104B4, .Mapped [0x104DC]),
  (0x104B5, 0x104B5, .Mapped [0x104DD]),
  (0x104B6, 0x104B6, .Mapped [0x104DE]),
  (0x104B7, 0x104B7, .Mapped [0x104DF]),
  (0x104B8, 0x104B8, .Mapped [0x104E0]),
  (0x104B9, 0x104B9, .Mapped [0x104E1]),
  (0x104BA, 0x104BA, .Mapped [0x104E2]),
  (0x104BB, 0x104BB, .Mapped [0x104E3]),
  (0x104BC, 0x104BC, .Mapped [0x104E4]),
  (0x104BD, 0x104BD, .Mapped [0x104E5]),
  (0x104BE, 0x104BE, .Mapped [0x104E6]),
  (0x104BF, 0x104BF, .Mapped [0x104E7]),
  (0x104C0, 0x104C0, .Mapped [0x104E8]),
  (0x104C1, 0x104C1, .Mapped [0x104E9]),
  (0x104C2, 0x104C2, .Mapped [0x104EA]),
  (0x104C3, 0x104C3, .Mapped [0x104EB]),
  (0x104C4, 0x104C4, .Mapped [0x104EC]),
  (0x104C5, 0x104C5, .Mapped [0x104ED]),
  (0x104C6, 0x104C6, .Mapped [0x104EE]),
  (0x104C7, 0x104C7, .Mapped [0x104EF]),
  (0x104C8, 0x104C8, .Mapped [0x104F0]),
  (0x104C9, 0x104C9, .Mapped [0x104F1]),
  (0x104CA, 0x104CA, .Mapped [0x104F2]),
  (0x104CB, 0x104CB, .Mapped [0x104F3]),
  (0x104CC, 0x104CC, .Mapped [0x104F4]),
  (0x104CD, 0x104CD, .Mapped [0x104F5]),
  (0x104CE, 0x104CE, .Mapped [0x104F6]),
  (0x104CF, 0x104CF, .Mapped [0x104F7]),
  (0x104D0, 0x104D0, .Mapped [0x104F8]),
  (0x104D1, 0x104D1, .Mapped [0x104F9]),
  (0x104D2, 0x104D2, .Mapped [0x104FA]),
  (0x104D3, 0x104D3, .Mapped [0x104FB]),
  (0x104D4, 0x104D7, .Disallowed),
  (0x104D8, 0x104FB, .Valid),
  (0x104FC, 0x104FF, .Disallowed),
  (0x10500, 0x10527, .Valid),
  (0x10528, 0x1052F, .Disallowed),
  (0x10530, 0x10563, .Valid),
  (0x10564, 0x1056E, .Disallowed),
  (0x1056F, 0x1056F, .Valid),
  (0x10570, 0x105FF, .Disallowed),
  (0x10600, 0x10736, .Valid),
  (0x10737, 0x1073F, .Disallowed),
  (0x10740, 0x10755, .Valid),
  (0x10756, 0x1075F, .Disallowed),
  (0x10760, 0x10767, .Valid),
  (0x10768, 0x107FF, .Disallowed),
  (0x10800, 0x10805, .Valid),
  (0x10806, 0x10807, .Disallowed),
  (0x10808, 0x10808, .Valid),
  (0x10809, 0x10809, .Disallowed),
  (0x1080A, 0x10835, .Valid),
  (0x10836, 0x10836, .Disallowed),
  (0x10837, 0x10838, .Valid),
  (0x10839, 0x1083B, .Disallowed)]
def idnaMapping_82 : List (Nat × Nat × Mapping) := [
  (0x1083C, 0x1083C, .Valid),
  (0x1083D, 0x1083E, .Disallowed),
  (0x1083F, 0x10855, .Valid),
  (0x10856, 0x10856, .Disallowed),
  (0x10857, 0x1089E, .Valid),
  (0x1089F, 0x108A6, .Disallowed),
  (0x108A7, 0x108AF, .Valid),
  (0x108B0, 0x108DF, .Disallowed),
  (0x108E0, 0x108F2, .Valid),
  (0x108F3, 0x108F3, .Disallowed),
  (0x108F4, 0x108F5, .Valid),
  (0x108F6, 0x108FA, .Disallowed),
  (0x108FB, 0x1091B, .Valid),
  (0x1091C, 0x1091E, .Disallowed),
  (0x1091F, 0x10939, .Valid),
  (0x1093A, 0x1093E, .Disallowed),
  (0x1093F, 0x1093F, .Valid),
  (0x10940, 0x1097F, .Disallowed),
  (0x10980, 0x109B7, .Valid),
  (0x109B8, 0x109BB, .Disallowed),
  (0x109BC, 0x109CF, .Valid),
  (0x109D0, 0x109D1, .Disallowed),
  (0x109D2, 0x10A03, .Valid),
  (0x10A04, 0x10A04, .Disallowed),
  (0x10A05, 0x10A06, .Valid),
  (0x10A07, 0x10A0B, .Disallowed),
  (0x10A0C, 0x10A13, .Valid),
  (0x10A14, 0x10A14, .Disallowed),
  (0x10A15, 0x10A17, .Valid),
  (0x10A18, 0x10A18, .Disallowed),
  (0x10A19, 0x10A33, .Valid),
  (0x10A34, 0x10A37, .Disallowed),
  (0x10A38, 0x10A3A, .Valid),
  (0x10A3B, 0x10A3E, .Disallowed),
  (0x10A3F, 0x10A47, .Valid),
  (0x10A48, 0x10A4F, .Disallowed),
  (0x10A50, 0x10A58, .Valid),
  (0x10A59, 0x10A5F, .Disallowed),
  (0x10A60, 0x10A9F, .Valid),
  (0x10AA0, 0x10ABF, .Disallowed),
  (0x10AC0, 0x10AE6, .Valid),
  (0x10AE7, 0x10AEA, .Disallowed),
  (0x10AEB, 0x10AF6, .Valid),
  (0x10AF7, 0x10AFF, .Disallowed),
  (0x10B00, 0x10B35, .Valid),
  (0x10B36, 0x10B38, .Disallowed),
  (0x10B39, 0x10B55, .Valid),
  (0x10B56, 0x10B57, .Disallowed),
  (0x10B58, 0x10B72, .Valid),
  (0x10B73, 0x10B77, .Disallowed),
  (0x10B78, 0x10B91, .Valid),
  (0x10B92, 0x10B98, .Disallowed),
  (0x10B99, 0x10B9C, .Valid),
  (0x10B9D, 0x10BA8, .Disallowed),
  (0x10BA9, 0x10BAF, .Valid),
  (0x10BB0, 0x10BFF, .Disallowed),
  (0x10C00, 0x10C48, .Valid),
  (0x10C49, 0x10C7F, .Disallowed),
  (0x10C80, 0x10C80, .Mapped [0x10CC0]),
  (0x10C81, 0x10C81, .Mapped [0x10CC1]),
  (0x10C82, 0x10C82, .Mapped [0x10CC2]),
  (0x10C83, 0x10C83, .Mapped [0x10CC3]),
  (0x10C84, 0x10C84, .Mapped [0x10CC4]),
  (0x10C85, 0x10C85, .Mapped [0x10CC5])]
def idnaMapping_83 : List (Nat × Nat × Mapping) := [
  (0x10C86, 0x10C86, .Mapped [0x10CC6]),
  (0x10C87, 0x10C87, .Mapped [0x10CC7]),
  (0x10C88, 0x10C88, .Mapped [0x10CC8]),
  (0x10C89, 0x10C89, .Mapped [0x10CC9]),
  (0x10C8A, 0x10C8A, .Mapped [0x10CCA]),
  (0x10C8B, 0x10C8B, .Mapped [0x10CCB]),
  (0x10C8C, 0x10C8C, .Mapped [0x10CCC]),
  (0x10C8D, 0x10C8D, .Mapped [0x10CCD]),
  (0x10C8E, 0x10C8E, .Mapped [0x10CCE]),
  (0x10C8F, 0x10C8F, .Mapped [0x10CCF]),
  (0x10C90, 0x10C90, .Mapped [0x10CD0]),
  (0x10C91, 0x10C91, .Mapped [0x10CD1]),
  (0x10C92, 0x10C92, .Mapped [0x10CD2]),
  (0x10C93, 0x10C93, .Mapped [0x10CD3]),
  (0x10C94, 0x10C94, .Mapped [0x10CD4]),
  (0x10C95, 0x10C95, .Mapped [0x10CD5]),
  (0x10C96, 0x10C96, .Mapped [0x10CD6]),
  (0x10C97, 0x10C97, .Mapped [0x10CD7]),
  (0x10C98, 0x10C98, .Mapped [0x10CD8]),
  (0x10C99, 0x10C99, .Mapped [0x10CD9]),
  (0x10C9A, 0x10C9A, .Mapped [0x10CDA]),
  (0x10C9B, 0x10C9B, .Mapped [0x10CDB]),
  (0x10C9C, 0x10C9C, .Mapped [0x10CDC]),
  (0x10C9D, 0x10C9D, .Mapped [0x10CDD]),
  (0x10C9E, 0x10C9E, .Mapped [0x10CDE]),
  (0x10C9F, 0x10C9F, .Mapped [0x10CDF]),
  (0x10CA0, 0x10CA0, .Mapped [0x10CE0]),
  (0x10CA1, 0x10CA1, .Mapped [0x10CE1]),
  (0x10CA2, 0x10CA2, .Mapped [0x10CE2]),
  (0x10CA3, 0x10CA3, .Mapped [0x10CE3]),
  (0x10CA4, 0x10CA4, .Mapped [0x10CE4]),
  (0x10CA5, 0x10CA5, .Mapped [0x10CE5]),
  (0x10CA6, 0x10CA6, .Mapped [0x10CE6]),
  (0x10CA7, 0x10CA7, .Mapped [0x10CE7]),
  (0x10CA8, 0x10CA8, .Mapped [0x10CE8]),
  (0x10CA9, 0x10CA9, .Mapped [0x10CE9]),
  (0x10CAA, 0x10CAA, .Mapped [0x10CEA]),
  (0x10CAB, 0x10CAB, .Mapped [0x10CEB]),
  (0x10CAC, 0x10CAC, .Mapped [0x10CEC]),
  (0x10CAD, 0x10CAD, .Mapped [0x10CED]),
  (0x10CAE, 0x10CAE, .Mapped [0x10CEE]),
  (0x10CAF, 0x10CAF, .Mapped [0x10CEF]),
  (0x10CB0, 0x10CB0, .Mapped [0x10CF0]),
  (0x10CB1, 0x10CB1, .Mapped [0x10CF1]),
  (0x10CB2, 0x10CB2, .Mapped [0x10CF2]),
  (0x10CB3, 0x10CBF, .Disallowed),
  (0x10CC0, 0x10CF2, .Valid),
  (0x10CF3, 0x10CF9, .Disallowed),
  (0x10CFA, 0x10CFF, .Valid),
  (0x10D00, 0x10E5F, .Disallowed),
  (0x10E60, 0x10E7E, .Valid),
  (0x10E7F, 0x10FFF, .Disallowed),
  (0x11000, 0x1104D, .Valid),
  (0x1104E, 0x11051, .Disallowed),
  (0x11052, 0x1106F, .Valid),
  (0x11070, 0x1107E, .Disallowed),
  (0x1107F, 0x110BC, .Valid),
  (0x110BD, 0x110BD, .Disallowed),
  (0x110BE, 0x110C1, .Valid),
  (0x110C2, 0x110CF, .Disallowed),
  (0x110D0, 0x110E8, .Valid),
  (0x110E9, 0x110EF, .Disallowed),
  (0x110F0, 0x110F9, .Valid),
  (0x110FA, 0x110FF, .Disallowed)]
def idnaMapping_84 : List (Nat × Nat × Mapping) := [
  (0x11100, 0x11134, .Valid),
  (0x11135, 0x11135, .Disallowed),
  (0x11136, 0x11143, .Valid),
  (0x11144, 0x1114F, .Disallowed),
  (0x11150, 0x11176, .Valid),
  (0x11177, 0x1117F, .Disallowed),
  (0x11180, 0x111CD, .Valid),
  (0x111CE, 0x111CF, .Disallowed),
  (0x111D0, 0x111DF, .Valid),
  (0x111E0, 0x111E0, .Disallowed),
  (0x111E1, 0x111F4, .Valid),
  (0x111F5, 0x111FF, .Disallowed),
  (0x11200, 0x11211, .Valid),
  (0x11212, 0x11212, .Disallowed),
  (0x11213, 0x1123E, .Valid),
  (0x1123F, 0x1127F, .Disallowed),
  (0x11280, 0x11286, .Valid),
  (0x11287, 0x11287, .Disallowed),
  (0x11288, 0x11288, .Valid),
  (0x11289, 0x11289, .Disallowed),
  (0x1128A, 0x1128D, .Valid),
  (0x1128E, 0x1128E, .Disallowed),
  (0x1128F, 0x1129D, .Valid),
  (0x1129E, 0x1129E, .Disallowed),
  (0x1129F, 0x112A9, .Valid),
  (0x112AA, 0x112AF, .Disallowed),
  (0x112B0, 0x112EA, .Valid),
  (0x112EB, 0x112EF, .Disallowed),
  (0x112F0, 0x112F9, .Valid),
  (0x112FA, 0x112FF, .Disallowed),
  (0x11300, 0x11303, .Valid),
  (0x11304, 0x11304, .Disallowed),
  (0x11305, 0x1130C, .Valid),
  (0x1130D, 0x1130E, .Disallowed),
  (0x1130F, 0x11310, .Valid),
  (0x11311, 0x11312, .Disallowed),
  (0x11313, 0x11328, .Valid),
  (0x11329, 0x11329, .Disallowed),
  (0x1132A, 0x11330, .Valid),
  (0x11331, 0x11331, .Disallowed),
  (0x11332, 0x11333, .Valid),
  (0x11334, 0x11334, .Disallowed),
  (0x11335, 0x11339, .Valid),
  (0x1133A, 0x1133B, .Disallowed),
  (0x1133C, 0x11344, .Valid),
  (0x11345, 0x11346, .Disallowed),
  (0x11347, 0x11348, .Valid),
  (0x11349, 0x1134A, .Disallowed),
  (0x1134B, 0x1134D, .Valid),
  (0x1134E, 0x1134F, .Disallowed),
  (0x11350, 0x11350, .Valid),
  (0x11351, 0x11356, .Disallowed),
  (0x11357, 0x11357, .Valid),
  (0x11358, 0x1135C, .Disallowed),
  (0x1135D, 0x11363, .Valid),
  (0x11364, 0x11365, .Disallowed),
  (0x11366, 0x1136C, .Valid),
  (0x1136D, 0x1136F, .Disallowed),
  (0x11370, 0x11374, .Valid),
  (0x11375, 0x113FF, .Disallowed),
  (0x11400, 0x11459, .Valid),
  (0x1145A, 0x1145A, .Disallowed),
  (0x1145B, 0x1145B, .Valid),
  (0x1145C, 0x1145C, .Disallowed)]
def idnaMapping_85 : List (Nat × Nat × Mapping) := [
  (0x1145D, 0x1145D, .Valid),
  (0x1145E, 0x1147F, .Disallowed),
  (0x11480, 0x114C7, .Valid),
  (0x114C8, 0x114CF, .Disallowed),
  (0x114D0, 0x114D9, .Valid),
  (0x114DA, 0x1157F, .Disallowed),
  (0x11580, 0x115B5, .Valid),
  (0x115B6, 0x115B7, .Disallowed),
  (0x115B8, 0x115DD, .Valid),
  (0x115DE, 0x115FF, .Disallowed),
  (0x11600, 0x11644, .Valid),
  (0x11645, 0x1164F, .Disallowed),
  (0x11650, 0x11659, .Valid),
  (0x1165A, 0x1165F, .Disallowed),
  (0x11660, 0x1166C, .Valid),
  (0x1166D, 0x1167F, .Disallowed),
  (0x11680, 0x116B7, .Valid),
  (0x116B8, 0x116BF, .Disallowed),
  (0x116C0, 0x116C9, .Valid),
  (0x116CA, 0x116FF, .Disallowed),
  (0x11700, 0x11719, .Valid),
  (0x1171A, 0x1171C, .Disallowed),
  (0x1171D, 0x1172B, .Valid),
  (0x1172C, 0x1172F, .Disallowed),
  (0x11730, 0x1173F, .Valid),
  (0x11740, 0x1189F, .Disallowed),
  (0x118A0, 0x118A0, .Mapped [0x118C0]),
  (0x118A1, 0x118A1, .Mapped [0x118C1]),
  (0x118A2, 0x118A2, .Mapped [0x118C2]),
  (0x118A3, 0x118A3, .Mapped [0x118C3]),
  (0x118A4, 0x118A4, .Mapped [0x118C4]),
  (0x118A5, 0x118A5, .Mapped [0x118C5]),
  (0x118A6, 0x118A6, .Mapped [0x118C6]),
  (0x118A7, 0x118A7, .Mapped [0x118C7]),
  (0x118A8, 0x118A8, .Mapped [0x118C8]),
  (0x118A9, 0x118A9, .Mapped [0x118C9]),
  (0x118AA, 0x118AA, .Mapped [0x118CA]),
  (0x118AB, 0x118AB, .Mapped [0x118CB]),
  (0x118AC, 0x118AC, .Mapped [0x118CC]),
  (0x118AD, 0x118AD, .Mapped [0x118CD]),
  (0x118AE, 0x118AE, .Mapped [0x118CE]),
  (0x118AF, 0x118AF, .Mapped [0x118CF]),
  (0x118B0, 0x118B0, .Mapped [0x118D0]),
  (0x118B1, 0x118B1, .Mapped [0x118D1]),
  (0x118B2, 0x118B2, .Mapped [0x118D2]),
  (0x118B3, 0x118B3, .Mapped [0x118D3]),
  (0x118B4, 0x118B4, .Mapped [0x118D4]),
  (0x118B5, 0x118B5, .Mapped [0x118D5]),
  (0x118B6, 0x118B6, .Mapped [0x118D6]),
  (0x118B7, 0x118B7, .Mapped [0x118D7]),
  (0x118B8, 0x118B8, .Mapped [0x118D8]),
  (0x118B9, 0x118B9, .Mapped [0x118D9]),
  (0x118BA, 0x118BA, .Mapped [0x118DA]),
  (0x118BB, 0x118BB, .Mapped [0x118DB]),
  (0x118BC, 0x118BC, .Mapped [0x118DC]),
  (0x118BD, 0x118BD, .Mapped [0x118DD]),
  (0x118BE, 0x118BE, .Mapped [0x118DE]),
  (0x118BF, 0x118BF, .Mapped [0x118DF]),
  (0x118C0, 0x118F2, .Valid),
  (0x118F3, 0x118FE, .Disallowed),
  (0x118FF, 0x118FF, .Valid),
  (0x11900, 0x119FF, .Disallowed),
  (0x11A00, 0x11A47, .Valid),
  (0x11A48, 0x11A4F, .Disallowed)]
def idnaMapping_86 : List (Nat × Nat × Mapping) := [
  (0x11A50, 0x11A83, .Valid),
  (0x11A84, 0x11A85, .Disallowed),
  (0x11A86, 0x11A9C, .Valid),
  (0x11A9D, 0x11A9D, .Disallowed),
  (0x11A9E, 0x11AA2, .Valid),
  (0x11AA3, 0x11ABF, .Disallowed),
  (0x11AC0, 0x11AF8, .Valid),
  (0x11AF9, 0x11BFF, .Disallowed),
  (0x11C00, 0x11C08, .Valid),
  (0x11C09, 0x11C09, .Disallowed),
  (0x11C0A, 0x11C36, .Valid),
  (0x11C37, 0x11C37, .Disallowed),
  (0x11C38, 0x11C45, .Valid),
  (0x11C46, 0x11C4F, .Disallowed),
  (0x11C50, 0x11C6C, .Valid),
  (0x11C6D, 0x11C6F, .Disallowed),
  (0x11C70, 0x11C8F, .Valid),
  (0x11C90, 0x11C91, .Disallowed),
  (0x11C92, 0x11CA7, .Valid),
  (0x11CA8, 0x11CA8, .Disallowed),
  (0x11CA9, 0x11CB6, .Valid),
  (0x11CB7, 0x11CFF, .Disallowed),
  (0x11D00, 0x11D06, .Valid),
  (0x11D07, 0x11D07, .Disallowed),
  (0x11D08, 0x11D09, .Valid),
  (0x11D0A, 0x11D0A, .Disallowed),
  (0x11D0B, 0x11D36, .Valid),
  (0x11D37, 0x11D39, .Disallowed),
  (0x11D3A, 0x11D3A, .Valid),
  (0x11D3B, 0x11D3B, .Disallowed),
  (0x11D3C, 0x11D3D, .Valid),
  (0x11D3E, 0x11D3E, .Disallowed),
  (0x11D3F, 0x11D47, .Valid),
  (0x11D48, 0x11D4F, .Disallowed),
  (0x11D50, 0x11D59, .Valid),
  (0x11D5A, 0x11FFF, .Disallowed),
  (0x12000, 0x12399, .Valid),
  (0x1239A, 0x123FF, .Disallowed),
  (0x12400, 0x1246E, .Valid),
  (0x1246F, 0x1246F, .Disallowed),
  (0x12470, 0x12474, .Valid),
  (0x12475, 0x1247F, .Disallowed),
  (0x12480, 0x12543, .Valid),
  (0x12544, 0x12FFF, .Disallowed),
  (0x13000, 0x1342E, .Valid),
  (0x1342F, 0x143FF, .Disallowed),
  (0x14400, 0x14646, .Valid),
  (0x14647, 0x167FF, .Disallowed),
  (0x16800, 0x16A38, .Valid),
  (0x16A39, 0x16A3F, .Disallowed),
  (0x16A40, 0x16A5E, .Valid),
  (0x16A5F, 0x16A5F, .Disallowed),
  (0x16A60, 0x16A69, .Valid),
  (0x16A6A, 0x16A6D, .Disallowed),
  (0x16A6E, 0x16A6F, .Valid),
  (0x16A70, 0x16ACF, .Disallowed),
  (0x16AD0, 0x16AED, .Valid),
  (0x16AEE, 0x16AEF, .Disallowed),
  (0x16AF0, 0x16AF5, .Valid),
  (0x16AF6, 0x16AFF, .Disallowed),
  (0x16B00, 0x16B45, .Valid),
  (0x16B46, 0x16B4F, .Disallowed),
  (0x16B50, 0x16B59, .Valid),
  (0x16B5A, 0x16B5A, .Disallowed)]
def idnaMapping_87 : List (Nat × Nat × Mapping) := [
  (0x16B5B, 0x16B61, .Valid),
  (0x16B62, 0x16B62, .Disallowed),
  (0x16B63, 0x16B77, .Valid),
  (0x16B78, 0x16B7C, .Disallowed),
  (0x16B7D, 0x16B8F, .Valid),
  (0x16B90, 0x16EFF, .Disallowed),
  (0x16F00, 0x16F44, .Valid),
  (0x16F45, 0x16F4F, .Disallowed),
  (0x16F50, 0x16F7E, .Valid),
  (0x16F7F, 0x16F8E, .Disallowed),
  (0x16F8F, 0x16F9F, .Valid),
  (0x16FA0, 0x16FDF, .Disallowed),
  (0x16FE0, 0x16FE1, .Valid),
  (0x16FE2, 0x16FFF, .Disallowed),
  (0x17000, 0x187EC, .Valid),
  (0x187ED, 0x187FF, .Disallowed),
  (0x18800, 0x18AF2, .Valid),
  (0x18AF3, 0x1AFFF, .Disallowed),
  (0x1B000, 0x1B11E, .Valid),
  (0x1B11F, 0x1B16F, .Disallowed),
  (0x1B170, 0x1B2FB, .Valid),
  (0x1B2FC, 0x1BBFF, .Disallowed),
  (0x1BC00, 0x1BC6A, .Valid),
  (0x1BC6B, 0x1BC6F, .Disallowed),
  (0x1BC70, 0x1BC7C, .Valid),
  (0x1BC7D, 0x1BC7F, .Disallowed),
  (0x1BC80, 0x1BC88, .Valid),
  (0x1BC89, 0x1BC8F, .Disallowed),
  (0x1BC90, 0x1BC99, .Valid),
  (0x1BC9A, 0x1BC9B, .Disallowed),
  (0x1BC9C, 0x1BC9F, .Valid),
  (0x1BCA0, 0x1BCA3, .Ignored),
  (0x1BCA4, 0x1CFFF, .Disallowed),
  (0x1D000, 0x1D0F5, .Valid),
  (0x1D0F6, 0x1D0FF, .Disallowed),
  (0x1D100, 0x1D126, .Valid),
  (0x1D127, 0x1D128, .Disallowed),
  (0x1D129, 0x1D15D, .Valid),
  (0x1D15E, 0x1D15E, .Mapped [0x1D157, 0x1D165]),
  (0x1D15F, 0x1D15F, .Mapped [0x1D158, 0x1D165]),
  (0x1D160, 0x1D160, .Mapped [0x1D158, 0x1D165, 0x1D16E]),
  (0x1D161, 0x1D161, .Mapped [0x1D158, 0x1D165, 0x1D16F]),
  (0x1D162, 0x1D162, .Mapped [0x1D158, 0x1D165, 0x1D170]),
  (0x1D163, 0x1D163, .Mapped [0x1D158, 0x1D165, 0x1D171]),
  (0x1D164, 0x1D164, .Mapped [0x1D158, 0x1D165, 0x1D172]),
  (0x1D165, 0x1D172, .Valid),
  (0x1D173, 0x1D17A, .Disallowed),
  (0x1D17B, 0x1D1BA, .Valid),
  (0x1D1BB, 0x1D1BB, .Mapped [0x1D1B9, 0x1D165]),
  (0x1D1BC, 0x1D1BC, .Mapped [0x1D1BA, 0x1D165]),
  (0x1D1BD, 0x1D1BD, .Mapped [0x1D1B9, 0x1D165, 0x1D16E]),
  (0x1D1BE, 0x1D1BE, .Mapped [0x1D1BA, 0x1D165, 0x1D16E]),
  (0x1D1BF, 0x1D1BF, .Mapped [0x1D1B9, 0x1D165, 0x1D16F]),
  (0x1D1C0, 0x1D1C0, .Mapped [0x1D1BA, 0x1D165, 0x1D16F]),
  (0x1D1C1, 0x1D1E8, .Valid),
  (0x1D1E9, 0x1D1FF, .Disallowed),
  (0x1D200, 0x1D245, .Valid),
  (0x1D246, 0x1D2FF, .Disallowed),
  (0x1D300, 0x1D356, .Valid),
  (0x1D357, 0x1D35F, .Disallowed),
  (0x1D360, 0x1D371, .Valid),
  (0x1D372, 0x1D3FF, .Disallowed),
  (0x1D400, 0x1D400, .Mapped [0x61]),
  (0x1D401, 0x1D401, .Mapped [0x62])]
def idnaMapping_88 : List (Nat × Nat × Mapping) := [
  (0x1D402, 0x1D402, .Mapped [0x63]),
  (0x1D403, 0x1D403, .Mapped [0x64]),
  (0x1D404, 0x1D404, .Mapped [0x65]),
  (0x1D405, 0x1D405, .Mapped [0x66]),
  (0x1D406, 0x1D406, .Mapped [0x67]),
  (0x1D407, 0x1D407, .Mapped [0x68]),
  (0x1D408, 0x1D408, .Mapped [0x69]),
  (0x1D409, 0x1D409, .Mapped [0x6A]),
  (0x1D40A, 0x1D40A, .Mapped [0x6B]),
  (0x1D40B, 0x1D40B, .Mapped [0x6C]),
  (0x1D40C, 0x1D40C, .Mapped [0x6D]),
  (0x1D40D, 0x1D40D, .Mapped [0x6E]),
  (0x1D40E, 0x1D40E, .Mapped [0x6F]),
  (0x1D40F, 0x1D40F, .Mapped [0x70]),
  (0x1D410, 0x1D410, .Mapped [0x71]),
  (0x1D411, 0x1D411, .Mapped [0x72]),
  (0x1D412, 0x1D412, .Mapped [0x73]),
  (0x1D413, 0x1D413, .Mapped [0x74]),
  (0x1D414, 0x1D414, .Mapped [0x75]),
  (0x1D415, 0x1D415, .Mapped [0x76]),
  (0x1D416, 0x1D416, .Mapped [0x77]),
  (0x1D417, 0x1D417, .Mapped [0x78]),
  (0x1D418, 0x1D418, .Mapped [0x79]),
  (0x1D419, 0x1D419, .Mapped [0x7A]),
  (0x1D41A, 0x1D41A, .Mapped [0x61]),
  (0x1D41B, 0x1D41B, .Mapped [0x62]),
  (0x1D41C, 0x1D41C, .Mapped [0x63]),
  (0x1D41D, 0x1D41D, .Mapped [0x64]),
  (0x1D41E, 0x1D41E, .Mapped [0x65]),
  (0x1D41F, 0x1D41F, .Mapped [0x66]),
  (0x1D420, 0x1D420, .Mapped [0x67]),
  (0x1D421, 0x1D421, .Mapped [0x68]),
  (0x1D422, 0x1D422, .Mapped [0x69]),
  (0x1D423, 0x1D423, .Mapped [0x6A]),
  (0x1D424, 0x1D424, .Mapped [0x6B]),
  (0x1D425, 0x1D425, .Mapped [0x6C]),
  (0x1D426, 0x1D426, .Mapped [0x6D]),
  (0x1D427, 0x1D427, .Mapped [0x6E]),
  (0x1D428, 0x1D428, .Mapped [0x6F]),
  (0x1D429, 0x1D429, .Mapped [0x70]),
  (0x1D42A, 0x1D42A, .Mapped [0x71]),
  (0x1D42B, 0x1D42B, .Mapped [0x72]),
  (0x1D42C, 0x1D42C, .Mapped [0x73]),
  (0x1D42D, 0x1D42D, .Mapped [0x74]),
  (0x1D42E, 0x1D42E, .Mapped [0x75]),
  (0x1D42F, 0x1D42F, .Mapped [0x76]),
  (0x1D430, 0x1D430, .Mapped [0x77]),
  (0x1D431, 0x1D431, .Mapped [0x78]),
  (0x1D432, 0x1D432, .Mapped [0x79]),
  (0x1D433, 0x1D433, .Mapped [0x7A]),
  (0x1D434, 0x1D434, .Mapped [0x61]),
  (0x1D435, 0x1D435, .Mapped [0x62]),
  (0x1D436, 0x1D436, .Mapped [0x63]),
  (0x1D437, 0x1D437, .Mapped [0x64]),
  (0x1D438, 0x1D438, .Mapped [0x65]),
  (0x1D439, 0x1D439, .Mapped [0x66]),
  (0x1D43A, 0x1D43A, .Mapped [0x67]),
  (0x1D43B, 0x1D43B, .Mapped [0x68]),
  (0x1D43C, 0x1D43C, .Mapped [0x69]),
  (0x1D43D, 0x1D43D, .Mapped [0x6A]),
  (0x1D43E, 0x1D43E, .Mapped [0x6B]),
  (0x1D43F, 0x1D43F, .Mapped [0x6C]),
  (0x1D440, 0x1D440, .Mapped [0x6D]),
  (0x1D441, 0x1D441, .Mapped [0x6E])]
def idnaMapping_89 : List (Nat × Nat × Mapping) := [
  (0x1D442, 0x1D442, .Mapped [0x6F]),
  (0x1D443, 0x1D443, .Mapped [0x70]),
  (0x1D444, 0x1D444, .Mapped [0x71]),
  (0x1D445, 0x1D445, .Mapped [0x72]),
  (0x1D446, 0x1D446, .Mapped [0x73]),
  (0x1D447, 0x1D447, .Mapped [0x74]),
  (0x1D448, 0x1D448, .Mapped [0x75]),
  (0x1D449, 0x1D449, .Mapped [0x76]),
  (0x1D44A, 0x1D44A, .Mapped [0x77]),
  (0x1D44B, 0x1D44B, .Mapped [0x78]),
  (0x1D44C, 0x1D44C, .Mapped [0x79]),
  (0x1D44D, 0x1D44D, .Mapped [0x7A]),
  (0x1D44E, 0x1D44E, .Mapped [0x61]),
  (0x1D44F, 0x1D44F, .Mapped [0x62]),
  (0x1D450, 0x1D450, .Mapped [0x63]),
  (0x1D451, 0x1D451, .Mapped [0x64]),
  (0x1D452, 0x1D452, .Mapped [0x65]),
  (0x1D453, 0x1D453, .Mapped [0x66]),
  (0x1D454, 0x1D454, .Mapped [0x67]),
  (0x1D455, 0x1D455, .Disallowed),
  (0x1D456, 0x1D456, .Mapped [0x69]),
  (0x1D457, 0x1D457, .Mapped [0x6A]),
  (0x1D458, 0x1D458, .Mapped [0x6B]),
  (0x1D459, 0x1D459, .Mapped [0x6C]),
  (0x1D45A, 0x1D45A, .Mapped [0x6D]),
  (0x1D45B, 0x1D45B, .Mapped [0x6E]),
  (0x1D45C, 0x1D45C, .Mapped [0x6F]),
  (0x1D45D, 0x1D45D, .Mapped [0x70]),
  (0x1D45E, 0x1D45E, .Mapped [0x71]),
  (0x1D45F, 0x1D45F, .Mapped [0x72]),
  (0x1D460, 0x1D460, .Mapped [0x73]),
  (0x1D461, 0x1D461, .Mapped [0x74]),
  (0x1D462, 0x1D462, .Mapped [0x75]),
  (0x1D463, 0x1D463, .Mapped [0x76]),
  (0x1D464, 0x1D464, .Mapped [0x77]),
  (0x1D465, 0x1D465, .Mapped [0x78]),
  (0x1D466, 0x1D466, .Mapped [0x79]),
  (0x1D467, 0x1D467, .Mapped [0x7A]),
  (0x1D468, 0x1D468, .Mapped [0x61]),
  (0x1D469, 0x1D469, .Mapped [0x62]),
  (0x1D46A, 0x1D46A, .Mapped [0x63]),
  (0x1D46B, 0x1D46B, .Mapped [0x64]),
  (0x1D46C, 0x1D46C, .Mapped [0x65]),
  (0x1D46D, 0x1D46D, .Mapped [0x66]),
  (0x1D46E, 0x1D46E, .Mapped [0x67]),
  (0x1D46F, 0x1D46F, .Mapped [0x68]),
  (0x1D470, 0x1D470, .Mapped [0x69]),
  (0x1D471, 0x1D471, .Mapped [0x6A]),
  (0x1D472, 0x1D472, .Mapped [0x6B]),
  (0x1D473, 0x1D473, .Mapped [0x6C]),
  (0x1D474, 0x1D474, .Mapped [0x6D]),
  (0x1D475, 0x1D475, .Mapped [0x6E]),
  (0x1D476, 0x1D476, .Mapped [0x6F]),
  (0x1D477, 0x1D477, .Mapped [0x70]),
  (0x1D478, 0x1D478, .Mapped [0x71]),
  (0x1D479, 0x1D479, .Mapped [0x72]),
  (0x1D47A, 0x1D47A, .Mapped [0x73]),
  (0x1D47B, 0x1D47B, .Mapped [0x74]),
  (0x1D47C, 0x1D47C, .Mapped [0x75]),
  (0x1D47D, 0x1D47D, .Mapped [0x76]),
  (0x1D47E, 0x1D47E, .Mapped [0x77]),
  (0x1D47F, 0x1D47F, .Mapped [0x78]),
  (0x1D480, 0x1D480, .Mapped [0x79]),
  (0x1D481, 0x1D481, .Mapped [0x7A])]
def idnaMapping_90 : List (Nat × Nat × Mapping) := [
  (0x1D482, 0x1D482, .Mapped [0x61]),
  (0x1D483, 0x1D483, .Mapped [0x62]),
  (0x1D484, 0x1D484, .Mapped [0x63]),
  (0x1D485, 0x1D485, .Mapped [0x64]),
  (0x1D486, 0x1D486, .Mapped [0x65]),
  (0x1D487, 0x1D487, .Mapped [0x66]),
  (0x1D488, 0x1D488, .Mapped [0x67]),
  (0x1D489, 0x1D489, .Mapped [0x68]),
  (0x1D48A, 0x1D48A, .Mapped [0x69]),
  (0x1D48B, 0x1D48B, .Mapped [0x6A]),
  (0x1D48C, 0x1D48C, .Mapped [0x6B]),
  (0x1D48D, 0x1D48D, .Mapped [0x6C]),
  (0x1D48E, 0x1D48E, .Mapped [0x6D]),
  (0x1D48F, 0x1D48F, .Mapped [0x6E]),
  (0x1D490, 0x1D490, .Mapped [0x6F]),
  (0x1D491, 0x1D491, .Mapped [0x70]),
  (0x1D492, 0x1D492, .Mapped [0x71]),
  (0x1D493, 0x1D493, .Mapped [0x72]),
  (0x1D494, 0x1D494, .Mapped [0x73]),
  (0x1D495, 0x1D495, .Mapped [0x74]),
  (0x1D496, 0x1D496, .Mapped [0x75]),
  (0x1D497, 0x1D497, .Mapped [0x76]),
  (0x1D498, 0x1D498, .Mapped [0x77]),
  (0x1D499, 0x1D499, .Mapped [0x78]),
  (0x1D49A, 0x1D49A, .Mapped [0x79]),
  (0x1D49B, 0x1D49B, .Mapped [0x7A]),
  (0x1D49C, 0x1D49C, .Mapped [0x61]),
  (0x1D49D, 0x1D49D, .Disallowed),
  (0x1D49E, 0x1D49E, .Mapped [0x63]),
  (0x1D49F, 0x1D49F, .Mapped [0x64]),
  (0x1D4A0, 0x1D4A1, .Disallowed),
  (0x1D4A2, 0x1D4A2, .Mapped [0x67]),
  (0x1D4A3, 0x1D4A4, .Disallowed),
  (0x1D4A5, 0x1D4A5, .Mapped [0x6A]),
  (0x1D4A6, 0x1D4A6, .Mapped [0x6B]),
  (0x1D4A7, 0x1D4A8, .Disallowed),
  (0x1D4A9, 0x1D4A9, .Mapped [0x6E]),
  (0x1D4AA, 0x1D4AA, .Mapped [0x6F]),
  (0x1D4AB, 0x1D4AB, .Mapped [0x70]),
  (0x1D4AC, 0x1D4AC, .Mapped [0x71]),
  (0x1D4AD, 0x1D4AD, .Disallowed),
  (0x1D4AE, 0x1D4AE, .Mapped [0x73]),
  (0x1D4AF, 0x1D4AF, .Mapped [0x74]),
  (0x1D4B0, 0x1D4B0, .Mapped [0x75]),
  (0x1D4B1, 0x1D4B1, .Mapped [0x76]),
  (0x1D4B2, 0x1D4B2, .Mapped [0x77]),
  (0x1D4B3, 0x1D4B3, .Mapped [0x78]),
  (0x1D4B4, 0x1D4B4, .Mapped [0x79]),
  (0x1D4B5, 0x1D4B5, .Mapped [0x7A]),
  (0x1D4B6, 0x1D4B6, .Mapped [0x61]),
  (0x1D4B7, 0x1D4B7, .Mapped [0x62]),
  (0x1D4B8, 0x1D4B8, .Mapped [0x63]),
  (0x1D4B9, 0x1D4B9, .Mapped [0x64]),
  (0x1D4BA, 0x1D4BA, .Disallowed),
  (0x1D4BB, 0x1D4BB, .Mapped [0x66]),
  (0x1D4BC, 0x1D4BC, .Disallowed),
  (0x1D4BD, 0x1D4BD, .Mapped [0x68]),
  (0x1D4BE, 0x1D4BE, .Mapped [0x69]),
  (0x1D4BF, 0x1D4BF, .Mapped [0x6A]),
  (0x1D4C0, 0x1D4C0, .Mapped [0x6B]),
  (0x1D4C1, 0x1D4C1, .Mapped [0x6C]),
  (0x1D4C2, 0x1D4C2, .Mapped [0x6D]),
  (0x1D4C3, 0x1D4C3, .Mapped [0x6E]),
  (0x1D4C4, 0x1D4C4, .Disallowed)]
def idnaMapping_91 : List (Nat × Nat × Mapping) := [
  (0x1D4C5, 0x1D4C5, .Mapped [0x70]),
  (0x1D4C6, 0x1D4C6, .Mapped [0x71]),
  (0x1D4C7, 0x1D4C7, .Mapped [0x72]),
  (0x1D4C8, 0x1D4C8, .Mapped [0x73]),
  (0x1D4C9, 0x1D4C9, .Mapped [0x74]),
  (0x1D4CA, 0x1D4CA, .Mapped [0x75]),
  (0x1D4CB, 0x1D4CB, .Mapped [0x76]),
  (0x1D4CC, 0x1D4CC, .Mapped [0x77]),
  (0x1D4CD, 0x1D4CD, .Mapped [0x78]),
  (0x1D4CE, 0x1D4CE, .Mapped [0x79]),
  (0x1D4CF, 0x1D4CF, .Mapped [0x7A]),
  (0x1D4D0, 0x1D4D0, .Mapped [0x61]),
  (0x1D4D1, 0x1D4D1, .Mapped [0x62]),
  (0x1D4D2, 0x1D4D2, .Mapped [0x63]),
  (0x1D4D3, 0x1D4D3, .Mapped [0x64]),
  (0x1D4D4, 0x1D4D4, .Mapped [0x65]),
  (0x1D4D5, 0x1D4D5, .Mapped [0x66]),
  (0x1D4D6, 0x1D4D6, .Mapped [0x67]),
  (0x1D4D7, 0x1D4D7, .Mapped [0x68]),
  (0x1D4D8, 0x1D4D8, .Mapped [0x69]),
  (0x1D4D9, 0x1D4D9, .Mapped [0x6A]),
  (0x1D4DA, 0x1D4DA, .Mapped [0x6B]),
  (0x1D4DB, 0x1D4DB, .Mapped [0x6C]),
  (0x1D4DC, 0x1D4DC, .Mapped [0x6D]),
  (0x1D4DD, 0x1D4DD, .Mapped [0x6E]),
  (0x1D4DE, 0x1D4DE, .Mapped [0x6F]),
  (0x1D4DF, 0x1D4DF, .Mapped [0x70]),
  (0x1D4E0, 0x1D4E0, .Mapped [0x71]),
  (0x1D4E1, 0x1D4E1, .Mapped [0x72]),
  (0x1D4E2, 0x1D4E2, .Mapped [0x73]),
  (0x1D4E3, 0x1D4E3, .Mapped [0x74]),
  (0x1D4E4, 0x1D4E4, .Mapped [0x75]),
  (0x1D4E5, 0x1D4E5, .Mapped [0x76]),
  (0x1D4E6, 0x1D4E6, .Mapped [0x77]),
  (0x1D4E7, 0x1D4E7, .Mapped [0x78]),
  (0x1D4E8, 0x1D4E8, .Mapped [0x79]),
  (0x1D4E9, 0x1D4E9, .Mapped [0x7A]),
  (0x1D4EA, 0x1D4EA, .Mapped [0x61]),
  (0x1D4EB, 0x1D4EB, .Mapped [0x62]),
  (0x1D4EC, 0x1D4EC, .Mapped [0x63]),
  (0x1D4ED, 0x1D4ED, .Mapped [0x64]),
  (0x1D4EE, 0x1D4EE, .Mapped [0x65]),
  (0x1D4EF, 0x1D4EF, .Mapped [0x66]),
  (0x1D4F0, 0x1D4F0, .Mapped [0x67]),
  (0x1D4F1, 0x1D4F1, .Mapped [0x68]),
  (0x1D4F2, 0x1D4F2, .Mapped [0x69]),
  (0x1D4F3, 0x1D4F3, .Mapped [0x6A]),
  (0x1D4F4, 0x1D4F4, .Mapped [0x6B]),
  (0x1D4F5, 0x1D4F5, .Mapped [0x6C]),
  (0x1D4F6, 0x1D4F6, .Mapped [0x6D]),
  (0x1D4F7, 0x1D4F7, .Mapped [0x6E]),
  (0x1D4F8, 0x1D4F8, .Mapped [0x6F]),
  (0x1D4F9, 0x1D4F9, .Mapped [0x70]),
  (0x1D4FA, 0x1D4FA, .Mapped [0x71]),
  (0x1D4FB, 0x1D4FB, .Mapped [0x72]),
  (0x1D4FC, 0x1D4FC, .Mapped [0x73]),
  (0x1D4FD, 0x1D4FD, .Mapped [0x74]),
  (0x1D4FE, 0x1D4FE, .Mapped [0x75]),
  (0x1D4FF, 0x1D4FF, .Mapped [0x76]),
  (0x1D500, 0x1D500, .Mapped [0x77]),
  (0x1D501, 0x1D501, .Mapped [0x78]),
  (0x1D502, 0x1D502, .Mapped [0x79]),
  (0x1D503, 0x1D503, .Mapped [0x7A]),
  (0x1D504, 0x1D504, .Mapped [0x61])]
def idnaMapping_92 : List (Nat × Nat × Mapping) := [
  (0x1D505, 0x1D505, .Mapped [0x62]),
  (0x1D506, 0x1D506, .Disallowed),
  (0x1D507, 0x1D507, .Mapped [0x64]),
  (0x1D508, 0x1D508, .Mapped [0x65]),
  (0x1D509, 0x1D509, .Mapped [0x66]),
  (0x1D50A, 0x1D50A, .Mapped [0x67]),
  (0x1D50B, 0x1D50C, .Disallowed),
  (0x1D50D, 0x1D50D, .Mapped [0x6A]),
  (0x1D50E, 0x1D50E, .Mapped [0x6B]),
  (0x1D50F, 0x1D50F, .Mapped [0x6C]),
  (0x1D510, 0x1D510, .Mapped [0x6D]),
  (0x1D511, 0x1D511, .Mapped [0x6E]),
  (0x1D512, 0x1D512, .Mapped [0x6F]),
  (0x1D513, 0x1D513, .Mapped [0x70]),
  (0x1D514, 0x1D514, .Mapped [0x71]),
  (0x1D515, 0x1D515, .Disallowed),
  (0x1D516, 0x1D516, .Mapped [0x73]),
  (0x1D517, 0x1D517, .Mapped [0x74]),
  (0x1D518, 0x1D518, .Mapped [0x75]),
  (0x1D519, 0x1D519, .Mapped [0x76]),
  (0x1D51A, 0x1D51A, .Mapped [0x77]),
  (0x1D51B, 0x1D51B, .Mapped [0x78]),
  (0x1D51C, 0x1D51C, .Mapped [0x79]),
  (0x1D51D, 0x1D51D, .Disallowed),
  (0x1D51E, 0x1D51E, .Mapped [0x61]),
  (0x1D51F, 0x1D51F, .Mapped [0x62]),
  (0x1D520, 0x1D520, .Mapped [0x63]),
  (0x1D521, 0x1D521, .Mapped [0x64]),
  (0x1D522, 0x1D522, .Mapped [0x65]),
  (0x1D523, 0x1D523, .Mapped [0x66]),
  (0x1D524, 0x1D524, .Mapped [0x67]),
  (0x1D525, 0x1D525, .Mapped [0x68]),
  (0x1D526, 0x1D526, .Mapped [0x69]),
  (0x1D527, 0x1D527, .Mapped [0x6A]),
  (0x1D528, 0x1D528, .Mapped [0x6B]),
  (0x1D529, 0x1D529, .Mapped [0x6C]),
  (0x1D52A, 0x1D52A, .Mapped [0x6D]),
  (0x1D52B, 0x1D52B, .Mapped [0x6E]),
  (0x1D52C, 0x1D52C, .Mapped [0x6F]),
  (0x1D52D, 0x1D52D, .Mapped [0x70]),
  (0x1D52E, 0x1D52E, .Mapped [0x71]),
  (0x1D52F, 0x1D52F, .Mapped [0x72]),
  (0x1D530, 0x1D530, .Mapped [0x73]),
  (0x1D531, 0x1D531, .Mapped [0x74]),
  (0x1D532, 0x1D532, .Mapped [0x75]),
  (0x1D533, 0x1D533, .Mapped [0x76]),
  (0x1D534, 0x1D534, .Mapped [0x77]),
  (0x1D535, 0x1D535, .Mapped [0x78]),
  (0x1D536, 0x1D536, .Mapped [0x79]),
  (0x1D537, 0x1D537, .Mapped [0x7A]),
  (0x1D538, 0x1D538, .Mapped [0x61]),
  (0x1D539, 0x1D539, .Mapped [0x62]),
  (0x1D53A, 0x1D53A, .Disallowed),
  (0x1D53B, 0x1D53B, .Mapped [0x64]),
  (0x1D53C, 0x1D53C, .Mapped [0x65]),
  (0x1D53D, 0x1D53D, .Mapped [0x66]),
  (0x1D53E, 0x1D53E, .Mapped [0x67]),
  (0x1D53F, 0x1D53F, .Disallowed),
  (0x1D540, 0x1D540, .Mapped [0x69]),
  (0x1D541, 0x1D541, .Mapped [0x6A]),
  (0x1D542, 0x1D542, .Mapped [0x6B]),
  (0x1D543, 0x1D543, .Mapped [0x6C]),
  (0x1D544, 0x1D544, .Mapped [0x6D]),
  (0x1D545, 0x1D545, .Disallowed)]
def idnaMapping_93 : List (Nat × Nat × Mapping) := [
  (0x1D546, 0x1D546, .Mapped [0x6F]),
  (0x1D547, 0x1D549, .Disallowed),
  (0x1D54A, 0x1D54A, .Mapped [0x73]),
  (0x1D54B, 0x1D54B, .Mapped [0x74]),
  (0x1D54C, 0x1D54C, .Mapped [0x75]),
  (0x1D54D, 0x1D54D, .Mapped [0x76]),
  (0x1D54E, 0x1D54E, .Mapped [0x77]),
  (0x1D54F, 0x1D54F, .Mapped [0x78]),
  (0x1D550, 0x1D550, .Mapped [0x79]),
  (0x1D551, 0x1D551, .Disallowed),
  (0x1D552, 0x1D552, .Mapped [0x61]),
  (0x1D553, 0x1D553, .Mapped [0x62]),
  (0x1D554, 0x1D554, .Mapped [0x63]),
  (0x1D555, 0x1D555, .Mapped [0x64]),
  (0x1D556, 0x1D556, .Mapped [0x65]),
  (0x1D557, 0x1D557, .Mapped [0x66]),
  (0x1D558, 0x1D558, .Mapped [0x67]),
  (0x1D559, 0x1D559, .Mapped [0x68]),
  (0x1D55A, 0x1D55A, .Mapped [0x69]),
  (0x1D55B, 0x1D55B, .Mapped [0x6A]),
  (0x1D55C, 0x1D55C, .Mapped [0x6B]),
  (0x1D55D, 0x1D55D, .Mapped [0x6C]),
  (0x1D55E, 0x1D55E, .Mapped [0x6D]),
  (0x1D55F, 0x1D55F, .Mapped [0x6E]),
  (0x1D560, 0x1D560, .Mapped [0x6F]),
  (0x1D561, 0x1D561, .Mapped [0x70]),
  (0x1D562, 0x1D562, .Mapped [0x71]),
  (0x1D563, 0x1D563, .Mapped [0x72]),
  (0x1D564, 0x1D564, .Mapped [0x73]),
  (0x1D565, 0x1D565, .Mapped [0x74]),
  (0x1D566, 0x1D566, .Mapped [0x75]),
  (0x1D567, 0x1D567, .Mapped [0x76]),
  (0x1D568, 0x1D568, .Mapped [0x77]),
  (0x1D569, 0x1D569, .Mapped [0x78]),
  (0x1D56A, 0x1D56A, .Mapped [0x79]),
  (0x1D56B, 0x1D56B, .Mapped [0x7A]),
  (0x1D56C, 0x1D56C, .Mapped [0x61]),
  (0x1D56D, 0x1D56D, .Mapped [0x62]),
  (0x1D56E, 0x1D56E, .Mapped [0x63]),
  (0x1D56F, 0x1D56F, .Mapped [0x64]),
  (0x1D570, 0x1D570, .Mapped [0x65]),
  (0x1D571, 0x1D571, .Mapped [0x66]),
  (0x1D572, 0x1D572, .Mapped [0x67]),
  (0x1D573, 0x1D573, .Mapped [0x68]),
  (0x1D574, 0x1D574, .Mapped [0x69]),
  (0x1D575, 0x1D575, .Mapped [0x6A]),
  (0x1D576, 0x1D576, .Mapped [0x6B]),
  (0x1D577, 0x1D577, .Mapped [0x6C]),
  (0x1D578, 0x1D578, .Mapped [0x6D]),
  (0x1D579, 0x1D579, .Mapped [0x6E]),
  (0x1D57A, 0x1D57A, .Mapped [0x6F]),
  (0x1D57B, 0x1D57B, .Mapped [0x70]),
  (0x1D57C, 0x1D57C, .Mapped [0x71]),
  (0x1D57D, 0x1D57D, .Mapped [0x72]),
  (0x1D57E, 0x1D57E, .Mapped [0x73]),
  (0x1D57F, 0x1D57F, .Mapped [0x74]),
  (0x1D580, 0x1D580, .Mapped [0x75]),
  (0x1D581, 0x1D581, .Mapped [0x76]),
  (0x1D582, 0x1D582, .Mapped [0x77]),
  (0x1D583, 0x1D583, .Mapped [0x78]),
  (0x1D584, 0x1D584, .Mapped [0x79]),
  (0x1D585, 0x1D585, .Mapped [0x7A]),
  (0x1D586, 0x1D586, .Mapped [0x61]),
  (0x1D587, 0x1D587, .Mapped [0x62])]
def idnaMapping_94 : List (Nat × Nat × Mapping) := [
  (0x1D588, 0x1D588, .Mapped [0x63]),
  (0x1D589, 0x1D589, .Mapped [0x64]),
  (0x1D58A, 0x1D58A, .Mapped [0x65]),
  (0x1D58B, 0x1D58B, .Mapped [0x66]),
  (0x1D58C, 0x1D58C, .Mapped [0x67]),
  (0x1D58D, 0x1D58D, .Mapped [0x68]),
  (0x1D58E, 0x1D58E, .Mapped [0x69]),
  (0x1D58F, 0x1D58F, .Mapped [0x6A]),
  (0x1D590, 0x1D590, .Mapped [0x6B]),
  (0x1D591, 0x1D591, .Mapped [0x6C]),
  (0x1D592, 0x1D592, .Mapped [0x6D]),
  (0x1D593, 0x1D593, .Mapped [0x6E]),
  (0x1D594, 0x1D594, .Mapped [0x6F]),
  (0x1D595, 0x1D595, .Mapped [0x70]),
  (0x1D596, 0x1D596, .Mapped [0x71]),
  (0x1D597, 0x1D597, .Mapped [0x72]),
  (0x1D598, 0x1D598, .Mapped [0x73]),
  (0x1D599, 0x1D599, .Mapped [0x74]),
  (0x1D59A, 0x1D59A, .Mapped [0x75]),
  (0x1D59B, 0x1D59B, .Mapped [0x76]),
  (0x1D59C, 0x1D59C, .Mapped [0x77]),
  (0x1D59D, 0x1D59D, .Mapped [0x78]),
  (0x1D59E, 0x1D59E, .Mapped [0x79]),
  (0x1D59F, 0x1D59F, .Mapped [0x7A]),
  (0x1D5A0, 0x1D5A0, .Mapped [0x61]),
  (0x1D5A1, 0x1D5A1, .Mapped [0x62]),
  (0x1D5A2, 0x1D5A2, .Mapped [0x63]),
  (0x1D5A3, 0x1D5A3, .Mapped [0x64]),
  (0x1D5A4, 0x1D5A4, .Mapped [0x65]),
  (0x1D5A5, 0x1D5A5, .Mapped [0x66]),
  (0x1D5A6, 0x1D5A6, .Mapped [0x67]),
  (0x1D5A7, 0x1D5A7, .Mapped [0x68]),
  (0x1D5A8, 0x1D5A8, .Mapped [0x69]),
  (0x1D5A9, 0x1D5A9, .Mapped [0x6A]),
  (0x1D5AA, 0x1D5AA, .Mapped [0x6B]),
  (0x1D5AB, 0x1D5AB, .Mapped [0x6C]),
  (0x1D5AC, 0x1D5AC, .Mapped [0x6D]),
  (0x1D5AD, 0x1D5AD, .Mapped [0x6E]),
  (0x1D5AE, 0x1D5AE, .Mapped [0x6F]),
  (0x1D5AF, 0x1D5AF, .Mapped [0x70]),
  (0x1D5B0, 0x1D5B0, .Mapped [0x71]),
  (0x1D5B1, 0x1D5B1, .Mapped [0x72]),
  (0x1D5B2, 0x1D5B2, .Mapped [0x73]),
  (0x1D5B3, 0x1D5B3, .Mapped [0x74]),
  (0x1D5B4, 0x1D5B4, .Mapped [0x75]),
  (0x1D5B5, 0x1D5B5, .Mapped [0x76]),
  (0x1D5B6, 0x1D5B6, .Mapped [0x77]),
  (0x1D5B7, 0x1D5B7, .Mapped [0x78]),
  (0x1D5B8, 0x1D5B8, .Mapped [0x79]),
  (0x1D5B9, 0x1D5B9, .Mapped [0x7A]),
  (0x1D5BA, 0x1D5BA, .Mapped [0x61]),
  (0x1D5BB, 0x1D5BB, .Mapped [0x62]),
  (0x1D5BC, 0x1D5BC, .Mapped [0x63]),
  (0x1D5BD, 0x1D5BD, .Mapped [0x64]),
  (0x1D5BE, 0x1D5BE, .Mapped [0x65]),
  (0x1D5BF, 0x1D5BF, .Mapped [0x66]),
  (0x1D5C0, 0x1D5C0, .Mapped [0x67]),
  (0x1D5C1, 0x1D5C1, .Mapped [0x68]),
  (0x1D5C2, 0x1D5C2, .Mapped [0x69]),
  (0x1D5C3, 0x1D5C3, .Mapped [0x6A]),
  (0x1D5C4, 0x1D5C4, .Mapped [0x6B]),
  (0x1D5C5, 0x1D5C5, .Mapped [0x6C]),
  (0x1D5C6, 0x1D5C6, .Mapped [0x6D]),
  (0x1D5C7, 0x1D5C7, .Mapped [0x6E])]
def idnaMapping_95 : List (Nat × Nat × Mapping) := [
  (0x1D5C8, 0x1D5C8, .Mapped [0x6F]),
  (0x1D5C9, 0x1D5C9, .Mapped [0x70]),
  (0x1D5CA, 0x1D5CA, .Mapped [0x71]),
  (0x1D5CB, 0x1D5CB, .Mapped [0x72]),
  (0x1D5CC, 0x1D5CC, .Mapped [0x73]),
  (0x1D5CD, 0x1D5CD, .Mapped [0x74]),
  (0x1D5CE, 0x1D5CE, .Mapped [0x75]),
  (0x1D5CF, 0x1D5CF, .Mapped [0x76]),
  (0x1D5D0, 0x1D5D0, .Mapped [0x77]),
  (0x1D5D1, 0x1D5D1, .Mapped [0x78]),
  (0x1D5D2, 0x1D5D2, .Mapped [0x79]),
  (0x1D5D3, 0x1D5D3, .Mapped [0x7A]),
  (0x1D5D4, 0x1D5D4, .Mapped [0x61]),
  (0x1D5D5, 0x1D5D5, .Mapped [0x62]),
  (0x1D5D6, 0x1D5D6, .Mapped [0x63]),
  (0x1D5D7, 0x1D5D7, .Mapped [0x64]),
  (0x1D5D8, 0x1D5D8, .Mapped [0x65]),
  (0x1D5D9, 0x1D5D9, .Mapped [0x66]),
  (0x1D5DA, 0x1D5DA, .Mapped [0x67]),
  (0x1D5DB, 0x1D5DB, .Mapped [0x68]),
  (0x1D5DC, 0x1D5DC, .Mapped [0x69]),
  (0x1D5DD, 0x1D5DD, .Mapped [0x6A]),
  (0x1D5DE, 0x1D5DE, .Mapped [0x6B]),
  (0x1D5DF, 0x1D5DF, .Mapped [0x6C]),
  (0x1D5E0, 0x1D5E0, .Mapped [0x6D]),
  (0x1D5E1, 0x1D5E1, .Mapped [0x6E]),
  (0x1D5E2, 0x1D5E2, .Mapped [0x6F]),
  (0x1D5E3, 0x1D5E3, .Mapped [0x70]),
  (0x1D5E4, 0x1D5E4, .Mapped [0x71]),
  (0x1D5E5, 0x1D5E5, .Mapped [0x72]),
  (0x1D5E6, 0x1D5E6, .Mapped [0x73]),
  (0x1D5E7, 0x1D5E7, .Mapped [0x74]),
  (0x1D5E8, 0x1D5E8, .Mapped [0x75]),
  (0x1D5E9, 0x1D5E9, .Mapped [0x76]),
  (0x1D5EA, 0x1D5EA, .Mapped [0x77]),
  (0x1D5EB, 0x1D5EB, .Mapped [0x78]),
  (0x1D5EC, 0x1D5EC, .Mapped [0x79]),
  (0x1D5ED, 0x1D5ED, .Mapped [0x7A]),
  (0x1D5EE, 0x1D5EE, .Mapped [0x61]),
  (0x1D5EF, 0x1D5EF, .Mapped [0x62]),
  (0x1D5F0, 0x1D5F0, .Mapped [0x63]),
  (0x1D5F1, 0x1D5F1, .Mapped [0x64]),
  (0x1D5F2, 0x1D5F2, .Mapped [0x65]),
  (0x1D5F3, 0x1D5F3, .Mapped [0x66]),
  (0x1D5F4, 0x1D5F4, .Mapped [0x67]),
  (0x1D5F5, 0x1D5F5, .Mapped [0x68]),
  (0x1D5F6, 0x1D5F6, .Mapped [0x69]),
  (0x1D5F7, 0x1D5F7, .Mapped [0x6A]),
  (0x1D5F8, 0x1D5F8, .Mapped [0x6B]),
  (0x1D5F9, 0x1D5F9, .Mapped [0x6C]),
  (0x1D5FA, 0x1D5FA, .Mapped [0x6D]),
  (0x1D5FB, 0x1D5FB, .Mapped [0x6E]),
  (0x1D5FC, 0x1D5FC, .Mapped [0x6F]),
  (0x1D5FD, 0x1D5FD, .Mapped [0x70]),
  (0x1D5FE, 0x1D5FE, .Mapped [0x71]),
  (0x1D5FF, 0x1D5FF, .Mapped [0x72]),
  (0x1D600, 0x1D600, .Mapped [0x73]),
  (0x1D601, 0x1D601, .Mapped [0x74]),
  (0x1D602, 0x1D602, .Mapped [0x75]),
  (0x1D603, 0x1D603, .Mapped [0x76]),
  (0x1D604, 0x1D604, .Mapped [0x77]),
  (0x1D605, 0x1D605, .Mapped [0x78]),
  (0x1D606, 0x1D606, .Mapped [0x79]),
  (0x1D607, 0x1D607, .Mapped [0x7A])]
def idnaMapping_96 : List (Nat × Nat × Mapping) := [
  (0x1D608, 0x1D608, .Mapped [0x61]),
  (0x1D609, 0x1D609, .Mapped [0x62]),
  (0x1D60A, 0x1D60A, .Mapped [0x63]),
  (0x1D60B, 0x1D60B, .Mapped [0x64]),
  (0x1D60C, 0x1D60C, .Mapped [0x65]),
  (0x1D60D, 0x1D60D, .Mapped [0x66]),
  (0x1D60E, 0x1D60E, .Mapped [0x67]),
  (0x1D60F, 0x1D60F, .Mapped [0x68]),
  (0x1D610, 0x1D610, .Mapped [0x69]),
  (0x1D611, 0x1D611, .Mapped [0x6A]),
  (0x1D612, 0x1D612, .Mapped [0x6B]),
  (0x1D613, 0x1D613, .Mapped [0x6C]),
  (0x1D614, 0x1D614, .Mapped [0x6D]),
  (0x1D615, 0x1D615, .Mapped [0x6E]),
  (0x1D616, 0x1D616, .Mapped [0x6F]),
  (0x1D617, 0x1D617, .Mapped [0x70]),
  (0x1D618, 0x1D618, .Mapped [0x71]),
  (0x1D619, 0x1D619, .Mapped [0x72]),
  (0x1D61A, 0x1D61A, .Mapped [0x73]),
  (0x1D61B, 0x1D61B, .Mapped [0x74]),
  (0x1D61C, 0x1D61C, .Mapped [0x75]),
  (0x1D61D, 0x1D61D, .Mapped [0x76]),
  (0x1D61E, 0x1D61E, .Mapped [0x77]),
  (0x1D61F, 0x1D61F, .Mapped [0x78]),
  (0x1D620, 0x1D620, .Mapped [0x79]),
  (0x1D621, 0x1D621, .Mapped [0x7A]),
  (0x1D622, 0x1D622, .Mapped [0x61]),
  (0x1D623, 0x1D623, .Mapped [0x62]),
  (0x1D624, 0x1D624, .Mapped [0x63]),
  (0x1D625, 0x1D625, .Mapped [0x64]),
  (0x1D626, 0x1D626, .Mapped [0x65]),
  (0x1D627, 0x1D627, .Mapped [0x66]),
  (0x1D628, 0x1D628, .Mapped [0x67]),
  (0x1D629, 0x1D629, .Mapped [0x68]),
  (0x1D62A, 0x1D62A, .Mapped [0x69]),
  (0x1D62B, 0x1D62B, .Mapped [0x6A]),
  (0x1D62C, 0x1D62C, .Mapped [0x6B]),
  (0x1D62D, 0x1D62D, .Mapped [0x6C]),
  (0x1D62E, 0x1D62E, .Mapped [0x6D]),
  (0x1D62F, 0x1D62F, .Mapped [0x6E]),
  (0x1D630, 0x1D630, .Mapped [0x6F]),
  (0x1D631, 0x1D631, .Mapped [0x70]),
  (0x1D632, 0x1D632, .Mapped [0x71]),
  (0x1D633, 0x1D633, .Mapped [0x72]),
  (0x1D634, 0x1D634, .Mapped [0x73]),
  (0x1D635, 0x1D635, .Mapped [0x74]),
  (0x1D636, 0x1D636, .Mapped [0x75]),
  (0x1D637, 0x1D637, .Mapped [0x76]),
  (0x1D638, 0x1D638, .Mapped [0x77]),
  (0x1D639, 0x1D639, .Mapped [0x78]),
  (0x1D63A, 0x1D63A, .Mapped [0x79]),
  (0x1D63B, 0x1D63B, .Mapped [0x7A]),
  (0x1D63C, 0x1D63C, .Mapped [0x61]),
  (0x1D63D, 0x1D63D, .Mapped [0x62]),
  (0x1D63E, 0x1D63E, .Mapped [0x63]),
  (0x1D63F, 0x1D63F, .Mapped [0x64]),
  (0x1D640, 0x1D640, .Mapped [0x65]),
  (0x1D641, 0x1D641, .Mapped [0x66]),
  (0x1D642, 0x1D642, .Mapped [0x67]),
  (0x1D643, 0x1D643, .Mapped [0x68]),
  (0x1D644, 0x1D644, .Mapped [0x69]),
  (0x1D645, 0x1D645, .Mapped [0x6A]),
  (0x1D646, 0x1D646, .Mapped [0x6B]),
  (0x1D647, 0x1D647, .Mapped [0x6C])]
def idnaMapping_97 : List (Nat × Nat × Mapping) := [
  (0x1D648, 0x1D648, .Mapped [0x6D]),
  (0x1D649, 0x1D649, .Mapped [0x6E]),
  (0x1D64A, 0x1D64A, .Mapped [0x6F]),
  (0x1D64B, 0x1D64B, .Mapped [0x70]),
  (0x1D64C, 0x1D64C, .Mapped [0x71]),
  (0x1D64D, 0x1D64D, .Mapped [0x72]),
  (0x1D64E, 0x1D64E, .Mapped [0x73]),
  (0x1D64F, 0x1D64F, .Mapped [0x74]),
  (0x1D650, 0x1D650, .Mapped [0x75]),
  (0x1D651, 0x1D651, .Mapped [0x76]),
  (0x1D652, 0x1D652, .Mapped [0x77]),
  (0x1D653, 0x1D653, .Mapped [0x78]),
  (0x1D654, 0x1D654, .Mapped [0x79]),
  (0x1D655, 0x1D655, .Mapped [0x7A]),
  (0x1D656, 0x1D656, .Mapped [0x61]),
  (0x1D657, 0x1D657, .Mapped [0x62]),
  (0x1D658, 0x1D658, .Mapped [0x63]),
  (0x1D659, 0x1D659, .Mapped [0x64]),
  (0x1D65A, 0x1D65A, .Mapped [0x65]),
  (0x1D65B, 0x1D65B, .Mapped [0x66]),
  (0x1D65C, 0x1D65C, .Mapped [0x67]),
  (0x1D65D, 0x1D65D, .Mapped [0x68]),
  (0x1D65E, 0x1D65E, .Mapped [0x69]),
  (0x1D65F, 0x1D65F, .Mapped [0x6A]),
  (0x1D660, 0x1D660, .Mapped [0x6B]),
  (0x1D661, 0x1D661, .Mapped [0x6C]),
  (0x1D662, 0x1D662, .Mapped [0x6D]),
  (0x1D663, 0x1D663, .Mapped [0x6E]),
  (0x1D664, 0x1D664, .Mapped [0x6F]),
  (0x1D665, 0x1D665, .Mapped [0x70]),
  (0x1D666, 0x1D666, .Mapped [0x71]),
  (0x1D667, 0x1D667, .Mapped [0x72]),
  (0x1D668, 0x1D668, .Mapped [0x73]),
  (0x1D669, 0x1D669, .Mapped [0x74]),
  (0x1D66A, 0x1D66A, .Mapped [0x75]),
  (0x1D66B, 0x1D66B, .Mapped [0x76]),
  (0x1D66C, 0x1D66C, .Mapped [0x77]),
  (0x1D66D, 0x1D66D, .Mapped [0x78]),
  (0x1D66E, 0x1D66E, .Mapped [0x79]),
  (0x1D66F, 0x1D66F, .Mapped [0x7A]),
  (0x1D670, 0x1D670, .Mapped [0x61]),
  (0x1D671, 0x1D671, .Mapped [0x62]),
  (0x1D672, 0x1D672, .Mapped [0x63]),
  (0x1D673, 0x1D673, .Mapped [0x64]),
  (0x1D674, 0x1D674, .Mapped [0x65]),
  (0x1D675, 0x1D675, .Mapped [0x66]),
  (0x1D676, 0x1D676, .Mapped [0x67]),
  (0x1D677, 0x1D677, .Mapped [0x68]),
  (0x1D678, 0x1D678, .Mapped [0x69]),
  (0x1D679, 0x1D679, .Mapped [0x6A]),
  (0x1D67A, 0x1D67A, .Mapped [0x6B]),
  (0x1D67B, 0x1D67B, .Mapped [0x6C]),
  (0x1D67C, 0x1D67C, .Mapped [0x6D]),
  (0x1D67D, 0x1D67D, .Mapped [0x6E]),
  (0x1D67E, 0x1D67E, .Mapped [0x6F]),
  (0x1D67F, 0x1D67F, .Mapped [0x70]),
  (0x1D680, 0x1D680, .Mapped [0x71]),
  (0x1D681, 0x1D681, .Mapped [0x72]),
  (0x1D682, 0x1D682, .Mapped [0x73]),
  (0x1D683, 0x1D683, .Mapped [0x74]),
  (0x1D684, 0x1D684, .Mapped [0x75]),
  (0x1D685, 0x1D685, .Mapped [0x76]),
  (0x1D686, 0x1D686, .Mapped [0x77]),
  (0x1D687, 0x1D687, .Mapped [0x78])]
def idnaMapping_98 : List (Nat × Nat × Mapping) := [
  (0x1D688, 0x1D688, .Mapped [0x79]),
  (0x1D689, 0x1D689, .Mapped [0x7A]),
  (0x1D68A, 0x1D68A, .Mapped [0x61]),
  (0x1D68B, 0x1D68B, .Mapped [0x62]),
  (0x1D68C, 0x1D68C, .Mapped [0x63]),
  (0x1D68D, 0x1D68D, .Mapped [0x64]),
  (0x1D68E, 0x1D68E, .Mapped [0x65]),
  (0x1D68F, 0x1D68F, .Mapped [0x66]),
  (0x1D690, 0x1D690, .Mapped [0x67]),
  (0x1D691, 0x1D691, .Mapped [0x68]),
  (0x1D692, 0x1D692, .Mapped [0x69]),
  (0x1D693, 0x1D693, .Mapped [0x6A]),
  (0x1D694, 0x1D694, .Mapped [0x6B]),
  (0x1D695, 0x1D695, .Mapped [0x6C]),
  (0x1D696, 0x1D696, .Mapped [0x6D]),
  (0x1D697, 0x1D697, .Mapped [0x6E]),
  (0x1D698, 0x1D698, .Mapped [0x6F]),
  (0x1D699, 0x1D699, .Mapped [0x70]),
  (0x1D69A, 0x1D69A, .Mapped [0x71]),
  (0x1D69B, 0x1D69B, .Mapped [0x72]),
  (0x1D69C, 0x1D69C, .Mapped [0x73]),
  (0x1D69D, 0x1D69D, .Mapped [0x74]),
  (0x1D69E, 0x1D69E, .Mapped [0x75]),
  (0x1D69F, 0x1D69F, .Mapped [0x76]),
  (0x1D6A0, 0x1D6A0, .Mapped [0x77]),
  (0x1D6A1, 0x1D6A1, .Mapped [0x78]),
  (0x1D6A2, 0x1D6A2, .Mapped [0x79]),
  (0x1D6A3, 0x1D6A3, .Mapped [0x7A]),
  (0x1D6A4, 0x1D6A4, .Mapped [0x131]),
  (0x1D6A5, 0x1D6A5, .Mapped [0x237]),
  (0x1D6A6, 0x1D6A7, .Disallowed),
  (0x1D6A8, 0x1D6A8, .Mapped [0x3B1]),
  (0x1D6A9, 0x1D6A9, .Mapped [0x3B2]),
  (0x1D6AA, 0x1D6AA, .Mapped [0x3B3]),
  (0x1D6AB, 0x1D6AB, .Mapped [0x3B4]),
  (0x1D6AC, 0x1D6AC, .Mapped [0x3B5]),
  (0x1D6AD, 0x1D6AD, .Mapped [0x3B6]),
  (0x1D6AE, 0x1D6AE, .Mapped [0x3B7]),
  (0x1D6AF, 0x1D6AF, .Mapped [0x3B8]),
  (0x1D6B0, 0x1D6B0, .Mapped [0x3B9]),
  (0x1D6B1, 0x1D6B1, .Mapped [0x3BA]),
  (0x1D6B2, 0x1D6B2, .Mapped [0x3BB]),
  (0x1D6B3, 0x1D6B3, .Mapped [0x3BC]),
  (0x1D6B4, 0x1D6B4, .Mapped [0x3BD]),
  (0x1D6B5, 0x1D6B5, .Mapped [0x3BE]),
  (0x1D6B6, 0x1D6B6, .Mapped [0x3BF]),
  (0x1D6B7, 0x1D6B7, .Mapped [0x3C0]),
  (0x1D6B8, 0x1D6B8, .Mapped [0x3C1]),
  (0x1D6B9, 0x1D6B9, .Mapped [0x3B8]),
  (0x1D6BA, 0x1D6BA, .Mapped [0x3C3]),
  (0x1D6BB, 0x1D6BB, .Mapped [0x3C4]),
  (0x1D6BC, 0x1D6BC, .Mapped [0x3C5]),
  (0x1D6BD, 0x1D6BD, .Mapped [0x3C6]),
  (0x1D6BE, 0x1D6BE, .Mapped [0x3C7]),
  (0x1D6BF, 0x1D6BF, .Mapped [0x3C8]),
  (0x1D6C0, 0x1D6C0, .Mapped [0x3C9]),
  (0x1D6C1, 0x1D6C1, .Mapped [0x2207]),
  (0x1D6C2, 0x1D6C2, .Mapped [0x3B1]),
  (0x1D6C3, 0x1D6C3, .Mapped [0x3B2]),
  (0x1D6C4, 0x1D6C4, .Mapped [0x3B3]),
  (0x1D6C5, 0x1D6C5, .Mapped [0x3B4]),
  (0x1D6C6, 0x1D6C6, .Mapped [0x3B5]),
  (0x1D6C7, 0x1D6C7, .Mapped [0x3B6]),
  (0x1D6C8, 0x1D6C8, .Mapped [0x3B7])]
def idnaMapping_99 : List (Nat × Nat × Mapping) := [
  (0x1D6C9, 0x1D6C9, .Mapped [0x3B8]),
  (0x1D6CA, 0x1D6CA, .Mapped [0x3B9]),
  (0x1D6CB, 0x1D6CB, .Mapped [0x3BA]),
  (0x1D6CC, 0x1D6CC, .Mapped [0x3BB]),
  (0x1D6CD, 0x1D6CD, .Mapped [0x3BC]),
  (0x1D6CE, 0x1D6CE, .Mapped [0x3BD]),
  (0x1D6CF, 0x1D6CF, .Mapped [0x3BE]),
  (0x1D6D0, 0x1D6D0, .Mapped [0x3BF]),
  (0x1D6D1, 0x1D6D1, .Mapped [0x3C0]),
  (0x1D6D2, 0x1D6D2, .Mapped [0x3C1]),
  (0x1D6D3, 0x1D6D4, .Mapped [0x3C3]),
  (0x1D6D5, 0x1D6D5, .Mapped [0x3C4]),
  (0x1D6D6, 0x1D6D6, .Mapped [0x3C5]),
  (0x1D6D7, 0x1D6D7, .Mapped [0x3C6]),
  (0x1D6D8, 0x1D6D8, .Mapped [0x3C7]),
  (0x1D6D9, 0x1D6D9, .Mapped [0x3C8]),
  (0x1D6DA, 0x1D6DA, .Mapped [0x3C9]),
  (0x1D6DB, 0x1D6DB, .Mapped [0x2202]),
  (0x1D6DC, 0x1D6DC, .Mapped [0x3B5]),
  (0x1D6DD, 0x1D6DD, .Mapped [0x3B8]),
  (0x1D6DE, 0x1D6DE, .Mapped [0x3BA]),
  (0x1D6DF, 0x1D6DF, .Mapped [0x3C6]),
  (0x1D6E0, 0x1D6E0, .Mapped [0x3C1]),
  (0x1D6E1, 0x1D6E1, .Mapped [0x3C0]),
  (0x1D6E2, 0x1D6E2, .Mapped [0x3B1]),
  (0x1D6E3, 0x1D6E3, .Mapped [0x3B2]),
  (0x1D6E4, 0x1D6E4, .Mapped [0x3B3]),
  (0x1D6E5, 0x1D6E5, .Mapped [0x3B4]),
  (0x1D6E6, 0x1D6E6, .Mapped [0x3B5]),
  (0x1D6E7, 0x1D6E7, .Mapped [0x3B6]),
  (0x1D6E8, 0x1D6E8, .Mapped [0x3B7]),
  (0x1D6E9, 0x1D6E9, .Mapped [0x3B8]),
  (0x1D6EA, 0x1D6EA, .Mapped [0x3B9]),
  (0x1D6EB, 0x1D6EB, .Mapped [0x3BA]),
  (0x1D6EC, 0x1D6EC, .Mapped [0x3BB]),
  (0x1D6ED, 0x1D6ED, .Mapped [0x3BC]),
  (0x1D6EE, 0x1D6EE, .Mapped [0x3BD]),
  (0x1D6EF, 0x1D6EF, .Mapped [0x3BE]),
  (0x1D6F0, 0x1D6F0, .Mapped [0x3BF]),
  (0x1D6F1, 0x1D6F1, .Mapped [0x3C0]),
  (0x1D6F2, 0x1D6F2, .Mapped [0x3C1]),
  (0x1D6F3, 0x1D6F3, .Mapped [0x3B8]),
  (0x1D6F4, 0x1D6F4, .Mapped [0x3C3]),
  (0x1D6F5, 0x1D6F5, .Mapped [0x3C4]),
  (0x1D6F6, 0x1D6F6, .Mapped [0x3C5]),
  (0x1D6F7, 0x1D6F7, .Mapped [0x3C6]),
  (0x1D6F8, 0x1D6F8, .Mapped [0x3C7]),
  (0x1D6F9, 0x1D6F9, .Mapped [0x3C8]),
  (0x1D6FA, 0x1D6FA, .Mapped [0x3C9]),
  (0x1D6FB, 0x1D6FB, .Mapped [0x2207]),
  (0x1D6FC, 0x1D6FC, .Mapped [0x3B1]),
  (0x1D6FD, 0x1D6FD, .Mapped [0x3B2]),
  (0x1D6FE, 0x1D6FE, .Mapped [0x3B3]),
  (0x1D6FF, 0x1D6FF, .Mapped [0x3B4]),
  (0x1D700, 0x1D700, .Mapped [0x3B5]),
  (0x1D701, 0x1D701, .Mapped [0x3B6]),
  (0x1D702, 0x1D702, .Mapped [0x3B7]),
  (0x1D703, 0x1D703, .Mapped [0x3B8]),
  (0x1D704, 0x1D704, .Mapped [0x3B9]),
  (0x1D705, 0x1D705, .Mapped [0x3BA]),
  (0x1D706, 0x1D706, .Mapped [0x3BB]),
  (0x1D707, 0x1D707, .Mapped [0x3BC]),
  (0x1D708, 0x1D708, .Mapped [0x3BD]),
  (0x1D709, 0x1D709, .Mapped [0x3BE])]
def idnaMapping_100 : List (Nat × Nat × Mapping) := [
  (0x1D70A, 0x1D70A, .Mapped [0x3BF]),
  (0x1D70B, 0x1D70B, .Mapped [0x3C0]),
  (0x1D70C, 0x1D70C, .Mapped [0x3C1]),
  (0x1D70D, 0x1D70E, .Mapped [0x3C3]),
  (0x1D70F, 0x1D70F, .Mapped [0x3C4]),
  (0x1D710, 0x1D710, .Mapped [0x3C5]),
  (0x1D711, 0x1D711, .Mapped [0x3C6]),
  (0x1D712, 0x1D712, .Mapped [0x3C7]),
  (0x1D713, 0x1D713, .Mapped [0x3C8]),
  (0x1D714, 0x1D714, .Mapped [0x3C9]),
  (0x1D715, 0x1D715, .Mapped [0x2202]),
  (0x1D716, 0x1D716, .Mapped [0x3B5]),
  (0x1D717, 0x1D717, .Mapped [0x3B8]),
  (0x1D718, 0x1D718, .Mapped [0x3BA]),
  (0x1D719, 0x1D719, .Mapped [0x3C6]),
  (0x1D71A, 0x1D71A, .Mapped [0x3C1]),
  (0x1D71B, 0x1D71B, .Mapped [0x3C0]),
  (0x1D71C, 0x1D71C, .Mapped [0x3B1]),
  (0x1D71D, 0x1D71D, .Mapped [0x3B2]),
  (0x1D71E, 0x1D71E, .Mapped [0x3B3]),
  (0x1D71F, 0x1D71F, .Mapped [0x3B4]),
  (0x1D720, 0x1D720, .Mapped [0x3B5]),
  (0x1D721, 0x1D721, .Mapped [0x3B6]),
  (0x1D722, 0x1D722, .Mapped [0x3B7]),
  (0x1D723, 0x1D723, .Mapped [0x3B8]),
  (0x1D724, 0x1D724, .Mapped [0x3B9]),
  (0x1D725, 0x1D725, .Mapped [0x3BA]),
  (0x1D726, 0x1D726, .Mapped [0x3BB]),
  (0x1D727, 0x1D727, .Mapped [0x3BC]),
  (0x1D728, 0x1D728, .Mapped [0x3BD]),
  (0x1D729, 0x1D729, .Mapped [0x3BE]),
  (0x1D72A, 0x1D72A, .Mapped [0x3BF]),
  (0x1D72B, 0x1D72B, .Mapped [0x3C0]),
  (0x1D72C, 0x1D72C, .Mapped [0x3C1]),
  (0x1D72D, 0x1D72D, .Mapped [0x3B8]),
  (0x1D72E, 0x1D72E, .Mapped [0x3C3]),
  (0x1D72F, 0x1D72F, .Mapped [0x3C4]),
  (0x1D730, 0x1D730, .Mapped [0x3C5]),
  (0x1D731, 0x1D731, .Mapped [0x3C6]),
  (0x1D732, 0x1D732, .Mapped [0x3C7]),
  (0x1D733, 0x1D733, .Mapped [0x3C8]),
  (0x1D734, 0x1D734, .Mapped [0x3C9]),
  (0x1D735, 0x1D735, .Mapped [0x2207]),
  (0x1D736, 0x1D736, .Mapped [0x3B1]),
  (0x1D737, 0x1D737, .Mapped [0x3B2]),
  (0x1D738, 0x1D738, .Mapped [0x3B3]),
  (0x1D739, 0x1D739, .Mapped [0x3B4]),
  (0x1D73A, 0x1D73A, .Mapped [0x3B5]),
  (0x1D73B, 0x1D73B, .Mapped [0x3B6]),
  (0x1D73C, 0x1D73C, .Mapped [0x3B7]),
  (0x1D73D, 0x1D73D, .Mapped [0x3B8]),
  (0x1D73E, 0x1D73E, .Mapped [0x3B9]),
  (0x1D73F, 0x1D73F, .Mapped [0x3BA]),
  (0x1D740, 0x1D740, .Mapped [0x3BB]),
  (0x1D741, 0x1D741, .Mapped [0x3BC]),
  (0x1D742, 0x1D742, .Mapped [0x3BD]),
  (0x1D743, 0x1D743, .Mapped [0x3BE]),
  (0x1D744, 0x1D744, .Mapped [0x3BF]),
  (0x1D745, 0x1D745, .Mapped [0x3C0]),
  (0x1D746, 0x1D746, .Mapped [0x3C1]),
  (0x1D747, 0x1D748, .Mapped [0x3C3]),
  (0x1D749, 0x1D749, .Mapped [0x3C4]),
  (0x1D74A, 0x1D74A, .Mapped [0x3C5]),
  (0x1D74B, 0x1D74B, .Mapped [0x3C6])]
def idnaMapping_101 : List (Nat × Nat × Mapping) := [
  (0x1D74C, 0x1D74C, .Mapped [0x3C7]),
  (0x1D74D, 0x1D74D, .Mapped [0x3C8]),
  (0x1D74E, 0x1D74E, .Mapped [0x3C9]),
  (0x1D74F, 0x1D74F, .Mapped [0x2202]),
  (0x1D750, 0x1D750, .Mapped [0x3B5]),
  (0x1D751, 0x1D751, .Mapped [0x3B8]),
  (0x1D752, 0x1D752, .Mapped [0x3BA]),
  (0x1D753, 0x1D753, .Mapped [0x3C6]),
  (0x1D754, 0x1D754, .Mapped [0x3C1]),
  (0x1D755, 0x1D755, .Mapped [0x3C0]),
  (0x1D756, 0x1D756, .Mapped [0x3B1]),
  (0x1D757, 0x1D757, .Mapped [0x3B2]),
  (0x1D758, 0x1D758, .Mapped [0x3B3]),
  (0x1D759, 0x1D759, .Mapped [0x3B4]),
  (0x1D75A, 0x1D75A, .Mapped [0x3B5]),
  (0x1D75B, 0x1D75B, .Mapped [0x3B6]),
  (0x1D75C, 0x1D75C, .Mapped [0x3B7]),
  (0x1D75D, 0x1D75D, .Mapped [0x3B8]),
  (0x1D75E, 0x1D75E, .Mapped [0x3B9]),
  (0x1D75F, 0x1D75F, .Mapped [0x3BA]),
  (0x1D760, 0x1D760, .Mapped [0x3BB]),
  (0x1D761, 0x1D761, .Mapped [0x3BC]),
  (0x1D762, 0x1D762, .Mapped [0x3BD]),
  (0x1D763, 0x1D763, .Mapped [0x3BE]),
  (0x1D764, 0x1D764, .Mapped [0x3BF]),
  (0x1D765, 0x1D765, .Mapped [0x3C0]),
  (0x1D766, 0x1D766, .Mapped [0x3C1]),
  (0x1D767, 0x1D767, .Mapped [0x3B8]),
  (0x1D768, 0x1D768, .Mapped [0x3C3]),
  (0x1D769, 0x1D769, .Mapped [0x3C4]),
  (0x1D76A, 0x1D76A, .Mapped [0x3C5]),
  (0x1D76B, 0x1D76B, .Mapped [0x3C6]),
  (0x1D76C, 0x1D76C, .Mapped [0x3C7]),
  (0x1D76D, 0x1D76D, .Mapped [0x3C8]),
  (0x1D76E, 0x1D76E, .Mapped [0x3C9]),
  (0x1D76F, 0x1D76F, .Mapped [0x2207]),
  (0x1D770, 0x1D770, .Mapped [0x3B1]),
  (0x1D771, 0x1D771, .Mapped [0x3B2]),
  (0x1D772, 0x1D772, .Mapped [0x3B3]),
  (0x1D773, 0x1D773, .Mapped [0x3B4]),
  (0x1D774, 0x1D774, .Mapped [0x3B5]),
  (0x1D775, 0x1D775, .Mapped [0x3B6]),
  (0x1D776, 0x1D776, .Mapped [0x3B7]),
  (0x1D777, 0x1D777, .Mapped [0x3B8]),
  (0x1D778, 0x1D778, .Mapped [0x3B9]),
  (0x1D779, 0x1D779, .Mapped [0x3BA]),
  (0x1D77A, 0x1D77A, .Mapped [0x3BB]),
  (0x1D77B, 0x1D77B, .Mapped [0x3BC]),
  (0x1D77C, 0x1D77C, .Mapped [0x3BD]),
  (0x1D77D, 0x1D77D, .Mapped [0x3BE]),
  (0x1D77E, 0x1D77E, .Mapped [0x3BF]),
  (0x1D77F, 0x1D77F, .Mapped [0x3C0]),
  (0x1D780, 0x1D780, .Mapped [0x3C1]),
  (0x1D781, 0x1D782, .Mapped [0x3C3]),
  (0x1D783, 0x1D783, .Mapped [0x3C4]),
  (0x1D784, 0x1D784, .Mapped [0x3C5]),
  (0x1D785, 0x1D785, .Mapped [0x3C6]),
  (0x1D786, 0x1D786, .Mapped [0x3C7]),
  (0x1D787, 0x1D787, .Mapped [0x3C8]),
  (0x1D788, 0x1D788, .Mapped [0x3C9]),
  (0x1D789, 0x1D789, .Mapped [0x2202]),
  (0x1D78A, 0x1D78A, .Mapped [0x3B5]),
  (0x1D78B, 0x1D78B, .Mapped [0x3B8]),
  (0x1D78C, 0x1D78C, .Mapped [0x3BA])]
def idnaMapping_102 : List (Nat × Nat × Mapping) := [
  (0x1D78D, 0x1D78D, .Mapped [0x3C6]),
  (0x1D78E, 0x1D78E, .Mapped [0x3C1]),
  (0x1D78F, 0x1D78F, .Mapped [0x3C0]),
  (0x1D790, 0x1D790, .Mapped [0x3B1]),
  (0x1D791, 0x1D791, .Mapped [0x3B2]),
  (0x1D792, 0x1D792, .Mapped [0x3B3]),
  (0x1D793, 0x1D793, .Mapped [0x3B4]),
  (0x1D794, 0x1D794, .Mapped [0x3B5]),
  (0x1D795, 0x1D795, .Mapped [0x3B6]),
  (0x1D796, 0x1D796, .Mapped [0x3B7]),
  (0x1D797, 0x1D797, .Mapped [0x3B8]),
  (0x1D798, 0x1D798, .Mapped [0x3B9]),
  (0x1D799, 0x1D799, .Mapped [0x3BA]),
  (0x1D79A, 0x1D79A, .Mapped [0x3BB]),
  (0x1D79B, 0x1D79B, .Mapped [0x3BC]),
  (0x1D79C, 0x1D79C, .Mapped [0x3BD]),
  (0x1D79D, 0x1D79D, .Mapped [0x3BE]),
  (0x1D79E, 0x1D79E, .Mapped [0x3BF]),
  (0x1D79F, 0x1D79F, .Mapped [0x3C0]),
  (0x1D7A0, 0x1D7A0, .Mapped [0x3C1]),
  (0x1D7A1, 0x1D7A1, .Mapped [0x3B8]),
  (0x1D7A2, 0x1D7A2, .Mapped [0x3C3]),
  (0x1D7A3, 0x1D7A3, .Mapped [0x3C4]),
  (0x1D7A4, 0x1D7A4, .Mapped [0x3C5]),
  (0x1D7A5, 0x1D7A5, .Mapped [0x3C6]),
  (0x1D7A6, 0x1D7A6, .Mapped [0x3C7]),
  (0x1D7A7, 0x1D7A7, .Mapped [0x3C8]),
  (0x1D7A8, 0x1D7A8, .Mapped [0x3C9]),
  (0x1D7A9, 0x1D7A9, .Mapped [0x2207]),
  (0x1D7AA, 0x1D7AA, .Mapped [0x3B1]),
  (0x1D7AB, 0x1D7AB, .Mapped [0x3B2]),
  (0x1D7AC, 0x1D7AC, .Mapped [0x3B3]),
  (0x1D7AD, 0x1D7AD, .Mapped [0x3B4]),
  (0x1D7AE, 0x1D7AE, .Mapped [0x3B5]),
  (0x1D7AF, 0x1D7AF, .Mapped [0x3B6]),
  (0x1D7B0, 0x1D7B0, .Mapped [0x3B7]),
  (0x1D7B1, 0x1D7B1, .Mapped [0x3B8]),
  (0x1D7B2, 0x1D7B2, .Mapped [0x3B9]),
  (0x1D7B3, 0x1D7B3, .Mapped [0x3BA]),
  (0x1D7B4, 0x1D7B4, .Mapped [0x3BB]),
  (0x1D7B5, 0x1D7B5, .Mapped [0x3BC]),
  (0x1D7B6, 0x1D7B6, .Mapped [0x3BD]),
  (0x1D7B7, 0x1D7B7, .Mapped [0x3BE]),
  (0x1D7B8, 0x1D7B8, .Mapped [0x3BF]),
  (0x1D7B9, 0x1D7B9, .Mapped [0x3C0]),
  (0x1D7BA, 0x1D7BA, .Mapped [0x3C1]),
  (0x1D7BB, 0x1D7BC, .Mapped [0x3C3]),
  (0x1D7BD, 0x1D7BD, .Mapped [0x3C4]),
  (0x1D7BE, 0x1D7BE, .Mapped [0x3C5]),
  (0x1D7BF, 0x1D7BF, .Mapped [0x3C6]),
  (0x1D7C0, 0x1D7C0, .Mapped [0x3C7]),
  (0x1D7C1, 0x1D7C1, .Mapped [0x3C8]),
  (0x1D7C2, 0x1D7C2, .Mapped [0x3C9]),
  (0x1D7C3, 0x1D7C3, .Mapped [0x2202]),
  (0x1D7C4, 0x1D7C4, .Mapped [0x3B5]),
  (0x1D7C5, 0x1D7C5, .Mapped [0x3B8]),
  (0x1D7C6, 0x1D7C6, .Mapped [0x3BA]),
  (0x1D7C7, 0x1D7C7, .Mapped [0x3C6]),
  (0x1D7C8, 0x1D7C8, .Mapped [0x3C1]),
  (0x1D7C9, 0x1D7C9, .Mapped [0x3C0]),
  (0x1D7CA, 0x1D7CB, .Mapped [0x3DD]),
  (0x1D7CC, 0x1D7CD, .Disallowed),
  (0x1D7CE, 0x1D7CE, .Mapped [0x30]),
  (0x1D7CF, 0x1D7CF, .Mapped [0x31])]
def idnaMapping_103 : List (Nat × Nat × Mapping) := [
  (0x1D7D0, 0x1D7D0, .Mapped [0x32]),
  (0x1D7D1, 0x1D7D1, .Mapped [0x33]),
  (0x1D7D2, 0x1D7D2, .Mapped [0x34]),
  (0x1D7D3, 0x1D7D3, .Mapped [0x35]),
  (0x1D7D4, 0x1D7D4, .Mapped [0x36]),
  (0x1D7D5, 0x1D7D5, .Mapped [0x37]),
  (0x1D7D6, 0x1D7D6, .Mapped [0x38]),
  (0x1D7D7, 0x1D7D7, .Mapped [0x39]),
  (0x1D7D8, 0x1D7D8, .Mapped [0x30]),
  (0x1D7D9, 0x1D7D9, .Mapped [0x31]),
  (0x1D7DA, 0x1D7DA, .Mapped [0x32]),
  (0x1D7DB, 0x1D7DB, .Mapped [0x33]),
  (0x1D7DC, 0x1D7DC, .Mapped [0x34]),
  (0x1D7DD, 0x1D7DD, .Mapped [0x35]),
  (0x1D7DE, 0x1D7DE, .Mapped [0x36]),
  (0x1D7DF, 0x1D7DF, .Mapped [0x37]),
  (0x1D7E0, 0x1D7E0, .Mapped [0x38]),
  (0x1D7E1, 0x1D7E1, .Mapped [0x39]),
  (0x1D7E2, 0x1D7E2, .Mapped [0x30]),
  (0x1D7E3, 0x1D7E3, .Mapped [0x31]),
  (0x1D7E4, 0x1D7E4, .Mapped [0x32]),
  (0x1D7E5, 0x1D7E5, .Mapped [0x33]),
  (0x1D7E6, 0x1D7E6, .Mapped [0x34]),
  (0x1D7E7, 0x1D7E7, .Mapped [0x35]),
  (0x1D7E8, 0x1D7E8, .Mapped [0x36]),
  (0x1D7E9, 0x1D7E9, .Mapped [0x37]),
  (0x1D7EA, 0x1D7EA, .Mapped [0x38]),
  (0x1D7EB, 0x1D7EB, .Mapped [0x39]),
  (0x1D7EC, 0x1D7EC, .Mapped [0x30]),
  (0x1D7ED, 0x1D7ED, .Mapped [0x31]),
  (0x1D7EE, 0x1D7EE, .Mapped [0x32]),
  (0x1D7EF, 0x1D7EF, .Mapped [0x33]),
  (0x1D7F0, 0x1D7F0, .Mapped [0x34]),
  (0x1D7F1, 0x1D7F1, .Mapped [0x35]),
  (0x1D7F2, 0x1D7F2, .Mapped [0x36]),
  (0x1D7F3, 0x1D7F3, .Mapped [0x37]),
  (0x1D7F4, 0x1D7F4, .Mapped [0x38]),
  (0x1D7F5, 0x1D7F5, .Mapped [0x39]),
  (0x1D7F6, 0x1D7F6, .Mapped [0x30]),
  (0x1D7F7, 0x1D7F7, .Mapped [0x31]),
  (0x1D7F8, 0x1D7F8, .Mapped [0x32]),
  (0x1D7F9, 0x1D7F9, .Mapped [0x33]),
  (0x1D7FA, 0x1D7FA, .Mapped [0x34]),
  (0x1D7FB, 0x1D7FB, .Mapped [0x35]),
  (0x1D7FC, 0x1D7FC, .Mapped [0x36]),
  (0x1D7FD, 0x1D7FD, .Mapped [0x37]),
  (0x1D7FE, 0x1D7FE, .Mapped [0x38]),
  (0x1D7FF, 0x1D7FF, .Mapped [0x39]),
  (0x1D800, 0x1DA8B, .Valid),
  (0x1DA8C, 0x1DA9A, .Disallowed),
  (0x1DA9B, 0x1DA9F, .Valid),
  (0x1DAA0, 0x1DAA0, .Disallowed),
  (0x1DAA1, 0x1DAAF, .Valid),
  (0x1DAB0, 0x1DFFF, .Disallowed),
  (0x1E000, 0x1E006, .Valid),
  (0x1E007, 0x1E007, .Disallowed),
  (0x1E008, 0x1E018, .Valid),
  (0x1E019, 0x1E01A, .Disallowed),
  (0x1E01B, 0x1E021, .Valid),
  (0x1E022, 0x1E022, .Disallowed),
  (0x1E023, 0x1E024, .Valid),
  (0x1E025, 0x1E025, .Disallowed),
  (0x1E026, 0x1E02A, .Valid),
  (0x1E02B, 0x1E7FF, .Disallowed)]
def idnaMapping_104 : List (Nat × Nat × Mapping) := [
  (0x1E800, 0x1E8C4, .Valid),
  (0x1E8C5, 0x1E8C6, .Disallowed),
  (0x1E8C7, 0x1E8D6, .Valid),
  (0x1E8D7, 0x1E8FF, .Disallowed),
  (0x1E900, 0x1E900, .Mapped [0x1E922]),
  (0x1E901, 0x1E901, .Mapped [0x1E923]),
  (0x1E902, 0x1E902, .Mapped [0x1E924]),
  (0x1E903, 0x1E903, .Mapped [0x1E925]),
  (0x1E904, 0x1E904, .Mapped [0x1E926]),
  (0x1E905, 0x1E905, .Mapped [0x1E927]),
  (0x1E906, 0x1E906, .Mapped [0x1E928]),
  (0x1E907, 0x1E907, .Mapped [0x1E929]),
  (0x1E908, 0x1E908, .Mapped [0x1E92A]),
  (0x1E909, 0x1E909, .Mapped [0x1E92B]),
  (0x1E90A, 0x1E90A, .Mapped [0x1E92C]),
  (0x1E90B, 0x1E90B, .Mapped [0x1E92D]),
  (0x1E90C, 0x1E90C, .Mapped [0x1E92E]),
  (0x1E90D, 0x1E90D, .Mapped [0x1E92F]),
  (0x1E90E, 0x1E90E, .Mapped [0x1E930]),
  (0x1E90F, 0x1E90F, .Mapped [0x1E931]),
  (0x1E910, 0x1E910, .Mapped [0x1E932]),
  (0x1E911, 0x1E911, .Mapped [0x1E933]),
  (0x1E912, 0x1E912, .Mapped [0x1E934]),
  (0x1E913, 0x1E913, .Mapped [0x1E935]),
  (0x1E914, 0x1E914, .Mapped [0x1E936]),
  (0x1E915, 0x1E915, .Mapped [0x1E937]),
  (0x1E916, 0x1E916, .Mapped [0x1E938]),
  (0x1E917, 0x1E917, .Mapped [0x1E939]),
  (0x1E918, 0x1E918, .Mapped [0x1E93A]),
  (0x1E919, 0x1E919, .Mapped [0x1E93B]),
  (0x1E91A, 0x1E91A, .Mapped [0x1E93C]),
  (0x1E91B, 0x1E91B, .Mapped [0x1E93D]),
  (0x1E91C, 0x1E91C, .Mapped [0x1E93E]),
  (0x1E91D, 0x1E91D, .Mapped [0x1E93F]),
  (0x1E91E, 0x1E91E, .Mapped [0x1E940]),
  (0x1E91F, 0x1E91F, .Mapped [0x1E941]),
  (0x1E920, 0x1E920, .Mapped [0x1E942]),
  (0x1E921, 0x1E921, .Mapped [0x1E943]),
  (0x1E922, 0x1E94A, .Valid),
  (0x1E94B, 0x1E94F, .Disallowed),
  (0x1E950, 0x1E959, .Valid),
  (0x1E95A, 0x1E95D, .Disallowed),
  (0x1E95E, 0x1E95F, .Valid),
  (0x1E960, 0x1EDFF, .Disallowed),
  (0x1EE00, 0x1EE00, .Mapped [0x627]),
  (0x1EE01, 0x1EE01, .Mapped [0x628]),
  (0x1EE02, 0x1EE02, .Mapped [0x62C]),
  (0x1EE03, 0x1EE03, .Mapped [0x62F]),
  (0x1EE04, 0x1EE04, .Disallowed),
  (0x1EE05, 0x1EE05, .Mapped [0x648]),
  (0x1EE06, 0x1EE06, .Mapped [0x632]),
  (0x1EE07, 0x1EE07, .Mapped [0x62D]),
  (0x1EE08, 0x1EE08, .Mapped [0x637]),
  (0x1EE09, 0x1EE09, .Mapped [0x64A]),
  (0x1EE0A, 0x1EE0A, .Mapped [0x643]),
  (0x1EE0B, 0x1EE0B, .Mapped [0x644]),
  (0x1EE0C, 0x1EE0C, .Mapped [0x645]),
  (0x1EE0D, 0x1EE0D, .Mapped [0x646]),
  (0x1EE0E, 0x1EE0E, .Mapped [0x633]),
  (0x1EE0F, 0x1EE0F, .Mapped [0x639]),
  (0x1EE10, 0x1EE10, .Mapped [0x641]),
  (0x1EE11, 0x1EE11, .Mapped [0x635]),
  (0x1EE12, 0x1EE12, .Mapped [0x642]),
  (0x1EE13, 0x1EE13, .Mapped [0x631])]
def idnaMapping_105 : List (Nat × Nat × Mapping) := [
  (0x1EE14, 0x1EE14, .Mapped [0x634]),
  (0x1EE15, 0x1EE15, .Mapped [0x62A]),
  (0x1EE16, 0x1EE16, .Mapped [0x62B]),
  (0x1EE17, 0x1EE17, .Mapped [0x62E]),
  (0x1EE18, 0x1EE18, .Mapped [0x630]),
  (0x1EE19, 0x1EE19, .Mapped [0x636]),
  (0x1EE1A, 0x1EE1A, .Mapped [0x638]),
  (0x1EE1B, 0x1EE1B, .Mapped [0x63A]),
  (0x1EE1C, 0x1EE1C, .Mapped [0x66E]),
  (0x1EE1D, 0x1EE1D, .Mapped [0x6BA]),
  (0x1EE1E, 0x1EE1E, .Mapped [0x6A1]),
  (0x1EE1F, 0x1EE1F, .Mapped [0x66F]),
  (0x1EE20, 0x1EE20, .Disallowed),
  (0x1EE21, 0x1EE21, .Mapped [0x628]),
  (0x1EE22, 0x1EE22, .Mapped [0x62C]),
  (0x1EE23, 0x1EE23, .Disallowed),
  (0x1EE24, 0x1EE24, .Mapped [0x647]),
  (0x1EE25, 0x1EE26, .Disallowed),
  (0x1EE27, 0x1EE27, .Mapped [0x62D]),
  (0x1EE28, 0x1EE28, .Disallowed),
  (0x1EE29, 0x1EE29, .Mapped [0x64A]),
  (0x1EE2A, 0x1EE2A, .Mapped [0x643]),
  (0x1EE2B, 0x1EE2B, .Mapped [0x644]),
  (0x1EE2C, 0x1EE2C, .Mapped [0x645]),
  (0x1EE2D, 0x1EE2D, .Mapped [0x646]),
  (0x1EE2E, 0x1EE2E, .Mapped [0x633]),
  (0x1EE2F, 0x1EE2F, .Mapped [0x639]),
  (0x1EE30, 0x1EE30, .Mapped [0x641]),
  (0x1EE31, 0x1EE31, .Mapped [0x635]),
  (0x1EE32, 0x1EE32, .Mapped [0x642]),
  (0x1EE33, 0x1EE33, .Disallowed),
  (0x1EE34, 0x1EE34, .Mapped [0x634]),
  (0x1EE35, 0x1EE35, .Mapped [0x62A]),
  (0x1EE36, 0x1EE36, .Mapped [0x62B]),
  (0x1EE37, 0x1EE37, .Mapped [0x62E]),
  (0x1EE38, 0x1EE38, .Disallowed),
  (0x1EE39, 0x1EE39, .Mapped [0x636]),
  (0x1EE3A, 0x1EE3A, .Disallowed),
  (0x1EE3B, 0x1EE3B, .Mapped [0x63A]),
  (0x1EE3C, 0x1EE41, .Disallowed),
  (0x1EE42, 0x1EE42, .Mapped [0x62C]),
  (0x1EE43, 0x1EE46, .Disallowed),
  (0x1EE47, 0x1EE47, .Mapped [0x62D]),
  (0x1EE48, 0x1EE48, .Disallowed),
  (0x1EE49, 0x1EE49, .Mapped [0x64A]),
  (0x1EE4A, 0x1EE4A, .Disallowed),
  (0x1EE4B, 0x1EE4B, .Mapped [0x644]),
  (0x1EE4C, 0x1EE4C, .Disallowed),
  (0x1EE4D, 0x1EE4D, .Mapped [0x646]),
  (0x1EE4E, 0x1EE4E, .Mapped [0x633]),
  (0x1EE4F, 0x1EE4F, .Mapped [0x639]),
  (0x1EE50, 0x1EE50, .Disallowed),
  (0x1EE51, 0x1EE51, .Mapped [0x635]),
  (0x1EE52, 0x1EE52, .Mapped [0x642]),
  (0x1EE53, 0x1EE53, .Disallowed),
  (0x1EE54, 0x1EE54, .Mapped [0x634]),
  (0x1EE55, 0x1EE56, .Disallowed),
  (0x1EE57, 0x1EE57, .Mapped [0x62E]),
  (0x1EE58, 0x1EE58, .Disallowed),
  (0x1EE59, 0x1EE59, .Mapped [0x636]),
  (0x1EE5A, 0x1EE5A, .Disallowed),
  (0x1EE5B, 0x1EE5B, .Mapped [0x63A]),
  (0x1EE5C, 0x1EE5C, .Disallowed),
  (0x1EE5D, 0x1EE5D, .Mapped [0x6BA])]
def idnaMapping_106 : List (Nat × Nat × Mapping) := [
  (0x1EE5E, 0x1EE5E, .Disallowed),
  (0x1EE5F, 0x1EE5F, .Mapped [0x66F]),
  (0x1EE60, 0x1EE60, .Disallowed),
  (0x1EE61, 0x1EE61, .Mapped [0x628]),
  (0x1EE62, 0x1EE62, .Mapped [0x62C]),
  (0x1EE63, 0x1EE63, .Disallowed),
  (0x1EE64, 0x1EE64, .Mapped [0x647]),
  (0x1EE65, 0x1EE66, .Disallowed),
  (0x1EE67, 0x1EE67, .Mapped [0x62D]),
  (0x1EE68, 0x1EE68, .Mapped [0x637]),
  (0x1EE69, 0x1EE69, .Mapped [0x64A]),
  (0x1EE6A, 0x1EE6A, .Mapped [0x643]),
  (0x1EE6B, 0x1EE6B, .Disallowed),
  (0x1EE6C, 0x1EE6C, .Mapped [0x645]),
  (0x1EE6D, 0x1EE6D, .Mapped [0x646]),
  (0x1EE6E, 0x1EE6E, .Mapped [0x633]),
  (0x1EE6F, 0x1EE6F, .Mapped [0x639]),
  (0x1EE70, 0x1EE70, .Mapped [0x641]),
  (0x1EE71, 0x1EE71, .Mapped [0x635]),
  (0x1EE72, 0x1EE72, .Mapped [0x642]),
  (0x1EE73, 0x1EE73, .Disallowed),
  (0x1EE74, 0x1EE74, .Mapped [0x634]),
  (0x1EE75, 0x1EE75, .Mapped [0x62A]),
  (0x1EE76, 0x1EE76, .Mapped [0x62B]),
  (0x1EE77, 0x1EE77, .Mapped [0x62E]),
  (0x1EE78, 0x1EE78, .Disallowed),
  (0x1EE79, 0x1EE79, .Mapped [0x636]),
  (0x1EE7A, 0x1EE7A, .Mapped [0x638]),
  (0x1EE7B, 0x1EE7B, .Mapped [0x63A]),
  (0x1EE7C, 0x1EE7C, .Mapped [0x66E]),
  (0x1EE7D, 0x1EE7D, .Disallowed),
  (0x1EE7E, 0x1EE7E, .Mapped [0x6A1]),
  (0x1EE7F, 0x1EE7F, .Disallowed),
  (0x1EE80, 0x1EE80, .Mapped [0x627]),
  (0x1EE81, 0x1EE81, .Mapped [0x628]),
  (0x1EE82, 0x1EE82, .Mapped [0x62C]),
  (0x1EE83, 0x1EE83, .Mapped [0x62F]),
  (0x1EE84, 0x1EE84, .Mapped [0x647]),
  (0x1EE85, 0x1EE85, .Mapped [0x648]),
  (0x1EE86, 0x1EE86, .Mapped [0x632]),
  (0x1EE87, 0x1EE87, .Mapped [0x62D]),
  (0x1EE88, 0x1EE88, .Mapped [0x637]),
  (0x1EE89, 0x1EE89, .Mapped [0x64A]),
  (0x1EE8A, 0x1EE8A, .Disallowed),
  (0x1EE8B, 0x1EE8B, .Mapped [0x644]),
  (0x1EE8C, 0x1EE8C, .Mapped [0x645]),
  (0x1EE8D, 0x1EE8D, .Mapped [0x646]),
  (0x1EE8E, 0x1EE8E, .Mapped [0x633]),
  (0x1EE8F, 0x1EE8F, .Mapped [0x639]),
  (0x1EE90, 0x1EE90, .Mapped [0x641]),
  (0x1EE91, 0x1EE91, .Mapped [0x635]),
  (0x1EE92, 0x1EE92, .Mapped [0x642]),
  (0x1EE93, 0x1EE93, .Mapped [0x631]),
  (0x1EE94, 0x1EE94, .Mapped [0x634]),
  (0x1EE95, 0x1EE95, .Mapped [0x62A]),
  (0x1EE96, 0x1EE96, .Mapped [0x62B]),
  (0x1EE97, 0x1EE97, .Mapped [0x62E]),
  (0x1EE98, 0x1EE98, .Mapped [0x630]),
  (0x1EE99, 0x1EE99, .Mapped [0x636]),
  (0x1EE9A, 0x1EE9A, .Mapped [0x638]),
  (0x1EE9B, 0x1EE9B, .Mapped [0x63A]),
  (0x1EE9C, 0x1EEA0, .Disallowed),
  (0x1EEA1, 0x1EEA1, .Mapped [0x628]),
  (0x1EEA2, 0x1EEA2, .Mapped [0x62C])]
def idnaMapping_107 : List (Nat × Nat × Mapping) := [
  (0x1EEA3, 0x1EEA3, .Mapped [0x62F]),
  (0x1EEA4, 0x1EEA4, .Disallowed),
  (0x1EEA5, 0x1EEA5, .Mapped [0x648]),
  (0x1EEA6, 0x1EEA6, .Mapped [0x632]),
  (0x1EEA7, 0x1EEA7, .Mapped [0x62D]),
  (0x1EEA8, 0x1EEA8, .Mapped [0x637]),
  (0x1EEA9, 0x1EEA9, .Mapped [0x64A]),
  (0x1EEAA, 0x1EEAA, .Disallowed),
  (0x1EEAB, 0x1EEAB, .Mapped [0x644]),
  (0x1EEAC, 0x1EEAC, .Mapped [0x645]),
  (0x1EEAD, 0x1EEAD, .Mapped [0x646]),
  (0x1EEAE, 0x1EEAE, .Mapped [0x633]),
  (0x1EEAF, 0x1EEAF, .Mapped [0x639]),
  (0x1EEB0, 0x1EEB0, .Mapped [0x641]),
  (0x1EEB1, 0x1EEB1, .Mapped [0x635]),
  (0x1EEB2, 0x1EEB2, .Mapped [0x642]),
  (0x1EEB3, 0x1EEB3, .Mapped [0x631]),
  (0x1EEB4, 0x1EEB4, .Mapped [0x634]),
  (0x1EEB5, 0x1EEB5, .Mapped [0x62A]),
  (0x1EEB6, 0x1EEB6, .Mapped [0x62B]),
  (0x1EEB7, 0x1EEB7, .Mapped [0x62E]),
  (0x1EEB8, 0x1EEB8, .Mapped [0x630]),
  (0x1EEB9, 0x1EEB9, .Mapped [0x636]),
  (0x1EEBA, 0x1EEBA, .Mapped [0x638]),
  (0x1EEBB, 0x1EEBB, .Mapped [0x63A]),
  (0x1EEBC, 0x1EEEF, .Disallowed),
  (0x1EEF0, 0x1EEF1, .Valid),
  (0x1EEF2, 0x1EFFF, .Disallowed),
  (0x1F000, 0x1F02B, .Valid),
  (0x1F02C, 0x1F02F, .Disallowed),
  (0x1F030, 0x1F093, .Valid),
  (0x1F094, 0x1F09F, .Disallowed),
  (0x1F0A0, 0x1F0AE, .Valid),
  (0x1F0AF, 0x1F0B0, .Disallowed),
  (0x1F0B1, 0x1F0BF, .Valid),
  (0x1F0C0, 0x1F0C0, .Disallowed),
  (0x1F0C1, 0x1F0CF, .Valid),
  (0x1F0D0, 0x1F0D0, .Disallowed),
  (0x1F0D1, 0x1F0F5, .Valid),
  (0x1F0F6, 0x1F100, .Disallowed),
  (0x1F101, 0x1F101, .DisallowedStd3Mapped [0x30, 0x2C]),
  (0x1F102, 0x1F102, .DisallowedStd3Mapped [0x31, 0x2C]),
  (0x1F103, 0x1F103, .DisallowedStd3Mapped [0x32, 0x2C]),
  (0x1F104, 0x1F104, .DisallowedStd3Mapped [0x33, 0x2C]),
  (0x1F105, 0x1F105, .DisallowedStd3Mapped [0x34, 0x2C]),
  (0x1F106, 0x1F106, .DisallowedStd3Mapped [0x35, 0x2C]),
  (0x1F107, 0x1F107, .DisallowedStd3Mapped [0x36, 0x2C]),
  (0x1F108, 0x1F108, .DisallowedStd3Mapped [0x37, 0x2C]),
  (0x1F109, 0x1F109, .DisallowedStd3Mapped [0x38, 0x2C]),
  (0x1F10A, 0x1F10A, .DisallowedStd3Mapped [0x39, 0x2C]),
  (0x1F10B, 0x1F10C, .Valid),
  (0x1F10D, 0x1F10F, .Disallowed),
  (0x1F110, 0x1F110, .DisallowedStd3Mapped [0x28, 0x61, 0x29]),
  (0x1F111, 0x1F111, .DisallowedStd3Mapped [0x28, 0x62, 0x29]),
  (0x1F112, 0x1F112, .DisallowedStd3Mapped [0x28, 0x63, 0x29]),
  (0x1F113, 0x1F113, .DisallowedStd3Mapped [0x28, 0x64, 0x29]),
  (0x1F114, 0x1F114, .DisallowedStd3Mapped [0x28, 0x65, 0x29]),
  (0x1F115, 0x1F115, .DisallowedStd3Mapped [0x28, 0x66, 0x29]),
  (0x1F116, 0x1F116, .DisallowedStd3Mapped [0x28, 0x67, 0x29]),
  (0x1F117, 0x1F117, .DisallowedStd3Mapped [0x28, 0x68, 0x29]),
  (0x1F118, 0x1F118, .DisallowedStd3Mapped [0x28, 0x69, 0x29]),
  (0x1F119, 0x1F119, .DisallowedStd3Mapped [0x28, 0x6A, 0x29]),
  (0x1F11A, 0x1F11A, .DisallowedStd3Mapped [0x28, 0x6B, 0x29]),
  (0x1F11B, 0x1F11B, .DisallowedStd3Mapped [0x28, 0x6C, 0x29])]
def idnaMapping_108 : List (Nat × Nat × Mapping) := [
  (0x1F11C, 0x1F11C, .DisallowedStd3Mapped [0x28, 0x6D, 0x29]),
  (0x1F11D, 0x1F11D, .DisallowedStd3Mapped [0x28, 0x6E, 0x29]),
  (0x1F11E, 0x1F11E, .DisallowedStd3Mapped [0x28, 0x6F, 0x29]),
  (0x1F11F, 0x1F11F, .DisallowedStd3Mapped [0x28, 0x70, 0x29]),
  (0x1F120, 0x1F120, .DisallowedStd3Mapped [0x28, 0x71, 0x29]),
  (0x1F121, 0x1F121, .DisallowedStd3Mapped [0x28, 0x72, 0x29]),
  (0x1F122, 0x1F122, .DisallowedStd3Mapped [0x28, 0x73, 0x29]),
  (0x1F123, 0x1F123, .DisallowedStd3Mapped [0x28, 0x74, 0x29]),
  (0x1F124, 0x1F124, .DisallowedStd3Mapped [0x28, 0x75, 0x29]),
  (0x1F125, 0x1F125, .DisallowedStd3Mapped [0x28, 0x76, 0x29]),
  (0x1F126, 0x1F126, .DisallowedStd3Mapped [0x28, 0x77, 0x29]),
  (0x1F127, 0x1F127, .DisallowedStd3Mapped [0x28, 0x78, 0x29]),
  (0x1F128, 0x1F128, .DisallowedStd3Mapped [0x28, 0x79, 0x29]),
  (0x1F129, 0x1F129, .DisallowedStd3Mapped [0x28, 0x7A, 0x29]),
  (0x1F12A, 0x1F12A, .Mapped [0x3014, 0x73, 0x3015]),
  (0x1F12B, 0x1F12B, .Mapped [0x63]),
  (0x1F12C, 0x1F12C, .Mapped [0x72]),
  (0x1F12D, 0x1F12D, .Mapped [0x63, 0x64]),
  (0x1F12E, 0x1F12E, .Mapped [0x77, 0x7A]),
  (0x1F12F, 0x1F12F, .Disallowed),
  (0x1F130, 0x1F130, .Mapped [0x61]),
  (0x1F131, 0x1F131, .Mapped [0x62]),
  (0x1F132, 0x1F132, .Mapped [0x63]),
  (0x1F133, 0x1F133, .Mapped [0x64]),
  (0x1F134, 0x1F134, .Mapped [0x65]),
  (0x1F135, 0x1F135, .Mapped [0x66]),
  (0x1F136, 0x1F136, .Mapped [0x67]),
  (0x1F137, 0x1F137, .Mapped [0x68]),
  (0x1F138, 0x1F138, .Mapped [0x69]),
  (0x1F139, 0x1F139, .Mapped [0x6A]),
  (0x1F13A, 0x1F13A, .Mapped [0x6B]),
  (0x1F13B, 0x1F13B, .Mapped [0x6C]),
  (0x1F13C, 0x1F13C, .Mapped [0x6D]),
  (0x1F13D, 0x1F13D, .Mapped [0x6E]),
  (0x1F13E, 0x1F13E, .Mapped [0x6F]),
  (0x1F13F, 0x1F13F, .Mapped [0x70]),
  (0x1F140, 0x1F140, .Mapped [0x71]),
  (0x1F141, 0x1F141, .Mapped [0x72]),
  (0x1F142, 0x1F142, .Mapped [0x73]),
  (0x1F143, 0x1F143, .Mapped [0x74]),
  (0x1F144, 0x1F144, .Mapped [0x75]),
  (0x1F145, 0x1F145, .Mapped [0x76]),
  (0x1F146, 0x1F146, .Mapped [0x77]),
  (0x1F147, 0x1F147, .Mapped [0x78]),
  (0x1F148, 0x1F148, .Mapped [0x79]),
  (0x1F149, 0x1F149, .Mapped [0x7A]),
  (0x1F14A, 0x1F14A, .Mapped [0x68, 0x76]),
  (0x1F14B, 0x1F14B, .Mapped [0x6D, 0x76]),
  (0x1F14C, 0x1F14C, .Mapped [0x73, 0x64]),
  (0x1F14D, 0x1F14D, .Mapped [0x73, 0x73]),
  (0x1F14E, 0x1F14E, .Mapped [0x70, 0x70, 0x76]),
  (0x1F14F, 0x1F14F, .Mapped [0x77, 0x63]),
  (0x1F150, 0x1F169, .Valid),
  (0x1F16A, 0x1F16A, .Mapped [0x6D, 0x63]),
  (0x1F16B, 0x1F16B, .Mapped [0x6D, 0x64]),
  (0x1F16C, 0x1F16F, .Disallowed),
  (0x1F170, 0x1F18F, .Valid),
  (0x1F190, 0x1F190, .Mapped [0x64, 0x6A]),
  (0x1F191, 0x1F1AC, .Valid),
  (0x1F1AD, 0x1F1E5, .Disallowed),
  (0x1F1E6, 0x1F1FF, .Valid),
  (0x1F200, 0x1F200, .Mapped [0x307B, 0x304B]),
  (0x1F201, 0x1F201, .Mapped [0x30B3, 0x30B3]),
  (0x1F202, 0x1F202, .Mapped [0x30B5])]
def idnaMapping_109 : List (Nat × Nat × Mapping) := [
  (0x1F203, 0x1F20F, .Disallowed),
  (0x1F210, 0x1F210, .Mapped [0x624B]),
  (0x1F211, 0x1F211, .Mapped [0x5B57]),
  (0x1F212, 0x1F212, .Mapped [0x53CC]),
  (0x1F213, 0x1F213, .Mapped [0x30C7]),
  (0x1F214, 0x1F214, .Mapped [0x4E8C]),
  (0x1F215, 0x1F215, .Mapped [0x591A]),
  (0x1F216, 0x1F216, .Mapped [0x89E3]),
  (0x1F217, 0x1F217, .Mapped [0x5929]),
  (0x1F218, 0x1F218, .Mapped [0x4EA4]),
  (0x1F219, 0x1F219, .Mapped [0x6620]),
  (0x1F21A, 0x1F21A, .Mapped [0x7121]),
  (0x1F21B, 0x1F21B, .Mapped [0x6599]),
  (0x1F21C, 0x1F21C, .Mapped [0x524D]),
  (0x1F21D, 0x1F21D, .Mapped [0x5F8C]),
  (0x1F21E, 0x1F21E, .Mapped [0x518D]),
  (0x1F21F, 0x1F21F, .Mapped [0x65B0]),
  (0x1F220, 0x1F220, .Mapped [0x521D]),
  (0x1F221, 0x1F221, .Mapped [0x7D42]),
  (0x1F222, 0x1F222, .Mapped [0x751F]),
  (0x1F223, 0x1F223, .Mapped [0x8CA9]),
  (0x1F224, 0x1F224, .Mapped [0x58F0]),
  (0x1F225, 0x1F225, .Mapped [0x5439]),
  (0x1F226, 0x1F226, .Mapped [0x6F14]),
  (0x1F227, 0x1F227, .Mapped [0x6295]),
  (0x1F228, 0x1F228, .Mapped [0x6355]),
  (0x1F229, 0x1F229, .Mapped [0x4E00]),
  (0x1F22A, 0x1F22A, .Mapped [0x4E09]),
  (0x1F22B, 0x1F22B, .Mapped [0x904A]),
  (0x1F22C, 0x1F22C, .Mapped [0x5DE6]),
  (0x1F22D, 0x1F22D, .Mapped [0x4E2D]),
  (0x1F22E, 0x1F22E, .Mapped [0x53F3]),
  (0x1F22F, 0x1F22F, .Mapped [0x6307]),
  (0x1F230, 0x1F230, .Mapped [0x8D70]),
  (0x1F231, 0x1F231, .Mapped [0x6253]),
  (0x1F232, 0x1F232, .Mapped [0x7981]),
  (0x1F233, 0x1F233, .Mapped [0x7A7A]),
  (0x1F234, 0x1F234, .Mapped [0x5408]),
  (0x1F235, 0x1F235, .Mapped [0x6E80]),
  (0x1F236, 0x1F236, .Mapped [0x6709]),
  (0x1F237, 0x1F237, .Mapped [0x6708]),
  (0x1F238, 0x1F238, .Mapped [0x7533]),
  (0x1F239, 0x1F239, .Mapped [0x5272]),
  (0x1F23A, 0x1F23A, .Mapped [0x55B6]),
  (0x1F23B, 0x1F23B, .Mapped [0x914D]),
  (0x1F23C, 0x1F23F, .Disallowed),
  (0x1F240, 0x1F240, .Mapped [0x3014, 0x672C, 0x3015]),
  (0x1F241, 0x1F241, .Mapped [0x3014, 0x4E09, 0x3015]),
  (0x1F242, 0x1F242, .Mapped [0x3014, 0x4E8C, 0x3015]),
  (0x1F243, 0x1F243, .Mapped [0x3014, 0x5B89, 0x3015]),
  (0x1F244, 0x1F244, .Mapped [0x3014, 0x70B9, 0x3015]),
  (0x1F245, 0x1F245, .Mapped [0x3014, 0x6253, 0x3015]),
  (0x1F246, 0x1F246, .Mapped [0x3014, 0x76D7, 0x3015]),
  (0x1F247, 0x1F247, .Mapped [0x3014, 0x52DD, 0x3015]),
  (0x1F248, 0x1F248, .Mapped [0x3014, 0x6557, 0x3015]),
  (0x1F249, 0x1F24F, .Disallowed),
  (0x1F250, 0x1F250, .Mapped [0x5F97]),
  (0x1F251, 0x1F251, .Mapped [0x53EF]),
  (0x1F252, 0x1F25F, .Disallowed),
  (0x1F260, 0x1F265, .Valid),
  (0x1F266, 0x1F2FF, .Disallowed),
  (0x1F300, 0x1F6D4, .Valid),
  (0x1F6D5, 0x1F6DF, .Disallowed),
  (0x1F6E0, 0x1F6EC, .Valid)]
def idnaMapping_110 : List (Nat × Nat × Mapping) := [
  (0x1F6ED, 0x1F6EF, .Disallowed),
  (0x1F6F0, 0x1F6F8, .Valid),
  (0x1F6F9, 0x1F6FF, .Disallowed),
  (0x1F700, 0x1F773, .Valid),
  (0x1F774, 0x1F77F, .Disallowed),
  (0x1F780, 0x1F7D4, .Valid),
  (0x1F7D5, 0x1F7FF, .Disallowed),
  (0x1F800, 0x1F80B, .Valid),
  (0x1F80C, 0x1F80F, .Disallowed),
  (0x1F810, 0x1F847, .Valid),
  (0x1F848, 0x1F84F, .Disallowed),
  (0x1F850, 0x1F859, .Valid),
  (0x1F85A, 0x1F85F, .Disallowed),
  (0x1F860, 0x1F887, .Valid),
  (0x1F888, 0x1F88F, .Disallowed),
  (0x1F890, 0x1F8AD, .Valid),
  (0x1F8AE, 0x1F8FF, .Disallowed),
  (0x1F900, 0x1F90B, .Valid),
  (0x1F90C, 0x1F90F, .Disallowed),
  (0x1F910, 0x1F93E, .Valid),
  (0x1F93F, 0x1F93F, .Disallowed),
  (0x1F940, 0x1F94C, .Valid),
  (0x1F94D, 0x1F94F, .Disallowed),
  (0x1F950, 0x1F96B, .Valid),
  (0x1F96C, 0x1F97F, .Disallowed),
  (0x1F980, 0x1F997, .Valid),
  (0x1F998, 0x1F9BF, .Disallowed),
  (0x1F9C0, 0x1F9C0, .Valid),
  (0x1F9C1, 0x1F9CF, .Disallowed),
  (0x1F9D0, 0x1F9E6, .Valid),
  (0x1F9E7, 0x1FFFF, .Disallowed),
  (0x20000, 0x2A6D6, .Valid),
  (0x2A6D7, 0x2A6FF, .Disallowed),
  (0x2A700, 0x2B734, .Valid),
  (0x2B735, 0x2B73F, .Disallowed),
  (0x2B740, 0x2B81D, .Valid),
  (0x2B81E, 0x2B81F, .Disallowed),
  (0x2B820, 0x2CEA1, .Valid),
  (0x2CEA2, 0x2CEAF, .Disallowed),
  (0x2CEB0, 0x2EBE0, .Valid),
  (0x2EBE1, 0x2F7FF, .Disallowed),
  (0x2F800, 0x2F800, .Mapped [0x4E3D]),
  (0x2F801, 0x2F801, .Mapped [0x4E38]),
  (0x2F802, 0x2F802, .Mapped [0x4E41]),
  (0x2F803, 0x2F803, .Mapped [0x20122]),
  (0x2F804, 0x2F804, .Mapped [0x4F60]),
  (0x2F805, 0x2F805, .Mapped [0x4FAE]),
  (0x2F806, 0x2F806, .Mapped [0x4FBB]),
  (0x2F807, 0x2F807, .Mapped [0x5002]),
  (0x2F808, 0x2F808, .Mapped [0x507A]),
  (0x2F809, 0x2F809, .Mapped [0x5099]),
  (0x2F80A, 0x2F80A, .Mapped [0x50E7]),
  (0x2F80B, 0x2F80B, .Mapped [0x50CF]),
  (0x2F80C, 0x2F80C, .Mapped [0x349E]),
  (0x2F80D, 0x2F80D, .Mapped [0x2063A]),
  (0x2F80E, 0x2F80E, .Mapped [0x514D]),
  (0x2F80F, 0x2F80F, .Mapped [0x5154]),
  (0x2F810, 0x2F810, .Mapped [0x5164]),
  (0x2F811, 0x2F811, .Mapped [0x5177]),
  (0x2F812, 0x2F812, .Mapped [0x2051C]),
  (0x2F813, 0x2F813, .Mapped [0x34B9]),
  (0x2F814, 0x2F814, .Mapped [0x5167]),
  (0x2F815, 0x2F815, .Mapped [0x518D]),
  (0x2F816, 0x2F816, .Mapped [0x2054B])]
def idnaMapping_111 : List (Nat × Nat × Mapping) := [
  (0x2F817, 0x2F817, .Mapped [0x5197]),
  (0x2F818, 0x2F818, .Mapped [0x51A4]),
  (0x2F819, 0x2F819, .Mapped [0x4ECC]),
  (0x2F81A, 0x2F81A, .Mapped [0x51AC]),
  (0x2F81B, 0x2F81B, .Mapped [0x51B5]),
  (0x2F81C, 0x2F81C, .Mapped [0x291DF]),
  (0x2F81D, 0x2F81D, .Mapped [0x51F5]),
  (0x2F81E, 0x2F81E, .Mapped [0x5203]),
  (0x2F81F, 0x2F81F, .Mapped [0x34DF]),
  (0x2F820, 0x2F820, .Mapped [0x523B]),
  (0x2F821, 0x2F821, .Mapped [0x5246]),
  (0x2F822, 0x2F822, .Mapped [0x5272]),
  (0x2F823, 0x2F823, .Mapped [0x5277]),
  (0x2F824, 0x2F824, .Mapped [0x3515]),
  (0x2F825, 0x2F825, .Mapped [0x52C7]),
  (0x2F826, 0x2F826, .Mapped [0x52C9]),
  (0x2F827, 0x2F827, .Mapped [0x52E4]),
  (0x2F828, 0x2F828, .Mapped [0x52FA]),
  (0x2F829, 0x2F829, .Mapped [0x5305]),
  (0x2F82A, 0x2F82A, .Mapped [0x5306]),
  (0x2F82B, 0x2F82B, .Mapped [0x5317]),
  (0x2F82C, 0x2F82C, .Mapped [0x5349]),
  (0x2F82D, 0x2F82D, .Mapped [0x5351]),
  (0x2F82E, 0x2F82E, .Mapped [0x535A]),
  (0x2F82F, 0x2F82F, .Mapped [0x5373]),
  (0x2F830, 0x2F830, .Mapped [0x537D]),
  (0x2F831, 0x2F833, .Mapped [0x537F]),
  (0x2F834, 0x2F834, .Mapped [0x20A2C]),
  (0x2F835, 0x2F835, .Mapped [0x7070]),
  (0x2F836, 0x2F836, .Mapped [0x53CA]),
  (0x2F837, 0x2F837, .Mapped [0x53DF]),
  (0x2F838, 0x2F838, .Mapped [0x20B63]),
  (0x2F839, 0x2F839, .Mapped [0x53EB]),
  (0x2F83A, 0x2F83A, .Mapped [0x53F1]),
  (0x2F83B, 0x2F83B, .Mapped [0x5406]),
  (0x2F83C, 0x2F83C, .Mapped [0x549E]),
  (0x2F83D, 0x2F83D, .Mapped [0x5438]),
  (0x2F83E, 0x2F83E, .Mapped [0x5448]),
  (0x2F83F, 0x2F83F, .Mapped [0x5468]),
  (0x2F840, 0x2F840, .Mapped [0x54A2]),
  (0x2F841, 0x2F841, .Mapped [0x54F6]),
  (0x2F842, 0x2F842, .Mapped [0x5510]),
  (0x2F843, 0x2F843, .Mapped [0x5553]),
  (0x2F844, 0x2F844, .Mapped [0x5563]),
  (0x2F845, 0x2F846, .Mapped [0x5584]),
  (0x2F847, 0x2F847, .Mapped [0x5599]),
  (0x2F848, 0x2F848, .Mapped [0x55AB]),
  (0x2F849, 0x2F849, .Mapped [0x55B3]),
  (0x2F84A, 0x2F84A, .Mapped [0x55C2]),
  (0x2F84B, 0x2F84B, .Mapped [0x5716]),
  (0x2F84C, 0x2F84C, .Mapped [0x5606]),
  (0x2F84D, 0x2F84D, .Mapped [0x5717]),
  (0x2F84E, 0x2F84E, .Mapped [0x5651]),
  (0x2F84F, 0x2F84F, .Mapped [0x5674]),
  (0x2F850, 0x2F850, .Mapped [0x5207]),
  (0x2F851, 0x2F851, .Mapped [0x58EE]),
  (0x2F852, 0x2F852, .Mapped [0x57CE]),
  (0x2F853, 0x2F853, .Mapped [0x57F4]),
  (0x2F854, 0x2F854, .Mapped [0x580D]),
  (0x2F855, 0x2F855, .Mapped [0x578B]),
  (0x2F856, 0x2F856, .Mapped [0x5832]),
  (0x2F857, 0x2F857, .Mapped [0x5831]),
  (0x2F858, 0x2F858, .Mapped [0x58AC]),
  (0x2F859, 0x2F859, .Mapped [0x214E4])]
def idnaMapping_112 : List (Nat × Nat × Mapping) := [
  (0x2F85A, 0x2F85A, .Mapped [0x58F2]),
  (0x2F85B, 0x2F85B, .Mapped [0x58F7]),
  (0x2F85C, 0x2F85C, .Mapped [0x5906]),
  (0x2F85D, 0x2F85D, .Mapped [0x591A]),
  (0x2F85E, 0x2F85E, .Mapped [0x5922]),
  (0x2F85F, 0x2F85F, .Mapped [0x5962]),
  (0x2F860, 0x2F860, .Mapped [0x216A8]),
  (0x2F861, 0x2F861, .Mapped [0x216EA]),
  (0x2F862, 0x2F862, .Mapped [0x59EC]),
  (0x2F863, 0x2F863, .Mapped [0x5A1B]),
  (0x2F864, 0x2F864, .Mapped [0x5A27]),
  (0x2F865, 0x2F865, .Mapped [0x59D8]),
  (0x2F866, 0x2F866, .Mapped [0x5A66]),
  (0x2F867, 0x2F867, .Mapped [0x36EE]),
  (0x2F868, 0x2F868, .Disallowed),
  (0x2F869, 0x2F869, .Mapped [0x5B08]),
  (0x2F86A, 0x2F86B, .Mapped [0x5B3E]),
  (0x2F86C, 0x2F86C, .Mapped [0x219C8]),
  (0x2F86D, 0x2F86D, .Mapped [0x5BC3]),
  (0x2F86E, 0x2F86E, .Mapped [0x5BD8]),
  (0x2F86F, 0x2F86F, .Mapped [0x5BE7]),
  (0x2F870, 0x2F870, .Mapped [0x5BF3]),
  (0x2F871, 0x2F871, .Mapped [0x21B18]),
  (0x2F872, 0x2F872, .Mapped [0x5BFF]),
  (0x2F873, 0x2F873, .Mapped [0x5C06]),
  (0x2F874, 0x2F874, .Disallowed),
  (0x2F875, 0x2F875, .Mapped [0x5C22]),
  (0x2F876, 0x2F876, .Mapped [0x3781]),
  (0x2F877, 0x2F877, .Mapped [0x5C60]),
  (0x2F878, 0x2F878, .Mapped [0x5C6E]),
  (0x2F879, 0x2F879, .Mapped [0x5CC0]),
  (0x2F87A, 0x2F87A, .Mapped [0x5C8D]),
  (0x2F87B, 0x2F87B, .Mapped [0x21DE4]),
  (0x2F87C, 0x2F87C, .Mapped [0x5D43]),
  (0x2F87D, 0x2F87D, .Mapped [0x21DE6]),
  (0x2F87E, 0x2F87E, .Mapped [0x5D6E]),
  (0x2F87F, 0x2F87F, .Mapped [0x5D6B]),
  (0x2F880, 0x2F880, .Mapped [0x5D7C]),
  (0x2F881, 0x2F881, .Mapped [0x5DE1]),
  (0x2F882, 0x2F882, .Mapped [0x5DE2]),
  (0x2F883, 0x2F883, .Mapped [0x382F]),
  (0x2F884, 0x2F884, .Mapped [0x5DFD]),
  (0x2F885, 0x2F885, .Mapped [0x5E28]),
  (0x2F886, 0x2F886, .Mapped [0x5E3D]),
  (0x2F887, 0x2F887, .Mapped [0x5E69]),
  (0x2F888, 0x2F888, .Mapped [0x3862]),
  (0x2F889, 0x2F889, .Mapped [0x22183]),
  (0x2F88A, 0x2F88A, .Mapped [0x387C]),
  (0x2F88B, 0x2F88B, .Mapped [0x5EB0]),
  (0x2F88C, 0x2F88C, .Mapped [0x5EB3]),
  (0x2F88D, 0x2F88D, .Mapped [0x5EB6]),
  (0x2F88E, 0x2F88E, .Mapped [0x5ECA]),
  (0x2F88F, 0x2F88F, .Mapped [0x2A392]),
  (0x2F890, 0x2F890, .Mapped [0x5EFE]),
  (0x2F891, 0x2F892, .Mapped [0x22331]),
  (0x2F893, 0x2F893, .Mapped [0x8201]),
  (0x2F894, 0x2F895, .Mapped [0x5F22]),
  (0x2F896, 0x2F896, .Mapped [0x38C7]),
  (0x2F897, 0x2F897, .Mapped [0x232B8]),
  (0x2F898, 0x2F898, .Mapped [0x261DA]),
  (0x2F899, 0x2F899, .Mapped [0x5F62]),
  (0x2F89A, 0x2F89A, .Mapped [0x5F6B]),
  (0x2F89B, 0x2F89B, .Mapped [0x38E3]),
  (0x2F89C, 0x2F89C, .Mapped [0x5F9A])]
def idnaMapping_113 : List (Nat × Nat × Mapping) := [
  (0x2F89D, 0x2F89D, .Mapped [0x5FCD]),
  (0x2F89E, 0x2F89E, .Mapped [0x5FD7]),
  (0x2F89F, 0x2F89F, .Mapped [0x5FF9]),
  (0x2F8A0, 0x2F8A0, .Mapped [0x6081]),
  (0x2F8A1, 0x2F8A1, .Mapped [0x393A]),
  (0x2F8A2, 0x2F8A2, .Mapped [0x391C]),
  (0x2F8A3, 0x2F8A3, .Mapped [0x6094]),
  (0x2F8A4, 0x2F8A4, .Mapped [0x226D4]),
  (0x2F8A5, 0x2F8A5, .Mapped [0x60C7]),
  (0x2F8A6, 0x2F8A6, .Mapped [0x6148]),
  (0x2F8A7, 0x2F8A7, .Mapped [0x614C]),
  (0x2F8A8, 0x2F8A8, .Mapped [0x614E]),
  (0x2F8A9, 0x2F8A9, .Mapped [0x614C]),
  (0x2F8AA, 0x2F8AA, .Mapped [0x617A]),
  (0x2F8AB, 0x2F8AB, .Mapped [0x618E]),
  (0x2F8AC, 0x2F8AC, .Mapped [0x61B2]),
  (0x2F8AD, 0x2F8AD, .Mapped [0x61A4]),
  (0x2F8AE, 0x2F8AE, .Mapped [0x61AF]),
  (0x2F8AF, 0x2F8AF, .Mapped [0x61DE]),
  (0x2F8B0, 0x2F8B0, .Mapped [0x61F2]),
  (0x2F8B1, 0x2F8B1, .Mapped [0x61F6]),
  (0x2F8B2, 0x2F8B2, .Mapped [0x6210]),
  (0x2F8B3, 0x2F8B3, .Mapped [0x621B]),
  (0x2F8B4, 0x2F8B4, .Mapped [0x625D]),
  (0x2F8B5, 0x2F8B5, .Mapped [0x62B1]),
  (0x2F8B6, 0x2F8B6, .Mapped [0x62D4]),
  (0x2F8B7, 0x2F8B7, .Mapped [0x6350]),
  (0x2F8B8, 0x2F8B8, .Mapped [0x22B0C]),
  (0x2F8B9, 0x2F8B9, .Mapped [0x633D]),
  (0x2F8BA, 0x2F8BA, .Mapped [0x62FC]),
  (0x2F8BB, 0x2F8BB, .Mapped [0x6368]),
  (0x2F8BC, 0x2F8BC, .Mapped [0x6383]),
  (0x2F8BD, 0x2F8BD, .Mapped [0x63E4]),
  (0x2F8BE, 0x2F8BE, .Mapped [0x22BF1]),
  (0x2F8BF, 0x2F8BF, .Mapped [0x6422]),
  (0x2F8C0, 0x2F8C0, .Mapped [0x63C5]),
  (0x2F8C1, 0x2F8C1, .Mapped [0x63A9]),
  (0x2F8C2, 0x2F8C2, .Mapped [0x3A2E]),
  (0x2F8C3, 0x2F8C3, .Mapped [0x6469]),
  (0x2F8C4, 0x2F8C4, .Mapped [0x647E]),
  (0x2F8C5, 0x2F8C5, .Mapped [0x649D]),
  (0x2F8C6, 0x2F8C6, .Mapped [0x6477]),
  (0x2F8C7, 0x2F8C7, .Mapped [0x3A6C]),
  (0x2F8C8, 0x2F8C8, .Mapped [0x654F]),
  (0x2F8C9, 0x2F8C9, .Mapped [0x656C]),
  (0x2F8CA, 0x2F8CA, .Mapped [0x2300A]),
  (0x2F8CB, 0x2F8CB, .Mapped [0x65E3]),
  (0x2F8CC, 0x2F8CC, .Mapped [0x66F8]),
  (0x2F8CD, 0x2F8CD, .Mapped [0x6649]),
  (0x2F8CE, 0x2F8CE, .Mapped [0x3B19]),
  (0x2F8CF, 0x2F8CF, .Mapped [0x6691]),
  (0x2F8D0, 0x2F8D0, .Mapped [0x3B08]),
  (0x2F8D1, 0x2F8D1, .Mapped [0x3AE4]),
  (0x2F8D2, 0x2F8D2, .Mapped [0x5192]),
  (0x2F8D3, 0x2F8D3, .Mapped [0x5195]),
  (0x2F8D4, 0x2F8D4, .Mapped [0x6700]),
  (0x2F8D5, 0x2F8D5, .Mapped [0x669C]),
  (0x2F8D6, 0x2F8D6, .Mapped [0x80AD]),
  (0x2F8D7, 0x2F8D7, .Mapped [0x43D9]),
  (0x2F8D8, 0x2F8D8, .Mapped [0x6717]),
  (0x2F8D9, 0x2F8D9, .Mapped [0x671B]),
  (0x2F8DA, 0x2F8DA, .Mapped [0x6721]),
  (0x2F8DB, 0x2F8DB, .Mapped [0x675E]),
  (0x2F8DC, 0x2F8DC, .Mapped [0x6753])]
def idnaMapping_114 : List (Nat × Nat × Mapping) := [
  (0x2F8DD, 0x2F8DD, .Mapped [0x233C3]),
  (0x2F8DE, 0x2F8DE, .Mapped [0x3B49]),
  (0x2F8DF, 0x2F8DF, .Mapped [0x67FA]),
  (0x2F8E0, 0x2F8E0, .Mapped [0x6785]),
  (0x2F8E1, 0x2F8E1, .Mapped [0x6852]),
  (0x2F8E2, 0x2F8E2, .Mapped [0x6885]),
  (0x2F8E3, 0x2F8E3, .Mapped [0x2346D]),
  (0x2F8E4, 0x2F8E4, .Mapped [0x688E]),
  (0x2F8E5, 0x2F8E5, .Mapped [0x681F]),
  (0x2F8E6, 0x2F8E6, .Mapped [0x6914]),
  (0x2F8E7, 0x2F8E7, .Mapped [0x3B9D]),
  (0x2F8E8, 0x2F8E8, .Mapped [0x6942]),
  (0x2F8E9, 0x2F8E9, .Mapped [0x69A3]),
  (0x2F8EA, 0x2F8EA, .Mapped [0x69EA]),
  (0x2F8EB, 0x2F8EB, .Mapped [0x6AA8]),
  (0x2F8EC, 0x2F8EC, .Mapped [0x236A3]),
  (0x2F8ED, 0x2F8ED, .Mapped [0x6ADB]),
  (0x2F8EE, 0x2F8EE, .Mapped [0x3C18]),
  (0x2F8EF, 0x2F8EF, .Mapped [0x6B21]),
  (0x2F8F0, 0x2F8F0, .Mapped [0x238A7]),
  (0x2F8F1, 0x2F8F1, .Mapped [0x6B54]),
  (0x2F8F2, 0x2F8F2, .Mapped [0x3C4E]),
  (0x2F8F3, 0x2F8F3, .Mapped [0x6B72]),
  (0x2F8F4, 0x2F8F4, .Mapped [0x6B9F]),
  (0x2F8F5, 0x2F8F5, .Mapped [0x6BBA]),
  (0x2F8F6, 0x2F8F6, .Mapped [0x6BBB]),
  (0x2F8F7, 0x2F8F7, .Mapped [0x23A8D]),
  (0x2F8F8, 0x2F8F8, .Mapped [0x21D0B]),
  (0x2F8F9, 0x2F8F9, .Mapped [0x23AFA]),
  (0x2F8FA, 0x2F8FA, .Mapped [0x6C4E]),
  (0x2F8FB, 0x2F8FB, .Mapped [0x23CBC]),
  (0x2F8FC, 0x2F8FC, .Mapped [0x6CBF]),
  (0x2F8FD, 0x2F8FD, .Mapped [0x6CCD]),
  (0x2F8FE, 0x2F8FE, .Mapped [0x6C67]),
  (0x2F8FF, 0x2F8FF, .Mapped [0x6D16]),
  (0x2F900, 0x2F900, .Mapped [0x6D3E]),
  (0x2F901, 0x2F901, .Mapped [0x6D77]),
  (0x2F902, 0x2F902, .Mapped [0x6D41]),
  (0x2F903, 0x2F903, .Mapped [0x6D69]),
  (0x2F904, 0x2F904, .Mapped [0x6D78]),
  (0x2F905, 0x2F905, .Mapped [0x6D85]),
  (0x2F906, 0x2F906, .Mapped [0x23D1E]),
  (0x2F907, 0x2F907, .Mapped [0x6D34]),
  (0x2F908, 0x2F908, .Mapped [0x6E2F]),
  (0x2F909, 0x2F909, .Mapped [0x6E6E]),
  (0x2F90A, 0x2F90A, .Mapped [0x3D33]),
  (0x2F90B, 0x2F90B, .Mapped [0x6ECB]),
  (0x2F90C, 0x2F90C, .Mapped [0x6EC7]),
  (0x2F90D, 0x2F90D, .Mapped [0x23ED1]),
  (0x2F90E, 0x2F90E, .Mapped [0x6DF9]),
  (0x2F90F, 0x2F90F, .Mapped [0x6F6E]),
  (0x2F910, 0x2F910, .Mapped [0x23F5E]),
  (0x2F911, 0x2F911, .Mapped [0x23F8E]),
  (0x2F912, 0x2F912, .Mapped [0x6FC6]),
  (0x2F913, 0x2F913, .Mapped [0x7039]),
  (0x2F914, 0x2F914, .Mapped [0x701E]),
  (0x2F915, 0x2F915, .Mapped [0x701B]),
  (0x2F916, 0x2F916, .Mapped [0x3D96]),
  (0x2F917, 0x2F917, .Mapped [0x704A]),
  (0x2F918, 0x2F918, .Mapped [0x707D]),
  (0x2F919, 0x2F919, .Mapped [0x7077]),
  (0x2F91A, 0x2F91A, .Mapped [0x70AD]),
  (0x2F91B, 0x2F91B, .Mapped [0x20525]),
  (0x2F91C, 0x2F91C, .Mapped [0x7145])]
def idnaMapping_115 : List (Nat × Nat × Mapping) := [
  (0x2F91D, 0x2F91D, .Mapped [0x24263]),
  (0x2F91E, 0x2F91E, .Mapped [0x719C]),
  (0x2F91F, 0x2F91F, .Disallowed),
  (0x2F920, 0x2F920, .Mapped [0x7228]),
  (0x2F921, 0x2F921, .Mapped [0x7235]),
  (0x2F922, 0x2F922, .Mapped [0x7250]),
  (0x2F923, 0x2F923, .Mapped [0x24608]),
  (0x2F924, 0x2F924, .Mapped [0x7280]),
  (0x2F925, 0x2F925, .Mapped [0x7295]),
  (0x2F926, 0x2F926, .Mapped [0x24735]),
  (0x2F927, 0x2F927, .Mapped [0x24814]),
  (0x2F928, 0x2F928, .Mapped [0x737A]),
  (0x2F929, 0x2F929, .Mapped [0x738B]),
  (0x2F92A, 0x2F92A, .Mapped [0x3EAC]),
  (0x2F92B, 0x2F92B, .Mapped [0x73A5]),
  (0x2F92C, 0x2F92D, .Mapped [0x3EB8]),
  (0x2F92E, 0x2F92E, .Mapped [0x7447]),
  (0x2F92F, 0x2F92F, .Mapped [0x745C]),
  (0x2F930, 0x2F930, .Mapped [0x7471]),
  (0x2F931, 0x2F931, .Mapped [0x7485]),
  (0x2F932, 0x2F932, .Mapped [0x74CA]),
  (0x2F933, 0x2F933, .Mapped [0x3F1B]),
  (0x2F934, 0x2F934, .Mapped [0x7524]),
  (0x2F935, 0x2F935, .Mapped [0x24C36]),
  (0x2F936, 0x2F936, .Mapped [0x753E]),
  (0x2F937, 0x2F937, .Mapped [0x24C92]),
  (0x2F938, 0x2F938, .Mapped [0x7570]),
  (0x2F939, 0x2F939, .Mapped [0x2219F]),
  (0x2F93A, 0x2F93A, .Mapped [0x7610]),
  (0x2F93B, 0x2F93B, .Mapped [0x24FA1]),
  (0x2F93C, 0x2F93C, .Mapped [0x24FB8]),
  (0x2F93D, 0x2F93D, .Mapped [0x25044]),
  (0x2F93E, 0x2F93E, .Mapped [0x3FFC]),
  (0x2F93F, 0x2F93F, .Mapped [0x4008]),
  (0x2F940, 0x2F940, .Mapped [0x76F4]),
  (0x2F941, 0x2F941, .Mapped [0x250F3]),
  (0x2F942, 0x2F942, .Mapped [0x250F2]),
  (0x2F943, 0x2F943, .Mapped [0x25119]),
  (0x2F944, 0x2F944, .Mapped [0x25133]),
  (0x2F945, 0x2F945, .Mapped [0x771E]),
  (0x2F946, 0x2F947, .Mapped [0x771F]),
  (0x2F948, 0x2F948, .Mapped [0x774A]),
  (0x2F949, 0x2F949, .Mapped [0x4039]),
  (0x2F94A, 0x2F94A, .Mapped [0x778B]),
  (0x2F94B, 0x2F94B, .Mapped [0x4046]),
  (0x2F94C, 0x2F94C, .Mapped [0x4096]),
  (0x2F94D, 0x2F94D, .Mapped [0x2541D]),
  (0x2F94E, 0x2F94E, .Mapped [0x784E]),
  (0x2F94F, 0x2F94F, .Mapped [0x788C]),
  (0x2F950, 0x2F950, .Mapped [0x78CC]),
  (0x2F951, 0x2F951, .Mapped [0x40E3]),
  (0x2F952, 0x2F952, .Mapped [0x25626]),
  (0x2F953, 0x2F953, .Mapped [0x7956]),
  (0x2F954, 0x2F954, .Mapped [0x2569A]),
  (0x2F955, 0x2F955, .Mapped [0x256C5]),
  (0x2F956, 0x2F956, .Mapped [0x798F]),
  (0x2F957, 0x2F957, .Mapped [0x79EB]),
  (0x2F958, 0x2F958, .Mapped [0x412F]),
  (0x2F959, 0x2F959, .Mapped [0x7A40]),
  (0x2F95A, 0x2F95A, .Mapped [0x7A4A]),
  (0x2F95B, 0x2F95B, .Mapped [0x7A4F]),
  (0x2F95C, 0x2F95C, .Mapped [0x2597C]),
  (0x2F95D, 0x2F95E, .Mapped [0x25AA7]),
  (0x2F95F, 0x2F95F, .Disallowed)]
def idnaMapping_116 : List (Nat × Nat × Mapping) := [
  (0x2F960, 0x2F960, .Mapped [0x4202]),
  (0x2F961, 0x2F961, .Mapped [0x25BAB]),
  (0x2F962, 0x2F962, .Mapped [0x7BC6]),
  (0x2F963, 0x2F963, .Mapped [0x7BC9]),
  (0x2F964, 0x2F964, .Mapped [0x4227]),
  (0x2F965, 0x2F965, .Mapped [0x25C80]),
  (0x2F966, 0x2F966, .Mapped [0x7CD2]),
  (0x2F967, 0x2F967, .Mapped [0x42A0]),
  (0x2F968, 0x2F968, .Mapped [0x7CE8]),
  (0x2F969, 0x2F969, .Mapped [0x7CE3]),
  (0x2F96A, 0x2F96A, .Mapped [0x7D00]),
  (0x2F96B, 0x2F96B, .Mapped [0x25F86]),
  (0x2F96C, 0x2F96C, .Mapped [0x7D63]),
  (0x2F96D, 0x2F96D, .Mapped [0x4301]),
  (0x2F96E, 0x2F96E, .Mapped [0x7DC7]),
  (0x2F96F, 0x2F96F, .Mapped [0x7E02]),
  (0x2F970, 0x2F970, .Mapped [0x7E45]),
  (0x2F971, 0x2F971, .Mapped [0x4334]),
  (0x2F972, 0x2F972, .Mapped [0x26228]),
  (0x2F973, 0x2F973, .Mapped [0x26247]),
  (0x2F974, 0x2F974, .Mapped [0x4359]),
  (0x2F975, 0x2F975, .Mapped [0x262D9]),
  (0x2F976, 0x2F976, .Mapped [0x7F7A]),
  (0x2F977, 0x2F977, .Mapped [0x2633E]),
  (0x2F978, 0x2F978, .Mapped [0x7F95]),
  (0x2F979, 0x2F979, .Mapped [0x7FFA]),
  (0x2F97A, 0x2F97A, .Mapped [0x8005]),
  (0x2F97B, 0x2F97B, .Mapped [0x264DA]),
  (0x2F97C, 0x2F97C, .Mapped [0x26523]),
  (0x2F97D, 0x2F97D, .Mapped [0x8060]),
  (0x2F97E, 0x2F97E, .Mapped [0x265A8]),
  (0x2F97F, 0x2F97F, .Mapped [0x8070]),
  (0x2F980, 0x2F980, .Mapped [0x2335F]),
  (0x2F981, 0x2F981, .Mapped [0x43D5]),
  (0x2F982, 0x2F982, .Mapped [0x80B2]),
  (0x2F983, 0x2F983, .Mapped [0x8103]),
  (0x2F984, 0x2F984, .Mapped [0x440B]),
  (0x2F985, 0x2F985, .Mapped [0x813E]),
  (0x2F986, 0x2F986, .Mapped [0x5AB5]),
  (0x2F987, 0x2F987, .Mapped [0x267A7]),
  (0x2F988, 0x2F988, .Mapped [0x267B5]),
  (0x2F989, 0x2F989, .Mapped [0x23393]),
  (0x2F98A, 0x2F98A, .Mapped [0x2339C]),
  (0x2F98B, 0x2F98B, .Mapped [0x8201]),
  (0x2F98C, 0x2F98C, .Mapped [0x8204]),
  (0x2F98D, 0x2F98D, .Mapped [0x8F9E]),
  (0x2F98E, 0x2F98E, .Mapped [0x446B]),
  (0x2F98F, 0x2F98F, .Mapped [0x8291]),
  (0x2F990, 0x2F990, .Mapped [0x828B]),
  (0x2F991, 0x2F991, .Mapped [0x829D]),
  (0x2F992, 0x2F992, .Mapped [0x52B3]),
  (0x2F993, 0x2F993, .Mapped [0x82B1]),
  (0x2F994, 0x2F994, .Mapped [0x82B3]),
  (0x2F995, 0x2F995, .Mapped [0x82BD]),
  (0x2F996, 0x2F996, .Mapped [0x82E6]),
  (0x2F997, 0x2F997, .Mapped [0x26B3C]),
  (0x2F998, 0x2F998, .Mapped [0x82E5]),
  (0x2F999, 0x2F999, .Mapped [0x831D]),
  (0x2F99A, 0x2F99A, .Mapped [0x8363]),
  (0x2F99B, 0x2F99B, .Mapped [0x83AD]),
  (0x2F99C, 0x2F99C, .Mapped [0x8323]),
  (0x2F99D, 0x2F99D, .Mapped [0x83BD]),
  (0x2F99E, 0x2F99E, .Mapped [0x83E7]),
  (0x2F99F, 0x2F99F, .Mapped [0x8457])]
def idnaMapping_117 : List (Nat × Nat × Mapping) := [
  (0x2F9A0, 0x2F9A0, .Mapped [0x8353]),
  (0x2F9A1, 0x2F9A1, .Mapped [0x83CA]),
  (0x2F9A2, 0x2F9A2, .Mapped [0x83CC]),
  (0x2F9A3, 0x2F9A3, .Mapped [0x83DC]),
  (0x2F9A4, 0x2F9A4, .Mapped [0x26C36]),
  (0x2F9A5, 0x2F9A5, .Mapped [0x26D6B]),
  (0x2F9A6, 0x2F9A6, .Mapped [0x26CD5]),
  (0x2F9A7, 0x2F9A7, .Mapped [0x452B]),
  (0x2F9A8, 0x2F9A8, .Mapped [0x84F1]),
  (0x2F9A9, 0x2F9A9, .Mapped [0x84F3]),
  (0x2F9AA, 0x2F9AA, .Mapped [0x8516]),
  (0x2F9AB, 0x2F9AB, .Mapped [0x273CA]),
  (0x2F9AC, 0x2F9AC, .Mapped [0x8564]),
  (0x2F9AD, 0x2F9AD, .Mapped [0x26F2C]),
  (0x2F9AE, 0x2F9AE, .Mapped [0x455D]),
  (0x2F9AF, 0x2F9AF, .Mapped [0x4561]),
  (0x2F9B0, 0x2F9B0, .Mapped [0x26FB1]),
  (0x2F9B1, 0x2F9B1, .Mapped [0x270D2]),
  (0x2F9B2, 0x2F9B2, .Mapped [0x456B]),
  (0x2F9B3, 0x2F9B3, .Mapped [0x8650]),
  (0x2F9B4, 0x2F9B4, .Mapped [0x865C]),
  (0x2F9B5, 0x2F9B5, .Mapped [0x8667]),
  (0x2F9B6, 0x2F9B6, .Mapped [0x8669]),
  (0x2F9B7, 0x2F9B7, .Mapped [0x86A9]),
  (0x2F9B8, 0x2F9B8, .Mapped [0x8688]),
  (0x2F9B9, 0x2F9B9, .Mapped [0x870E]),
  (0x2F9BA, 0x2F9BA, .Mapped [0x86E2]),
  (0x2F9BB, 0x2F9BB, .Mapped [0x8779]),
  (0x2F9BC, 0x2F9BC, .Mapped [0x8728]),
  (0x2F9BD, 0x2F9BD, .Mapped [0x876B]),
  (0x2F9BE, 0x2F9BE, .Mapped [0x8786]),
  (0x2F9BF, 0x2F9BF, .Disallowed),
  (0x2F9C0, 0x2F9C0, .Mapped [0x87E1]),
  (0x2F9C1, 0x2F9C1, .Mapped [0x8801]),
  (0x2F9C2, 0x2F9C2, .Mapped [0x45F9]),
  (0x2F9C3, 0x2F9C3, .Mapped [0x8860]),
  (0x2F9C4, 0x2F9C4, .Mapped [0x8863]),
  (0x2F9C5, 0x2F9C5, .Mapped [0x27667]),
  (0x2F9C6, 0x2F9C6, .Mapped [0x88D7]),
  (0x2F9C7, 0x2F9C7, .Mapped [0x88DE]),
  (0x2F9C8, 0x2F9C8, .Mapped [0x4635]),
  (0x2F9C9, 0x2F9C9, .Mapped [0x88FA]),
  (0x2F9CA, 0x2F9CA, .Mapped [0x34BB]),
  (0x2F9CB, 0x2F9CB, .Mapped [0x278AE]),
  (0x2F9CC, 0x2F9CC, .Mapped [0x27966]),
  (0x2F9CD, 0x2F9CD, .Mapped [0x46BE]),
  (0x2F9CE, 0x2F9CE, .Mapped [0x46C7]),
  (0x2F9CF, 0x2F9CF, .Mapped [0x8AA0]),
  (0x2F9D0, 0x2F9D0, .Mapped [0x8AED]),
  (0x2F9D1, 0x2F9D1, .Mapped [0x8B8A]),
  (0x2F9D2, 0x2F9D2, .Mapped [0x8C55]),
  (0x2F9D3, 0x2F9D3, .Mapped [0x27CA8]),
  (0x2F9D4, 0x2F9D4, .Mapped [0x8CAB]),
  (0x2F9D5, 0x2F9D5, .Mapped [0x8CC1]),
  (0x2F9D6, 0x2F9D6, .Mapped [0x8D1B]),
  (0x2F9D7, 0x2F9D7, .Mapped [0x8D77]),
  (0x2F9D8, 0x2F9D8, .Mapped [0x27F2F]),
  (0x2F9D9, 0x2F9D9, .Mapped [0x20804]),
  (0x2F9DA, 0x2F9DA, .Mapped [0x8DCB]),
  (0x2F9DB, 0x2F9DB, .Mapped [0x8DBC]),
  (0x2F9DC, 0x2F9DC, .Mapped [0x8DF0]),
  (0x2F9DD, 0x2F9DD, .Mapped [0x208DE]),
  (0x2F9DE, 0x2F9DE, .Mapped [0x8ED4]),
  (0x2F9DF, 0x2F9DF, .Mapped [0x8F38])]
def idnaMapping_118 : List (Nat × Nat × Mapping) := [
  (0x2F9E0, 0x2F9E0, .Mapped [0x285D2]),
  (0x2F9E1, 0x2F9E1, .Mapped [0x285ED]),
  (0x2F9E2, 0x2F9E2, .Mapped [0x9094]),
  (0x2F9E3, 0x2F9E3, .Mapped [0x90F1]),
  (0x2F9E4, 0x2F9E4, .Mapped [0x9111]),
  (0x2F9E5, 0x2F9E5, .Mapped [0x2872E]),
  (0x2F9E6, 0x2F9E6, .Mapped [0x911B]),
  (0x2F9E7, 0x2F9E7, .Mapped [0x9238]),
  (0x2F9E8, 0x2F9E8, .Mapped [0x92D7]),
  (0x2F9E9, 0x2F9E9, .Mapped [0x92D8]),
  (0x2F9EA, 0x2F9EA, .Mapped [0x927C]),
  (0x2F9EB, 0x2F9EB, .Mapped [0x93F9]),
  (0x2F9EC, 0x2F9EC, .Mapped [0x9415]),
  (0x2F9ED, 0x2F9ED, .Mapped [0x28BFA]),
  (0x2F9EE, 0x2F9EE, .Mapped [0x958B]),
  (0x2F9EF, 0x2F9EF, .Mapped [0x4995]),
  (0x2F9F0, 0x2F9F0, .Mapped [0x95B7]),
  (0x2F9F1, 0x2F9F1, .Mapped [0x28D77]),
  (0x2F9F2, 0x2F9F2, .Mapped [0x49E6]),
  (0x2F9F3, 0x2F9F3, .Mapped [0x96C3]),
  (0x2F9F4, 0x2F9F4, .Mapped [0x5DB2]),
  (0x2F9F5, 0x2F9F5, .Mapped [0x9723]),
  (0x2F9F6, 0x2F9F6, .Mapped [0x29145]),
  (0x2F9F7, 0x2F9F7, .Mapped [0x2921A]),
  (0x2F9F8, 0x2F9F8, .Mapped [0x4A6E]),
  (0x2F9F9, 0x2F9F9, .Mapped [0x4A76]),
  (0x2F9FA, 0x2F9FA, .Mapped [0x97E0]),
  (0x2F9FB, 0x2F9FB, .Mapped [0x2940A]),
  (0x2F9FC, 0x2F9FC, .Mapped [0x4AB2]),
  (0x2F9FD, 0x2F9FD, .Mapped [0x29496]),
  (0x2F9FE, 0x2F9FF, .Mapped [0x980B]),
  (0x2FA00, 0x2FA00, .Mapped [0x9829]),
  (0x2FA01, 0x2FA01, .Mapped [0x295B6]),
  (0x2FA02, 0x2FA02, .Mapped [0x98E2]),
  (0x2FA03, 0x2FA03, .Mapped [0x4B33]),
  (0x2FA04, 0x2FA04, .Mapped [0x9929]),
  (0x2FA05, 0x2FA05, .Mapped [0x99A7]),
  (0x2FA06, 0x2FA06, .Mapped [0x99C2]),
  (0x2FA07, 0x2FA07, .Mapped [0x99FE]),
  (0x2FA08, 0x2FA08, .Mapped [0x4BCE]),
  (0x2FA09, 0x2FA09, .Mapped [0x29B30]),
  (0x2FA0A, 0x2FA0A, .Mapped [0x9B12]),
  (0x2FA0B, 0x2FA0B, .Mapped [0x9C40]),
  (0x2FA0C, 0x2FA0C, .Mapped [0x9CFD]),
  (0x2FA0D, 0x2FA0D, .Mapped [0x4CCE]),
  (0x2FA0E, 0x2FA0E, .Mapped [0x4CED]),
  (0x2FA0F, 0x2FA0F, .Mapped [0x9D67]),
  (0x2FA10, 0x2FA10, .Mapped [0x2A0CE]),
  (0x2FA11, 0x2FA11, .Mapped [0x4CF8]),
  (0x2FA12, 0x2FA12, .Mapped [0x2A105]),
  (0x2FA13, 0x2FA13, .Mapped [0x2A20E]),
  (0x2FA14, 0x2FA14, .Mapped [0x2A291]),
  (0x2FA15, 0x2FA15, .Mapped [0x9EBB]),
  (0x2FA16, 0x2FA16, .Mapped [0x4D56]),
  (0x2FA17, 0x2FA17, .Mapped [0x9EF9]),
  (0x2FA18, 0x2FA18, .Mapped [0x9EFE]),
  (0x2FA19, 0x2FA19, .Mapped [0x9F05]),
  (0x2FA1A, 0x2FA1A, .Mapped [0x9F0F]),
  (0x2FA1B, 0x2FA1B, .Mapped [0x9F16]),
  (0x2FA1C, 0x2FA1C, .Mapped [0x9F3B]),
  (0x2FA1D, 0x2FA1D, .Mapped [0x2A600]),
  (0x2FA1E, 0xE00FF, .Disallowed),
  (0xE0100, 0xE01EF, .Ignored),
  (0xE01F0, 0x10FFFF, .Disallowed)]
/-- unic/idna/mapping/tables/idna_mapping.rsv (all 7616 entries, `CharDataTable::Range`), in chunks of 64. -/
def idnaMapping : List (List (Nat × Nat × Mapping)) := [idnaMapping_0, idnaMapping_1, idnaMapping_2, idnaMapping_3, idnaMapping_4, idnaMapping_5, idnaMapping_6, idnaMapping_7, idnaMapping_8, idnaMapping_9, idnaMapping_10, idnaMapping_11, idnaMapping_12, idnaMapping_13, idnaMapping_14, idnaMapping_15, idnaMapping_16, idnaMapping_17, idnaMapping_18, idnaMapping_19, idnaMapping_20, idnaMapping_21, idnaMapping_22, idnaMapping_23, idnaMapping_24, idnaMapping_25, idnaMapping_26, idnaMapping_27, idnaMapping_28, idnaMapping_29, idnaMapping_30, idnaMapping_31, idnaMapping_32, idnaMapping_33, idnaMapping_34, idnaMapping_35, idnaMapping_36, idnaMapping_37, idnaMapping_38, idnaMapping_39, idnaMapping_40, idnaMapping_41, idnaMapping_42, idnaMapping_43, idnaMapping_44, idnaMapping_45, idnaMapping_46, idnaMapping_47, idnaMapping_48, idnaMapping_49, idnaMapping_50, idnaMapping_51, idnaMapping_52, idnaMapping_53, idnaMapping_54, idnaMapping_55, idnaMapping_56, idnaMapping_57, idnaMapping_58, idnaMapping_59, idnaMapping_60, idnaMapping_61, idnaMapping_62, idnaMapping_63, idnaMapping_64, idnaMapping_65, idnaMapping_66, idnaMapping_67, idnaMapping_68, idnaMapping_69, idnaMapping_70, idnaMapping_71, idnaMapping_72, idnaMapping_73, idnaMapping_74, idnaMapping_75, idnaMapping_76, idnaMapping_77, idnaMapping_78, idnaMapping_79, idnaMapping_80, idnaMapping_81, idnaMapping_82, idnaMapping_83, idnaMapping_84, idnaMapping_85, idnaMapping_86, idnaMapping_87, idnaMapping_88, idnaMapping_89, idnaMapping_90, idnaMapping_91, idnaMapping_92, idnaMapping_93, idnaMapping_94, idnaMapping_95, idnaMapping_96, idnaMapping_97, idnaMapping_98, idnaMapping_99, idnaMapping_100, idnaMapping_101, idnaMapping_102, idnaMapping_103, idnaMapping_104, idnaMapping_105, idnaMapping_106, idnaMapping_107, idnaMapping_108, idnaMapping_109, idnaMapping_110, idnaMapping_111, idnaMapping_112, idnaMapping_113, idnaMapping_114, idnaMapping_115, idnaMapping_116, idnaMapping_117, idnaMapping_118]

end Data
