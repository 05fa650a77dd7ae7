/-! Generated by tools/gen_tables.py: literal translation of data tables. -/
namespace Data

def emoji_0 : List (Nat × Nat × Unit) := [
  (0x23, 0x23, ()),
  (0x2A, 0x2A, ()),
  (0x30, 0x39, ()),
  (0xA9, 0xA9, ()),
  (0xAE, 0xAE, ()),
  (0x203C, 0x203C, ()),
  (0x2049, 0x2049, ()),
  (0x2122, 0x2122, ()),
  (0x2139, 0x2139, ()),
  (0x2194, 0x2199, ()),
  (0x21A9, 0x21AA, ()),
  (0x231A, 0x231B, ()),
  (0x2328, 0x2328, ()),
  (0x23CF, 0x23CF, ()),
  (0x23E9, 0x23F3, ()),
  (0x23F8, 0x23FA, ()),
  (0x24C2, 0x24C2, ()),
  (0x25AA, 0x25AB, ()),
  (0x25B6, 0x25B6, ()),
  (0x25C0, 0x25C0, ()),
  (0x25FB, 0x25FE, ()),
  (0x2600, 0x2604, ()),
  (0x260E, 0x260E, ()),
  (0x2611, 0x2611, ()),
  (0x2614, 0x2615, ()),
  (0x2618, 0x2618, ()),
  (0x261D, 0x261D, ()),
  (0x2620, 0x2620, ()),
  (0x2622, 0x2623, ()),
  (0x2626, 0x2626, ()),
  (0x262A, 0x262A, ()),
  (0x262E, 0x262F, ()),
  (0x2638, 0x263A, ()),
  (0x2640, 0x2640, ()),
  (0x2642, 0x2642, ()),
  (0x2648, 0x2653, ()),
  (0x2660, 0x2660, ()),
  (0x2663, 0x2663, ()),
  (0x2665, 0x2666, ()),
  (0x2668, 0x2668, ()),
  (0x267B, 0x267B, ()),
  (0x267F, 0x267F, ()),
  (0x2692, 0x2697, ()),
  (0x2699, 0x2699, ()),
  (0x269B, 0x269C, ()),
  (0x26A0, 0x26A1, ()),
  (0x26AA, 0x26AB, ()),
  (0x26B0, 0x26B1, ()),
  (0x26BD, 0x26BE, ()),
  (0x26C4, 0x26C5, ()),
  (0x26C8, 0x26C8, ()),
  (0x26CE, 0x26CF, ()),
  (0x26D1, 0x26D1, ()),
  (0x26D3, 0x26D4, ()),
  (0x26E9, 0x26EA, ()),
  (0x26F0, 0x26F5, ()),
  (0x26F7, 0x26FA, ()),
  (0x26FD, 0x26FD, ()),
  (0x2702, 0x2702, ()),
  (0x2705, 0x2705, ()),
  (0x2708, 0x270D, ()),
  (0x270F, 0x270F, ()),
  (0x2712, 0x2712, ()),
  (0x2714, 0x2714, ())]
def emoji_1 : List (Nat × Nat × Unit) := [
  (0x2716, 0x2716, ()),
  (0x271D, 0x271D, ()),
  (0x2721, 0x2721, ()),
  (0x2728, 0x2728, ()),
  (0x2733, 0x2734, ()),
  (0x2744, 0x2744, ()),
  (0x2747, 0x2747, ()),
  (0x274C, 0x274C, ()),
  (0x274E, 0x274E, ()),
  (0x2753, 0x2755, ()),
  (0x2757, 0x2757, ()),
  (0x2763, 0x2764, ()),
  (0x2795, 0x2797, ()),
  (0x27A1, 0x27A1, ()),
  (0x27B0, 0x27B0, ()),
  (0x27BF, 0x27BF, ()),
  (0x2934, 0x2935, ()),
  (0x2B05, 0x2B07, ()),
  (0x2B1B, 0x2B1C, ()),
  (0x2B50, 0x2B50, ()),
  (0x2B55, 0x2B55, ()),
  (0x3030, 0x3030, ()),
  (0x303D, 0x303D, ()),
  (0x3297, 0x3297, ()),
  (0x3299, 0x3299, ()),
  (0x1F004, 0x1F004, ()),
  (0x1F0CF, 0x1F0CF, ()),
  (0x1F170, 0x1F171, ()),
  (0x1F17E, 0x1F17F, ()),
  (0x1F18E, 0x1F18E, ()),
  (0x1F191, 0x1F19A, ()),
  (0x1F1E6, 0x1F1FF, ()),
  (0x1F201, 0x1F202, ()),
  (0x1F21A, 0x1F21A, ()),
  (0x1F22F, 0x1F22F, ()),
  (0x1F232, 0x1F23A, ()),
  (0x1F250, 0x1F251, ()),
  (0x1F300, 0x1F321, ()),
  (0x1F324, 0x1F393, ()),
  (0x1F396, 0x1F397, ()),
  (0x1F399, 0x1F39B, ()),
  (0x1F39E, 0x1F3F0, ()),
  (0x1F3F3, 0x1F3F5, ()),
  (0x1F3F7, 0x1F4FD, ()),
  (0x1F4FF, 0x1F53D, ()),
  (0x1F549, 0x1F54E, ()),
  (0x1F550, 0x1F567, ()),
  (0x1F56F, 0x1F570, ()),
  (0x1F573, 0x1F57A, ()),
  (0x1F587, 0x1F587, ()),
  (0x1F58A, 0x1F58D, ()),
  (0x1F590, 0x1F590, ()),
  (0x1F595, 0x1F596, ()),
  (0x1F5A4, 0x1F5A5, ()),
  (0x1F5A8, 0x1F5A8, ()),
  (0x1F5B1, 0x1F5B2, ()),
  (0x1F5BC, 0x1F5BC, ()),
  (0x1F5C2, 0x1F5C4, ()),
  (0x1F5D1, 0x1F5D3, ()),
  (0x1F5DC, 0x1F5DE, ()),
  (0x1F5E1, 0x1F5E1, ()),
  (0x1F5E3, 0x1F5E3, ()),
  (0x1F5E8, 0x1F5E8, ()),
  (0x1F5EF, 0x1F5EF, ())]
def emoji_2 : List (Nat × Nat × Unit) := [
  (0x1F5F3, 0x1F5F3, ()),
  (0x1F5FA, 0x1F64F, ()),
  (0x1F680, 0x1F6C5, ()),
  (0x1F6CB, 0x1F6D2, ()),
  (0x1F6E0, 0x1F6E5, ()),
  (0x1F6E9, 0x1F6E9, ()),
  (0x1F6EB, 0x1F6EC, ()),
  (0x1F6F0, 0x1F6F0, ()),
  (0x1F6F3, 0x1F6F8, ()),
  (0x1F910, 0x1F93A, ()),
  (0x1F93C, 0x1F93E, ()),
  (0x1F940, 0x1F945, ()),
  (0x1F947, 0x1F94C, ()),
  (0x1F950, 0x1F96B, ()),
  (0x1F980, 0x1F997, ()),
  (0x1F9C0, 0x1F9C0, ()),
  (0x1F9D0, 0x1F9E6, ())]
/-- unic/emoji/char/tables/emoji.rsv (all 145 entries, `CharDataTable::Range`), in chunks of 64. -/
def emoji : List (List (Nat × Nat × Unit)) := [emoji_0, emoji_1, emoji_2]

def emojiComponent_0 : List (Nat × Nat × Unit) := [
  (0x23, 0x23, ()),
  (0x2A, 0x2A, ()),
  (0x30, 0x39, ()),
  (0x1F1E6, 0x1F1FF, ()),
  (0x1F3FB, 0x1F3FF, ())]
/-- unic/emoji/char/tables/emoji_component.rsv (all 5 entries, `CharDataTable::Range`), in chunks of 64. -/
def emojiComponent : List (List (Nat × Nat × Unit)) := [emojiComponent_0]

def emojiModifier_0 : List (Nat × Nat × Unit) := [
  (0x1F3FB, 0x1F3FF, ())]
/-- unic/emoji/char/tables/emoji_modifier.rsv (all 1 entries, `CharDataTable::Range`), in chunks of 64. -/
def emojiModifier : List (List (Nat × Nat × Unit)) := [emojiModifier_0]

def emojiModifierBase_0 : List (Nat × Nat × Unit) := [
  (0x261D, 0x261D, ()),
  (0x26F9, 0x26F9, ()),
  (0x270A, 0x270D, ()),
  (0x1F385, 0x1F385, ()),
  (0x1F3C2, 0x1F3C4, ()),
  (0x1F3C7, 0x1F3C7, ()),
  (0x1F3CA, 0x1F3CC, ()),
  (0x1F442, 0x1F443, ()),
  (0x1F446, 0x1F450, ()),
  (0x1F466, 0x1F469, ()),
  (0x1F46E, 0x1F46E, ()),
  (0x1F470, 0x1F478, ()),
  (0x1F47C, 0x1F47C, ()),
  (0x1F481, 0x1F483, ()),
  (0x1F485, 0x1F487, ()),
  (0x1F4AA, 0x1F4AA, ()),
  (0x1F574, 0x1F575, ()),
  (0x1F57A, 0x1F57A, ()),
  (0x1F590, 0x1F590, ()),
  (0x1F595, 0x1F596, ()),
  (0x1F645, 0x1F647, ()),
  (0x1F64B, 0x1F64F, ()),
  (0x1F6A3, 0x1F6A3, ()),
  (0x1F6B4, 0x1F6B6, ()),
  (0x1F6C0, 0x1F6C0, ()),
  (0x1F6CC, 0x1F6CC, ()),
  (0x1F918, 0x1F91C, ()),
  (0x1F91E, 0x1F91F, ()),
  (0x1F926, 0x1F926, ()),
  (0x1F930, 0x1F939, ()),
  (0x1F93D, 0x1F93E, ()),
  (0x1F9D1, 0x1F9DD, ())]
/-- unic/emoji/char/tables/emoji_modifier_base.rsv (all 32 entries, `CharDataTable::Range`), in chunks of 64. -/
def emojiModifierBase : List (List (Nat × Nat × Unit)) := [emojiModifierBase_0]

def emojiPresentation_0 : List (Nat × Nat × Unit) := [
  (0x231A, 0x231B, ()),
  (0x23E9, 0x23EC, ()),
  (0x23F0, 0x23F0, ()),
  (0x23F3, 0x23F3, ()),
  (0x25FD, 0x25FE, ()),
  (0x2614, 0x2615, ()),
  (0x2648, 0x2653, ()),
  (0x267F, 0x267F, ()),
  (0x2693, 0x2693, ()),
  (0x26A1, 0x26A1, ()),
  (0x26AA, 0x26AB, ()),
  (0x26BD, 0x26BE, ()),
  (0x26C4, 0x26C5, ()),
  (0x26CE, 0x26CE, ()),
  (0x26D4, 0x26D4, ()),
  (0x26EA, 0x26EA, ()),
  (0x26F2, 0x26F3, ()),
  (0x26F5, 0x26F5, ()),
  (0x26FA, 0x26FA, ()),
  (0x26FD, 0x26FD, ()),
  (0x2705, 0x2705, ()),
  (0x270A, 0x270B, ()),
  (0x2728, 0x2728, ()),
  (0x274C, 0x274C, ()),
  (0x274E, 0x274E, ()),
  (0x2753, 0x2755, ()),
  (0x2757, 0x2757, ()),
  (0x2795, 0x2797, ()),
  (0x27B0, 0x27B0, ()),
  (0x27BF, 0x27BF, ()),
  (0x2B1B, 0x2B1C, ()),
  (0x2B50, 0x2B50, ()),
  (0x2B55, 0x2B55, ()),
  (0x1F004, 0x1F004, ()),
  (0x1F0CF, 0x1F0CF, ()),
  (0x1F18E, 0x1F18E, ()),
  (0x1F191, 0x1F19A, ()),
  (0x1F1E6, 0x1F1FF, ()),
  (0x1F201, 0x1F201, ()),
  (0x1F21A, 0x1F21A, ()),
  (0x1F22F, 0x1F22F, ()),
  (0x1F232, 0x1F236, ()),
  (0x1F238, 0x1F23A, ()),
  (0x1F250, 0x1F251, ()),
  (0x1F300, 0x1F320, ()),
  (0x1F32D, 0x1F335, ()),
  (0x1F337, 0x1F37C, ()),
  (0x1F37E, 0x1F393, ()),
  (0x1F3A0, 0x1F3CA, ()),
  (0x1F3CF, 0x1F3D3, ()),
  (0x1F3E0, 0x1F3F0, ()),
  (0x1F3F4, 0x1F3F4, ()),
  (0x1F3F8, 0x1F43E, ()),
  (0x1F440, 0x1F440, ()),
  (0x1F442, 0x1F4FC, ()),
  (0x1F4FF, 0x1F53D, ()),
  (0x1F54B, 0x1F54E, ()),
  (0x1F550, 0x1F567, ()),
  (0x1F57A, 0x1F57A, ()),
  (0x1F595, 0x1F596, ()),
  (0x1F5A4, 0x1F5A4, ()),
  (0x1F5FB, 0x1F64F, ()),
  (0x1F680, 0x1F6C5, ()),
  (0x1F6CC, 0x1F6CC, ())]
def emojiPresentation_1 : List (Nat × Nat × Unit) := [
  (0x1F6D0, 0x1F6D2, ()),
  (0x1F6EB, 0x1F6EC, ()),
  (0x1F6F4, 0x1F6F8, ()),
  (0x1F910, 0x1F93A, ()),
  (0x1F93C, 0x1F93E, ()),
  (0x1F940, 0x1F945, ()),
  (0x1F947, 0x1F94C, ()),
  (0x1F950, 0x1F96B, ()),
  (0x1F980, 0x1F997, ()),
  (0x1F9C0, 0x1F9C0, ()),
  (0x1F9D0, 0x1F9E6, ())]
/-- unic/emoji/char/tables/emoji_presentation.rsv (all 75 entries, `CharDataTable::Range`), in chunks of 64. -/
def emojiPresentation : List (List (Nat × Nat × Unit)) := [emojiPresentation_0, emojiPresentation_1]

end Data
