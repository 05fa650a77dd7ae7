/-! Generated by tools/gen_tables.py: literal translation of data tables. -/
namespace Data

def bidiControl_0 : List (Nat × Nat × Unit) := [
  (0x61C, 0x61C, ()),
  (0x200E, 0x200F, ()),
  (0x202A, 0x202E, ()),
  (0x2066, 0x2069, ())]
/-- unic/ucd/bidi/tables/bidi_control.rsv (all 4 entries, `CharDataTable::Range`), in chunks of 64. -/
def bidiControl : List (List (Nat × Nat × Unit)) := [bidiControl_0]

def bidiMirrored_0 : List (Nat × Nat × Unit) := [
  (0x28, 0x29, ()),
  (0x3C, 0x3C, ()),
  (0x3E, 0x3E, ()),
  (0x5B, 0x5B, ()),
  (0x5D, 0x5D, ()),
  (0x7B, 0x7B, ()),
  (0x7D, 0x7D, ()),
  (0xAB, 0xAB, ()),
  (0xBB, 0xBB, ()),
  (0xF3A, 0xF3D, ()),
  (0x169B, 0x169C, ()),
  (0x2039, 0x203A, ()),
  (0x2045, 0x2046, ()),
  (0x207D, 0x207E, ()),
  (0x208D, 0x208E, ()),
  (0x2140, 0x2140, ()),
  (0x2201, 0x2204, ()),
  (0x2208, 0x220D, ()),
  (0x2211, 0x2211, ()),
  (0x2215, 0x2216, ()),
  (0x221A, 0x221D, ()),
  (0x221F, 0x2222, ()),
  (0x2224, 0x2224, ()),
  (0x2226, 0x2226, ()),
  (0x222B, 0x2233, ()),
  (0x2239, 0x2239, ()),
  (0x223B, 0x224C, ()),
  (0x2252, 0x2255, ()),
  (0x225F, 0x2260, ()),
  (0x2262, 0x2262, ()),
  (0x2264, 0x226B, ()),
  (0x226E, 0x228C, ()),
  (0x228F, 0x2292, ()),
  (0x2298, 0x2298, ()),
  (0x22A2, 0x22A3, ()),
  (0x22A6, 0x22B8, ()),
  (0x22BE, 0x22BF, ()),
  (0x22C9, 0x22CD, ()),
  (0x22D0, 0x22D1, ()),
  (0x22D6, 0x22ED, ()),
  (0x22F0, 0x22FF, ()),
  (0x2308, 0x230B, ()),
  (0x2320, 0x2321, ()),
  (0x2329, 0x232A, ()),
  (0x2768, 0x2775, ()),
  (0x27C0, 0x27C0, ()),
  (0x27C3, 0x27C6, ()),
  (0x27C8, 0x27C9, ()),
  (0x27CB, 0x27CD, ()),
  (0x27D3, 0x27D6, ()),
  (0x27DC, 0x27DE, ()),
  (0x27E2, 0x27EF, ()),
  (0x2983, 0x2998, ()),
  (0x299B, 0x29AF, ()),
  (0x29B8, 0x29B8, ()),
  (0x29C0, 0x29C5, ()),
  (0x29C9, 0x29C9, ()),
  (0x29CE, 0x29D2, ()),
  (0x29D4, 0x29D5, ()),
  (0x29D8, 0x29DC, ()),
  (0x29E1, 0x29E1, ()),
  (0x29E3, 0x29E5, ()),
  (0x29E8, 0x29E9, ()),
  (0x29F4, 0x29F9, ())]
def bidiMirrored_1 : List (Nat × Nat × Unit) := [
  (0x29FC, 0x29FD, ()),
  (0x2A0A, 0x2A1C, ()),
  (0x2A1E, 0x2A21, ()),
  (0x2A24, 0x2A24, ()),
  (0x2A26, 0x2A26, ()),
  (0x2A29, 0x2A29, ()),
  (0x2A2B, 0x2A2E, ()),
  (0x2A34, 0x2A35, ()),
  (0x2A3C, 0x2A3E, ()),
  (0x2A57, 0x2A58, ()),
  (0x2A64, 0x2A65, ()),
  (0x2A6A, 0x2A6D, ()),
  (0x2A6F, 0x2A70, ()),
  (0x2A73, 0x2A74, ()),
  (0x2A79, 0x2AA3, ()),
  (0x2AA6, 0x2AAD, ()),
  (0x2AAF, 0x2AD6, ()),
  (0x2ADC, 0x2ADC, ()),
  (0x2ADE, 0x2ADE, ()),
  (0x2AE2, 0x2AE6, ()),
  (0x2AEC, 0x2AEE, ()),
  (0x2AF3, 0x2AF3, ()),
  (0x2AF7, 0x2AFB, ()),
  (0x2AFD, 0x2AFD, ()),
  (0x2E02, 0x2E05, ()),
  (0x2E09, 0x2E0A, ()),
  (0x2E0C, 0x2E0D, ()),
  (0x2E1C, 0x2E1D, ()),
  (0x2E20, 0x2E29, ()),
  (0x3008, 0x3011, ()),
  (0x3014, 0x301B, ()),
  (0xFE59, 0xFE5E, ()),
  (0xFE64, 0xFE65, ()),
  (0xFF08, 0xFF09, ()),
  (0xFF1C, 0xFF1C, ()),
  (0xFF1E, 0xFF1E, ()),
  (0xFF3B, 0xFF3B, ()),
  (0xFF3D, 0xFF3D, ()),
  (0xFF5B, 0xFF5B, ()),
  (0xFF5D, 0xFF5D, ()),
  (0xFF5F, 0xFF60, ()),
  (0xFF62, 0xFF63, ()),
  (0x1D6DB, 0x1D6DB, ()),
  (0x1D715, 0x1D715, ()),
  (0x1D74F, 0x1D74F, ()),
  (0x1D789, 0x1D789, ()),
  (0x1D7C3, 0x1D7C3, ())]
/-- unic/ucd/bidi/tables/bidi_mirrored.rsv (all 111 entries, `CharDataTable::Range`), in chunks of 64. -/
def bidiMirrored : List (List (Nat × Nat × Unit)) := [bidiMirrored_0, bidiMirrored_1]

end Data
