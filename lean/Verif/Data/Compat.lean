import Verif.Data.Enums
/-! Generated by tools/gen_tables.py: literal translation of data tables. -/
namespace Data

def compatibilityDecomposition_0 : List (Nat × DecompositionType × List Nat) := [
  (0xA0, (.NoBreak, [0x20])),
  (0xA8, (.Compat, [0x20, 0x308])),
  (0xAA, (.Super, [0x61])),
  (0xAF, (.Compat, [0x20, 0x304])),
  (0xB2, (.Super, [0x32])),
  (0xB3, (.Super, [0x33])),
  (0xB4, (.Compat, [0x20, 0x301])),
  (0xB5, (.Compat, [0x3BC])),
  (0xB8, (.Compat, [0x20, 0x327])),
  (0xB9, (.Super, [0x31])),
  (0xBA, (.Super, [0x6F])),
  (0xBC, (.Fraction, [0x31, 0x2044, 0x34])),
  (0xBD, (.Fraction, [0x31, 0x2044, 0x32])),
  (0xBE, (.Fraction, [0x33, 0x2044, 0x34])),
  (0x132, (.Compat, [0x49, 0x4A])),
  (0x133, (.Compat, [0x69, 0x6A])),
  (0x13F, (.Compat, [0x4C, 0xB7])),
  (0x140, (.Compat, [0x6C, 0xB7])),
  (0x149, (.Compat, [0x2BC, 0x6E])),
  (0x17F, (.Compat, [0x73])),
  (0x1C4, (.Compat, [0x44, 0x17D])),
  (0x1C5, (.Compat, [0x44, 0x17E])),
  (0x1C6, (.Compat, [0x64, 0x17E])),
  (0x1C7, (.Compat, [0x4C, 0x4A])),
  (0x1C8, (.Compat, [0x4C, 0x6A])),
  (0x1C9, (.Compat, [0x6C, 0x6A])),
  (0x1CA, (.Compat, [0x4E, 0x4A])),
  (0x1CB, (.Compat, [0x4E, 0x6A])),
  (0x1CC, (.Compat, [0x6E, 0x6A])),
  (0x1F1, (.Compat, [0x44, 0x5A])),
  (0x1F2, (.Compat, [0x44, 0x7A])),
  (0x1F3, (.Compat, [0x64, 0x7A])),
  (0x2B0, (.Super, [0x68])),
  (0x2B1, (.Super, [0x266])),
  (0x2B2, (.Super, [0x6A])),
  (0x2B3, (.Super, [0x72])),
  (0x2B4, (.Super, [0x279])),
  (0x2B5, (.Super, [0x27B])),
  (0x2B6, (.Super, [0x281])),
  (0x2B7, (.Super, [0x77])),
  (0x2B8, (.Super, [0x79])),
  (0x2D8, (.Compat, [0x20, 0x306])),
  (0x2D9, (.Compat, [0x20, 0x307])),
  (0x2DA, (.Compat, [0x20, 0x30A])),
  (0x2DB, (.Compat, [0x20, 0x328])),
  (0x2DC, (.Compat, [0x20, 0x303])),
  (0x2DD, (.Compat, [0x20, 0x30B])),
  (0x2E0, (.Super, [0x263])),
  (0x2E1, (.Super, [0x6C])),
  (0x2E2, (.Super, [0x73])),
  (0x2E3, (.Super, [0x78])),
  (0x2E4, (.Super, [0x295])),
  (0x37A, (.Compat, [0x20, 0x345])),
  (0x384, (.Compat, [0x20, 0x301])),
  (0x3D0, (.Compat, [0x3B2])),
  (0x3D1, (.Compat, [0x3B8])),
  (0x3D2, (.Compat, [0x3A5])),
  (0x3D5, (.Compat, [0x3C6])),
  (0x3D6, (.Compat, [0x3C0])),
  (0x3F0, (.Compat, [0x3BA])),
  (0x3F1, (.Compat, [0x3C1])),
  (0x3F2, (.Compat, [0x3C2])),
  (0x3F4, (.Compat, [0x398])),
  (0x3F5, (.Compat, [0x3B5]))]
def compatibilityDecomposition_1 : List (Nat × DecompositionType × List Nat) := [
  (0x3F9, (.Compat, [0x3A3])),
  (0x587, (.Compat, [0x565, 0x582])),
  (0x675, (.Compat, [0x627, 0x674])),
  (0x676, (.Compat, [0x648, 0x674])),
  (0x677, (.Compat, [0x6C7, 0x674])),
  (0x678, (.Compat, [0x64A, 0x674])),
  (0xE33, (.Compat, [0xE4D, 0xE32])),
  (0xEB3, (.Compat, [0xECD, 0xEB2])),
  (0xEDC, (.Compat, [0xEAB, 0xE99])),
  (0xEDD, (.Compat, [0xEAB, 0xEA1])),
  (0xF0C, (.NoBreak, [0xF0B])),
  (0xF77, (.Compat, [0xFB2, 0xF81])),
  (0xF79, (.Compat, [0xFB3, 0xF81])),
  (0x10FC, (.Super, [0x10DC])),
  (0x1D2C, (.Super, [0x41])),
  (0x1D2D, (.Super, [0xC6])),
  (0x1D2E, (.Super, [0x42])),
  (0x1D30, (.Super, [0x44])),
  (0x1D31, (.Super, [0x45])),
  (0x1D32, (.Super, [0x18E])),
  (0x1D33, (.Super, [0x47])),
  (0x1D34, (.Super, [0x48])),
  (0x1D35, (.Super, [0x49])),
  (0x1D36, (.Super, [0x4A])),
  (0x1D37, (.Super, [0x4B])),
  (0x1D38, (.Super, [0x4C])),
  (0x1D39, (.Super, [0x4D])),
  (0x1D3A, (.Super, [0x4E])),
  (0x1D3C, (.Super, [0x4F])),
  (0x1D3D, (.Super, [0x222])),
  (0x1D3E, (.Super, [0x50])),
  (0x1D3F, (.Super, [0x52])),
  (0x1D40, (.Super, [0x54])),
  (0x1D41, (.Super, [0x55])),
  (0x1D42, (.Super, [0x57])),
  (0x1D43, (.Super, [0x61])),
  (0x1D44, (.Super, [0x250])),
  (0x1D45, (.Super, [0x251])),
  (0x1D46, (.Super, [0x1D02])),
  (0x1D47, (.Super, [0x62])),
  (0x1D48, (.Super, [0x64])),
  (0x1D49, (.Super, [0x65])),
  (0x1D4A, (.Super, [0x259])),
  (0x1D4B, (.Super, [0x25B])),
  (0x1D4C, (.Super, [0x25C])),
  (0x1D4D, (.Super, [0x67])),
  (0x1D4F, (.Super, [0x6B])),
  (0x1D50, (.Super, [0x6D])),
  (0x1D51, (.Super, [0x14B])),
  (0x1D52, (.Super, [0x6F])),
  (0x1D53, (.Super, [0x254])),
  (0x1D54, (.Super, [0x1D16])),
  (0x1D55, (.Super, [0x1D17])),
  (0x1D56, (.Super, [0x70])),
  (0x1D57, (.Super, [0x74])),
  (0x1D58, (.Super, [0x75])),
  (0x1D59, (.Super, [0x1D1D])),
  (0x1D5A, (.Super, [0x26F])),
  (0x1D5B, (.Super, [0x76])),
  (0x1D5C, (.Super, [0x1D25])),
  (0x1D5D, (.Super, [0x3B2])),
  (0x1D5E, (.Super, [0x3B3])),
  (0x1D5F, (.Super, [0x3B4])),
  (0x1D60, (.Super, [0x3C6]))]
def compatibilityDecomposition_2 : List (Nat × DecompositionType × List Nat) := [
  (0x1D61, (.Super, [0x3C7])),
  (0x1D62, (.Sub, [0x69])),
  (0x1D63, (.Sub, [0x72])),
  (0x1D64, (.Sub, [0x75])),
  (0x1D65, (.Sub, [0x76])),
  (0x1D66, (.Sub, [0x3B2])),
  (0x1D67, (.Sub, [0x3B3])),
  (0x1D68, (.Sub, [0x3C1])),
  (0x1D69, (.Sub, [0x3C6])),
  (0x1D6A, (.Sub, [0x3C7])),
  (0x1D78, (.Super, [0x43D])),
  (0x1D9B, (.Super, [0x252])),
  (0x1D9C, (.Super, [0x63])),
  (0x1D9D, (.Super, [0x255])),
  (0x1D9E, (.Super, [0xF0])),
  (0x1D9F, (.Super, [0x25C])),
  (0x1DA0, (.Super, [0x66])),
  (0x1DA1, (.Super, [0x25F])),
  (0x1DA2, (.Super, [0x261])),
  (0x1DA3, (.Super, [0x265])),
  (0x1DA4, (.Super, [0x268])),
  (0x1DA5, (.Super, [0x269])),
  (0x1DA6, (.Super, [0x26A])),
  (0x1DA7, (.Super, [0x1D7B])),
  (0x1DA8, (.Super, [0x29D])),
  (0x1DA9, (.Super, [0x26D])),
  (0x1DAA, (.Super, [0x1D85])),
  (0x1DAB, (.Super, [0x29F])),
  (0x1DAC, (.Super, [0x271])),
  (0x1DAD, (.Super, [0x270])),
  (0x1DAE, (.Super, [0x272])),
  (0x1DAF, (.Super, [0x273])),
  (0x1DB0, (.Super, [0x274])),
  (0x1DB1, (.Super, [0x275])),
  (0x1DB2, (.Super, [0x278])),
  (0x1DB3, (.Super, [0x282])),
  (0x1DB4, (.Super, [0x283])),
  (0x1DB5, (.Super, [0x1AB])),
  (0x1DB6, (.Super, [0x289])),
  (0x1DB7, (.Super, [0x28A])),
  (0x1DB8, (.Super, [0x1D1C])),
  (0x1DB9, (.Super, [0x28B])),
  (0x1DBA, (.Super, [0x28C])),
  (0x1DBB, (.Super, [0x7A])),
  (0x1DBC, (.Super, [0x290])),
  (0x1DBD, (.Super, [0x291])),
  (0x1DBE, (.Super, [0x292])),
  (0x1DBF, (.Super, [0x3B8])),
  (0x1E9A, (.Compat, [0x61, 0x2BE])),
  (0x1FBD, (.Compat, [0x20, 0x313])),
  (0x1FBF, (.Compat, [0x20, 0x313])),
  (0x1FC0, (.Compat, [0x20, 0x342])),
  (0x1FFE, (.Compat, [0x20, 0x314])),
  (0x2002, (.Compat, [0x20])),
  (0x2003, (.Compat, [0x20])),
  (0x2004, (.Compat, [0x20])),
  (0x2005, (.Compat, [0x20])),
  (0x2006, (.Compat, [0x20])),
  (0x2007, (.NoBreak, [0x20])),
  (0x2008, (.Compat, [0x20])),
  (0x2009, (.Compat, [0x20])),
  (0x200A, (.Compat, [0x20])),
  (0x2011, (.NoBreak, [0x2010])),
  (0x2017, (.Compat, [0x20, 0x333]))]
def compatibilityDecomposition_3 : List (Nat × DecompositionType × List Nat) := [
  (0x2024, (.Compat, [0x2E])),
  (0x2025, (.Compat, [0x2E, 0x2E])),
  (0x2026, (.Compat, [0x2E, 0x2E, 0x2E])),
  (0x202F, (.NoBreak, [0x20])),
  (0x2033, (.Compat, [0x2032, 0x2032])),
  (0x2034, (.Compat, [0x2032, 0x2032, 0x2032])),
  (0x2036, (.Compat, [0x2035, 0x2035])),
  (0x2037, (.Compat, [0x2035, 0x2035, 0x2035])),
  (0x203C, (.Compat, [0x21, 0x21])),
  (0x203E, (.Compat, [0x20, 0x305])),
  (0x2047, (.Compat, [0x3F, 0x3F])),
  (0x2048, (.Compat, [0x3F, 0x21])),
  (0x2049, (.Compat, [0x21, 0x3F])),
  (0x2057, (.Compat, [0x2032, 0x2032, 0x2032, 0x2032])),
  (0x205F, (.Compat, [0x20])),
  (0x2070, (.Super, [0x30])),
  (0x2071, (.Super, [0x69])),
  (0x2074, (.Super, [0x34])),
  (0x2075, (.Super, [0x35])),
  (0x2076, (.Super, [0x36])),
  (0x2077, (.Super, [0x37])),
  (0x2078, (.Super, [0x38])),
  (0x2079, (.Super, [0x39])),
  (0x207A, (.Super, [0x2B])),
  (0x207B, (.Super, [0x2212])),
  (0x207C, (.Super, [0x3D])),
  (0x207D, (.Super, [0x28])),
  (0x207E, (.Super, [0x29])),
  (0x207F, (.Super, [0x6E])),
  (0x2080, (.Sub, [0x30])),
  (0x2081, (.Sub, [0x31])),
  (0x2082, (.Sub, [0x32])),
  (0x2083, (.Sub, [0x33])),
  (0x2084, (.Sub, [0x34])),
  (0x2085, (.Sub, [0x35])),
  (0x2086, (.Sub, [0x36])),
  (0x2087, (.Sub, [0x37])),
  (0x2088, (.Sub, [0x38])),
  (0x2089, (.Sub, [0x39])),
  (0x208A, (.Sub, [0x2B])),
  (0x208B, (.Sub, [0x2212])),
  (0x208C, (.Sub, [0x3D])),
  (0x208D, (.Sub, [0x28])),
  (0x208E, (.Sub, [0x29])),
  (0x2090, (.Sub, [0x61])),
  (0x2091, (.Sub, [0x65])),
  (0x2092, (.Sub, [0x6F])),
  (0x2093, (.Sub, [0x78])),
  (0x2094, (.Sub, [0x259])),
  (0x2095, (.Sub, [0x68])),
  (0x2096, (.Sub, [0x6B])),
  (0x2097, (.Sub, [0x6C])),
  (0x2098, (.Sub, [0x6D])),
  (0x2099, (.Sub, [0x6E])),
  (0x209A, (.Sub, [0x70])),
  (0x209B, (.Sub, [0x73])),
  (0x209C, (.Sub, [0x74])),
  (0x20A8, (.Compat, [0x52, 0x73])),
  (0x2100, (.Compat, [0x61, 0x2F, 0x63])),
  (0x2101, (.Compat, [0x61, 0x2F, 0x73])),
  (0x2102, (.Font, [0x43])),
  (0x2103, (.Compat, [0xB0, 0x43])),
  (0x2105, (.Compat, [0x63, 0x2F, 0x6F])),
  (0x2106, (.Compat, [0x63, 0x2F, 0x75]))]
def compatibilityDecomposition_4 : List (Nat × DecompositionType × List Nat) := [
  (0x2107, (.Compat, [0x190])),
  (0x2109, (.Compat, [0xB0, 0x46])),
  (0x210A, (.Font, [0x67])),
  (0x210B, (.Font, [0x48])),
  (0x210C, (.Font, [0x48])),
  (0x210D, (.Font, [0x48])),
  (0x210E, (.Font, [0x68])),
  (0x210F, (.Font, [0x127])),
  (0x2110, (.Font, [0x49])),
  (0x2111, (.Font, [0x49])),
  (0x2112, (.Font, [0x4C])),
  (0x2113, (.Font, [0x6C])),
  (0x2115, (.Font, [0x4E])),
  (0x2116, (.Compat, [0x4E, 0x6F])),
  (0x2119, (.Font, [0x50])),
  (0x211A, (.Font, [0x51])),
  (0x211B, (.Font, [0x52])),
  (0x211C, (.Font, [0x52])),
  (0x211D, (.Font, [0x52])),
  (0x2120, (.Super, [0x53, 0x4D])),
  (0x2121, (.Compat, [0x54, 0x45, 0x4C])),
  (0x2122, (.Super, [0x54, 0x4D])),
  (0x2124, (.Font, [0x5A])),
  (0x2128, (.Font, [0x5A])),
  (0x212C, (.Font, [0x42])),
  (0x212D, (.Font, [0x43])),
  (0x212F, (.Font, [0x65])),
  (0x2130, (.Font, [0x45])),
  (0x2131, (.Font, [0x46])),
  (0x2133, (.Font, [0x4D])),
  (0x2134, (.Font, [0x6F])),
  (0x2135, (.Compat, [0x5D0])),
  (0x2136, (.Compat, [0x5D1])),
  (0x2137, (.Compat, [0x5D2])),
  (0x2138, (.Compat, [0x5D3])),
  (0x2139, (.Font, [0x69])),
  (0x213B, (.Compat, [0x46, 0x41, 0x58])),
  (0x213C, (.Font, [0x3C0])),
  (0x213D, (.Font, [0x3B3])),
  (0x213E, (.Font, [0x393])),
  (0x213F, (.Font, [0x3A0])),
  (0x2140, (.Font, [0x2211])),
  (0x2145, (.Font, [0x44])),
  (0x2146, (.Font, [0x64])),
  (0x2147, (.Font, [0x65])),
  (0x2148, (.Font, [0x69])),
  (0x2149, (.Font, [0x6A])),
  (0x2150, (.Fraction, [0x31, 0x2044, 0x37])),
  (0x2151, (.Fraction, [0x31, 0x2044, 0x39])),
  (0x2152, (.Fraction, [0x31, 0x2044, 0x31, 0x30])),
  (0x2153, (.Fraction, [0x31, 0x2044, 0x33])),
  (0x2154, (.Fraction, [0x32, 0x2044, 0x33])),
  (0x2155, (.Fraction, [0x31, 0x2044, 0x35])),
  (0x2156, (.Fraction, [0x32, 0x2044, 0x35])),
  (0x2157, (.Fraction, [0x33, 0x2044, 0x35])),
  (0x2158, (.Fraction, [0x34, 0x2044, 0x35])),
  (0x2159, (.Fraction, [0x31, 0x2044, 0x36])),
  (0x215A, (.Fraction, [0x35, 0x2044, 0x36])),
  (0x215B, (.Fraction, [0x31, 0x2044, 0x38])),
  (0x215C, (.Fraction, [0x33, 0x2044, 0x38])),
  (0x215D, (.Fraction, [0x35, 0x2044, 0x38])),
  (0x215E, (.Fraction, [0x37, 0x2044, 0x38])),
  (0x215F, (.Fraction, [0x31, 0x2044])),
  (0x2160, (.Compat, [0x49]))]
def compatibilityDecomposition_5 : List (Nat × DecompositionType × List Nat) := [
  (0x2161, (.Compat, [0x49, 0x49])),
  (0x2162, (.Compat, [0x49, 0x49, 0x49])),
  (0x2163, (.Compat, [0x49, 0x56])),
  (0x2164, (.Compat, [0x56])),
  (0x2165, (.Compat, [0x56, 0x49])),
  (0x2166, (.Compat, [0x56, 0x49, 0x49])),
  (0x2167, (.Compat, [0x56, 0x49, 0x49, 0x49])),
  (0x2168, (.Compat, [0x49, 0x58])),
  (0x2169, (.Compat, [0x58])),
  (0x216A, (.Compat, [0x58, 0x49])),
  (0x216B, (.Compat, [0x58, 0x49, 0x49])),
  (0x216C, (.Compat, [0x4C])),
  (0x216D, (.Compat, [0x43])),
  (0x216E, (.Compat, [0x44])),
  (0x216F, (.Compat, [0x4D])),
  (0x2170, (.Compat, [0x69])),
  (0x2171, (.Compat, [0x69, 0x69])),
  (0x2172, (.Compat, [0x69, 0x69, 0x69])),
  (0x2173, (.Compat, [0x69, 0x76])),
  (0x2174, (.Compat, [0x76])),
  (0x2175, (.Compat, [0x76, 0x69])),
  (0x2176, (.Compat, [0x76, 0x69, 0x69])),
  (0x2177, (.Compat, [0x76, 0x69, 0x69, 0x69])),
  (0x2178, (.Compat, [0x69, 0x78])),
  (0x2179, (.Compat, [0x78])),
  (0x217A, (.Compat, [0x78, 0x69])),
  (0x217B, (.Compat, [0x78, 0x69, 0x69])),
  (0x217C, (.Compat, [0x6C])),
  (0x217D, (.Compat, [0x63])),
  (0x217E, (.Compat, [0x64])),
  (0x217F, (.Compat, [0x6D])),
  (0x2189, (.Fraction, [0x30, 0x2044, 0x33])),
  (0x222C, (.Compat, [0x222B, 0x222B])),
  (0x222D, (.Compat, [0x222B, 0x222B, 0x222B])),
  (0x222F, (.Compat, [0x222E, 0x222E])),
  (0x2230, (.Compat, [0x222E, 0x222E, 0x222E])),
  (0x2460, (.Circle, [0x31])),
  (0x2461, (.Circle, [0x32])),
  (0x2462, (.Circle, [0x33])),
  (0x2463, (.Circle, [0x34])),
  (0x2464, (.Circle, [0x35])),
  (0x2465, (.Circle, [0x36])),
  (0x2466, (.Circle, [0x37])),
  (0x2467, (.Circle, [0x38])),
  (0x2468, (.Circle, [0x39])),
  (0x2469, (.Circle, [0x31, 0x30])),
  (0x246A, (.Circle, [0x31, 0x31])),
  (0x246B, (.Circle, [0x31, 0x32])),
  (0x246C, (.Circle, [0x31, 0x33])),
  (0x246D, (.Circle, [0x31, 0x34])),
  (0x246E, (.Circle, [0x31, 0x35])),
  (0x246F, (.Circle, [0x31, 0x36])),
  (0x2470, (.Circle, [0x31, 0x37])),
  (0x2471, (.Circle, [0x31, 0x38])),
  (0x2472, (.Circle, [0x31, 0x39])),
  (0x2473, (.Circle, [0x32, 0x30])),
  (0x2474, (.Compat, [0x28, 0x31, 0x29])),
  (0x2475, (.Compat, [0x28, 0x32, 0x29])),
  (0x2476, (.Compat, [0x28, 0x33, 0x29])),
  (0x2477, (.Compat, [0x28, 0x34, 0x29])),
  (0x2478, (.Compat, [0x28, 0x35, 0x29])),
  (0x2479, (.Compat, [0x28, 0x36, 0x29])),
  (0x247A, (.Compat, [0x28, 0x37, 0x29])),
  (0x247B, (.Compat, [0x28, 0x38, 0x29]))]
def compatibilityDecomposition_6 : List (Nat × DecompositionType × List Nat) := [
  (0x247C, (.Compat, [0x28, 0x39, 0x29])),
  (0x247D, (.Compat, [0x28, 0x31, 0x30, 0x29])),
  (0x247E, (.Compat, [0x28, 0x31, 0x31, 0x29])),
  (0x247F, (.Compat, [0x28, 0x31, 0x32, 0x29])),
  (0x2480, (.Compat, [0x28, 0x31, 0x33, 0x29])),
  (0x2481, (.Compat, [0x28, 0x31, 0x34, 0x29])),
  (0x2482, (.Compat, [0x28, 0x31, 0x35, 0x29])),
  (0x2483, (.Compat, [0x28, 0x31, 0x36, 0x29])),
  (0x2484, (.Compat, [0x28, 0x31, 0x37, 0x29])),
  (0x2485, (.Compat, [0x28, 0x31, 0x38, 0x29])),
  (0x2486, (.Compat, [0x28, 0x31, 0x39, 0x29])),
  (0x2487, (.Compat, [0x28, 0x32, 0x30, 0x29])),
  (0x2488, (.Compat, [0x31, 0x2E])),
  (0x2489, (.Compat, [0x32, 0x2E])),
  (0x248A, (.Compat, [0x33, 0x2E])),
  (0x248B, (.Compat, [0x34, 0x2E])),
  (0x248C, (.Compat, [0x35, 0x2E])),
  (0x248D, (.Compat, [0x36, 0x2E])),
  (0x248E, (.Compat, [0x37, 0x2E])),
  (0x248F, (.Compat, [0x38, 0x2E])),
  (0x2490, (.Compat, [0x39, 0x2E])),
  (0x2491, (.Compat, [0x31, 0x30, 0x2E])),
  (0x2492, (.Compat, [0x31, 0x31, 0x2E])),
  (0x2493, (.Compat, [0x31, 0x32, 0x2E])),
  (0x2494, (.Compat, [0x31, 0x33, 0x2E])),
  (0x2495, (.Compat, [0x31, 0x34, 0x2E])),
  (0x2496, (.Compat, [0x31, 0x35, 0x2E])),
  (0x2497, (.Compat, [0x31, 0x36, 0x2E])),
  (0x2498, (.Compat, [0x31, 0x37, 0x2E])),
  (0x2499, (.Compat, [0x31, 0x38, 0x2E])),
  (0x249A, (.Compat, [0x31, 0x39, 0x2E])),
  (0x249B, (.Compat, [0x32, 0x30, 0x2E])),
  (0x249C, (.Compat, [0x28, 0x61, 0x29])),
  (0x249D, (.Compat, [0x28, 0x62, 0x29])),
  (0x249E, (.Compat, [0x28, 0x63, 0x29])),
  (0x249F, (.Compat, [0x28, 0x64, 0x29])),
  (0x24A0, (.Compat, [0x28, 0x65, 0x29])),
  (0x24A1, (.Compat, [0x28, 0x66, 0x29])),
  (0x24A2, (.Compat, [0x28, 0x67, 0x29])),
  (0x24A3, (.Compat, [0x28, 0x68, 0x29])),
  (0x24A4, (.Compat, [0x28, 0x69, 0x29])),
  (0x24A5, (.Compat, [0x28, 0x6A, 0x29])),
  (0x24A6, (.Compat, [0x28, 0x6B, 0x29])),
  (0x24A7, (.Compat, [0x28, 0x6C, 0x29])),
  (0x24A8, (.Compat, [0x28, 0x6D, 0x29])),
  (0x24A9, (.Compat, [0x28, 0x6E, 0x29])),
  (0x24AA, (.Compat, [0x28, 0x6F, 0x29])),
  (0x24AB, (.Compat, [0x28, 0x70, 0x29])),
  (0x24AC, (.Compat, [0x28, 0x71, 0x29])),
  (0x24AD, (.Compat, [0x28, 0x72, 0x29])),
  (0x24AE, (.Compat, [0x28, 0x73, 0x29])),
  (0x24AF, (.Compat, [0x28, 0x74, 0x29])),
  (0x24B0, (.Compat, [0x28, 0x75, 0x29])),
  (0x24B1, (.Compat, [0x28, 0x76, 0x29])),
  (0x24B2, (.Compat, [0x28, 0x77, 0x29])),
  (0x24B3, (.Compat, [0x28, 0x78, 0x29])),
  (0x24B4, (.Compat, [0x28, 0x79, 0x29])),
  (0x24B5, (.Compat, [0x28, 0x7A, 0x29])),
  (0x24B6, (.Circle, [0x41])),
  (0x24B7, (.Circle, [0x42])),
  (0x24B8, (.Circle, [0x43])),
  (0x24B9, (.Circle, [0x44])),
  (0x24BA, (.Circle, [0x45])),
  (0x24BB, (.Circle, [0x46]))]
def compatibilityDecomposition_7 : List (Nat × DecompositionType × List Nat) := [
  (0x24BC, (.Circle, [0x47])),
  (0x24BD, (.Circle, [0x48])),
  (0x24BE, (.Circle, [0x49])),
  (0x24BF, (.Circle, [0x4A])),
  (0x24C0, (.Circle, [0x4B])),
  (0x24C1, (.Circle, [0x4C])),
  (0x24C2, (.Circle, [0x4D])),
  (0x24C3, (.Circle, [0x4E])),
  (0x24C4, (.Circle, [0x4F])),
  (0x24C5, (.Circle, [0x50])),
  (0x24C6, (.Circle, [0x51])),
  (0x24C7, (.Circle, [0x52])),
  (0x24C8, (.Circle, [0x53])),
  (0x24C9, (.Circle, [0x54])),
  (0x24CA, (.Circle, [0x55])),
  (0x24CB, (.Circle, [0x56])),
  (0x24CC, (.Circle, [0x57])),
  (0x24CD, (.Circle, [0x58])),
  (0x24CE, (.Circle, [0x59])),
  (0x24CF, (.Circle, [0x5A])),
  (0x24D0, (.Circle, [0x61])),
  (0x24D1, (.Circle, [0x62])),
  (0x24D2, (.Circle, [0x63])),
  (0x24D3, (.Circle, [0x64])),
  (0x24D4, (.Circle, [0x65])),
  (0x24D5, (.Circle, [0x66])),
  (0x24D6, (.Circle, [0x67])),
  (0x24D7, (.Circle, [0x68])),
  (0x24D8, (.Circle, [0x69])),
  (0x24D9, (.Circle, [0x6A])),
  (0x24DA, (.Circle, [0x6B])),
  (0x24DB, (.Circle, [0x6C])),
  (0x24DC, (.Circle, [0x6D])),
  (0x24DD, (.Circle, [0x6E])),
  (0x24DE, (.Circle, [0x6F])),
  (0x24DF, (.Circle, [0x70])),
  (0x24E0, (.Circle, [0x71])),
  (0x24E1, (.Circle, [0x72])),
  (0x24E2, (.Circle, [0x73])),
  (0x24E3, (.Circle, [0x74])),
  (0x24E4, (.Circle, [0x75])),
  (0x24E5, (.Circle, [0x76])),
  (0x24E6, (.Circle, [0x77])),
  (0x24E7, (.Circle, [0x78])),
  (0x24E8, (.Circle, [0x79])),
  (0x24E9, (.Circle, [0x7A])),
  (0x24EA, (.Circle, [0x30])),
  (0x2A0C, (.Compat, [0x222B, 0x222B, 0x222B, 0x222B])),
  (0x2A74, (.Compat, [0x3A, 0x3A, 0x3D])),
  (0x2A75, (.Compat, [0x3D, 0x3D])),
  (0x2A76, (.Compat, [0x3D, 0x3D, 0x3D])),
  (0x2C7C, (.Sub, [0x6A])),
  (0x2C7D, (.Super, [0x56])),
  (0x2D6F, (.Super, [0x2D61])),
  (0x2E9F, (.Compat, [0x6BCD])),
  (0x2EF3, (.Compat, [0x9F9F])),
  (0x2F00, (.Compat, [0x4E00])),
  (0x2F01, (.Compat, [0x4E28])),
  (0x2F02, (.Compat, [0x4E36])),
  (0x2F03, (.Compat, [0x4E3F])),
  (0x2F04, (.Compat, [0x4E59])),
  (0x2F05, (.Compat, [0x4E85])),
  (0x2F06, (.Compat, [0x4E8C])),
  (0x2F07, (.Compat, [0x4EA0]))]
def compatibilityDecomposition_8 : List (Nat × DecompositionType × List Nat) := [
  (0x2F08, (.Compat, [0x4EBA])),
  (0x2F09, (.Compat, [0x513F])),
  (0x2F0A, (.Compat, [0x5165])),
  (0x2F0B, (.Compat, [0x516B])),
  (0x2F0C, (.Compat, [0x5182])),
  (0x2F0D, (.Compat, [0x5196])),
  (0x2F0E, (.Compat, [0x51AB])),
  (0x2F0F, (.Compat, [0x51E0])),
  (0x2F10, (.Compat, [0x51F5])),
  (0x2F11, (.Compat, [0x5200])),
  (0x2F12, (.Compat, [0x529B])),
  (0x2F13, (.Compat, [0x52F9])),
  (0x2F14, (.Compat, [0x5315])),
  (0x2F15, (.Compat, [0x531A])),
  (0x2F16, (.Compat, [0x5338])),
  (0x2F17, (.Compat, [0x5341])),
  (0x2F18, (.Compat, [0x535C])),
  (0x2F19, (.Compat, [0x5369])),
  (0x2F1A, (.Compat, [0x5382])),
  (0x2F1B, (.Compat, [0x53B6])),
  (0x2F1C, (.Compat, [0x53C8])),
  (0x2F1D, (.Compat, [0x53E3])),
  (0x2F1E, (.Compat, [0x56D7])),
  (0x2F1F, (.Compat, [0x571F])),
  (0x2F20, (.Compat, [0x58EB])),
  (0x2F21, (.Compat, [0x5902])),
  (0x2F22, (.Compat, [0x590A])),
  (0x2F23, (.Compat, [0x5915])),
  (0x2F24, (.Compat, [0x5927])),
  (0x2F25, (.Compat, [0x5973])),
  (0x2F26, (.Compat, [0x5B50])),
  (0x2F27, (.Compat, [0x5B80])),
  (0x2F28, (.Compat, [0x5BF8])),
  (0x2F29, (.Compat, [0x5C0F])),
  (0x2F2A, (.Compat, [0x5C22])),
  (0x2F2B, (.Compat, [0x5C38])),
  (0x2F2C, (.Compat, [0x5C6E])),
  (0x2F2D, (.Compat, [0x5C71])),
  (0x2F2E, (.Compat, [0x5DDB])),
  (0x2F2F, (.Compat, [0x5DE5])),
  (0x2F30, (.Compat, [0x5DF1])),
  (0x2F31, (.Compat, [0x5DFE])),
  (0x2F32, (.Compat, [0x5E72])),
  (0x2F33, (.Compat, [0x5E7A])),
  (0x2F34, (.Compat, [0x5E7F])),
  (0x2F35, (.Compat, [0x5EF4])),
  (0x2F36, (.Compat, [0x5EFE])),
  (0x2F37, (.Compat, [0x5F0B])),
  (0x2F38, (.Compat, [0x5F13])),
  (0x2F39, (.Compat, [0x5F50])),
  (0x2F3A, (.Compat, [0x5F61])),
  (0x2F3B, (.Compat, [0x5F73])),
  (0x2F3C, (.Compat, [0x5FC3])),
  (0x2F3D, (.Compat, [0x6208])),
  (0x2F3E, (.Compat, [0x6236])),
  (0x2F3F, (.Compat, [0x624B])),
  (0x2F40, (.Compat, [0x652F])),
  (0x2F41, (.Compat, [0x6534])),
  (0x2F42, (.Compat, [0x6587])),
  (0x2F43, (.Compat, [0x6597])),
  (0x2F44, (.Compat, [0x65A4])),
  (0x2F45, (.Compat, [0x65B9])),
  (0x2F46, (.Compat, [0x65E0])),
  (0x2F47, (.Compat, [0x65E5]))]
def compatibilityDecomposition_9 : List (Nat × DecompositionType × List Nat) := [
  (0x2F48, (.Compat, [0x66F0])),
  (0x2F49, (.Compat, [0x6708])),
  (0x2F4A, (.Compat, [0x6728])),
  (0x2F4B, (.Compat, [0x6B20])),
  (0x2F4C, (.Compat, [0x6B62])),
  (0x2F4D, (.Compat, [0x6B79])),
  (0x2F4E, (.Compat, [0x6BB3])),
  (0x2F4F, (.Compat, [0x6BCB])),
  (0x2F50, (.Compat, [0x6BD4])),
  (0x2F51, (.Compat, [0x6BDB])),
  (0x2F52, (.Compat, [0x6C0F])),
  (0x2F53, (.Compat, [0x6C14])),
  (0x2F54, (.Compat, [0x6C34])),
  (0x2F55, (.Compat, [0x706B])),
  (0x2F56, (.Compat, [0x722A])),
  (0x2F57, (.Compat, [0x7236])),
  (0x2F58, (.Compat, [0x723B])),
  (0x2F59, (.Compat, [0x723F])),
  (0x2F5A, (.Compat, [0x7247])),
  (0x2F5B, (.Compat, [0x7259])),
  (0x2F5C, (.Compat, [0x725B])),
  (0x2F5D, (.Compat, [0x72AC])),
  (0x2F5E, (.Compat, [0x7384])),
  (0x2F5F, (.Compat, [0x7389])),
  (0x2F60, (.Compat, [0x74DC])),
  (0x2F61, (.Compat, [0x74E6])),
  (0x2F62, (.Compat, [0x7518])),
  (0x2F63, (.Compat, [0x751F])),
  (0x2F64, (.Compat, [0x7528])),
  (0x2F65, (.Compat, [0x7530])),
  (0x2F66, (.Compat, [0x758B])),
  (0x2F67, (.Compat, [0x7592])),
  (0x2F68, (.Compat, [0x7676])),
  (0x2F69, (.Compat, [0x767D])),
  (0x2F6A, (.Compat, [0x76AE])),
  (0x2F6B, (.Compat, [0x76BF])),
  (0x2F6C, (.Compat, [0x76EE])),
  (0x2F6D, (.Compat, [0x77DB])),
  (0x2F6E, (.Compat, [0x77E2])),
  (0x2F6F, (.Compat, [0x77F3])),
  (0x2F70, (.Compat, [0x793A])),
  (0x2F71, (.Compat, [0x79B8])),
  (0x2F72, (.Compat, [0x79BE])),
  (0x2F73, (.Compat, [0x7A74])),
  (0x2F74, (.Compat, [0x7ACB])),
  (0x2F75, (.Compat, [0x7AF9])),
  (0x2F76, (.Compat, [0x7C73])),
  (0x2F77, (.Compat, [0x7CF8])),
  (0x2F78, (.Compat, [0x7F36])),
  (0x2F79, (.Compat, [0x7F51])),
  (0x2F7A, (.Compat, [0x7F8A])),
  (0x2F7B, (.Compat, [0x7FBD])),
  (0x2F7C, (.Compat, [0x8001])),
  (0x2F7D, (.Compat, [0x800C])),
  (0x2F7E, (.Compat, [0x8012])),
  (0x2F7F, (.Compat, [0x8033])),
  (0x2F80, (.Compat, [0x807F])),
  (0x2F81, (.Compat, [0x8089])),
  (0x2F82, (.Compat, [0x81E3])),
  (0x2F83, (.Compat, [0x81EA])),
  (0x2F84, (.Compat, [0x81F3])),
  (0x2F85, (.Compat, [0x81FC])),
  (0x2F86, (.Compat, [0x820C])),
  (0x2F87, (.Compat, [0x821B]))]
def compatibilityDecomposition_10 : List (Nat × DecompositionType × List Nat) := [
  (0x2F88, (.Compat, [0x821F])),
  (0x2F89, (.Compat, [0x826E])),
  (0x2F8A, (.Compat, [0x8272])),
  (0x2F8B, (.Compat, [0x8278])),
  (0x2F8C, (.Compat, [0x864D])),
  (0x2F8D, (.Compat, [0x866B])),
  (0x2F8E, (.Compat, [0x8840])),
  (0x2F8F, (.Compat, [0x884C])),
  (0x2F90, (.Compat, [0x8863])),
  (0x2F91, (.Compat, [0x897E])),
  (0x2F92, (.Compat, [0x898B])),
  (0x2F93, (.Compat, [0x89D2])),
  (0x2F94, (.Compat, [0x8A00])),
  (0x2F95, (.Compat, [0x8C37])),
  (0x2F96, (.Compat, [0x8C46])),
  (0x2F97, (.Compat, [0x8C55])),
  (0x2F98, (.Compat, [0x8C78])),
  (0x2F99, (.Compat, [0x8C9D])),
  (0x2F9A, (.Compat, [0x8D64])),
  (0x2F9B, (.Compat, [0x8D70])),
  (0x2F9C, (.Compat, [0x8DB3])),
  (0x2F9D, (.Compat, [0x8EAB])),
  (0x2F9E, (.Compat, [0x8ECA])),
  (0x2F9F, (.Compat, [0x8F9B])),
  (0x2FA0, (.Compat, [0x8FB0])),
  (0x2FA1, (.Compat, [0x8FB5])),
  (0x2FA2, (.Compat, [0x9091])),
  (0x2FA3, (.Compat, [0x9149])),
  (0x2FA4, (.Compat, [0x91C6])),
  (0x2FA5, (.Compat, [0x91CC])),
  (0x2FA6, (.Compat, [0x91D1])),
  (0x2FA7, (.Compat, [0x9577])),
  (0x2FA8, (.Compat, [0x9580])),
  (0x2FA9, (.Compat, [0x961C])),
  (0x2FAA, (.Compat, [0x96B6])),
  (0x2FAB, (.Compat, [0x96B9])),
  (0x2FAC, (.Compat, [0x96E8])),
  (0x2FAD, (.Compat, [0x9751])),
  (0x2FAE, (.Compat, [0x975E])),
  (0x2FAF, (.Compat, [0x9762])),
  (0x2FB0, (.Compat, [0x9769])),
  (0x2FB1, (.Compat, [0x97CB])),
  (0x2FB2, (.Compat, [0x97ED])),
  (0x2FB3, (.Compat, [0x97F3])),
  (0x2FB4, (.Compat, [0x9801])),
  (0x2FB5, (.Compat, [0x98A8])),
  (0x2FB6, (.Compat, [0x98DB])),
  (0x2FB7, (.Compat, [0x98DF])),
  (0x2FB8, (.Compat, [0x9996])),
  (0x2FB9, (.Compat, [0x9999])),
  (0x2FBA, (.Compat, [0x99AC])),
  (0x2FBB, (.Compat, [0x9AA8])),
  (0x2FBC, (.Compat, [0x9AD8])),
  (0x2FBD, (.Compat, [0x9ADF])),
  (0x2FBE, (.Compat, [0x9B25])),
  (0x2FBF, (.Compat, [0x9B2F])),
  (0x2FC0, (.Compat, [0x9B32])),
  (0x2FC1, (.Compat, [0x9B3C])),
  (0x2FC2, (.Compat, [0x9B5A])),
  (0x2FC3, (.Compat, [0x9CE5])),
  (0x2FC4, (.Compat, [0x9E75])),
  (0x2FC5, (.Compat, [0x9E7F])),
  (0x2FC6, (.Compat, [0x9EA5])),
  (0x2FC7, (.Compat, [0x9EBB]))]
def compatibilityDecomposition_11 : List (Nat × DecompositionType × List Nat) := [
  (0x2FC8, (.Compat, [0x9EC3])),
  (0x2FC9, (.Compat, [0x9ECD])),
  (0x2FCA, (.Compat, [0x9ED1])),
  (0x2FCB, (.Compat, [0x9EF9])),
  (0x2FCC, (.Compat, [0x9EFD])),
  (0x2FCD, (.Compat, [0x9F0E])),
  (0x2FCE, (.Compat, [0x9F13])),
  (0x2FCF, (.Compat, [0x9F20])),
  (0x2FD0, (.Compat, [0x9F3B])),
  (0x2FD1, (.Compat, [0x9F4A])),
  (0x2FD2, (.Compat, [0x9F52])),
  (0x2FD3, (.Compat, [0x9F8D])),
  (0x2FD4, (.Compat, [0x9F9C])),
  (0x2FD5, (.Compat, [0x9FA0])),
  (0x3000, (.Wide, [0x20])),
  (0x3036, (.Compat, [0x3012])),
  (0x3038, (.Compat, [0x5341])),
  (0x3039, (.Compat, [0x5344])),
  (0x303A, (.Compat, [0x5345])),
  (0x309B, (.Compat, [0x20, 0x3099])),
  (0x309C, (.Compat, [0x20, 0x309A])),
  (0x309F, (.Vertical, [0x3088, 0x308A])),
  (0x30FF, (.Vertical, [0x30B3, 0x30C8])),
  (0x3131, (.Compat, [0x1100])),
  (0x3132, (.Compat, [0x1101])),
  (0x3133, (.Compat, [0x11AA])),
  (0x3134, (.Compat, [0x1102])),
  (0x3135, (.Compat, [0x11AC])),
  (0x3136, (.Compat, [0x11AD])),
  (0x3137, (.Compat, [0x1103])),
  (0x3138, (.Compat, [0x1104])),
  (0x3139, (.Compat, [0x1105])),
  (0x313A, (.Compat, [0x11B0])),
  (0x313B, (.Compat, [0x11B1])),
  (0x313C, (.Compat, [0x11B2])),
  (0x313D, (.Compat, [0x11B3])),
  (0x313E, (.Compat, [0x11B4])),
  (0x313F, (.Compat, [0x11B5])),
  (0x3140, (.Compat, [0x111A])),
  (0x3141, (.Compat, [0x1106])),
  (0x3142, (.Compat, [0x1107])),
  (0x3143, (.Compat, [0x1108])),
  (0x3144, (.Compat, [0x1121])),
  (0x3145, (.Compat, [0x1109])),
  (0x3146, (.Compat, [0x110A])),
  (0x3147, (.Compat, [0x110B])),
  (0x3148, (.Compat, [0x110C])),
  (0x3149, (.Compat, [0x110D])),
  (0x314A, (.Compat, [0x110E])),
  (0x314B, (.Compat, [0x110F])),
  (0x314C, (.Compat, [0x1110])),
  (0x314D, (.Compat, [0x1111])),
  (0x314E, (.Compat, [0x1112])),
  (0x314F, (.Compat, [0x1161])),
  (0x3150, (.Compat, [0x1162])),
  (0x3151, (.Compat, [0x1163])),
  (0x3152, (.Compat, [0x1164])),
  (0x3153, (.Compat, [0x1165])),
  (0x3154, (.Compat, [0x1166])),
  (0x3155, (.Compat, [0x1167])),
  (0x3156, (.Compat, [0x1168])),
  (0x3157, (.Compat, [0x1169])),
  (0x3158, (.Compat, [0x116A])),
  (0x3159, (.Compat, [0x116B]))]
def compatibilityDecomposition_12 : List (Nat × DecompositionType × List Nat) := [
  (0x315A, (.Compat, [0x116C])),
  (0x315B, (.Compat, [0x116D])),
  (0x315C, (.Compat, [0x116E])),
  (0x315D, (.Compat, [0x116F])),
  (0x315E, (.Compat, [0x1170])),
  (0x315F, (.Compat, [0x1171])),
  (0x3160, (.Compat, [0x1172])),
  (0x3161, (.Compat, [0x1173])),
  (0x3162, (.Compat, [0x1174])),
  (0x3163, (.Compat, [0x1175])),
  (0x3164, (.Compat, [0x1160])),
  (0x3165, (.Compat, [0x1114])),
  (0x3166, (.Compat, [0x1115])),
  (0x3167, (.Compat, [0x11C7])),
  (0x3168, (.Compat, [0x11C8])),
  (0x3169, (.Compat, [0x11CC])),
  (0x316A, (.Compat, [0x11CE])),
  (0x316B, (.Compat, [0x11D3])),
  (0x316C, (.Compat, [0x11D7])),
  (0x316D, (.Compat, [0x11D9])),
  (0x316E, (.Compat, [0x111C])),
  (0x316F, (.Compat, [0x11DD])),
  (0x3170, (.Compat, [0x11DF])),
  (0x3171, (.Compat, [0x111D])),
  (0x3172, (.Compat, [0x111E])),
  (0x3173, (.Compat, [0x1120])),
  (0x3174, (.Compat, [0x1122])),
  (0x3175, (.Compat, [0x1123])),
  (0x3176, (.Compat, [0x1127])),
  (0x3177, (.Compat, [0x1129])),
  (0x3178, (.Compat, [0x112B])),
  (0x3179, (.Compat, [0x112C])),
  (0x317A, (.Compat, [0x112D])),
  (0x317B, (.Compat, [0x112E])),
  (0x317C, (.Compat, [0x112F])),
  (0x317D, (.Compat, [0x1132])),
  (0x317E, (.Compat, [0x1136])),
  (0x317F, (.Compat, [0x1140])),
  (0x3180, (.Compat, [0x1147])),
  (0x3181, (.Compat, [0x114C])),
  (0x3182, (.Compat, [0x11F1])),
  (0x3183, (.Compat, [0x11F2])),
  (0x3184, (.Compat, [0x1157])),
  (0x3185, (.Compat, [0x1158])),
  (0x3186, (.Compat, [0x1159])),
  (0x3187, (.Compat, [0x1184])),
  (0x3188, (.Compat, [0x1185])),
  (0x3189, (.Compat, [0x1188])),
  (0x318A, (.Compat, [0x1191])),
  (0x318B, (.Compat, [0x1192])),
  (0x318C, (.Compat, [0x1194])),
  (0x318D, (.Compat, [0x119E])),
  (0x318E, (.Compat, [0x11A1])),
  (0x3192, (.Super, [0x4E00])),
  (0x3193, (.Super, [0x4E8C])),
  (0x3194, (.Super, [0x4E09])),
  (0x3195, (.Super, [0x56DB])),
  (0x3196, (.Super, [0x4E0A])),
  (0x3197, (.Super, [0x4E2D])),
  (0x3198, (.Super, [0x4E0B])),
  (0x3199, (.Super, [0x7532])),
  (0x319A, (.Super, [0x4E59])),
  (0x319B, (.Super, [0x4E19])),
  (0x319C, (.Super, [0x4E01]))]
def compatibilityDecomposition_13 : List (Nat × DecompositionType × List Nat) := [
  (0x319D, (.Super, [0x5929])),
  (0x319E, (.Super, [0x5730])),
  (0x319F, (.Super, [0x4EBA])),
  (0x3200, (.Compat, [0x28, 0x1100, 0x29])),
  (0x3201, (.Compat, [0x28, 0x1102, 0x29])),
  (0x3202, (.Compat, [0x28, 0x1103, 0x29])),
  (0x3203, (.Compat, [0x28, 0x1105, 0x29])),
  (0x3204, (.Compat, [0x28, 0x1106, 0x29])),
  (0x3205, (.Compat, [0x28, 0x1107, 0x29])),
  (0x3206, (.Compat, [0x28, 0x1109, 0x29])),
  (0x3207, (.Compat, [0x28, 0x110B, 0x29])),
  (0x3208, (.Compat, [0x28, 0x110C, 0x29])),
  (0x3209, (.Compat, [0x28, 0x110E, 0x29])),
  (0x320A, (.Compat, [0x28, 0x110F, 0x29])),
  (0x320B, (.Compat, [0x28, 0x1110, 0x29])),
  (0x320C, (.Compat, [0x28, 0x1111, 0x29])),
  (0x320D, (.Compat, [0x28, 0x1112, 0x29])),
  (0x320E, (.Compat, [0x28, 0x1100, 0x1161, 0x29])),
  (0x320F, (.Compat, [0x28, 0x1102, 0x1161, 0x29])),
  (0x3210, (.Compat, [0x28, 0x1103, 0x1161, 0x29])),
  (0x3211, (.Compat, [0x28, 0x1105, 0x1161, 0x29])),
  (0x3212, (.Compat, [0x28, 0x1106, 0x1161, 0x29])),
  (0x3213, (.Compat, [0x28, 0x1107, 0x1161, 0x29])),
  (0x3214, (.Compat, [0x28, 0x1109, 0x1161, 0x29])),
  (0x3215, (.Compat, [0x28, 0x110B, 0x1161, 0x29])),
  (0x3216, (.Compat, [0x28, 0x110C, 0x1161, 0x29])),
  (0x3217, (.Compat, [0x28, 0x110E, 0x1161, 0x29])),
  (0x3218, (.Compat, [0x28, 0x110F, 0x1161, 0x29])),
  (0x3219, (.Compat, [0x28, 0x1110, 0x1161, 0x29])),
  (0x321A, (.Compat, [0x28, 0x1111, 0x1161, 0x29])),
  (0x321B, (.Compat, [0x28, 0x1112, 0x1161, 0x29])),
  (0x321C, (.Compat, [0x28, 0x110C, 0x116E, 0x29])),
  (0x321D, (.Compat, [0x28, 0x110B, 0x1169, 0x110C, 0x1165, 0x11AB, 0x29])),
  (0x321E, (.Compat, [0x28, 0x110B, 0x1169, 0x1112, 0x116E, 0x29])),
  (0x3220, (.Compat, [0x28, 0x4E00, 0x29])),
  (0x3221, (.Compat, [0x28, 0x4E8C, 0x29])),
  (0x3222, (.Compat, [0x28, 0x4E09, 0x29])),
  (0x3223, (.Compat, [0x28, 0x56DB, 0x29])),
  (0x3224, (.Compat, [0x28, 0x4E94, 0x29])),
  (0x3225, (.Compat, [0x28, 0x516D, 0x29])),
  (0x3226, (.Compat, [0x28, 0x4E03, 0x29])),
  (0x3227, (.Compat, [0x28, 0x516B, 0x29])),
  (0x3228, (.Compat, [0x28, 0x4E5D, 0x29])),
  (0x3229, (.Compat, [0x28, 0x5341, 0x29])),
  (0x322A, (.Compat, [0x28, 0x6708, 0x29])),
  (0x322B, (.Compat, [0x28, 0x706B, 0x29])),
  (0x322C, (.Compat, [0x28, 0x6C34, 0x29])),
  (0x322D, (.Compat, [0x28, 0x6728, 0x29])),
  (0x322E, (.Compat, [0x28, 0x91D1, 0x29])),
  (0x322F, (.Compat, [0x28, 0x571F, 0x29])),
  (0x3230, (.Compat, [0x28, 0x65E5, 0x29])),
  (0x3231, (.Compat, [0x28, 0x682A, 0x29])),
  (0x3232, (.Compat, [0x28, 0x6709, 0x29])),
  (0x3233, (.Compat, [0x28, 0x793E, 0x29])),
  (0x3234, (.Compat, [0x28, 0x540D, 0x29])),
  (0x3235, (.Compat, [0x28, 0x7279, 0x29])),
  (0x3236, (.Compat, [0x28, 0x8CA1, 0x29])),
  (0x3237, (.Compat, [0x28, 0x795D, 0x29])),
  (0x3238, (.Compat, [0x28, 0x52B4, 0x29])),
  (0x3239, (.Compat, [0x28, 0x4EE3, 0x29])),
  (0x323A, (.Compat, [0x28, 0x547C, 0x29])),
  (0x323B, (.Compat, [0x28, 0x5B66, 0x29])),
  (0x323C, (.Compat, [0x28, 0x76E3, 0x29])),
  (0x323D, (.Compat, [0x28, 0x4F01, 0x29]))]
def compatibilityDecomposition_14 : List (Nat × DecompositionType × List Nat) := [
  (0x323E, (.Compat, [0x28, 0x8CC7, 0x29])),
  (0x323F, (.Compat, [0x28, 0x5354, 0x29])),
  (0x3240, (.Compat, [0x28, 0x796D, 0x29])),
  (0x3241, (.Compat, [0x28, 0x4F11, 0x29])),
  (0x3242, (.Compat, [0x28, 0x81EA, 0x29])),
  (0x3243, (.Compat, [0x28, 0x81F3, 0x29])),
  (0x3244, (.Circle, [0x554F])),
  (0x3245, (.Circle, [0x5E7C])),
  (0x3246, (.Circle, [0x6587])),
  (0x3247, (.Circle, [0x7B8F])),
  (0x3250, (.Square, [0x50, 0x54, 0x45])),
  (0x3251, (.Circle, [0x32, 0x31])),
  (0x3252, (.Circle, [0x32, 0x32])),
  (0x3253, (.Circle, [0x32, 0x33])),
  (0x3254, (.Circle, [0x32, 0x34])),
  (0x3255, (.Circle, [0x32, 0x35])),
  (0x3256, (.Circle, [0x32, 0x36])),
  (0x3257, (.Circle, [0x32, 0x37])),
  (0x3258, (.Circle, [0x32, 0x38])),
  (0x3259, (.Circle, [0x32, 0x39])),
  (0x325A, (.Circle, [0x33, 0x30])),
  (0x325B, (.Circle, [0x33, 0x31])),
  (0x325C, (.Circle, [0x33, 0x32])),
  (0x325D, (.Circle, [0x33, 0x33])),
  (0x325E, (.Circle, [0x33, 0x34])),
  (0x325F, (.Circle, [0x33, 0x35])),
  (0x3260, (.Circle, [0x1100])),
  (0x3261, (.Circle, [0x1102])),
  (0x3262, (.Circle, [0x1103])),
  (0x3263, (.Circle, [0x1105])),
  (0x3264, (.Circle, [0x1106])),
  (0x3265, (.Circle, [0x1107])),
  (0x3266, (.Circle, [0x1109])),
  (0x3267, (.Circle, [0x110B])),
  (0x3268, (.Circle, [0x110C])),
  (0x3269, (.Circle, [0x110E])),
  (0x326A, (.Circle, [0x110F])),
  (0x326B, (.Circle, [0x1110])),
  (0x326C, (.Circle, [0x1111])),
  (0x326D, (.Circle, [0x1112])),
  (0x326E, (.Circle, [0x1100, 0x1161])),
  (0x326F, (.Circle, [0x1102, 0x1161])),
  (0x3270, (.Circle, [0x1103, 0x1161])),
  (0x3271, (.Circle, [0x1105, 0x1161])),
  (0x3272, (.Circle, [0x1106, 0x1161])),
  (0x3273, (.Circle, [0x1107, 0x1161])),
  (0x3274, (.Circle, [0x1109, 0x1161])),
  (0x3275, (.Circle, [0x110B, 0x1161])),
  (0x3276, (.Circle, [0x110C, 0x1161])),
  (0x3277, (.Circle, [0x110E, 0x1161])),
  (0x3278, (.Circle, [0x110F, 0x1161])),
  (0x3279, (.Circle, [0x1110, 0x1161])),
  (0x327A, (.Circle, [0x1111, 0x1161])),
  (0x327B, (.Circle, [0x1112, 0x1161])),
  (0x327C, (.Circle, [0x110E, 0x1161, 0x11B7, 0x1100, 0x1169])),
  (0x327D, (.Circle, [0x110C, 0x116E, 0x110B, 0x1174])),
  (0x327E, (.Circle, [0x110B, 0x116E])),
  (0x3280, (.Circle, [0x4E00])),
  (0x3281, (.Circle, [0x4E8C])),
  (0x3282, (.Circle, [0x4E09])),
  (0x3283, (.Circle, [0x56DB])),
  (0x3284, (.Circle, [0x4E94])),
  (0x3285, (.Circle, [0x516D])),
  (0x3286, (.Circle, [0x4E03]))]
def compatibilityDecomposition_15 : List (Nat × DecompositionType × List Nat) := [
  (0x3287, (.Circle, [0x516B])),
  (0x3288, (.Circle, [0x4E5D])),
  (0x3289, (.Circle, [0x5341])),
  (0x328A, (.Circle, [0x6708])),
  (0x328B, (.Circle, [0x706B])),
  (0x328C, (.Circle, [0x6C34])),
  (0x328D, (.Circle, [0x6728])),
  (0x328E, (.Circle, [0x91D1])),
  (0x328F, (.Circle, [0x571F])),
  (0x3290, (.Circle, [0x65E5])),
  (0x3291, (.Circle, [0x682A])),
  (0x3292, (.Circle, [0x6709])),
  (0x3293, (.Circle, [0x793E])),
  (0x3294, (.Circle, [0x540D])),
  (0x3295, (.Circle, [0x7279])),
  (0x3296, (.Circle, [0x8CA1])),
  (0x3297, (.Circle, [0x795D])),
  (0x3298, (.Circle, [0x52B4])),
  (0x3299, (.Circle, [0x79D8])),
  (0x329A, (.Circle, [0x7537])),
  (0x329B, (.Circle, [0x5973])),
  (0x329C, (.Circle, [0x9069])),
  (0x329D, (.Circle, [0x512A])),
  (0x329E, (.Circle, [0x5370])),
  (0x329F, (.Circle, [0x6CE8])),
  (0x32A0, (.Circle, [0x9805])),
  (0x32A1, (.Circle, [0x4F11])),
  (0x32A2, (.Circle, [0x5199])),
  (0x32A3, (.Circle, [0x6B63])),
  (0x32A4, (.Circle, [0x4E0A])),
  (0x32A5, (.Circle, [0x4E2D])),
  (0x32A6, (.Circle, [0x4E0B])),
  (0x32A7, (.Circle, [0x5DE6])),
  (0x32A8, (.Circle, [0x53F3])),
  (0x32A9, (.Circle, [0x533B])),
  (0x32AA, (.Circle, [0x5B97])),
  (0x32AB, (.Circle, [0x5B66])),
  (0x32AC, (.Circle, [0x76E3])),
  (0x32AD, (.Circle, [0x4F01])),
  (0x32AE, (.Circle, [0x8CC7])),
  (0x32AF, (.Circle, [0x5354])),
  (0x32B0, (.Circle, [0x591C])),
  (0x32B1, (.Circle, [0x33, 0x36])),
  (0x32B2, (.Circle, [0x33, 0x37])),
  (0x32B3, (.Circle, [0x33, 0x38])),
  (0x32B4, (.Circle, [0x33, 0x39])),
  (0x32B5, (.Circle, [0x34, 0x30])),
  (0x32B6, (.Circle, [0x34, 0x31])),
  (0x32B7, (.Circle, [0x34, 0x32])),
  (0x32B8, (.Circle, [0x34, 0x33])),
  (0x32B9, (.Circle, [0x34, 0x34])),
  (0x32BA, (.Circle, [0x34, 0x35])),
  (0x32BB, (.Circle, [0x34, 0x36])),
  (0x32BC, (.Circle, [0x34, 0x37])),
  (0x32BD, (.Circle, [0x34, 0x38])),
  (0x32BE, (.Circle, [0x34, 0x39])),
  (0x32BF, (.Circle, [0x35, 0x30])),
  (0x32C0, (.Compat, [0x31, 0x6708])),
  (0x32C1, (.Compat, [0x32, 0x6708])),
  (0x32C2, (.Compat, [0x33, 0x6708])),
  (0x32C3, (.Compat, [0x34, 0x6708])),
  (0x32C4, (.Compat, [0x35, 0x6708])),
  (0x32C5, (.Compat, [0x36, 0x6708])),
  (0x32C6, (.Compat, [0x37, 0x6708]))]
def compatibilityDecomposition_16 : List (Nat × DecompositionType × List Nat) := [
  (0x32C7, (.Compat, [0x38, 0x6708])),
  (0x32C8, (.Compat, [0x39, 0x6708])),
  (0x32C9, (.Compat, [0x31, 0x30, 0x6708])),
  (0x32CA, (.Compat, [0x31, 0x31, 0x6708])),
  (0x32CB, (.Compat, [0x31, 0x32, 0x6708])),
  (0x32CC, (.Square, [0x48, 0x67])),
  (0x32CD, (.Square, [0x65, 0x72, 0x67])),
  (0x32CE, (.Square, [0x65, 0x56])),
  (0x32CF, (.Square, [0x4C, 0x54, 0x44])),
  (0x32D0, (.Circle, [0x30A2])),
  (0x32D1, (.Circle, [0x30A4])),
  (0x32D2, (.Circle, [0x30A6])),
  (0x32D3, (.Circle, [0x30A8])),
  (0x32D4, (.Circle, [0x30AA])),
  (0x32D5, (.Circle, [0x30AB])),
  (0x32D6, (.Circle, [0x30AD])),
  (0x32D7, (.Circle, [0x30AF])),
  (0x32D8, (.Circle, [0x30B1])),
  (0x32D9, (.Circle, [0x30B3])),
  (0x32DA, (.Circle, [0x30B5])),
  (0x32DB, (.Circle, [0x30B7])),
  (0x32DC, (.Circle, [0x30B9])),
  (0x32DD, (.Circle, [0x30BB])),
  (0x32DE, (.Circle, [0x30BD])),
  (0x32DF, (.Circle, [0x30BF])),
  (0x32E0, (.Circle, [0x30C1])),
  (0x32E1, (.Circle, [0x30C4])),
  (0x32E2, (.Circle, [0x30C6])),
  (0x32E3, (.Circle, [0x30C8])),
  (0x32E4, (.Circle, [0x30CA])),
  (0x32E5, (.Circle, [0x30CB])),
  (0x32E6, (.Circle, [0x30CC])),
  (0x32E7, (.Circle, [0x30CD])),
  (0x32E8, (.Circle, [0x30CE])),
  (0x32E9, (.Circle, [0x30CF])),
  (0x32EA, (.Circle, [0x30D2])),
  (0x32EB, (.Circle, [0x30D5])),
  (0x32EC, (.Circle, [0x30D8])),
  (0x32ED, (.Circle, [0x30DB])),
  (0x32EE, (.Circle, [0x30DE])),
  (0x32EF, (.Circle, [0x30DF])),
  (0x32F0, (.Circle, [0x30E0])),
  (0x32F1, (.Circle, [0x30E1])),
  (0x32F2, (.Circle, [0x30E2])),
  (0x32F3, (.Circle, [0x30E4])),
  (0x32F4, (.Circle, [0x30E6])),
  (0x32F5, (.Circle, [0x30E8])),
  (0x32F6, (.Circle, [0x30E9])),
  (0x32F7, (.Circle, [0x30EA])),
  (0x32F8, (.Circle, [0x30EB])),
  (0x32F9, (.Circle, [0x30EC])),
  (0x32FA, (.Circle, [0x30ED])),
  (0x32FB, (.Circle, [0x30EF])),
  (0x32FC, (.Circle, [0x30F0])),
  (0x32FD, (.Circle, [0x30F1])),
  (0x32FE, (.Circle, [0x30F2])),
  (0x3300, (.Square, [0x30A2, 0x30D1, 0x30FC, 0x30C8])),
  (0x3301, (.Square, [0x30A2, 0x30EB, 0x30D5, 0x30A1])),
  (0x3302, (.Square, [0x30A2, 0x30F3, 0x30DA, 0x30A2])),
  (0x3303, (.Square, [0x30A2, 0x30FC, 0x30EB])),
  (0x3304, (.Square, [0x30A4, 0x30CB, 0x30F3, 0x30B0])),
  (0x3305, (.Square, [0x30A4, 0x30F3, 0x30C1])),
  (0x3306, (.Square, [0x30A6, 0x30A9, 0x30F3])),
  (0x3307, (.Square, [0x30A8, 0x30B9, 0x30AF, 0x30FC, 0x30C9]))]
def compatibilityDecomposition_17 : List (Nat × DecompositionType × List Nat) := [
  (0x3308, (.Square, [0x30A8, 0x30FC, 0x30AB, 0x30FC])),
  (0x3309, (.Square, [0x30AA, 0x30F3, 0x30B9])),
  (0x330A, (.Square, [0x30AA, 0x30FC, 0x30E0])),
  (0x330B, (.Square, [0x30AB, 0x30A4, 0x30EA])),
  (0x330C, (.Square, [0x30AB, 0x30E9, 0x30C3, 0x30C8])),
  (0x330D, (.Square, [0x30AB, 0x30ED, 0x30EA, 0x30FC])),
  (0x330E, (.Square, [0x30AC, 0x30ED, 0x30F3])),
  (0x330F, (.Square, [0x30AC, 0x30F3, 0x30DE])),
  (0x3310, (.Square, [0x30AE, 0x30AC])),
  (0x3311, (.Square, [0x30AE, 0x30CB, 0x30FC])),
  (0x3312, (.Square, [0x30AD, 0x30E5, 0x30EA, 0x30FC])),
  (0x3313, (.Square, [0x30AE, 0x30EB, 0x30C0, 0x30FC])),
  (0x3314, (.Square, [0x30AD, 0x30ED])),
  (0x3315, (.Square, [0x30AD, 0x30ED, 0x30B0, 0x30E9, 0x30E0])),
  (0x3316, (.Square, [0x30AD, 0x30ED, 0x30E1, 0x30FC, 0x30C8, 0x30EB])),
  (0x3317, (.Square, [0x30AD, 0x30ED, 0x30EF, 0x30C3, 0x30C8])),
  (0x3318, (.Square, [0x30B0, 0x30E9, 0x30E0])),
  (0x3319, (.Square, [0x30B0, 0x30E9, 0x30E0, 0x30C8, 0x30F3])),
  (0x331A, (.Square, [0x30AF, 0x30EB, 0x30BC, 0x30A4, 0x30ED])),
  (0x331B, (.Square, [0x30AF, 0x30ED, 0x30FC, 0x30CD])),
  (0x331C, (.Square, [0x30B1, 0x30FC, 0x30B9])),
  (0x331D, (.Square, [0x30B3, 0x30EB, 0x30CA])),
  (0x331E, (.Square, [0x30B3, 0x30FC, 0x30DD])),
  (0x331F, (.Square, [0x30B5, 0x30A4, 0x30AF, 0x30EB])),
  (0x3320, (.Square, [0x30B5, 0x30F3, 0x30C1, 0x30FC, 0x30E0])),
  (0x3321, (.Square, [0x30B7, 0x30EA, 0x30F3, 0x30B0])),
  (0x3322, (.Square, [0x30BB, 0x30F3, 0x30C1])),
  (0x3323, (.Square, [0x30BB, 0x30F3, 0x30C8])),
  (0x3324, (.Square, [0x30C0, 0x30FC, 0x30B9])),
  (0x3325, (.Square, [0x30C7, 0x30B7])),
  (0x3326, (.Square, [0x30C9, 0x30EB])),
  (0x3327, (.Square, [0x30C8, 0x30F3])),
  (0x3328, (.Square, [0x30CA, 0x30CE])),
  (0x3329, (.Square, [0x30CE, 0x30C3, 0x30C8])),
  (0x332A, (.Square, [0x30CF, 0x30A4, 0x30C4])),
  (0x332B, (.Square, [0x30D1, 0x30FC, 0x30BB, 0x30F3, 0x30C8])),
  (0x332C, (.Square, [0x30D1, 0x30FC, 0x30C4])),
  (0x332D, (.Square, [0x30D0, 0x30FC, 0x30EC, 0x30EB])),
  (0x332E, (.Square, [0x30D4, 0x30A2, 0x30B9, 0x30C8, 0x30EB])),
  (0x332F, (.Square, [0x30D4, 0x30AF, 0x30EB])),
  (0x3330, (.Square, [0x30D4, 0x30B3])),
  (0x3331, (.Square, [0x30D3, 0x30EB])),
  (0x3332, (.Square, [0x30D5, 0x30A1, 0x30E9, 0x30C3, 0x30C9])),
  (0x3333, (.Square, [0x30D5, 0x30A3, 0x30FC, 0x30C8])),
  (0x3334, (.Square, [0x30D6, 0x30C3, 0x30B7, 0x30A7, 0x30EB])),
  (0x3335, (.Square, [0x30D5, 0x30E9, 0x30F3])),
  (0x3336, (.Square, [0x30D8, 0x30AF, 0x30BF, 0x30FC, 0x30EB])),
  (0x3337, (.Square, [0x30DA, 0x30BD])),
  (0x3338, (.Square, [0x30DA, 0x30CB, 0x30D2])),
  (0x3339, (.Square, [0x30D8, 0x30EB, 0x30C4])),
  (0x333A, (.Square, [0x30DA, 0x30F3, 0x30B9])),
  (0x333B, (.Square, [0x30DA, 0x30FC, 0x30B8])),
  (0x333C, (.Square, [0x30D9, 0x30FC, 0x30BF])),
  (0x333D, (.Square, [0x30DD, 0x30A4, 0x30F3, 0x30C8])),
  (0x333E, (.Square, [0x30DC, 0x30EB, 0x30C8])),
  (0x333F, (.Square, [0x30DB, 0x30F3])),
  (0x3340, (.Square, [0x30DD, 0x30F3, 0x30C9])),
  (0x3341, (.Square, [0x30DB, 0x30FC, 0x30EB])),
  (0x3342, (.Square, [0x30DB, 0x30FC, 0x30F3])),
  (0x3343, (.Square, [0x30DE, 0x30A4, 0x30AF, 0x30ED])),
  (0x3344, (.Square, [0x30DE, 0x30A4, 0x30EB])),
  (0x3345, (.Square, [0x30DE, 0x30C3, 0x30CF])),
  (0x3346, (.Square, [0x30DE, 0x30EB, 0x30AF])),
  (0x3347, (.Square, [0x30DE, 0x30F3, 0x30B7, 0x30E7, 0x30F3]))]
def compatibilityDecomposition_18 : List (Nat × DecompositionType × List Nat) := [
  (0x3348, (.Square, [0x30DF, 0x30AF, 0x30ED, 0x30F3])),
  (0x3349, (.Square, [0x30DF, 0x30EA])),
  (0x334A, (.Square, [0x30DF, 0x30EA, 0x30D0, 0x30FC, 0x30EB])),
  (0x334B, (.Square, [0x30E1, 0x30AC])),
  (0x334C, (.Square, [0x30E1, 0x30AC, 0x30C8, 0x30F3])),
  (0x334D, (.Square, [0x30E1, 0x30FC, 0x30C8, 0x30EB])),
  (0x334E, (.Square, [0x30E4, 0x30FC, 0x30C9])),
  (0x334F, (.Square, [0x30E4, 0x30FC, 0x30EB])),
  (0x3350, (.Square, [0x30E6, 0x30A2, 0x30F3])),
  (0x3351, (.Square, [0x30EA, 0x30C3, 0x30C8, 0x30EB])),
  (0x3352, (.Square, [0x30EA, 0x30E9])),
  (0x3353, (.Square, [0x30EB, 0x30D4, 0x30FC])),
  (0x3354, (.Square, [0x30EB, 0x30FC, 0x30D6, 0x30EB])),
  (0x3355, (.Square, [0x30EC, 0x30E0])),
  (0x3356, (.Square, [0x30EC, 0x30F3, 0x30C8, 0x30B2, 0x30F3])),
  (0x3357, (.Square, [0x30EF, 0x30C3, 0x30C8])),
  (0x3358, (.Compat, [0x30, 0x70B9])),
  (0x3359, (.Compat, [0x31, 0x70B9])),
  (0x335A, (.Compat, [0x32, 0x70B9])),
  (0x335B, (.Compat, [0x33, 0x70B9])),
  (0x335C, (.Compat, [0x34, 0x70B9])),
  (0x335D, (.Compat, [0x35, 0x70B9])),
  (0x335E, (.Compat, [0x36, 0x70B9])),
  (0x335F, (.Compat, [0x37, 0x70B9])),
  (0x3360, (.Compat, [0x38, 0x70B9])),
  (0x3361, (.Compat, [0x39, 0x70B9])),
  (0x3362, (.Compat, [0x31, 0x30, 0x70B9])),
  (0x3363, (.Compat, [0x31, 0x31, 0x70B9])),
  (0x3364, (.Compat, [0x31, 0x32, 0x70B9])),
  (0x3365, (.Compat, [0x31, 0x33, 0x70B9])),
  (0x3366, (.Compat, [0x31, 0x34, 0x70B9])),
  (0x3367, (.Compat, [0x31, 0x35, 0x70B9])),
  (0x3368, (.Compat, [0x31, 0x36, 0x70B9])),
  (0x3369, (.Compat, [0x31, 0x37, 0x70B9])),
  (0x336A, (.Compat, [0x31, 0x38, 0x70B9])),
  (0x336B, (.Compat, [0x31, 0x39, 0x70B9])),
  (0x336C, (.Compat, [0x32, 0x30, 0x70B9])),
  (0x336D, (.Compat, [0x32, 0x31, 0x70B9])),
  (0x336E, (.Compat, [0x32, 0x32, 0x70B9])),
  (0x336F, (.Compat, [0x32, 0x33, 0x70B9])),
  (0x3370, (.Compat, [0x32, 0x34, 0x70B9])),
  (0x3371, (.Square, [0x68, 0x50, 0x61])),
  (0x3372, (.Square, [0x64, 0x61])),
  (0x3373, (.Square, [0x41, 0x55])),
  (0x3374, (.Square, [0x62, 0x61, 0x72])),
  (0x3375, (.Square, [0x6F, 0x56])),
  (0x3376, (.Square, [0x70, 0x63])),
  (0x3377, (.Square, [0x64, 0x6D])),
  (0x3378, (.Square, [0x64, 0x6D, 0xB2])),
  (0x3379, (.Square, [0x64, 0x6D, 0xB3])),
  (0x337A, (.Square, [0x49, 0x55])),
  (0x337B, (.Square, [0x5E73, 0x6210])),
  (0x337C, (.Square, [0x662D, 0x548C])),
  (0x337D, (.Square, [0x5927, 0x6B63])),
  (0x337E, (.Square, [0x660E, 0x6CBB])),
  (0x337F, (.Square, [0x682A, 0x5F0F, 0x4F1A, 0x793E])),
  (0x3380, (.Square, [0x70, 0x41])),
  (0x3381, (.Square, [0x6E, 0x41])),
  (0x3382, (.Square, [0x3BC, 0x41])),
  (0x3383, (.Square, [0x6D, 0x41])),
  (0x3384, (.Square, [0x6B, 0x41])),
  (0x3385, (.Square, [0x4B, 0x42])),
  (0x3386, (.Square, [0x4D, 0x42])),
  (0x3387, (.Square, [0x47, 0x42]))]
def compatibilityDecomposition_19 : List (Nat × DecompositionType × List Nat) := [
  (0x3388, (.Square, [0x63, 0x61, 0x6C])),
  (0x3389, (.Square, [0x6B, 0x63, 0x61, 0x6C])),
  (0x338A, (.Square, [0x70, 0x46])),
  (0x338B, (.Square, [0x6E, 0x46])),
  (0x338C, (.Square, [0x3BC, 0x46])),
  (0x338D, (.Square, [0x3BC, 0x67])),
  (0x338E, (.Square, [0x6D, 0x67])),
  (0x338F, (.Square, [0x6B, 0x67])),
  (0x3390, (.Square, [0x48, 0x7A])),
  (0x3391, (.Square, [0x6B, 0x48, 0x7A])),
  (0x3392, (.Square, [0x4D, 0x48, 0x7A])),
  (0x3393, (.Square, [0x47, 0x48, 0x7A])),
  (0x3394, (.Square, [0x54, 0x48, 0x7A])),
  (0x3395, (.Square, [0x3BC, 0x2113])),
  (0x3396, (.Square, [0x6D, 0x2113])),
  (0x3397, (.Square, [0x64, 0x2113])),
  (0x3398, (.Square, [0x6B, 0x2113])),
  (0x3399, (.Square, [0x66, 0x6D])),
  (0x339A, (.Square, [0x6E, 0x6D])),
  (0x339B, (.Square, [0x3BC, 0x6D])),
  (0x339C, (.Square, [0x6D, 0x6D])),
  (0x339D, (.Square, [0x63, 0x6D])),
  (0x339E, (.Square, [0x6B, 0x6D])),
  (0x339F, (.Square, [0x6D, 0x6D, 0xB2])),
  (0x33A0, (.Square, [0x63, 0x6D, 0xB2])),
  (0x33A1, (.Square, [0x6D, 0xB2])),
  (0x33A2, (.Square, [0x6B, 0x6D, 0xB2])),
  (0x33A3, (.Square, [0x6D, 0x6D, 0xB3])),
  (0x33A4, (.Square, [0x63, 0x6D, 0xB3])),
  (0x33A5, (.Square, [0x6D, 0xB3])),
  (0x33A6, (.Square, [0x6B, 0x6D, 0xB3])),
  (0x33A7, (.Square, [0x6D, 0x2215, 0x73])),
  (0x33A8, (.Square, [0x6D, 0x2215, 0x73, 0xB2])),
  (0x33A9, (.Square, [0x50, 0x61])),
  (0x33AA, (.Square, [0x6B, 0x50, 0x61])),
  (0x33AB, (.Square, [0x4D, 0x50, 0x61])),
  (0x33AC, (.Square, [0x47, 0x50, 0x61])),
  (0x33AD, (.Square, [0x72, 0x61, 0x64])),
  (0x33AE, (.Square, [0x72, 0x61, 0x64, 0x2215, 0x73])),
  (0x33AF, (.Square, [0x72, 0x61, 0x64, 0x2215, 0x73, 0xB2])),
  (0x33B0, (.Square, [0x70, 0x73])),
  (0x33B1, (.Square, [0x6E, 0x73])),
  (0x33B2, (.Square, [0x3BC, 0x73])),
  (0x33B3, (.Square, [0x6D, 0x73])),
  (0x33B4, (.Square, [0x70, 0x56])),
  (0x33B5, (.Square, [0x6E, 0x56])),
  (0x33B6, (.Square, [0x3BC, 0x56])),
  (0x33B7, (.Square, [0x6D, 0x56])),
  (0x33B8, (.Square, [0x6B, 0x56])),
  (0x33B9, (.Square, [0x4D, 0x56])),
  (0x33BA, (.Square, [0x70, 0x57])),
  (0x33BB, (.Square, [0x6E, 0x57])),
  (0x33BC, (.Square, [0x3BC, 0x57])),
  (0x33BD, (.Square, [0x6D, 0x57])),
  (0x33BE, (.Square, [0x6B, 0x57])),
  (0x33BF, (.Square, [0x4D, 0x57])),
  (0x33C0, (.Square, [0x6B, 0x3A9])),
  (0x33C1, (.Square, [0x4D, 0x3A9])),
  (0x33C2, (.Square, [0x61, 0x2E, 0x6D, 0x2E])),
  (0x33C3, (.Square, [0x42, 0x71])),
  (0x33C4, (.Square, [0x63, 0x63])),
  (0x33C5, (.Square, [0x63, 0x64])),
  (0x33C6, (.Square, [0x43, 0x2215, 0x6B, 0x67])),
  (0x33C7, (.Square, [0x43, 0x6F, 0x2E]))]
def compatibilityDecomposition_20 : List (Nat × DecompositionType × List Nat) := [
  (0x33C8, (.Square, [0x64, 0x42])),
  (0x33C9, (.Square, [0x47, 0x79])),
  (0x33CA, (.Square, [0x68, 0x61])),
  (0x33CB, (.Square, [0x48, 0x50])),
  (0x33CC, (.Square, [0x69, 0x6E])),
  (0x33CD, (.Square, [0x4B, 0x4B])),
  (0x33CE, (.Square, [0x4B, 0x4D])),
  (0x33CF, (.Square, [0x6B, 0x74])),
  (0x33D0, (.Square, [0x6C, 0x6D])),
  (0x33D1, (.Square, [0x6C, 0x6E])),
  (0x33D2, (.Square, [0x6C, 0x6F, 0x67])),
  (0x33D3, (.Square, [0x6C, 0x78])),
  (0x33D4, (.Square, [0x6D, 0x62])),
  (0x33D5, (.Square, [0x6D, 0x69, 0x6C])),
  (0x33D6, (.Square, [0x6D, 0x6F, 0x6C])),
  (0x33D7, (.Square, [0x50, 0x48])),
  (0x33D8, (.Square, [0x70, 0x2E, 0x6D, 0x2E])),
  (0x33D9, (.Square, [0x50, 0x50, 0x4D])),
  (0x33DA, (.Square, [0x50, 0x52])),
  (0x33DB, (.Square, [0x73, 0x72])),
  (0x33DC, (.Square, [0x53, 0x76])),
  (0x33DD, (.Square, [0x57, 0x62])),
  (0x33DE, (.Square, [0x56, 0x2215, 0x6D])),
  (0x33DF, (.Square, [0x41, 0x2215, 0x6D])),
  (0x33E0, (.Compat, [0x31, 0x65E5])),
  (0x33E1, (.Compat, [0x32, 0x65E5])),
  (0x33E2, (.Compat, [0x33, 0x65E5])),
  (0x33E3, (.Compat, [0x34, 0x65E5])),
  (0x33E4, (.Compat, [0x35, 0x65E5])),
  (0x33E5, (.Compat, [0x36, 0x65E5])),
  (0x33E6, (.Compat, [0x37, 0x65E5])),
  (0x33E7, (.Compat, [0x38, 0x65E5])),
  (0x33E8, (.Compat, [0x39, 0x65E5])),
  (0x33E9, (.Compat, [0x31, 0x30, 0x65E5])),
  (0x33EA, (.Compat, [0x31, 0x31, 0x65E5])),
  (0x33EB, (.Compat, [0x31, 0x32, 0x65E5])),
  (0x33EC, (.Compat, [0x31, 0x33, 0x65E5])),
  (0x33ED, (.Compat, [0x31, 0x34, 0x65E5])),
  (0x33EE, (.Compat, [0x31, 0x35, 0x65E5])),
  (0x33EF, (.Compat, [0x31, 0x36, 0x65E5])),
  (0x33F0, (.Compat, [0x31, 0x37, 0x65E5])),
  (0x33F1, (.Compat, [0x31, 0x38, 0x65E5])),
  (0x33F2, (.Compat, [0x31, 0x39, 0x65E5])),
  (0x33F3, (.Compat, [0x32, 0x30, 0x65E5])),
  (0x33F4, (.Compat, [0x32, 0x31, 0x65E5])),
  (0x33F5, (.Compat, [0x32, 0x32, 0x65E5])),
  (0x33F6, (.Compat, [0x32, 0x33, 0x65E5])),
  (0x33F7, (.Compat, [0x32, 0x34, 0x65E5])),
  (0x33F8, (.Compat, [0x32, 0x35, 0x65E5])),
  (0x33F9, (.Compat, [0x32, 0x36, 0x65E5])),
  (0x33FA, (.Compat, [0x32, 0x37, 0x65E5])),
  (0x33FB, (.Compat, [0x32, 0x38, 0x65E5])),
  (0x33FC, (.Compat, [0x32, 0x39, 0x65E5])),
  (0x33FD, (.Compat, [0x33, 0x30, 0x65E5])),
  (0x33FE, (.Compat, [0x33, 0x31, 0x65E5])),
  (0x33FF, (.Square, [0x67, 0x61, 0x6C])),
  (0xA69C, (.Super, [0x44A])),
  (0xA69D, (.Super, [0x44C])),
  (0xA770, (.Super, [0xA76F])),
  (0xA7F8, (.Super, [0x126])),
  (0xA7F9, (.Super, [0x153])),
  (0xAB5C, (.Super, [0xA727])),
  (0xAB5D, (.Super, [0xAB37])),
  (0xAB5E, (.Super, [0x26B]))]
def compatibilityDecomposition_21 : List (Nat × DecompositionType × List Nat) := [
  (0xAB5F, (.Super, [0xAB52])),
  (0xFB00, (.Compat, [0x66, 0x66])),
  (0xFB01, (.Compat, [0x66, 0x69])),
  (0xFB02, (.Compat, [0x66, 0x6C])),
  (0xFB03, (.Compat, [0x66, 0x66, 0x69])),
  (0xFB04, (.Compat, [0x66, 0x66, 0x6C])),
  (0xFB05, (.Compat, [0x17F, 0x74])),
  (0xFB06, (.Compat, [0x73, 0x74])),
  (0xFB13, (.Compat, [0x574, 0x576])),
  (0xFB14, (.Compat, [0x574, 0x565])),
  (0xFB15, (.Compat, [0x574, 0x56B])),
  (0xFB16, (.Compat, [0x57E, 0x576])),
  (0xFB17, (.Compat, [0x574, 0x56D])),
  (0xFB20, (.Font, [0x5E2])),
  (0xFB21, (.Font, [0x5D0])),
  (0xFB22, (.Font, [0x5D3])),
  (0xFB23, (.Font, [0x5D4])),
  (0xFB24, (.Font, [0x5DB])),
  (0xFB25, (.Font, [0x5DC])),
  (0xFB26, (.Font, [0x5DD])),
  (0xFB27, (.Font, [0x5E8])),
  (0xFB28, (.Font, [0x5EA])),
  (0xFB29, (.Font, [0x2B])),
  (0xFB4F, (.Compat, [0x5D0, 0x5DC])),
  (0xFB50, (.Isolated, [0x671])),
  (0xFB51, (.Final, [0x671])),
  (0xFB52, (.Isolated, [0x67B])),
  (0xFB53, (.Final, [0x67B])),
  (0xFB54, (.Initial, [0x67B])),
  (0xFB55, (.Medial, [0x67B])),
  (0xFB56, (.Isolated, [0x67E])),
  (0xFB57, (.Final, [0x67E])),
  (0xFB58, (.Initial, [0x67E])),
  (0xFB59, (.Medial, [0x67E])),
  (0xFB5A, (.Isolated, [0x680])),
  (0xFB5B, (.Final, [0x680])),
  (0xFB5C, (.Initial, [0x680])),
  (0xFB5D, (.Medial, [0x680])),
  (0xFB5E, (.Isolated, [0x67A])),
  (0xFB5F, (.Final, [0x67A])),
  (0xFB60, (.Initial, [0x67A])),
  (0xFB61, (.Medial, [0x67A])),
  (0xFB62, (.Isolated, [0x67F])),
  (0xFB63, (.Final, [0x67F])),
  (0xFB64, (.Initial, [0x67F])),
  (0xFB65, (.Medial, [0x67F])),
  (0xFB66, (.Isolated, [0x679])),
  (0xFB67, (.Final, [0x679])),
  (0xFB68, (.Initial, [0x679])),
  (0xFB69, (.Medial, [0x679])),
  (0xFB6A, (.Isolated, [0x6A4])),
  (0xFB6B, (.Final, [0x6A4])),
  (0xFB6C, (.Initial, [0x6A4])),
  (0xFB6D, (.Medial, [0x6A4])),
  (0xFB6E, (.Isolated, [0x6A6])),
  (0xFB6F, (.Final, [0x6A6])),
  (0xFB70, (.Initial, [0x6A6])),
  (0xFB71, (.Medial, [0x6A6])),
  (0xFB72, (.Isolated, [0x684])),
  (0xFB73, (.Final, [0x684])),
  (0xFB74, (.Initial, [0x684])),
  (0xFB75, (.Medial, [0x684])),
  (0xFB76, (.Isolated, [0x683])),
  (0xFB77, (.Final, [0x683]))]
def compatibilityDecomposition_22 : List (Nat × DecompositionType × List Nat) := [
  (0xFB78, (.Initial, [0x683])),
  (0xFB79, (.Medial, [0x683])),
  (0xFB7A, (.Isolated, [0x686])),
  (0xFB7B, (.Final, [0x686])),
  (0xFB7C, (.Initial, [0x686])),
  (0xFB7D, (.Medial, [0x686])),
  (0xFB7E, (.Isolated, [0x687])),
  (0xFB7F, (.Final, [0x687])),
  (0xFB80, (.Initial, [0x687])),
  (0xFB81, (.Medial, [0x687])),
  (0xFB82, (.Isolated, [0x68D])),
  (0xFB83, (.Final, [0x68D])),
  (0xFB84, (.Isolated, [0x68C])),
  (0xFB85, (.Final, [0x68C])),
  (0xFB86, (.Isolated, [0x68E])),
  (0xFB87, (.Final, [0x68E])),
  (0xFB88, (.Isolated, [0x688])),
  (0xFB89, (.Final, [0x688])),
  (0xFB8A, (.Isolated, [0x698])),
  (0xFB8B, (.Final, [0x698])),
  (0xFB8C, (.Isolated, [0x691])),
  (0xFB8D, (.Final, [0x691])),
  (0xFB8E, (.Isolated, [0x6A9])),
  (0xFB8F, (.Final, [0x6A9])),
  (0xFB90, (.Initial, [0x6A9])),
  (0xFB91, (.Medial, [0x6A9])),
  (0xFB92, (.Isolated, [0x6AF])),
  (0xFB93, (.Final, [0x6AF])),
  (0xFB94, (.Initial, [0x6AF])),
  (0xFB95, (.Medial, [0x6AF])),
  (0xFB96, (.Isolated, [0x6B3])),
  (0xFB97, (.Final, [0x6B3])),
  (0xFB98, (.Initial, [0x6B3])),
  (0xFB99, (.Medial, [0x6B3])),
  (0xFB9A, (.Isolated, [0x6B1])),
  (0xFB9B, (.Final, [0x6B1])),
  (0xFB9C, (.Initial, [0x6B1])),
  (0xFB9D, (.Medial, [0x6B1])),
  (0xFB9E, (.Isolated, [0x6BA])),
  (0xFB9F, (.Final, [0x6BA])),
  (0xFBA0, (.Isolated, [0x6BB])),
  (0xFBA1, (.Final, [0x6BB])),
  (0xFBA2, (.Initial, [0x6BB])),
  (0xFBA3, (.Medial, [0x6BB])),
  (0xFBA4, (.Isolated, [0x6C0])),
  (0xFBA5, (.Final, [0x6C0])),
  (0xFBA6, (.Isolated, [0x6C1])),
  (0xFBA7, (.Final, [0x6C1])),
  (0xFBA8, (.Initial, [0x6C1])),
  (0xFBA9, (.Medial, [0x6C1])),
  (0xFBAA, (.Isolated, [0x6BE])),
  (0xFBAB, (.Final, [0x6BE])),
  (0xFBAC, (.Initial, [0x6BE])),
  (0xFBAD, (.Medial, [0x6BE])),
  (0xFBAE, (.Isolated, [0x6D2])),
  (0xFBAF, (.Final, [0x6D2])),
  (0xFBB0, (.Isolated, [0x6D3])),
  (0xFBB1, (.Final, [0x6D3])),
  (0xFBD3, (.Isolated, [0x6AD])),
  (0xFBD4, (.Final, [0x6AD])),
  (0xFBD5, (.Initial, [0x6AD])),
  (0xFBD6, (.Medial, [0x6AD])),
  (0xFBD7, (.Isolated, [0x6C7])),
  (0xFBD8, (.Final, [0x6C7]))]
def compatibilityDecomposition_23 : List (Nat × DecompositionType × List Nat) := [
  (0xFBD9, (.Isolated, [0x6C6])),
  (0xFBDA, (.Final, [0x6C6])),
  (0xFBDB, (.Isolated, [0x6C8])),
  (0xFBDC, (.Final, [0x6C8])),
  (0xFBDD, (.Isolated, [0x677])),
  (0xFBDE, (.Isolated, [0x6CB])),
  (0xFBDF, (.Final, [0x6CB])),
  (0xFBE0, (.Isolated, [0x6C5])),
  (0xFBE1, (.Final, [0x6C5])),
  (0xFBE2, (.Isolated, [0x6C9])),
  (0xFBE3, (.Final, [0x6C9])),
  (0xFBE4, (.Isolated, [0x6D0])),
  (0xFBE5, (.Final, [0x6D0])),
  (0xFBE6, (.Initial, [0x6D0])),
  (0xFBE7, (.Medial, [0x6D0])),
  (0xFBE8, (.Initial, [0x649])),
  (0xFBE9, (.Medial, [0x649])),
  (0xFBEA, (.Isolated, [0x626, 0x627])),
  (0xFBEB, (.Final, [0x626, 0x627])),
  (0xFBEC, (.Isolated, [0x626, 0x6D5])),
  (0xFBED, (.Final, [0x626, 0x6D5])),
  (0xFBEE, (.Isolated, [0x626, 0x648])),
  (0xFBEF, (.Final, [0x626, 0x648])),
  (0xFBF0, (.Isolated, [0x626, 0x6C7])),
  (0xFBF1, (.Final, [0x626, 0x6C7])),
  (0xFBF2, (.Isolated, [0x626, 0x6C6])),
  (0xFBF3, (.Final, [0x626, 0x6C6])),
  (0xFBF4, (.Isolated, [0x626, 0x6C8])),
  (0xFBF5, (.Final, [0x626, 0x6C8])),
  (0xFBF6, (.Isolated, [0x626, 0x6D0])),
  (0xFBF7, (.Final, [0x626, 0x6D0])),
  (0xFBF8, (.Initial, [0x626, 0x6D0])),
  (0xFBF9, (.Isolated, [0x626, 0x649])),
  (0xFBFA, (.Final, [0x626, 0x649])),
  (0xFBFB, (.Initial, [0x626, 0x649])),
  (0xFBFC, (.Isolated, [0x6CC])),
  (0xFBFD, (.Final, [0x6CC])),
  (0xFBFE, (.Initial, [0x6CC])),
  (0xFBFF, (.Medial, [0x6CC])),
  (0xFC00, (.Isolated, [0x626, 0x62C])),
  (0xFC01, (.Isolated, [0x626, 0x62D])),
  (0xFC02, (.Isolated, [0x626, 0x645])),
  (0xFC03, (.Isolated, [0x626, 0x649])),
  (0xFC04, (.Isolated, [0x626, 0x64A])),
  (0xFC05, (.Isolated, [0x628, 0x62C])),
  (0xFC06, (.Isolated, [0x628, 0x62D])),
  (0xFC07, (.Isolated, [0x628, 0x62E])),
  (0xFC08, (.Isolated, [0x628, 0x645])),
  (0xFC09, (.Isolated, [0x628, 0x649])),
  (0xFC0A, (.Isolated, [0x628, 0x64A])),
  (0xFC0B, (.Isolated, [0x62A, 0x62C])),
  (0xFC0C, (.Isolated, [0x62A, 0x62D])),
  (0xFC0D, (.Isolated, [0x62A, 0x62E])),
  (0xFC0E, (.Isolated, [0x62A, 0x645])),
  (0xFC0F, (.Isolated, [0x62A, 0x649])),
  (0xFC10, (.Isolated, [0x62A, 0x64A])),
  (0xFC11, (.Isolated, [0x62B, 0x62C])),
  (0xFC12, (.Isolated, [0x62B, 0x645])),
  (0xFC13, (.Isolated, [0x62B, 0x649])),
  (0xFC14, (.Isolated, [0x62B, 0x64A])),
  (0xFC15, (.Isolated, [0x62C, 0x62D])),
  (0xFC16, (.Isolated, [0x62C, 0x645])),
  (0xFC17, (.Isolated, [0x62D, 0x62C])),
  (0xFC18, (.Isolated, [0x62D, 0x645]))]
def compatibilityDecomposition_24 : List (Nat × DecompositionType × List Nat) := [
  (0xFC19, (.Isolated, [0x62E, 0x62C])),
  (0xFC1A, (.Isolated, [0x62E, 0x62D])),
  (0xFC1B, (.Isolated, [0x62E, 0x645])),
  (0xFC1C, (.Isolated, [0x633, 0x62C])),
  (0xFC1D, (.Isolated, [0x633, 0x62D])),
  (0xFC1E, (.Isolated, [0x633, 0x62E])),
  (0xFC1F, (.Isolated, [0x633, 0x645])),
  (0xFC20, (.Isolated, [0x635, 0x62D])),
  (0xFC21, (.Isolated, [0x635, 0x645])),
  (0xFC22, (.Isolated, [0x636, 0x62C])),
  (0xFC23, (.Isolated, [0x636, 0x62D])),
  (0xFC24, (.Isolated, [0x636, 0x62E])),
  (0xFC25, (.Isolated, [0x636, 0x645])),
  (0xFC26, (.Isolated, [0x637, 0x62D])),
  (0xFC27, (.Isolated, [0x637, 0x645])),
  (0xFC28, (.Isolated, [0x638, 0x645])),
  (0xFC29, (.Isolated, [0x639, 0x62C])),
  (0xFC2A, (.Isolated, [0x639, 0x645])),
  (0xFC2B, (.Isolated, [0x63A, 0x62C])),
  (0xFC2C, (.Isolated, [0x63A, 0x645])),
  (0xFC2D, (.Isolated, [0x641, 0x62C])),
  (0xFC2E, (.Isolated, [0x641, 0x62D])),
  (0xFC2F, (.Isolated, [0x641, 0x62E])),
  (0xFC30, (.Isolated, [0x641, 0x645])),
  (0xFC31, (.Isolated, [0x641, 0x649])),
  (0xFC32, (.Isolated, [0x641, 0x64A])),
  (0xFC33, (.Isolated, [0x642, 0x62D])),
  (0xFC34, (.Isolated, [0x642, 0x645])),
  (0xFC35, (.Isolated, [0x642, 0x649])),
  (0xFC36, (.Isolated, [0x642, 0x64A])),
  (0xFC37, (.Isolated, [0x643, 0x627])),
  (0xFC38, (.Isolated, [0x643, 0x62C])),
  (0xFC39, (.Isolated, [0x643, 0x62D])),
  (0xFC3A, (.Isolated, [0x643, 0x62E])),
  (0xFC3B, (.Isolated, [0x643, 0x644])),
  (0xFC3C, (.Isolated, [0x643, 0x645])),
  (0xFC3D, (.Isolated, [0x643, 0x649])),
  (0xFC3E, (.Isolated, [0x643, 0x64A])),
  (0xFC3F, (.Isolated, [0x644, 0x62C])),
  (0xFC40, (.Isolated, [0x644, 0x62D])),
  (0xFC41, (.Isolated, [0x644, 0x62E])),
  (0xFC42, (.Isolated, [0x644, 0x645])),
  (0xFC43, (.Isolated, [0x644, 0x649])),
  (0xFC44, (.Isolated, [0x644, 0x64A])),
  (0xFC45, (.Isolated, [0x645, 0x62C])),
  (0xFC46, (.Isolated, [0x645, 0x62D])),
  (0xFC47, (.Isolated, [0x645, 0x62E])),
  (0xFC48, (.Isolated, [0x645, 0x645])),
  (0xFC49, (.Isolated, [0x645, 0x649])),
  (0xFC4A, (.Isolated, [0x645, 0x64A])),
  (0xFC4B, (.Isolated, [0x646, 0x62C])),
  (0xFC4C, (.Isolated, [0x646, 0x62D])),
  (0xFC4D, (.Isolated, [0x646, 0x62E])),
  (0xFC4E, (.Isolated, [0x646, 0x645])),
  (0xFC4F, (.Isolated, [0x646, 0x649])),
  (0xFC50, (.Isolated, [0x646, 0x64A])),
  (0xFC51, (.Isolated, [0x647, 0x62C])),
  (0xFC52, (.Isolated, [0x647, 0x645])),
  (0xFC53, (.Isolated, [0x647, 0x649])),
  (0xFC54, (.Isolated, [0x647, 0x64A])),
  (0xFC55, (.Isolated, [0x64A, 0x62C])),
  (0xFC56, (.Isolated, [0x64A, 0x62D])),
  (0xFC57, (.Isolated, [0x64A, 0x62E])),
  (0xFC58, (.Isolated, [0x64A, 0x645]))]
def compatibilityDecomposition_25 : List (Nat × DecompositionType × List Nat) := [
  (0xFC59, (.Isolated, [0x64A, 0x649])),
  (0xFC5A, (.Isolated, [0x64A, 0x64A])),
  (0xFC5B, (.Isolated, [0x630, 0x670])),
  (0xFC5C, (.Isolated, [0x631, 0x670])),
  (0xFC5D, (.Isolated, [0x649, 0x670])),
  (0xFC5E, (.Isolated, [0x20, 0x64C, 0x651])),
  (0xFC5F, (.Isolated, [0x20, 0x64D, 0x651])),
  (0xFC60, (.Isolated, [0x20, 0x64E, 0x651])),
  (0xFC61, (.Isolated, [0x20, 0x64F, 0x651])),
  (0xFC62, (.Isolated, [0x20, 0x650, 0x651])),
  (0xFC63, (.Isolated, [0x20, 0x651, 0x670])),
  (0xFC64, (.Final, [0x626, 0x631])),
  (0xFC65, (.Final, [0x626, 0x632])),
  (0xFC66, (.Final, [0x626, 0x645])),
  (0xFC67, (.Final, [0x626, 0x646])),
  (0xFC68, (.Final, [0x626, 0x649])),
  (0xFC69, (.Final, [0x626, 0x64A])),
  (0xFC6A, (.Final, [0x628, 0x631])),
  (0xFC6B, (.Final, [0x628, 0x632])),
  (0xFC6C, (.Final, [0x628, 0x645])),
  (0xFC6D, (.Final, [0x628, 0x646])),
  (0xFC6E, (.Final, [0x628, 0x649])),
  (0xFC6F, (.Final, [0x628, 0x64A])),
  (0xFC70, (.Final, [0x62A, 0x631])),
  (0xFC71, (.Final, [0x62A, 0x632])),
  (0xFC72, (.Final, [0x62A, 0x645])),
  (0xFC73, (.Final, [0x62A, 0x646])),
  (0xFC74, (.Final, [0x62A, 0x649])),
  (0xFC75, (.Final, [0x62A, 0x64A])),
  (0xFC76, (.Final, [0x62B, 0x631])),
  (0xFC77, (.Final, [0x62B, 0x632])),
  (0xFC78, (.Final, [0x62B, 0x645])),
  (0xFC79, (.Final, [0x62B, 0x646])),
  (0xFC7A, (.Final, [0x62B, 0x649])),
  (0xFC7B, (.Final, [0x62B, 0x64A])),
  (0xFC7C, (.Final, [0x641, 0x649])),
  (0xFC7D, (.Final, [0x641, 0x64A])),
  (0xFC7E, (.Final, [0x642, 0x649])),
  (0xFC7F, (.Final, [0x642, 0x64A])),
  (0xFC80, (.Final, [0x643, 0x627])),
  (0xFC81, (.Final, [0x643, 0x644])),
  (0xFC82, (.Final, [0x643, 0x645])),
  (0xFC83, (.Final, [0x643, 0x649])),
  (0xFC84, (.Final, [0x643, 0x64A])),
  (0xFC85, (.Final, [0x644, 0x645])),
  (0xFC86, (.Final, [0x644, 0x649])),
  (0xFC87, (.Final, [0x644, 0x64A])),
  (0xFC88, (.Final, [0x645, 0x627])),
  (0xFC89, (.Final, [0x645, 0x645])),
  (0xFC8A, (.Final, [0x646, 0x631])),
  (0xFC8B, (.Final, [0x646, 0x632])),
  (0xFC8C, (.Final, [0x646, 0x645])),
  (0xFC8D, (.Final, [0x646, 0x646])),
  (0xFC8E, (.Final, [0x646, 0x649])),
  (0xFC8F, (.Final, [0x646, 0x64A])),
  (0xFC90, (.Final, [0x649, 0x670])),
  (0xFC91, (.Final, [0x64A, 0x631])),
  (0xFC92, (.Final, [0x64A, 0x632])),
  (0xFC93, (.Final, [0x64A, 0x645])),
  (0xFC94, (.Final, [0x64A, 0x646])),
  (0xFC95, (.Final, [0x64A, 0x649])),
  (0xFC96, (.Final, [0x64A, 0x64A])),
  (0xFC97, (.Initial, [0x626, 0x62C])),
  (0xFC98, (.Initial, [0x626, 0x62D]))]
def compatibilityDecomposition_26 : List (Nat × DecompositionType × List Nat) := [
  (0xFC99, (.Initial, [0x626, 0x62E])),
  (0xFC9A, (.Initial, [0x626, 0x645])),
  (0xFC9B, (.Initial, [0x626, 0x647])),
  (0xFC9C, (.Initial, [0x628, 0x62C])),
  (0xFC9D, (.Initial, [0x628, 0x62D])),
  (0xFC9E, (.Initial, [0x628, 0x62E])),
  (0xFC9F, (.Initial, [0x628, 0x645])),
  (0xFCA0, (.Initial, [0x628, 0x647])),
  (0xFCA1, (.Initial, [0x62A, 0x62C])),
  (0xFCA2, (.Initial, [0x62A, 0x62D])),
  (0xFCA3, (.Initial, [0x62A, 0x62E])),
  (0xFCA4, (.Initial, [0x62A, 0x645])),
  (0xFCA5, (.Initial, [0x62A, 0x647])),
  (0xFCA6, (.Initial, [0x62B, 0x645])),
  (0xFCA7, (.Initial, [0x62C, 0x62D])),
  (0xFCA8, (.Initial, [0x62C, 0x645])),
  (0xFCA9, (.Initial, [0x62D, 0x62C])),
  (0xFCAA, (.Initial, [0x62D, 0x645])),
  (0xFCAB, (.Initial, [0x62E, 0x62C])),
  (0xFCAC, (.Initial, [0x62E, 0x645])),
  (0xFCAD, (.Initial, [0x633, 0x62C])),
  (0xFCAE, (.Initial, [0x633, 0x62D])),
  (0xFCAF, (.Initial, [0x633, 0x62E])),
  (0xFCB0, (.Initial, [0x633, 0x645])),
  (0xFCB1, (.Initial, [0x635, 0x62D])),
  (0xFCB2, (.Initial, [0x635, 0x62E])),
  (0xFCB3, (.Initial, [0x635, 0x645])),
  (0xFCB4, (.Initial, [0x636, 0x62C])),
  (0xFCB5, (.Initial, [0x636, 0x62D])),
  (0xFCB6, (.Initial, [0x636, 0x62E])),
  (0xFCB7, (.Initial, [0x636, 0x645])),
  (0xFCB8, (.Initial, [0x637, 0x62D])),
  (0xFCB9, (.Initial, [0x638, 0x645])),
  (0xFCBA, (.Initial, [0x639, 0x62C])),
  (0xFCBB, (.Initial, [0x639, 0x645])),
  (0xFCBC, (.Initial, [0x63A, 0x62C])),
  (0xFCBD, (.Initial, [0x63A, 0x645])),
  (0xFCBE, (.Initial, [0x641, 0x62C])),
  (0xFCBF, (.Initial, [0x641, 0x62D])),
  (0xFCC0, (.Initial, [0x641, 0x62E])),
  (0xFCC1, (.Initial, [0x641, 0x645])),
  (0xFCC2, (.Initial, [0x642, 0x62D])),
  (0xFCC3, (.Initial, [0x642, 0x645])),
  (0xFCC4, (.Initial, [0x643, 0x62C])),
  (0xFCC5, (.Initial, [0x643, 0x62D])),
  (0xFCC6, (.Initial, [0x643, 0x62E])),
  (0xFCC7, (.Initial, [0x643, 0x644])),
  (0xFCC8, (.Initial, [0x643, 0x645])),
  (0xFCC9, (.Initial, [0x644, 0x62C])),
  (0xFCCA, (.Initial, [0x644, 0x62D])),
  (0xFCCB, (.Initial, [0x644, 0x62E])),
  (0xFCCC, (.Initial, [0x644, 0x645])),
  (0xFCCD, (.Initial, [0x644, 0x647])),
  (0xFCCE, (.Initial, [0x645, 0x62C])),
  (0xFCCF, (.Initial, [0x645, 0x62D])),
  (0xFCD0, (.Initial, [0x645, 0x62E])),
  (0xFCD1, (.Initial, [0x645, 0x645])),
  (0xFCD2, (.Initial, [0x646, 0x62C])),
  (0xFCD3, (.Initial, [0x646, 0x62D])),
  (0xFCD4, (.Initial, [0x646, 0x62E])),
  (0xFCD5, (.Initial, [0x646, 0x645])),
  (0xFCD6, (.Initial, [0x646, 0x647])),
  (0xFCD7, (.Initial, [0x647, 0x62C])),
  (0xFCD8, (.Initial, [0x647, 0x645]))]
def compatibilityDecomposition_27 : List (Nat × DecompositionType × List Nat) := [
  (0xFCD9, (.Initial, [0x647, 0x670])),
  (0xFCDA, (.Initial, [0x64A, 0x62C])),
  (0xFCDB, (.Initial, [0x64A, 0x62D])),
  (0xFCDC, (.Initial, [0x64A, 0x62E])),
  (0xFCDD, (.Initial, [0x64A, 0x645])),
  (0xFCDE, (.Initial, [0x64A, 0x647])),
  (0xFCDF, (.Medial, [0x626, 0x645])),
  (0xFCE0, (.Medial, [0x626, 0x647])),
  (0xFCE1, (.Medial, [0x628, 0x645])),
  (0xFCE2, (.Medial, [0x628, 0x647])),
  (0xFCE3, (.Medial, [0x62A, 0x645])),
  (0xFCE4, (.Medial, [0x62A, 0x647])),
  (0xFCE5, (.Medial, [0x62B, 0x645])),
  (0xFCE6, (.Medial, [0x62B, 0x647])),
  (0xFCE7, (.Medial, [0x633, 0x645])),
  (0xFCE8, (.Medial, [0x633, 0x647])),
  (0xFCE9, (.Medial, [0x634, 0x645])),
  (0xFCEA, (.Medial, [0x634, 0x647])),
  (0xFCEB, (.Medial, [0x643, 0x644])),
  (0xFCEC, (.Medial, [0x643, 0x645])),
  (0xFCED, (.Medial, [0x644, 0x645])),
  (0xFCEE, (.Medial, [0x646, 0x645])),
  (0xFCEF, (.Medial, [0x646, 0x647])),
  (0xFCF0, (.Medial, [0x64A, 0x645])),
  (0xFCF1, (.Medial, [0x64A, 0x647])),
  (0xFCF2, (.Medial, [0x640, 0x64E, 0x651])),
  (0xFCF3, (.Medial, [0x640, 0x64F, 0x651])),
  (0xFCF4, (.Medial, [0x640, 0x650, 0x651])),
  (0xFCF5, (.Isolated, [0x637, 0x649])),
  (0xFCF6, (.Isolated, [0x637, 0x64A])),
  (0xFCF7, (.Isolated, [0x639, 0x649])),
  (0xFCF8, (.Isolated, [0x639, 0x64A])),
  (0xFCF9, (.Isolated, [0x63A, 0x649])),
  (0xFCFA, (.Isolated, [0x63A, 0x64A])),
  (0xFCFB, (.Isolated, [0x633, 0x649])),
  (0xFCFC, (.Isolated, [0x633, 0x64A])),
  (0xFCFD, (.Isolated, [0x634, 0x649])),
  (0xFCFE, (.Isolated, [0x634, 0x64A])),
  (0xFCFF, (.Isolated, [0x62D, 0x649])),
  (0xFD00, (.Isolated, [0x62D, 0x64A])),
  (0xFD01, (.Isolated, [0x62C, 0x649])),
  (0xFD02, (.Isolated, [0x62C, 0x64A])),
  (0xFD03, (.Isolated, [0x62E, 0x649])),
  (0xFD04, (.Isolated, [0x62E, 0x64A])),
  (0xFD05, (.Isolated, [0x635, 0x649])),
  (0xFD06, (.Isolated, [0x635, 0x64A])),
  (0xFD07, (.Isolated, [0x636, 0x649])),
  (0xFD08, (.Isolated, [0x636, 0x64A])),
  (0xFD09, (.Isolated, [0x634, 0x62C])),
  (0xFD0A, (.Isolated, [0x634, 0x62D])),
  (0xFD0B, (.Isolated, [0x634, 0x62E])),
  (0xFD0C, (.Isolated, [0x634, 0x645])),
  (0xFD0D, (.Isolated, [0x634, 0x631])),
  (0xFD0E, (.Isolated, [0x633, 0x631])),
  (0xFD0F, (.Isolated, [0x635, 0x631])),
  (0xFD10, (.Isolated, [0x636, 0x631])),
  (0xFD11, (.Final, [0x637, 0x649])),
  (0xFD12, (.Final, [0x637, 0x64A])),
  (0xFD13, (.Final, [0x639, 0x649])),
  (0xFD14, (.Final, [0x639, 0x64A])),
  (0xFD15, (.Final, [0x63A, 0x649])),
  (0xFD16, (.Final, [0x63A, 0x64A])),
  (0xFD17, (.Final, [0x633, 0x649])),
  (0xFD18, (.Final, [0x633, 0x64A]))]
def compatibilityDecomposition_28 : List (Nat × DecompositionType × List Nat) := [
  (0xFD19, (.Final, [0x634, 0x649])),
  (0xFD1A, (.Final, [0x634, 0x64A])),
  (0xFD1B, (.Final, [0x62D, 0x649])),
  (0xFD1C, (.Final, [0x62D, 0x64A])),
  (0xFD1D, (.Final, [0x62C, 0x649])),
  (0xFD1E, (.Final, [0x62C, 0x64A])),
  (0xFD1F, (.Final, [0x62E, 0x649])),
  (0xFD20, (.Final, [0x62E, 0x64A])),
  (0xFD21, (.Final, [0x635, 0x649])),
  (0xFD22, (.Final, [0x635, 0x64A])),
  (0xFD23, (.Final, [0x636, 0x649])),
  (0xFD24, (.Final, [0x636, 0x64A])),
  (0xFD25, (.Final, [0x634, 0x62C])),
  (0xFD26, (.Final, [0x634, 0x62D])),
  (0xFD27, (.Final, [0x634, 0x62E])),
  (0xFD28, (.Final, [0x634, 0x645])),
  (0xFD29, (.Final, [0x634, 0x631])),
  (0xFD2A, (.Final, [0x633, 0x631])),
  (0xFD2B, (.Final, [0x635, 0x631])),
  (0xFD2C, (.Final, [0x636, 0x631])),
  (0xFD2D, (.Initial, [0x634, 0x62C])),
  (0xFD2E, (.Initial, [0x634, 0x62D])),
  (0xFD2F, (.Initial, [0x634, 0x62E])),
  (0xFD30, (.Initial, [0x634, 0x645])),
  (0xFD31, (.Initial, [0x633, 0x647])),
  (0xFD32, (.Initial, [0x634, 0x647])),
  (0xFD33, (.Initial, [0x637, 0x645])),
  (0xFD34, (.Medial, [0x633, 0x62C])),
  (0xFD35, (.Medial, [0x633, 0x62D])),
  (0xFD36, (.Medial, [0x633, 0x62E])),
  (0xFD37, (.Medial, [0x634, 0x62C])),
  (0xFD38, (.Medial, [0x634, 0x62D])),
  (0xFD39, (.Medial, [0x634, 0x62E])),
  (0xFD3A, (.Medial, [0x637, 0x645])),
  (0xFD3B, (.Medial, [0x638, 0x645])),
  (0xFD3C, (.Final, [0x627, 0x64B])),
  (0xFD3D, (.Isolated, [0x627, 0x64B])),
  (0xFD50, (.Initial, [0x62A, 0x62C, 0x645])),
  (0xFD51, (.Final, [0x62A, 0x62D, 0x62C])),
  (0xFD52, (.Initial, [0x62A, 0x62D, 0x62C])),
  (0xFD53, (.Initial, [0x62A, 0x62D, 0x645])),
  (0xFD54, (.Initial, [0x62A, 0x62E, 0x645])),
  (0xFD55, (.Initial, [0x62A, 0x645, 0x62C])),
  (0xFD56, (.Initial, [0x62A, 0x645, 0x62D])),
  (0xFD57, (.Initial, [0x62A, 0x645, 0x62E])),
  (0xFD58, (.Final, [0x62C, 0x645, 0x62D])),
  (0xFD59, (.Initial, [0x62C, 0x645, 0x62D])),
  (0xFD5A, (.Final, [0x62D, 0x645, 0x64A])),
  (0xFD5B, (.Final, [0x62D, 0x645, 0x649])),
  (0xFD5C, (.Initial, [0x633, 0x62D, 0x62C])),
  (0xFD5D, (.Initial, [0x633, 0x62C, 0x62D])),
  (0xFD5E, (.Final, [0x633, 0x62C, 0x649])),
  (0xFD5F, (.Final, [0x633, 0x645, 0x62D])),
  (0xFD60, (.Initial, [0x633, 0x645, 0x62D])),
  (0xFD61, (.Initial, [0x633, 0x645, 0x62C])),
  (0xFD62, (.Final, [0x633, 0x645, 0x645])),
  (0xFD63, (.Initial, [0x633, 0x645, 0x645])),
  (0xFD64, (.Final, [0x635, 0x62D, 0x62D])),
  (0xFD65, (.Initial, [0x635, 0x62D, 0x62D])),
  (0xFD66, (.Final, [0x635, 0x645, 0x645])),
  (0xFD67, (.Final, [0x634, 0x62D, 0x645])),
  (0xFD68, (.Initial, [0x634, 0x62D, 0x645])),
  (0xFD69, (.Final, [0x634, 0x62C, 0x64A])),
  (0xFD6A, (.Final, [0x634, 0x645, 0x62E]))]
def compatibilityDecomposition_29 : List (Nat × DecompositionType × List Nat) := [
  (0xFD6B, (.Initial, [0x634, 0x645, 0x62E])),
  (0xFD6C, (.Final, [0x634, 0x645, 0x645])),
  (0xFD6D, (.Initial, [0x634, 0x645, 0x645])),
  (0xFD6E, (.Final, [0x636, 0x62D, 0x649])),
  (0xFD6F, (.Final, [0x636, 0x62E, 0x645])),
  (0xFD70, (.Initial, [0x636, 0x62E, 0x645])),
  (0xFD71, (.Final, [0x637, 0x645, 0x62D])),
  (0xFD72, (.Initial, [0x637, 0x645, 0x62D])),
  (0xFD73, (.Initial, [0x637, 0x645, 0x645])),
  (0xFD74, (.Final, [0x637, 0x645, 0x64A])),
  (0xFD75, (.Final, [0x639, 0x62C, 0x645])),
  (0xFD76, (.Final, [0x639, 0x645, 0x645])),
  (0xFD77, (.Initial, [0x639, 0x645, 0x645])),
  (0xFD78, (.Final, [0x639, 0x645, 0x649])),
  (0xFD79, (.Final, [0x63A, 0x645, 0x645])),
  (0xFD7A, (.Final, [0x63A, 0x645, 0x64A])),
  (0xFD7B, (.Final, [0x63A, 0x645, 0x649])),
  (0xFD7C, (.Final, [0x641, 0x62E, 0x645])),
  (0xFD7D, (.Initial, [0x641, 0x62E, 0x645])),
  (0xFD7E, (.Final, [0x642, 0x645, 0x62D])),
  (0xFD7F, (.Final, [0x642, 0x645, 0x645])),
  (0xFD80, (.Final, [0x644, 0x62D, 0x645])),
  (0xFD81, (.Final, [0x644, 0x62D, 0x64A])),
  (0xFD82, (.Final, [0x644, 0x62D, 0x649])),
  (0xFD83, (.Initial, [0x644, 0x62C, 0x62C])),
  (0xFD84, (.Final, [0x644, 0x62C, 0x62C])),
  (0xFD85, (.Final, [0x644, 0x62E, 0x645])),
  (0xFD86, (.Initial, [0x644, 0x62E, 0x645])),
  (0xFD87, (.Final, [0x644, 0x645, 0x62D])),
  (0xFD88, (.Initial, [0x644, 0x645, 0x62D])),
  (0xFD89, (.Initial, [0x645, 0x62D, 0x62C])),
  (0xFD8A, (.Initial, [0x645, 0x62D, 0x645])),
  (0xFD8B, (.Final, [0x645, 0x62D, 0x64A])),
  (0xFD8C, (.Initial, [0x645, 0x62C, 0x62D])),
  (0xFD8D, (.Initial, [0x645, 0x62C, 0x645])),
  (0xFD8E, (.Initial, [0x645, 0x62E, 0x62C])),
  (0xFD8F, (.Initial, [0x645, 0x62E, 0x645])),
  (0xFD92, (.Initial, [0x645, 0x62C, 0x62E])),
  (0xFD93, (.Initial, [0x647, 0x645, 0x62C])),
  (0xFD94, (.Initial, [0x647, 0x645, 0x645])),
  (0xFD95, (.Initial, [0x646, 0x62D, 0x645])),
  (0xFD96, (.Final, [0x646, 0x62D, 0x649])),
  (0xFD97, (.Final, [0x646, 0x62C, 0x645])),
  (0xFD98, (.Initial, [0x646, 0x62C, 0x645])),
  (0xFD99, (.Final, [0x646, 0x62C, 0x649])),
  (0xFD9A, (.Final, [0x646, 0x645, 0x64A])),
  (0xFD9B, (.Final, [0x646, 0x645, 0x649])),
  (0xFD9C, (.Final, [0x64A, 0x645, 0x645])),
  (0xFD9D, (.Initial, [0x64A, 0x645, 0x645])),
  (0xFD9E, (.Final, [0x628, 0x62E, 0x64A])),
  (0xFD9F, (.Final, [0x62A, 0x62C, 0x64A])),
  (0xFDA0, (.Final, [0x62A, 0x62C, 0x649])),
  (0xFDA1, (.Final, [0x62A, 0x62E, 0x64A])),
  (0xFDA2, (.Final, [0x62A, 0x62E, 0x649])),
  (0xFDA3, (.Final, [0x62A, 0x645, 0x64A])),
  (0xFDA4, (.Final, [0x62A, 0x645, 0x649])),
  (0xFDA5, (.Final, [0x62C, 0x645, 0x64A])),
  (0xFDA6, (.Final, [0x62C, 0x62D, 0x649])),
  (0xFDA7, (.Final, [0x62C, 0x645, 0x649])),
  (0xFDA8, (.Final, [0x633, 0x62E, 0x649])),
  (0xFDA9, (.Final, [0x635, 0x62D, 0x64A])),
  (0xFDAA, (.Final, [0x634, 0x62D, 0x64A])),
  (0xFDAB, (.Final, [0x636, 0x62D, 0x64A])),
  (0xFDAC, (.Final, [0x644, 0x62C, 0x64A]))]
def compatibilityDecomposition_30 : List (Nat × DecompositionType × List Nat) := [
  (0xFDAD, (.Final, [0x644, 0x645, 0x64A])),
  (0xFDAE, (.Final, [0x64A, 0x62D, 0x64A])),
  (0xFDAF, (.Final, [0x64A, 0x62C, 0x64A])),
  (0xFDB0, (.Final, [0x64A, 0x645, 0x64A])),
  (0xFDB1, (.Final, [0x645, 0x645, 0x64A])),
  (0xFDB2, (.Final, [0x642, 0x645, 0x64A])),
  (0xFDB3, (.Final, [0x646, 0x62D, 0x64A])),
  (0xFDB4, (.Initial, [0x642, 0x645, 0x62D])),
  (0xFDB5, (.Initial, [0x644, 0x62D, 0x645])),
  (0xFDB6, (.Final, [0x639, 0x645, 0x64A])),
  (0xFDB7, (.Final, [0x643, 0x645, 0x64A])),
  (0xFDB8, (.Initial, [0x646, 0x62C, 0x62D])),
  (0xFDB9, (.Final, [0x645, 0x62E, 0x64A])),
  (0xFDBA, (.Initial, [0x644, 0x62C, 0x645])),
  (0xFDBB, (.Final, [0x643, 0x645, 0x645])),
  (0xFDBC, (.Final, [0x644, 0x62C, 0x645])),
  (0xFDBD, (.Final, [0x646, 0x62C, 0x62D])),
  (0xFDBE, (.Final, [0x62C, 0x62D, 0x64A])),
  (0xFDBF, (.Final, [0x62D, 0x62C, 0x64A])),
  (0xFDC0, (.Final, [0x645, 0x62C, 0x64A])),
  (0xFDC1, (.Final, [0x641, 0x645, 0x64A])),
  (0xFDC2, (.Final, [0x628, 0x62D, 0x64A])),
  (0xFDC3, (.Initial, [0x643, 0x645, 0x645])),
  (0xFDC4, (.Initial, [0x639, 0x62C, 0x645])),
  (0xFDC5, (.Initial, [0x635, 0x645, 0x645])),
  (0xFDC6, (.Final, [0x633, 0x62E, 0x64A])),
  (0xFDC7, (.Final, [0x646, 0x62C, 0x64A])),
  (0xFDF0, (.Isolated, [0x635, 0x644, 0x6D2])),
  (0xFDF1, (.Isolated, [0x642, 0x644, 0x6D2])),
  (0xFDF2, (.Isolated, [0x627, 0x644, 0x644, 0x647])),
  (0xFDF3, (.Isolated, [0x627, 0x643, 0x628, 0x631])),
  (0xFDF4, (.Isolated, [0x645, 0x62D, 0x645, 0x62F])),
  (0xFDF5, (.Isolated, [0x635, 0x644, 0x639, 0x645])),
  (0xFDF6, (.Isolated, [0x631, 0x633, 0x648, 0x644])),
  (0xFDF7, (.Isolated, [0x639, 0x644, 0x64A, 0x647])),
  (0xFDF8, (.Isolated, [0x648, 0x633, 0x644, 0x645])),
  (0xFDF9, (.Isolated, [0x635, 0x644, 0x649])),
  (0xFDFA, (.Isolated, [0x635, 0x644, 0x649, 0x20, 0x627, 0x644, 0x644, 0x647, 0x20, 0x639, 0x644, 0x64A, 0x647, 0x20, 0x648, 0x633, 0x644, 0x645])),
  (0xFDFB, (.Isolated, [0x62C, 0x644, 0x20, 0x62C, 0x644, 0x627, 0x644, 0x647])),
  (0xFDFC, (.Isolated, [0x631, 0x6CC, 0x627, 0x644])),
  (0xFE10, (.Vertical, [0x2C])),
  (0xFE11, (.Vertical, [0x3001])),
  (0xFE12, (.Vertical, [0x3002])),
  (0xFE13, (.Vertical, [0x3A])),
  (0xFE14, (.Vertical, [0x3B])),
  (0xFE15, (.Vertical, [0x21])),
  (0xFE16, (.Vertical, [0x3F])),
  (0xFE17, (.Vertical, [0x3016])),
  (0xFE18, (.Vertical, [0x3017])),
  (0xFE19, (.Vertical, [0x2026])),
  (0xFE30, (.Vertical, [0x2025])),
  (0xFE31, (.Vertical, [0x2014])),
  (0xFE32, (.Vertical, [0x2013])),
  (0xFE33, (.Vertical, [0x5F])),
  (0xFE34, (.Vertical, [0x5F])),
  (0xFE35, (.Vertical, [0x28])),
  (0xFE36, (.Vertical, [0x29])),
  (0xFE37, (.Vertical, [0x7B])),
  (0xFE38, (.Vertical, [0x7D])),
  (0xFE39, (.Vertical, [0x3014])),
  (0xFE3A, (.Vertical, [0x3015])),
  (0xFE3B, (.Vertical, [0x3010])),
  (0xFE3C, (.Vertical, [0x3011])),
  (0xFE3D, (.Vertical, [0x300A]))]
def compatibilityDecomposition_31 : List (Nat × DecompositionType × List Nat) := [
  (0xFE3E, (.Vertical, [0x300B])),
  (0xFE3F, (.Vertical, [0x3008])),
  (0xFE40, (.Vertical, [0x3009])),
  (0xFE41, (.Vertical, [0x300C])),
  (0xFE42, (.Vertical, [0x300D])),
  (0xFE43, (.Vertical, [0x300E])),
  (0xFE44, (.Vertical, [0x300F])),
  (0xFE47, (.Vertical, [0x5B])),
  (0xFE48, (.Vertical, [0x5D])),
  (0xFE49, (.Compat, [0x203E])),
  (0xFE4A, (.Compat, [0x203E])),
  (0xFE4B, (.Compat, [0x203E])),
  (0xFE4C, (.Compat, [0x203E])),
  (0xFE4D, (.Compat, [0x5F])),
  (0xFE4E, (.Compat, [0x5F])),
  (0xFE4F, (.Compat, [0x5F])),
  (0xFE50, (.Small, [0x2C])),
  (0xFE51, (.Small, [0x3001])),
  (0xFE52, (.Small, [0x2E])),
  (0xFE54, (.Small, [0x3B])),
  (0xFE55, (.Small, [0x3A])),
  (0xFE56, (.Small, [0x3F])),
  (0xFE57, (.Small, [0x21])),
  (0xFE58, (.Small, [0x2014])),
  (0xFE59, (.Small, [0x28])),
  (0xFE5A, (.Small, [0x29])),
  (0xFE5B, (.Small, [0x7B])),
  (0xFE5C, (.Small, [0x7D])),
  (0xFE5D, (.Small, [0x3014])),
  (0xFE5E, (.Small, [0x3015])),
  (0xFE5F, (.Small, [0x23])),
  (0xFE60, (.Small, [0x26])),
  (0xFE61, (.Small, [0x2A])),
  (0xFE62, (.Small, [0x2B])),
  (0xFE63, (.Small, [0x2D])),
  (0xFE64, (.Small, [0x3C])),
  (0xFE65, (.Small, [0x3E])),
  (0xFE66, (.Small, [0x3D])),
  (0xFE68, (.Small, [0x5C])),
  (0xFE69, (.Small, [0x24])),
  (0xFE6A, (.Small, [0x25])),
  (0xFE6B, (.Small, [0x40])),
  (0xFE70, (.Isolated, [0x20, 0x64B])),
  (0xFE71, (.Medial, [0x640, 0x64B])),
  (0xFE72, (.Isolated, [0x20, 0x64C])),
  (0xFE74, (.Isolated, [0x20, 0x64D])),
  (0xFE76, (.Isolated, [0x20, 0x64E])),
  (0xFE77, (.Medial, [0x640, 0x64E])),
  (0xFE78, (.Isolated, [0x20, 0x64F])),
  (0xFE79, (.Medial, [0x640, 0x64F])),
  (0xFE7A, (.Isolated, [0x20, 0x650])),
  (0xFE7B, (.Medial, [0x640, 0x650])),
  (0xFE7C, (.Isolated, [0x20, 0x651])),
  (0xFE7D, (.Medial, [0x640, 0x651])),
  (0xFE7E, (.Isolated, [0x20, 0x652])),
  (0xFE7F, (.Medial, [0x640, 0x652])),
  (0xFE80, (.Isolated, [0x621])),
  (0xFE81, (.Isolated, [0x622])),
  (0xFE82, (.Final, [0x622])),
  (0xFE83, (.Isolated, [0x623])),
  (0xFE84, (.Final, [0x623])),
  (0xFE85, (.Isolated, [0x624])),
  (0xFE86, (.Final, [0x624])),
  (0xFE87, (.Isolated, [0x625]))]
def compatibilityDecomposition_32 : List (Nat × DecompositionType × List Nat) := [
  (0xFE88, (.Final, [0x625])),
  (0xFE89, (.Isolated, [0x626])),
  (0xFE8A, (.Final, [0x626])),
  (0xFE8B, (.Initial, [0x626])),
  (0xFE8C, (.Medial, [0x626])),
  (0xFE8D, (.Isolated, [0x627])),
  (0xFE8E, (.Final, [0x627])),
  (0xFE8F, (.Isolated, [0x628])),
  (0xFE90, (.Final, [0x628])),
  (0xFE91, (.Initial, [0x628])),
  (0xFE92, (.Medial, [0x628])),
  (0xFE93, (.Isolated, [0x629])),
  (0xFE94, (.Final, [0x629])),
  (0xFE95, (.Isolated, [0x62A])),
  (0xFE96, (.Final, [0x62A])),
  (0xFE97, (.Initial, [0x62A])),
  (0xFE98, (.Medial, [0x62A])),
  (0xFE99, (.Isolated, [0x62B])),
  (0xFE9A, (.Final, [0x62B])),
  (0xFE9B, (.Initial, [0x62B])),
  (0xFE9C, (.Medial, [0x62B])),
  (0xFE9D, (.Isolated, [0x62C])),
  (0xFE9E, (.Final, [0x62C])),
  (0xFE9F, (.Initial, [0x62C])),
  (0xFEA0, (.Medial, [0x62C])),
  (0xFEA1, (.Isolated, [0x62D])),
  (0xFEA2, (.Final, [0x62D])),
  (0xFEA3, (.Initial, [0x62D])),
  (0xFEA4, (.Medial, [0x62D])),
  (0xFEA5, (.Isolated, [0x62E])),
  (0xFEA6, (.Final, [0x62E])),
  (0xFEA7, (.Initial, [0x62E])),
  (0xFEA8, (.Medial, [0x62E])),
  (0xFEA9, (.Isolated, [0x62F])),
  (0xFEAA, (.Final, [0x62F])),
  (0xFEAB, (.Isolated, [0x630])),
  (0xFEAC, (.Final, [0x630])),
  (0xFEAD, (.Isolated, [0x631])),
  (0xFEAE, (.Final, [0x631])),
  (0xFEAF, (.Isolated, [0x632])),
  (0xFEB0, (.Final, [0x632])),
  (0xFEB1, (.Isolated, [0x633])),
  (0xFEB2, (.Final, [0x633])),
  (0xFEB3, (.Initial, [0x633])),
  (0xFEB4, (.Medial, [0x633])),
  (0xFEB5, (.Isolated, [0x634])),
  (0xFEB6, (.Final, [0x634])),
  (0xFEB7, (.Initial, [0x634])),
  (0xFEB8, (.Medial, [0x634])),
  (0xFEB9, (.Isolated, [0x635])),
  (0xFEBA, (.Final, [0x635])),
  (0xFEBB, (.Initial, [0x635])),
  (0xFEBC, (.Medial, [0x635])),
  (0xFEBD, (.Isolated, [0x636])),
  (0xFEBE, (.Final, [0x636])),
  (0xFEBF, (.Initial, [0x636])),
  (0xFEC0, (.Medial, [0x636])),
  (0xFEC1, (.Isolated, [0x637])),
  (0xFEC2, (.Final, [0x637])),
  (0xFEC3, (.Initial, [0x637])),
  (0xFEC4, (.Medial, [0x637])),
  (0xFEC5, (.Isolated, [0x638])),
  (0xFEC6, (.Final, [0x638])),
  (0xFEC7, (.Initial, [0x638]))]
def compatibilityDecomposition_33 : List (Nat × DecompositionType × List Nat) := [
  (0xFEC8, (.Medial, [0x638])),
  (0xFEC9, (.Isolated, [0x639])),
  (0xFECA, (.Final, [0x639])),
  (0xFECB, (.Initial, [0x639])),
  (0xFECC, (.Medial, [0x639])),
  (0xFECD, (.Isolated, [0x63A])),
  (0xFECE, (.Final, [0x63A])),
  (0xFECF, (.Initial, [0x63A])),
  (0xFED0, (.Medial, [0x63A])),
  (0xFED1, (.Isolated, [0x641])),
  (0xFED2, (.Final, [0x641])),
  (0xFED3, (.Initial, [0x641])),
  (0xFED4, (.Medial, [0x641])),
  (0xFED5, (.Isolated, [0x642])),
  (0xFED6, (.Final, [0x642])),
  (0xFED7, (.Initial, [0x642])),
  (0xFED8, (.Medial, [0x642])),
  (0xFED9, (.Isolated, [0x643])),
  (0xFEDA, (.Final, [0x643])),
  (0xFEDB, (.Initial, [0x643])),
  (0xFEDC, (.Medial, [0x643])),
  (0xFEDD, (.Isolated, [0x644])),
  (0xFEDE, (.Final, [0x644])),
  (0xFEDF, (.Initial, [0x644])),
  (0xFEE0, (.Medial, [0x644])),
  (0xFEE1, (.Isolated, [0x645])),
  (0xFEE2, (.Final, [0x645])),
  (0xFEE3, (.Initial, [0x645])),
  (0xFEE4, (.Medial, [0x645])),
  (0xFEE5, (.Isolated, [0x646])),
  (0xFEE6, (.Final, [0x646])),
  (0xFEE7, (.Initial, [0x646])),
  (0xFEE8, (.Medial, [0x646])),
  (0xFEE9, (.Isolated, [0x647])),
  (0xFEEA, (.Final, [0x647])),
  (0xFEEB, (.Initial, [0x647])),
  (0xFEEC, (.Medial, [0x647])),
  (0xFEED, (.Isolated, [0x648])),
  (0xFEEE, (.Final, [0x648])),
  (0xFEEF, (.Isolated, [0x649])),
  (0xFEF0, (.Final, [0x649])),
  (0xFEF1, (.Isolated, [0x64A])),
  (0xFEF2, (.Final, [0x64A])),
  (0xFEF3, (.Initial, [0x64A])),
  (0xFEF4, (.Medial, [0x64A])),
  (0xFEF5, (.Isolated, [0x644, 0x622])),
  (0xFEF6, (.Final, [0x644, 0x622])),
  (0xFEF7, (.Isolated, [0x644, 0x623])),
  (0xFEF8, (.Final, [0x644, 0x623])),
  (0xFEF9, (.Isolated, [0x644, 0x625])),
  (0xFEFA, (.Final, [0x644, 0x625])),
  (0xFEFB, (.Isolated, [0x644, 0x627])),
  (0xFEFC, (.Final, [0x644, 0x627])),
  (0xFF01, (.Wide, [0x21])),
  (0xFF02, (.Wide, [0x22])),
  (0xFF03, (.Wide, [0x23])),
  (0xFF04, (.Wide, [0x24])),
  (0xFF05, (.Wide, [0x25])),
  (0xFF06, (.Wide, [0x26])),
  (0xFF07, (.Wide, [0x27])),
  (0xFF08, (.Wide, [0x28])),
  (0xFF09, (.Wide, [0x29])),
  (0xFF0A, (.Wide, [0x2A])),
  (0xFF0B, (.Wide, [0x2B]))]
def compatibilityDecomposition_34 : List (Nat × DecompositionType × List Nat) := [
  (0xFF0C, (.Wide, [0x2C])),
  (0xFF0D, (.Wide, [0x2D])),
  (0xFF0E, (.Wide, [0x2E])),
  (0xFF0F, (.Wide, [0x2F])),
  (0xFF10, (.Wide, [0x30])),
  (0xFF11, (.Wide, [0x31])),
  (0xFF12, (.Wide, [0x32])),
  (0xFF13, (.Wide, [0x33])),
  (0xFF14, (.Wide, [0x34])),
  (0xFF15, (.Wide, [0x35])),
  (0xFF16, (.Wide, [0x36])),
  (0xFF17, (.Wide, [0x37])),
  (0xFF18, (.Wide, [0x38])),
  (0xFF19, (.Wide, [0x39])),
  (0xFF1A, (.Wide, [0x3A])),
  (0xFF1B, (.Wide, [0x3B])),
  (0xFF1C, (.Wide, [0x3C])),
  (0xFF1D, (.Wide, [0x3D])),
  (0xFF1E, (.Wide, [0x3E])),
  (0xFF1F, (.Wide, [0x3F])),
  (0xFF20, (.Wide, [0x40])),
  (0xFF21, (.Wide, [0x41])),
  (0xFF22, (.Wide, [0x42])),
  (0xFF23, (.Wide, [0x43])),
  (0xFF24, (.Wide, [0x44])),
  (0xFF25, (.Wide, [0x45])),
  (0xFF26, (.Wide, [0x46])),
  (0xFF27, (.Wide, [0x47])),
  (0xFF28, (.Wide, [0x48])),
  (0xFF29, (.Wide, [0x49])),
  (0xFF2A, (.Wide, [0x4A])),
  (0xFF2B, (.Wide, [0x4B])),
  (0xFF2C, (.Wide, [0x4C])),
  (0xFF2D, (.Wide, [0x4D])),
  (0xFF2E, (.Wide, [0x4E])),
  (0xFF2F, (.Wide, [0x4F])),
  (0xFF30, (.Wide, [0x50])),
  (0xFF31, (.Wide, [0x51])),
  (0xFF32, (.Wide, [0x52])),
  (0xFF33, (.Wide, [0x53])),
  (0xFF34, (.Wide, [0x54])),
  (0xFF35, (.Wide, [0x55])),
  (0xFF36, (.Wide, [0x56])),
  (0xFF37, (.Wide, [0x57])),
  (0xFF38, (.Wide, [0x58])),
  (0xFF39, (.Wide, [0x59])),
  (0xFF3A, (.Wide, [0x5A])),
  (0xFF3B, (.Wide, [0x5B])),
  (0xFF3C, (.Wide, [0x5C])),
  (0xFF3D, (.Wide, [0x5D])),
  (0xFF3E, (.Wide, [0x5E])),
  (0xFF3F, (.Wide, [0x5F])),
  (0xFF40, (.Wide, [0x60])),
  (0xFF41, (.Wide, [0x61])),
  (0xFF42, (.Wide, [0x62])),
  (0xFF43, (.Wide, [0x63])),
  (0xFF44, (.Wide, [0x64])),
  (0xFF45, (.Wide, [0x65])),
  (0xFF46, (.Wide, [0x66])),
  (0xFF47, (.Wide, [0x67])),
  (0xFF48, (.Wide, [0x68])),
  (0xFF49, (.Wide, [0x69])),
  (0xFF4A, (.Wide, [0x6A])),
  (0xFF4B, (.Wide, [0x6B]))]
def compatibilityDecomposition_35 : List (Nat × DecompositionType × List Nat) := [
  (0xFF4C, (.Wide, [0x6C])),
  (0xFF4D, (.Wide, [0x6D])),
  (0xFF4E, (.Wide, [0x6E])),
  (0xFF4F, (.Wide, [0x6F])),
  (0xFF50, (.Wide, [0x70])),
  (0xFF51, (.Wide, [0x71])),
  (0xFF52, (.Wide, [0x72])),
  (0xFF53, (.Wide, [0x73])),
  (0xFF54, (.Wide, [0x74])),
  (0xFF55, (.Wide, [0x75])),
  (0xFF56, (.Wide, [0x76])),
  (0xFF57, (.Wide, [0x77])),
  (0xFF58, (.Wide, [0x78])),
  (0xFF59, (.Wide, [0x79])),
  (0xFF5A, (.Wide, [0x7A])),
  (0xFF5B, (.Wide, [0x7B])),
  (0xFF5C, (.Wide, [0x7C])),
  (0xFF5D, (.Wide, [0x7D])),
  (0xFF5E, (.Wide, [0x7E])),
  (0xFF5F, (.Wide, [0x2985])),
  (0xFF60, (.Wide, [0x2986])),
  (0xFF61, (.Narrow, [0x3002])),
  (0xFF62, (.Narrow, [0x300C])),
  (0xFF63, (.Narrow, [0x300D])),
  (0xFF64, (.Narrow, [0x3001])),
  (0xFF65, (.Narrow, [0x30FB])),
  (0xFF66, (.Narrow, [0x30F2])),
  (0xFF67, (.Narrow, [0x30A1])),
  (0xFF68, (.Narrow, [0x30A3])),
  (0xFF69, (.Narrow, [0x30A5])),
  (0xFF6A, (.Narrow, [0x30A7])),
  (0xFF6B, (.Narrow, [0x30A9])),
  (0xFF6C, (.Narrow, [0x30E3])),
  (0xFF6D, (.Narrow, [0x30E5])),
  (0xFF6E, (.Narrow, [0x30E7])),
  (0xFF6F, (.Narrow, [0x30C3])),
  (0xFF70, (.Narrow, [0x30FC])),
  (0xFF71, (.Narrow, [0x30A2])),
  (0xFF72, (.Narrow, [0x30A4])),
  (0xFF73, (.Narrow, [0x30A6])),
  (0xFF74, (.Narrow, [0x30A8])),
  (0xFF75, (.Narrow, [0x30AA])),
  (0xFF76, (.Narrow, [0x30AB])),
  (0xFF77, (.Narrow, [0x30AD])),
  (0xFF78, (.Narrow, [0x30AF])),
  (0xFF79, (.Narrow, [0x30B1])),
  (0xFF7A, (.Narrow, [0x30B3])),
  (0xFF7B, (.Narrow, [0x30B5])),
  (0xFF7C, (.Narrow, [0x30B7])),
  (0xFF7D, (.Narrow, [0x30B9])),
  (0xFF7E, (.Narrow, [0x30BB])),
  (0xFF7F, (.Narrow, [0x30BD])),
  (0xFF80, (.Narrow, [0x30BF])),
  (0xFF81, (.Narrow, [0x30C1])),
  (0xFF82, (.Narrow, [0x30C4])),
  (0xFF83, (.Narrow, [0x30C6])),
  (0xFF84, (.Narrow, [0x30C8])),
  (0xFF85, (.Narrow, [0x30CA])),
  (0xFF86, (.Narrow, [0x30CB])),
  (0xFF87, (.Narrow, [0x30CC])),
  (0xFF88, (.Narrow, [0x30CD])),
  (0xFF89, (.Narrow, [0x30CE])),
  (0xFF8A, (.Narrow, [0x30CF])),
  (0xFF8B, (.Narrow, [0x30D2]))]
def compatibilityDecomposition_36 : List (Nat × DecompositionType × List Nat) := [
  (0xFF8C, (.Narrow, [0x30D5])),
  (0xFF8D, (.Narrow, [0x30D8])),
  (0xFF8E, (.Narrow, [0x30DB])),
  (0xFF8F, (.Narrow, [0x30DE])),
  (0xFF90, (.Narrow, [0x30DF])),
  (0xFF91, (.Narrow, [0x30E0])),
  (0xFF92, (.Narrow, [0x30E1])),
  (0xFF93, (.Narrow, [0x30E2])),
  (0xFF94, (.Narrow, [0x30E4])),
  (0xFF95, (.Narrow, [0x30E6])),
  (0xFF96, (.Narrow, [0x30E8])),
  (0xFF97, (.Narrow, [0x30E9])),
  (0xFF98, (.Narrow, [0x30EA])),
  (0xFF99, (.Narrow, [0x30EB])),
  (0xFF9A, (.Narrow, [0x30EC])),
  (0xFF9B, (.Narrow, [0x30ED])),
  (0xFF9C, (.Narrow, [0x30EF])),
  (0xFF9D, (.Narrow, [0x30F3])),
  (0xFF9E, (.Narrow, [0x3099])),
  (0xFF9F, (.Narrow, [0x309A])),
  (0xFFA0, (.Narrow, [0x3164])),
  (0xFFA1, (.Narrow, [0x3131])),
  (0xFFA2, (.Narrow, [0x3132])),
  (0xFFA3, (.Narrow, [0x3133])),
  (0xFFA4, (.Narrow, [0x3134])),
  (0xFFA5, (.Narrow, [0x3135])),
  (0xFFA6, (.Narrow, [0x3136])),
  (0xFFA7, (.Narrow, [0x3137])),
  (0xFFA8, (.Narrow, [0x3138])),
  (0xFFA9, (.Narrow, [0x3139])),
  (0xFFAA, (.Narrow, [0x313A])),
  (0xFFAB, (.Narrow, [0x313B])),
  (0xFFAC, (.Narrow, [0x313C])),
  (0xFFAD, (.Narrow, [0x313D])),
  (0xFFAE, (.Narrow, [0x313E])),
  (0xFFAF, (.Narrow, [0x313F])),
  (0xFFB0, (.Narrow, [0x3140])),
  (0xFFB1, (.Narrow, [0x3141])),
  (0xFFB2, (.Narrow, [0x3142])),
  (0xFFB3, (.Narrow, [0x3143])),
  (0xFFB4, (.Narrow, [0x3144])),
  (0xFFB5, (.Narrow, [0x3145])),
  (0xFFB6, (.Narrow, [0x3146])),
  (0xFFB7, (.Narrow, [0x3147])),
  (0xFFB8, (.Narrow, [0x3148])),
  (0xFFB9, (.Narrow, [0x3149])),
  (0xFFBA, (.Narrow, [0x314A])),
  (0xFFBB, (.Narrow, [0x314B])),
  (0xFFBC, (.Narrow, [0x314C])),
  (0xFFBD, (.Narrow, [0x314D])),
  (0xFFBE, (.Narrow, [0x314E])),
  (0xFFC2, (.Narrow, [0x314F])),
  (0xFFC3, (.Narrow, [0x3150])),
  (0xFFC4, (.Narrow, [0x3151])),
  (0xFFC5, (.Narrow, [0x3152])),
  (0xFFC6, (.Narrow, [0x3153])),
  (0xFFC7, (.Narrow, [0x3154])),
  (0xFFCA, (.Narrow, [0x3155])),
  (0xFFCB, (.Narrow, [0x3156])),
  (0xFFCC, (.Narrow, [0x3157])),
  (0xFFCD, (.Narrow, [0x3158])),
  (0xFFCE, (.Narrow, [0x3159])),
  (0xFFCF, (.Narrow, [0x315A])),
  (0xFFD2, (.Narrow, [0x315B]))]
def compatibilityDecomposition_37 : List (Nat × DecompositionType × List Nat) := [
  (0xFFD3, (.Narrow, [0x315C])),
  (0xFFD4, (.Narrow, [0x315D])),
  (0xFFD5, (.Narrow, [0x315E])),
  (0xFFD6, (.Narrow, [0x315F])),
  (0xFFD7, (.Narrow, [0x3160])),
  (0xFFDA, (.Narrow, [0x3161])),
  (0xFFDB, (.Narrow, [0x3162])),
  (0xFFDC, (.Narrow, [0x3163])),
  (0xFFE0, (.Wide, [0xA2])),
  (0xFFE1, (.Wide, [0xA3])),
  (0xFFE2, (.Wide, [0xAC])),
  (0xFFE3, (.Wide, [0xAF])),
  (0xFFE4, (.Wide, [0xA6])),
  (0xFFE5, (.Wide, [0xA5])),
  (0xFFE6, (.Wide, [0x20A9])),
  (0xFFE8, (.Narrow, [0x2502])),
  (0xFFE9, (.Narrow, [0x2190])),
  (0xFFEA, (.Narrow, [0x2191])),
  (0xFFEB, (.Narrow, [0x2192])),
  (0xFFEC, (.Narrow, [0x2193])),
  (0xFFED, (.Narrow, [0x25A0])),
  (0xFFEE, (.Narrow, [0x25CB])),
  (0x1D400, (.Font, [0x41])),
  (0x1D401, (.Font, [0x42])),
  (0x1D402, (.Font, [0x43])),
  (0x1D403, (.Font, [0x44])),
  (0x1D404, (.Font, [0x45])),
  (0x1D405, (.Font, [0x46])),
  (0x1D406, (.Font, [0x47])),
  (0x1D407, (.Font, [0x48])),
  (0x1D408, (.Font, [0x49])),
  (0x1D409, (.Font, [0x4A])),
  (0x1D40A, (.Font, [0x4B])),
  (0x1D40B, (.Font, [0x4C])),
  (0x1D40C, (.Font, [0x4D])),
  (0x1D40D, (.Font, [0x4E])),
  (0x1D40E, (.Font, [0x4F])),
  (0x1D40F, (.Font, [0x50])),
  (0x1D410, (.Font, [0x51])),
  (0x1D411, (.Font, [0x52])),
  (0x1D412, (.Font, [0x53])),
  (0x1D413, (.Font, [0x54])),
  (0x1D414, (.Font, [0x55])),
  (0x1D415, (.Font, [0x56])),
  (0x1D416, (.Font, [0x57])),
  (0x1D417, (.Font, [0x58])),
  (0x1D418, (.Font, [0x59])),
  (0x1D419, (.Font, [0x5A])),
  (0x1D41A, (.Font, [0x61])),
  (0x1D41B, (.Font, [0x62])),
  (0x1D41C, (.Font, [0x63])),
  (0x1D41D, (.Font, [0x64])),
  (0x1D41E, (.Font, [0x65])),
  (0x1D41F, (.Font, [0x66])),
  (0x1D420, (.Font, [0x67])),
  (0x1D421, (.Font, [0x68])),
  (0x1D422, (.Font, [0x69])),
  (0x1D423, (.Font, [0x6A])),
  (0x1D424, (.Font, [0x6B])),
  (0x1D425, (.Font, [0x6C])),
  (0x1D426, (.Font, [0x6D])),
  (0x1D427, (.Font, [0x6E])),
  (0x1D428, (.Font, [0x6F])),
  (0x1D429, (.Font, [0x70]))]
def compatibilityDecomposition_38 : List (Nat × DecompositionType × List Nat) := [
  (0x1D42A, (.Font, [0x71])),
  (0x1D42B, (.Font, [0x72])),
  (0x1D42C, (.Font, [0x73])),
  (0x1D42D, (.Font, [0x74])),
  (0x1D42E, (.Font, [0x75])),
  (0x1D42F, (.Font, [0x76])),
  (0x1D430, (.Font, [0x77])),
  (0x1D431, (.Font, [0x78])),
  (0x1D432, (.Font, [0x79])),
  (0x1D433, (.Font, [0x7A])),
  (0x1D434, (.Font, [0x41])),
  (0x1D435, (.Font, [0x42])),
  (0x1D436, (.Font, [0x43])),
  (0x1D437, (.Font, [0x44])),
  (0x1D438, (.Font, [0x45])),
  (0x1D439, (.Font, [0x46])),
  (0x1D43A, (.Font, [0x47])),
  (0x1D43B, (.Font, [0x48])),
  (0x1D43C, (.Font, [0x49])),
  (0x1D43D, (.Font, [0x4A])),
  (0x1D43E, (.Font, [0x4B])),
  (0x1D43F, (.Font, [0x4C])),
  (0x1D440, (.Font, [0x4D])),
  (0x1D441, (.Font, [0x4E])),
  (0x1D442, (.Font, [0x4F])),
  (0x1D443, (.Font, [0x50])),
  (0x1D444, (.Font, [0x51])),
  (0x1D445, (.Font, [0x52])),
  (0x1D446, (.Font, [0x53])),
  (0x1D447, (.Font, [0x54])),
  (0x1D448, (.Font, [0x55])),
  (0x1D449, (.Font, [0x56])),
  (0x1D44A, (.Font, [0x57])),
  (0x1D44B, (.Font, [0x58])),
  (0x1D44C, (.Font, [0x59])),
  (0x1D44D, (.Font, [0x5A])),
  (0x1D44E, (.Font, [0x61])),
  (0x1D44F, (.Font, [0x62])),
  (0x1D450, (.Font, [0x63])),
  (0x1D451, (.Font, [0x64])),
  (0x1D452, (.Font, [0x65])),
  (0x1D453, (.Font, [0x66])),
  (0x1D454, (.Font, [0x67])),
  (0x1D456, (.Font, [0x69])),
  (0x1D457, (.Font, [0x6A])),
  (0x1D458, (.Font, [0x6B])),
  (0x1D459, (.Font, [0x6C])),
  (0x1D45A, (.Font, [0x6D])),
  (0x1D45B, (.Font, [0x6E])),
  (0x1D45C, (.Font, [0x6F])),
  (0x1D45D, (.Font, [0x70])),
  (0x1D45E, (.Font, [0x71])),
  (0x1D45F, (.Font, [0x72])),
  (0x1D460, (.Font, [0x73])),
  (0x1D461, (.Font, [0x74])),
  (0x1D462, (.Font, [0x75])),
  (0x1D463, (.Font, [0x76])),
  (0x1D464, (.Font, [0x77])),
  (0x1D465, (.Font, [0x78])),
  (0x1D466, (.Font, [0x79])),
  (0x1D467, (.Font, [0x7A])),
  (0x1D468, (.Font, [0x41])),
  (0x1D469, (.Font, [0x42])),
  (0x1D46A, (.Font, [0x43]))]
def compatibilityDecomposition_39 : List (Nat × DecompositionType × List Nat) := [
  (0x1D46B, (.Font, [0x44])),
  (0x1D46C, (.Font, [0x45])),
  (0x1D46D, (.Font, [0x46])),
  (0x1D46E, (.Font, [0x47])),
  (0x1D46F, (.Font, [0x48])),
  (0x1D470, (.Font, [0x49])),
  (0x1D471, (.Font, [0x4A])),
  (0x1D472, (.Font, [0x4B])),
  (0x1D473, (.Font, [0x4C])),
  (0x1D474, (.Font, [0x4D])),
  (0x1D475, (.Font, [0x4E])),
  (0x1D476, (.Font, [0x4F])),
  (0x1D477, (.Font, [0x50])),
  (0x1D478, (.Font, [0x51])),
  (0x1D479, (.Font, [0x52])),
  (0x1D47A, (.Font, [0x53])),
  (0x1D47B, (.Font, [0x54])),
  (0x1D47C, (.Font, [0x55])),
  (0x1D47D, (.Font, [0x56])),
  (0x1D47E, (.Font, [0x57])),
  (0x1D47F, (.Font, [0x58])),
  (0x1D480, (.Font, [0x59])),
  (0x1D481, (.Font, [0x5A])),
  (0x1D482, (.Font, [0x61])),
  (0x1D483, (.Font, [0x62])),
  (0x1D484, (.Font, [0x63])),
  (0x1D485, (.Font, [0x64])),
  (0x1D486, (.Font, [0x65])),
  (0x1D487, (.Font, [0x66])),
  (0x1D488, (.Font, [0x67])),
  (0x1D489, (.Font, [0x68])),
  (0x1D48A, (.Font, [0x69])),
  (0x1D48B, (.Font, [0x6A])),
  (0x1D48C, (.Font, [0x6B])),
  (0x1D48D, (.Font, [0x6C])),
  (0x1D48E, (.Font, [0x6D])),
  (0x1D48F, (.Font, [0x6E])),
  (0x1D490, (.Font, [0x6F])),
  (0x1D491, (.Font, [0x70])),
  (0x1D492, (.Font, [0x71])),
  (0x1D493, (.Font, [0x72])),
  (0x1D494, (.Font, [0x73])),
  (0x1D495, (.Font, [0x74])),
  (0x1D496, (.Font, [0x75])),
  (0x1D497, (.Font, [0x76])),
  (0x1D498, (.Font, [0x77])),
  (0x1D499, (.Font, [0x78])),
  (0x1D49A, (.Font, [0x79])),
  (0x1D49B, (.Font, [0x7A])),
  (0x1D49C, (.Font, [0x41])),
  (0x1D49E, (.Font, [0x43])),
  (0x1D49F, (.Font, [0x44])),
  (0x1D4A2, (.Font, [0x47])),
  (0x1D4A5, (.Font, [0x4A])),
  (0x1D4A6, (.Font, [0x4B])),
  (0x1D4A9, (.Font, [0x4E])),
  (0x1D4AA, (.Font, [0x4F])),
  (0x1D4AB, (.Font, [0x50])),
  (0x1D4AC, (.Font, [0x51])),
  (0x1D4AE, (.Font, [0x53])),
  (0x1D4AF, (.Font, [0x54])),
  (0x1D4B0, (.Font, [0x55])),
  (0x1D4B1, (.Font, [0x56])),
  (0x1D4B2, (.Font, [0x57]))]
def compatibilityDecomposition_40 : List (Nat × DecompositionType × List Nat) := [
  (0x1D4B3, (.Font, [0x58])),
  (0x1D4B4, (.Font, [0x59])),
  (0x1D4B5, (.Font, [0x5A])),
  (0x1D4B6, (.Font, [0x61])),
  (0x1D4B7, (.Font, [0x62])),
  (0x1D4B8, (.Font, [0x63])),
  (0x1D4B9, (.Font, [0x64])),
  (0x1D4BB, (.Font, [0x66])),
  (0x1D4BD, (.Font, [0x68])),
  (0x1D4BE, (.Font, [0x69])),
  (0x1D4BF, (.Font, [0x6A])),
  (0x1D4C0, (.Font, [0x6B])),
  (0x1D4C1, (.Font, [0x6C])),
  (0x1D4C2, (.Font, [0x6D])),
  (0x1D4C3, (.Font, [0x6E])),
  (0x1D4C5, (.Font, [0x70])),
  (0x1D4C6, (.Font, [0x71])),
  (0x1D4C7, (.Font, [0x72])),
  (0x1D4C8, (.Font, [0x73])),
  (0x1D4C9, (.Font, [0x74])),
  (0x1D4CA, (.Font, [0x75])),
  (0x1D4CB, (.Font, [0x76])),
  (0x1D4CC, (.Font, [0x77])),
  (0x1D4CD, (.Font, [0x78])),
  (0x1D4CE, (.Font, [0x79])),
  (0x1D4CF, (.Font, [0x7A])),
  (0x1D4D0, (.Font, [0x41])),
  (0x1D4D1, (.Font, [0x42])),
  (0x1D4D2, (.Font, [0x43])),
  (0x1D4D3, (.Font, [0x44])),
  (0x1D4D4, (.Font, [0x45])),
  (0x1D4D5, (.Font, [0x46])),
  (0x1D4D6, (.Font, [0x47])),
  (0x1D4D7, (.Font, [0x48])),
  (0x1D4D8, (.Font, [0x49])),
  (0x1D4D9, (.Font, [0x4A])),
  (0x1D4DA, (.Font, [0x4B])),
  (0x1D4DB, (.Font, [0x4C])),
  (0x1D4DC, (.Font, [0x4D])),
  (0x1D4DD, (.Font, [0x4E])),
  (0x1D4DE, (.Font, [0x4F])),
  (0x1D4DF, (.Font, [0x50])),
  (0x1D4E0, (.Font, [0x51])),
  (0x1D4E1, (.Font, [0x52])),
  (0x1D4E2, (.Font, [0x53])),
  (0x1D4E3, (.Font, [0x54])),
  (0x1D4E4, (.Font, [0x55])),
  (0x1D4E5, (.Font, [0x56])),
  (0x1D4E6, (.Font, [0x57])),
  (0x1D4E7, (.Font, [0x58])),
  (0x1D4E8, (.Font, [0x59])),
  (0x1D4E9, (.Font, [0x5A])),
  (0x1D4EA, (.Font, [0x61])),
  (0x1D4EB, (.Font, [0x62])),
  (0x1D4EC, (.Font, [0x63])),
  (0x1D4ED, (.Font, [0x64])),
  (0x1D4EE, (.Font, [0x65])),
  (0x1D4EF, (.Font, [0x66])),
  (0x1D4F0, (.Font, [0x67])),
  (0x1D4F1, (.Font, [0x68])),
  (0x1D4F2, (.Font, [0x69])),
  (0x1D4F3, (.Font, [0x6A])),
  (0x1D4F4, (.Font, [0x6B])),
  (0x1D4F5, (.Font, [0x6C]))]
def compatibilityDecomposition_41 : List (Nat × DecompositionType × List Nat) := [
  (0x1D4F6, (.Font, [0x6D])),
  (0x1D4F7, (.Font, [0x6E])),
  (0x1D4F8, (.Font, [0x6F])),
  (0x1D4F9, (.Font, [0x70])),
  (0x1D4FA, (.Font, [0x71])),
  (0x1D4FB, (.Font, [0x72])),
  (0x1D4FC, (.Font, [0x73])),
  (0x1D4FD, (.Font, [0x74])),
  (0x1D4FE, (.Font, [0x75])),
  (0x1D4FF, (.Font, [0x76])),
  (0x1D500, (.Font, [0x77])),
  (0x1D501, (.Font, [0x78])),
  (0x1D502, (.Font, [0x79])),
  (0x1D503, (.Font, [0x7A])),
  (0x1D504, (.Font, [0x41])),
  (0x1D505, (.Font, [0x42])),
  (0x1D507, (.Font, [0x44])),
  (0x1D508, (.Font, [0x45])),
  (0x1D509, (.Font, [0x46])),
  (0x1D50A, (.Font, [0x47])),
  (0x1D50D, (.Font, [0x4A])),
  (0x1D50E, (.Font, [0x4B])),
  (0x1D50F, (.Font, [0x4C])),
  (0x1D510, (.Font, [0x4D])),
  (0x1D511, (.Font, [0x4E])),
  (0x1D512, (.Font, [0x4F])),
  (0x1D513, (.Font, [0x50])),
  (0x1D514, (.Font, [0x51])),
  (0x1D516, (.Font, [0x53])),
  (0x1D517, (.Font, [0x54])),
  (0x1D518, (.Font, [0x55])),
  (0x1D519, (.Font, [0x56])),
  (0x1D51A, (.Font, [0x57])),
  (0x1D51B, (.Font, [0x58])),
  (0x1D51C, (.Font, [0x59])),
  (0x1D51E, (.Font, [0x61])),
  (0x1D51F, (.Font, [0x62])),
  (0x1D520, (.Font, [0x63])),
  (0x1D521, (.Font, [0x64])),
  (0x1D522, (.Font, [0x65])),
  (0x1D523, (.Font, [0x66])),
  (0x1D524, (.Font, [0x67])),
  (0x1D525, (.Font, [0x68])),
  (0x1D526, (.Font, [0x69])),
  (0x1D527, (.Font, [0x6A])),
  (0x1D528, (.Font, [0x6B])),
  (0x1D529, (.Font, [0x6C])),
  (0x1D52A, (.Font, [0x6D])),
  (0x1D52B, (.Font, [0x6E])),
  (0x1D52C, (.Font, [0x6F])),
  (0x1D52D, (.Font, [0x70])),
  (0x1D52E, (.Font, [0x71])),
  (0x1D52F, (.Font, [0x72])),
  (0x1D530, (.Font, [0x73])),
  (0x1D531, (.Font, [0x74])),
  (0x1D532, (.Font, [0x75])),
  (0x1D533, (.Font, [0x76])),
  (0x1D534, (.Font, [0x77])),
  (0x1D535, (.Font, [0x78])),
  (0x1D536, (.Font, [0x79])),
  (0x1D537, (.Font, [0x7A])),
  (0x1D538, (.Font, [0x41])),
  (0x1D539, (.Font, [0x42])),
  (0x1D53B, (.Font, [0x44]))]
def compatibilityDecomposition_42 : List (Nat × DecompositionType × List Nat) := [
  (0x1D53C, (.Font, [0x45])),
  (0x1D53D, (.Font, [0x46])),
  (0x1D53E, (.Font, [0x47])),
  (0x1D540, (.Font, [0x49])),
  (0x1D541, (.Font, [0x4A])),
  (0x1D542, (.Font, [0x4B])),
  (0x1D543, (.Font, [0x4C])),
  (0x1D544, (.Font, [0x4D])),
  (0x1D546, (.Font, [0x4F])),
  (0x1D54A, (.Font, [0x53])),
  (0x1D54B, (.Font, [0x54])),
  (0x1D54C, (.Font, [0x55])),
  (0x1D54D, (.Font, [0x56])),
  (0x1D54E, (.Font, [0x57])),
  (0x1D54F, (.Font, [0x58])),
  (0x1D550, (.Font, [0x59])),
  (0x1D552, (.Font, [0x61])),
  (0x1D553, (.Font, [0x62])),
  (0x1D554, (.Font, [0x63])),
  (0x1D555, (.Font, [0x64])),
  (0x1D556, (.Font, [0x65])),
  (0x1D557, (.Font, [0x66])),
  (0x1D558, (.Font, [0x67])),
  (0x1D559, (.Font, [0x68])),
  (0x1D55A, (.Font, [0x69])),
  (0x1D55B, (.Font, [0x6A])),
  (0x1D55C, (.Font, [0x6B])),
  (0x1D55D, (.Font, [0x6C])),
  (0x1D55E, (.Font, [0x6D])),
  (0x1D55F, (.Font, [0x6E])),
  (0x1D560, (.Font, [0x6F])),
  (0x1D561, (.Font, [0x70])),
  (0x1D562, (.Font, [0x71])),
  (0x1D563, (.Font, [0x72])),
  (0x1D564, (.Font, [0x73])),
  (0x1D565, (.Font, [0x74])),
  (0x1D566, (.Font, [0x75])),
  (0x1D567, (.Font, [0x76])),
  (0x1D568, (.Font, [0x77])),
  (0x1D569, (.Font, [0x78])),
  (0x1D56A, (.Font, [0x79])),
  (0x1D56B, (.Font, [0x7A])),
  (0x1D56C, (.Font, [0x41])),
  (0x1D56D, (.Font, [0x42])),
  (0x1D56E, (.Font, [0x43])),
  (0x1D56F, (.Font, [0x44])),
  (0x1D570, (.Font, [0x45])),
  (0x1D571, (.Font, [0x46])),
  (0x1D572, (.Font, [0x47])),
  (0x1D573, (.Font, [0x48])),
  (0x1D574, (.Font, [0x49])),
  (0x1D575, (.Font, [0x4A])),
  (0x1D576, (.Font, [0x4B])),
  (0x1D577, (.Font, [0x4C])),
  (0x1D578, (.Font, [0x4D])),
  (0x1D579, (.Font, [0x4E])),
  (0x1D57A, (.Font, [0x4F])),
  (0x1D57B, (.Font, [0x50])),
  (0x1D57C, (.Font, [0x51])),
  (0x1D57D, (.Font, [0x52])),
  (0x1D57E, (.Font, [0x53])),
  (0x1D57F, (.Font, [0x54])),
  (0x1D580, (.Font, [0x55])),
  (0x1D581, (.Font, [0x56]))]
def compatibilityDecomposition_43 : List (Nat × DecompositionType × List Nat) := [
  (0x1D582, (.Font, [0x57])),
  (0x1D583, (.Font, [0x58])),
  (0x1D584, (.Font, [0x59])),
  (0x1D585, (.Font, [0x5A])),
  (0x1D586, (.Font, [0x61])),
  (0x1D587, (.Font, [0x62])),
  (0x1D588, (.Font, [0x63])),
  (0x1D589, (.Font, [0x64])),
  (0x1D58A, (.Font, [0x65])),
  (0x1D58B, (.Font, [0x66])),
  (0x1D58C, (.Font, [0x67])),
  (0x1D58D, (.Font, [0x68])),
  (0x1D58E, (.Font, [0x69])),
  (0x1D58F, (.Font, [0x6A])),
  (0x1D590, (.Font, [0x6B])),
  (0x1D591, (.Font, [0x6C])),
  (0x1D592, (.Font, [0x6D])),
  (0x1D593, (.Font, [0x6E])),
  (0x1D594, (.Font, [0x6F])),
  (0x1D595, (.Font, [0x70])),
  (0x1D596, (.Font, [0x71])),
  (0x1D597, (.Font, [0x72])),
  (0x1D598, (.Font, [0x73])),
  (0x1D599, (.Font, [0x74])),
  (0x1D59A, (.Font, [0x75])),
  (0x1D59B, (.Font, [0x76])),
  (0x1D59C, (.Font, [0x77])),
  (0x1D59D, (.Font, [0x78])),
  (0x1D59E, (.Font, [0x79])),
  (0x1D59F, (.Font, [0x7A])),
  (0x1D5A0, (.Font, [0x41])),
  (0x1D5A1, (.Font, [0x42])),
  (0x1D5A2, (.Font, [0x43])),
  (0x1D5A3, (.Font, [0x44])),
  (0x1D5A4, (.Font, [0x45])),
  (0x1D5A5, (.Font, [0x46])),
  (0x1D5A6, (.Font, [0x47])),
  (0x1D5A7, (.Font, [0x48])),
  (0x1D5A8, (.Font, [0x49])),
  (0x1D5A9, (.Font, [0x4A])),
  (0x1D5AA, (.Font, [0x4B])),
  (0x1D5AB, (.Font, [0x4C])),
  (0x1D5AC, (.Font, [0x4D])),
  (0x1D5AD, (.Font, [0x4E])),
  (0x1D5AE, (.Font, [0x4F])),
  (0x1D5AF, (.Font, [0x50])),
  (0x1D5B0, (.Font, [0x51])),
  (0x1D5B1, (.Font, [0x52])),
  (0x1D5B2, (.Font, [0x53])),
  (0x1D5B3, (.Font, [0x54])),
  (0x1D5B4, (.Font, [0x55])),
  (0x1D5B5, (.Font, [0x56])),
  (0x1D5B6, (.Font, [0x57])),
  (0x1D5B7, (.Font, [0x58])),
  (0x1D5B8, (.Font, [0x59])),
  (0x1D5B9, (.Font, [0x5A])),
  (0x1D5BA, (.Font, [0x61])),
  (0x1D5BB, (.Font, [0x62])),
  (0x1D5BC, (.Font, [0x63])),
  (0x1D5BD, (.Font, [0x64])),
  (0x1D5BE, (.Font, [0x65])),
  (0x1D5BF, (.Font, [0x66])),
  (0x1D5C0, (.Font, [0x67])),
  (0x1D5C1, (.Font, [0x68]))]
def compatibilityDecomposition_44 : List (Nat × DecompositionType × List Nat) := [
  (0x1D5C2, (.Font, [0x69])),
  (0x1D5C3, (.Font, [0x6A])),
  (0x1D5C4, (.Font, [0x6B])),
  (0x1D5C5, (.Font, [0x6C])),
  (0x1D5C6, (.Font, [0x6D])),
  (0x1D5C7, (.Font, [0x6E])),
  (0x1D5C8, (.Font, [0x6F])),
  (0x1D5C9, (.Font, [0x70])),
  (0x1D5CA, (.Font, [0x71])),
  (0x1D5CB, (.Font, [0x72])),
  (0x1D5CC, (.Font, [0x73])),
  (0x1D5CD, (.Font, [0x74])),
  (0x1D5CE, (.Font, [0x75])),
  (0x1D5CF, (.Font, [0x76])),
  (0x1D5D0, (.Font, [0x77])),
  (0x1D5D1, (.Font, [0x78])),
  (0x1D5D2, (.Font, [0x79])),
  (0x1D5D3, (.Font, [0x7A])),
  (0x1D5D4, (.Font, [0x41])),
  (0x1D5D5, (.Font, [0x42])),
  (0x1D5D6, (.Font, [0x43])),
  (0x1D5D7, (.Font, [0x44])),
  (0x1D5D8, (.Font, [0x45])),
  (0x1D5D9, (.Font, [0x46])),
  (0x1D5DA, (.Font, [0x47])),
  (0x1D5DB, (.Font, [0x48])),
  (0x1D5DC, (.Font, [0x49])),
  (0x1D5DD, (.Font, [0x4A])),
  (0x1D5DE, (.Font, [0x4B])),
  (0x1D5DF, (.Font, [0x4C])),
  (0x1D5E0, (.Font, [0x4D])),
  (0x1D5E1, (.Font, [0x4E])),
  (0x1D5E2, (.Font, [0x4F])),
  (0x1D5E3, (.Font, [0x50])),
  (0x1D5E4, (.Font, [0x51])),
  (0x1D5E5, (.Font, [0x52])),
  (0x1D5E6, (.Font, [0x53])),
  (0x1D5E7, (.Font, [0x54])),
  (0x1D5E8, (.Font, [0x55])),
  (0x1D5E9, (.Font, [0x56])),
  (0x1D5EA, (.Font, [0x57])),
  (0x1D5EB, (.Font, [0x58])),
  (0x1D5EC, (.Font, [0x59])),
  (0x1D5ED, (.Font, [0x5A])),
  (0x1D5EE, (.Font, [0x61])),
  (0x1D5EF, (.Font, [0x62])),
  (0x1D5F0, (.Font, [0x63])),
  (0x1D5F1, (.Font, [0x64])),
  (0x1D5F2, (.Font, [0x65])),
  (0x1D5F3, (.Font, [0x66])),
  (0x1D5F4, (.Font, [0x67])),
  (0x1D5F5, (.Font, [0x68])),
  (0x1D5F6, (.Font, [0x69])),
  (0x1D5F7, (.Font, [0x6A])),
  (0x1D5F8, (.Font, [0x6B])),
  (0x1D5F9, (.Font, [0x6C])),
  (0x1D5FA, (.Font, [0x6D])),
  (0x1D5FB, (.Font, [0x6E])),
  (0x1D5FC, (.Font, [0x6F])),
  (0x1D5FD, (.Font, [0x70])),
  (0x1D5FE, (.Font, [0x71])),
  (0x1D5FF, (.Font, [0x72])),
  (0x1D600, (.Font, [0x73])),
  (0x1D601, (.Font, [0x74]))]
def compatibilityDecomposition_45 : List (Nat × DecompositionType × List Nat) := [
  (0x1D602, (.Font, [0x75])),
  (0x1D603, (.Font, [0x76])),
  (0x1D604, (.Font, [0x77])),
  (0x1D605, (.Font, [0x78])),
  (0x1D606, (.Font, [0x79])),
  (0x1D607, (.Font, [0x7A])),
  (0x1D608, (.Font, [0x41])),
  (0x1D609, (.Font, [0x42])),
  (0x1D60A, (.Font, [0x43])),
  (0x1D60B, (.Font, [0x44])),
  (0x1D60C, (.Font, [0x45])),
  (0x1D60D, (.Font, [0x46])),
  (0x1D60E, (.Font, [0x47])),
  (0x1D60F, (.Font, [0x48])),
  (0x1D610, (.Font, [0x49])),
  (0x1D611, (.Font, [0x4A])),
  (0x1D612, (.Font, [0x4B])),
  (0x1D613, (.Font, [0x4C])),
  (0x1D614, (.Font, [0x4D])),
  (0x1D615, (.Font, [0x4E])),
  (0x1D616, (.Font, [0x4F])),
  (0x1D617, (.Font, [0x50])),
  (0x1D618, (.Font, [0x51])),
  (0x1D619, (.Font, [0x52])),
  (0x1D61A, (.Font, [0x53])),
  (0x1D61B, (.Font, [0x54])),
  (0x1D61C, (.Font, [0x55])),
  (0x1D61D, (.Font, [0x56])),
  (0x1D61E, (.Font, [0x57])),
  (0x1D61F, (.Font, [0x58])),
  (0x1D620, (.Font, [0x59])),
  (0x1D621, (.Font, [0x5A])),
  (0x1D622, (.Font, [0x61])),
  (0x1D623, (.Font, [0x62])),
  (0x1D624, (.Font, [0x63])),
  (0x1D625, (.Font, [0x64])),
  (0x1D626, (.Font, [0x65])),
  (0x1D627, (.Font, [0x66])),
  (0x1D628, (.Font, [0x67])),
  (0x1D629, (.Font, [0x68])),
  (0x1D62A, (.Font, [0x69])),
  (0x1D62B, (.Font, [0x6A])),
  (0x1D62C, (.Font, [0x6B])),
  (0x1D62D, (.Font, [0x6C])),
  (0x1D62E, (.Font, [0x6D])),
  (0x1D62F, (.Font, [0x6E])),
  (0x1D630, (.Font, [0x6F])),
  (0x1D631, (.Font, [0x70])),
  (0x1D632, (.Font, [0x71])),
  (0x1D633, (.Font, [0x72])),
  (0x1D634, (.Font, [0x73])),
  (0x1D635, (.Font, [0x74])),
  (0x1D636, (.Font, [0x75])),
  (0x1D637, (.Font, [0x76])),
  (0x1D638, (.Font, [0x77])),
  (0x1D639, (.Font, [0x78])),
  (0x1D63A, (.Font, [0x79])),
  (0x1D63B, (.Font, [0x7A])),
  (0x1D63C, (.Font, [0x41])),
  (0x1D63D, (.Font, [0x42])),
  (0x1D63E, (.Font, [0x43])),
  (0x1D63F, (.Font, [0x44])),
  (0x1D640, (.Font, [0x45])),
  (0x1D641, (.Font, [0x46]))]
def compatibilityDecomposition_46 : List (Nat × DecompositionType × List Nat) := [
  (0x1D642, (.Font, [0x47])),
  (0x1D643, (.Font, [0x48])),
  (0x1D644, (.Font, [0x49])),
  (0x1D645, (.Font, [0x4A])),
  (0x1D646, (.Font, [0x4B])),
  (0x1D647, (.Font, [0x4C])),
  (0x1D648, (.Font, [0x4D])),
  (0x1D649, (.Font, [0x4E])),
  (0x1D64A, (.Font, [0x4F])),
  (0x1D64B, (.Font, [0x50])),
  (0x1D64C, (.Font, [0x51])),
  (0x1D64D, (.Font, [0x52])),
  (0x1D64E, (.Font, [0x53])),
  (0x1D64F, (.Font, [0x54])),
  (0x1D650, (.Font, [0x55])),
  (0x1D651, (.Font, [0x56])),
  (0x1D652, (.Font, [0x57])),
  (0x1D653, (.Font, [0x58])),
  (0x1D654, (.Font, [0x59])),
  (0x1D655, (.Font, [0x5A])),
  (0x1D656, (.Font, [0x61])),
  (0x1D657, (.Font, [0x62])),
  (0x1D658, (.Font, [0x63])),
  (0x1D659, (.Font, [0x64])),
  (0x1D65A, (.Font, [0x65])),
  (0x1D65B, (.Font, [0x66])),
  (0x1D65C, (.Font, [0x67])),
  (0x1D65D, (.Font, [0x68])),
  (0x1D65E, (.Font, [0x69])),
  (0x1D65F, (.Font, [0x6A])),
  (0x1D660, (.Font, [0x6B])),
  (0x1D661, (.Font, [0x6C])),
  (0x1D662, (.Font, [0x6D])),
  (0x1D663, (.Font, [0x6E])),
  (0x1D664, (.Font, [0x6F])),
  (0x1D665, (.Font, [0x70])),
  (0x1D666, (.Font, [0x71])),
  (0x1D667, (.Font, [0x72])),
  (0x1D668, (.Font, [0x73])),
  (0x1D669, (.Font, [0x74])),
  (0x1D66A, (.Font, [0x75])),
  (0x1D66B, (.Font, [0x76])),
  (0x1D66C, (.Font, [0x77])),
  (0x1D66D, (.Font, [0x78])),
  (0x1D66E, (.Font, [0x79])),
  (0x1D66F, (.Font, [0x7A])),
  (0x1D670, (.Font, [0x41])),
  (0x1D671, (.Font, [0x42])),
  (0x1D672, (.Font, [0x43])),
  (0x1D673, (.Font, [0x44])),
  (0x1D674, (.Font, [0x45])),
  (0x1D675, (.Font, [0x46])),
  (0x1D676, (.Font, [0x47])),
  (0x1D677, (.Font, [0x48])),
  (0x1D678, (.Font, [0x49])),
  (0x1D679, (.Font, [0x4A])),
  (0x1D67A, (.Font, [0x4B])),
  (0x1D67B, (.Font, [0x4C])),
  (0x1D67C, (.Font, [0x4D])),
  (0x1D67D, (.Font, [0x4E])),
  (0x1D67E, (.Font, [0x4F])),
  (0x1D67F, (.Font, [0x50])),
  (0x1D680, (.Font, [0x51])),
  (0x1D681, (.Font, [0x52]))]
def compatibilityDecomposition_47 : List (Nat × DecompositionType × List Nat) := [
  (0x1D682, (.Font, [0x53])),
  (0x1D683, (.Font, [0x54])),
  (0x1D684, (.Font, [0x55])),
  (0x1D685, (.Font, [0x56])),
  (0x1D686, (.Font, [0x57])),
  (0x1D687, (.Font, [0x58])),
  (0x1D688, (.Font, [0x59])),
  (0x1D689, (.Font, [0x5A])),
  (0x1D68A, (.Font, [0x61])),
  (0x1D68B, (.Font, [0x62])),
  (0x1D68C, (.Font, [0x63])),
  (0x1D68D, (.Font, [0x64])),
  (0x1D68E, (.Font, [0x65])),
  (0x1D68F, (.Font, [0x66])),
  (0x1D690, (.Font, [0x67])),
  (0x1D691, (.Font, [0x68])),
  (0x1D692, (.Font, [0x69])),
  (0x1D693, (.Font, [0x6A])),
  (0x1D694, (.Font, [0x6B])),
  (0x1D695, (.Font, [0x6C])),
  (0x1D696, (.Font, [0x6D])),
  (0x1D697, (.Font, [0x6E])),
  (0x1D698, (.Font, [0x6F])),
  (0x1D699, (.Font, [0x70])),
  (0x1D69A, (.Font, [0x71])),
  (0x1D69B, (.Font, [0x72])),
  (0x1D69C, (.Font, [0x73])),
  (0x1D69D, (.Font, [0x74])),
  (0x1D69E, (.Font, [0x75])),
  (0x1D69F, (.Font, [0x76])),
  (0x1D6A0, (.Font, [0x77])),
  (0x1D6A1, (.Font, [0x78])),
  (0x1D6A2, (.Font, [0x79])),
  (0x1D6A3, (.Font, [0x7A])),
  (0x1D6A4, (.Font, [0x131])),
  (0x1D6A5, (.Font, [0x237])),
  (0x1D6A8, (.Font, [0x391])),
  (0x1D6A9, (.Font, [0x392])),
  (0x1D6AA, (.Font, [0x393])),
  (0x1D6AB, (.Font, [0x394])),
  (0x1D6AC, (.Font, [0x395])),
  (0x1D6AD, (.Font, [0x396])),
  (0x1D6AE, (.Font, [0x397])),
  (0x1D6AF, (.Font, [0x398])),
  (0x1D6B0, (.Font, [0x399])),
  (0x1D6B1, (.Font, [0x39A])),
  (0x1D6B2, (.Font, [0x39B])),
  (0x1D6B3, (.Font, [0x39C])),
  (0x1D6B4, (.Font, [0x39D])),
  (0x1D6B5, (.Font, [0x39E])),
  (0x1D6B6, (.Font, [0x39F])),
  (0x1D6B7, (.Font, [0x3A0])),
  (0x1D6B8, (.Font, [0x3A1])),
  (0x1D6B9, (.Font, [0x3F4])),
  (0x1D6BA, (.Font, [0x3A3])),
  (0x1D6BB, (.Font, [0x3A4])),
  (0x1D6BC, (.Font, [0x3A5])),
  (0x1D6BD, (.Font, [0x3A6])),
  (0x1D6BE, (.Font, [0x3A7])),
  (0x1D6BF, (.Font, [0x3A8])),
  (0x1D6C0, (.Font, [0x3A9])),
  (0x1D6C1, (.Font, [0x2207])),
  (0x1D6C2, (.Font, [0x3B1])),
  (0x1D6C3, (.Font, [0x3B2]))]
def compatibilityDecomposition_48 : List (Nat × DecompositionType × List Nat) := [
  (0x1D6C4, (.Font, [0x3B3])),
  (0x1D6C5, (.Font, [0x3B4])),
  (0x1D6C6, (.Font, [0x3B5])),
  (0x1D6C7, (.Font, [0x3B6])),
  (0x1D6C8, (.Font, [0x3B7])),
  (0x1D6C9, (.Font, [0x3B8])),
  (0x1D6CA, (.Font, [0x3B9])),
  (0x1D6CB, (.Font, [0x3BA])),
  (0x1D6CC, (.Font, [0x3BB])),
  (0x1D6CD, (.Font, [0x3BC])),
  (0x1D6CE, (.Font, [0x3BD])),
  (0x1D6CF, (.Font, [0x3BE])),
  (0x1D6D0, (.Font, [0x3BF])),
  (0x1D6D1, (.Font, [0x3C0])),
  (0x1D6D2, (.Font, [0x3C1])),
  (0x1D6D3, (.Font, [0x3C2])),
  (0x1D6D4, (.Font, [0x3C3])),
  (0x1D6D5, (.Font, [0x3C4])),
  (0x1D6D6, (.Font, [0x3C5])),
  (0x1D6D7, (.Font, [0x3C6])),
  (0x1D6D8, (.Font, [0x3C7])),
  (0x1D6D9, (.Font, [0x3C8])),
  (0x1D6DA, (.Font, [0x3C9])),
  (0x1D6DB, (.Font, [0x2202])),
  (0x1D6DC, (.Font, [0x3F5])),
  (0x1D6DD, (.Font, [0x3D1])),
  (0x1D6DE, (.Font, [0x3F0])),
  (0x1D6DF, (.Font, [0x3D5])),
  (0x1D6E0, (.Font, [0x3F1])),
  (0x1D6E1, (.Font, [0x3D6])),
  (0x1D6E2, (.Font, [0x391])),
  (0x1D6E3, (.Font, [0x392])),
  (0x1D6E4, (.Font, [0x393])),
  (0x1D6E5, (.Font, [0x394])),
  (0x1D6E6, (.Font, [0x395])),
  (0x1D6E7, (.Font, [0x396])),
  (0x1D6E8, (.Font, [0x397])),
  (0x1D6E9, (.Font, [0x398])),
  (0x1D6EA, (.Font, [0x399])),
  (0x1D6EB, (.Font, [0x39A])),
  (0x1D6EC, (.Font, [0x39B])),
  (0x1D6ED, (.Font, [0x39C])),
  (0x1D6EE, (.Font, [0x39D])),
  (0x1D6EF, (.Font, [0x39E])),
  (0x1D6F0, (.Font, [0x39F])),
  (0x1D6F1, (.Font, [0x3A0])),
  (0x1D6F2, (.Font, [0x3A1])),
  (0x1D6F3, (.Font, [0x3F4])),
  (0x1D6F4, (.Font, [0x3A3])),
  (0x1D6F5, (.Font, [0x3A4])),
  (0x1D6F6, (.Font, [0x3A5])),
  (0x1D6F7, (.Font, [0x3A6])),
  (0x1D6F8, (.Font, [0x3A7])),
  (0x1D6F9, (.Font, [0x3A8])),
  (0x1D6FA, (.Font, [0x3A9])),
  (0x1D6FB, (.Font, [0x2207])),
  (0x1D6FC, (.Font, [0x3B1])),
  (0x1D6FD, (.Font, [0x3B2])),
  (0x1D6FE, (.Font, [0x3B3])),
  (0x1D6FF, (.Font, [0x3B4])),
  (0x1D700, (.Font, [0x3B5])),
  (0x1D701, (.Font, [0x3B6])),
  (0x1D702, (.Font, [0x3B7])),
  (0x1D703, (.Font, [0x3B8]))]
def compatibilityDecomposition_49 : List (Nat × DecompositionType × List Nat) := [
  (0x1D704, (.Font, [0x3B9])),
  (0x1D705, (.Font, [0x3BA])),
  (0x1D706, (.Font, [0x3BB])),
  (0x1D707, (.Font, [0x3BC])),
  (0x1D708, (.Font, [0x3BD])),
  (0x1D709, (.Font, [0x3BE])),
  (0x1D70A, (.Font, [0x3BF])),
  (0x1D70B, (.Font, [0x3C0])),
  (0x1D70C, (.Font, [0x3C1])),
  (0x1D70D, (.Font, [0x3C2])),
  (0x1D70E, (.Font, [0x3C3])),
  (0x1D70F, (.Font, [0x3C4])),
  (0x1D710, (.Font, [0x3C5])),
  (0x1D711, (.Font, [0x3C6])),
  (0x1D712, (.Font, [0x3C7])),
  (0x1D713, (.Font, [0x3C8])),
  (0x1D714, (.Font, [0x3C9])),
  (0x1D715, (.Font, [0x2202])),
  (0x1D716, (.Font, [0x3F5])),
  (0x1D717, (.Font, [0x3D1])),
  (0x1D718, (.Font, [0x3F0])),
  (0x1D719, (.Font, [0x3D5])),
  (0x1D71A, (.Font, [0x3F1])),
  (0x1D71B, (.Font, [0x3D6])),
  (0x1D71C, (.Font, [0x391])),
  (0x1D71D, (.Font, [0x392])),
  (0x1D71E, (.Font, [0x393])),
  (0x1D71F, (.Font, [0x394])),
  (0x1D720, (.Font, [0x395])),
  (0x1D721, (.Font, [0x396])),
  (0x1D722, (.Font, [0x397])),
  (0x1D723, (.Font, [0x398])),
  (0x1D724, (.Font, [0x399])),
  (0x1D725, (.Font, [0x39A])),
  (0x1D726, (.Font, [0x39B])),
  (0x1D727, (.Font, [0x39C])),
  (0x1D728, (.Font, [0x39D])),
  (0x1D729, (.Font, [0x39E])),
  (0x1D72A, (.Font, [0x39F])),
  (0x1D72B, (.Font, [0x3A0])),
  (0x1D72C, (.Font, [0x3A1])),
  (0x1D72D, (.Font, [0x3F4])),
  (0x1D72E, (.Font, [0x3A3])),
  (0x1D72F, (.Font, [0x3A4])),
  (0x1D730, (.Font, [0x3A5])),
  (0x1D731, (.Font, [0x3A6])),
  (0x1D732, (.Font, [0x3A7])),
  (0x1D733, (.Font, [0x3A8])),
  (0x1D734, (.Font, [0x3A9])),
  (0x1D735, (.Font, [0x2207])),
  (0x1D736, (.Font, [0x3B1])),
  (0x1D737, (.Font, [0x3B2])),
  (0x1D738, (.Font, [0x3B3])),
  (0x1D739, (.Font, [0x3B4])),
  (0x1D73A, (.Font, [0x3B5])),
  (0x1D73B, (.Font, [0x3B6])),
  (0x1D73C, (.Font, [0x3B7])),
  (0x1D73D, (.Font, [0x3B8])),
  (0x1D73E, (.Font, [0x3B9])),
  (0x1D73F, (.Font, [0x3BA])),
  (0x1D740, (.Font, [0x3BB])),
  (0x1D741, (.Font, [0x3BC])),
  (0x1D742, (.Font, [0x3BD])),
  (0x1D743, (.Font, [0x3BE]))]
def compatibilityDecomposition_50 : List (Nat × DecompositionType × List Nat) := [
  (0x1D744, (.Font, [0x3BF])),
  (0x1D745, (.Font, [0x3C0])),
  (0x1D746, (.Font, [0x3C1])),
  (0x1D747, (.Font, [0x3C2])),
  (0x1D748, (.Font, [0x3C3])),
  (0x1D749, (.Font, [0x3C4])),
  (0x1D74A, (.Font, [0x3C5])),
  (0x1D74B, (.Font, [0x3C6])),
  (0x1D74C, (.Font, [0x3C7])),
  (0x1D74D, (.Font, [0x3C8])),
  (0x1D74E, (.Font, [0x3C9])),
  (0x1D74F, (.Font, [0x2202])),
  (0x1D750, (.Font, [0x3F5])),
  (0x1D751, (.Font, [0x3D1])),
  (0x1D752, (.Font, [0x3F0])),
  (0x1D753, (.Font, [0x3D5])),
  (0x1D754, (.Font, [0x3F1])),
  (0x1D755, (.Font, [0x3D6])),
  (0x1D756, (.Font, [0x391])),
  (0x1D757, (.Font, [0x392])),
  (0x1D758, (.Font, [0x393])),
  (0x1D759, (.Font, [0x394])),
  (0x1D75A, (.Font, [0x395])),
  (0x1D75B, (.Font, [0x396])),
  (0x1D75C, (.Font, [0x397])),
  (0x1D75D, (.Font, [0x398])),
  (0x1D75E, (.Font, [0x399])),
  (0x1D75F, (.Font, [0x39A])),
  (0x1D760, (.Font, [0x39B])),
  (0x1D761, (.Font, [0x39C])),
  (0x1D762, (.Font, [0x39D])),
  (0x1D763, (.Font, [0x39E])),
  (0x1D764, (.Font, [0x39F])),
  (0x1D765, (.Font, [0x3A0])),
  (0x1D766, (.Font, [0x3A1])),
  (0x1D767, (.Font, [0x3F4])),
  (0x1D768, (.Font, [0x3A3])),
  (0x1D769, (.Font, [0x3A4])),
  (0x1D76A, (.Font, [0x3A5])),
  (0x1D76B, (.Font, [0x3A6])),
  (0x1D76C, (.Font, [0x3A7])),
  (0x1D76D, (.Font, [0x3A8])),
  (0x1D76E, (.Font, [0x3A9])),
  (0x1D76F, (.Font, [0x2207])),
  (0x1D770, (.Font, [0x3B1])),
  (0x1D771, (.Font, [0x3B2])),
  (0x1D772, (.Font, [0x3B3])),
  (0x1D773, (.Font, [0x3B4])),
  (0x1D774, (.Font, [0x3B5])),
  (0x1D775, (.Font, [0x3B6])),
  (0x1D776, (.Font, [0x3B7])),
  (0x1D777, (.Font, [0x3B8])),
  (0x1D778, (.Font, [0x3B9])),
  (0x1D779, (.Font, [0x3BA])),
  (0x1D77A, (.Font, [0x3BB])),
  (0x1D77B, (.Font, [0x3BC])),
  (0x1D77C, (.Font, [0x3BD])),
  (0x1D77D, (.Font, [0x3BE])),
  (0x1D77E, (.Font, [0x3BF])),
  (0x1D77F, (.Font, [0x3C0])),
  (0x1D780, (.Font, [0x3C1])),
  (0x1D781, (.Font, [0x3C2])),
  (0x1D782, (.Font, [0x3C3])),
  (0x1D783, (.Font, [0x3C4]))]
def compatibilityDecomposition_51 : List (Nat × DecompositionType × List Nat) := [
  (0x1D784, (.Font, [0x3C5])),
  (0x1D785, (.Font, [0x3C6])),
  (0x1D786, (.Font, [0x3C7])),
  (0x1D787, (.Font, [0x3C8])),
  (0x1D788, (.Font, [0x3C9])),
  (0x1D789, (.Font, [0x2202])),
  (0x1D78A, (.Font, [0x3F5])),
  (0x1D78B, (.Font, [0x3D1])),
  (0x1D78C, (.Font, [0x3F0])),
  (0x1D78D, (.Font, [0x3D5])),
  (0x1D78E, (.Font, [0x3F1])),
  (0x1D78F, (.Font, [0x3D6])),
  (0x1D790, (.Font, [0x391])),
  (0x1D791, (.Font, [0x392])),
  (0x1D792, (.Font, [0x393])),
  (0x1D793, (.Font, [0x394])),
  (0x1D794, (.Font, [0x395])),
  (0x1D795, (.Font, [0x396])),
  (0x1D796, (.Font, [0x397])),
  (0x1D797, (.Font, [0x398])),
  (0x1D798, (.Font, [0x399])),
  (0x1D799, (.Font, [0x39A])),
  (0x1D79A, (.Font, [0x39B])),
  (0x1D79B, (.Font, [0x39C])),
  (0x1D79C, (.Font, [0x39D])),
  (0x1D79D, (.Font, [0x39E])),
  (0x1D79E, (.Font, [0x39F])),
  (0x1D79F, (.Font, [0x3A0])),
  (0x1D7A0, (.Font, [0x3A1])),
  (0x1D7A1, (.Font, [0x3F4])),
  (0x1D7A2, (.Font, [0x3A3])),
  (0x1D7A3, (.Font, [0x3A4])),
  (0x1D7A4, (.Font, [0x3A5])),
  (0x1D7A5, (.Font, [0x3A6])),
  (0x1D7A6, (.Font, [0x3A7])),
  (0x1D7A7, (.Font, [0x3A8])),
  (0x1D7A8, (.Font, [0x3A9])),
  (0x1D7A9, (.Font, [0x2207])),
  (0x1D7AA, (.Font, [0x3B1])),
  (0x1D7AB, (.Font, [0x3B2])),
  (0x1D7AC, (.Font, [0x3B3])),
  (0x1D7AD, (.Font, [0x3B4])),
  (0x1D7AE, (.Font, [0x3B5])),
  (0x1D7AF, (.Font, [0x3B6])),
  (0x1D7B0, (.Font, [0x3B7])),
  (0x1D7B1, (.Font, [0x3B8])),
  (0x1D7B2, (.Font, [0x3B9])),
  (0x1D7B3, (.Font, [0x3BA])),
  (0x1D7B4, (.Font, [0x3BB])),
  (0x1D7B5, (.Font, [0x3BC])),
  (0x1D7B6, (.Font, [0x3BD])),
  (0x1D7B7, (.Font, [0x3BE])),
  (0x1D7B8, (.Font, [0x3BF])),
  (0x1D7B9, (.Font, [0x3C0])),
  (0x1D7BA, (.Font, [0x3C1])),
  (0x1D7BB, (.Font, [0x3C2])),
  (0x1D7BC, (.Font, [0x3C3])),
  (0x1D7BD, (.Font, [0x3C4])),
  (0x1D7BE, (.Font, [0x3C5])),
  (0x1D7BF, (.Font, [0x3C6])),
  (0x1D7C0, (.Font, [0x3C7])),
  (0x1D7C1, (.Font, [0x3C8])),
  (0x1D7C2, (.Font, [0x3C9])),
  (0x1D7C3, (.Font, [0x2202]))]
def compatibilityDecomposition_52 : List (Nat × DecompositionType × List Nat) := [
  (0x1D7C4, (.Font, [0x3F5])),
  (0x1D7C5, (.Font, [0x3D1])),
  (0x1D7C6, (.Font, [0x3F0])),
  (0x1D7C7, (.Font, [0x3D5])),
  (0x1D7C8, (.Font, [0x3F1])),
  (0x1D7C9, (.Font, [0x3D6])),
  (0x1D7CA, (.Font, [0x3DC])),
  (0x1D7CB, (.Font, [0x3DD])),
  (0x1D7CE, (.Font, [0x30])),
  (0x1D7CF, (.Font, [0x31])),
  (0x1D7D0, (.Font, [0x32])),
  (0x1D7D1, (.Font, [0x33])),
  (0x1D7D2, (.Font, [0x34])),
  (0x1D7D3, (.Font, [0x35])),
  (0x1D7D4, (.Font, [0x36])),
  (0x1D7D5, (.Font, [0x37])),
  (0x1D7D6, (.Font, [0x38])),
  (0x1D7D7, (.Font, [0x39])),
  (0x1D7D8, (.Font, [0x30])),
  (0x1D7D9, (.Font, [0x31])),
  (0x1D7DA, (.Font, [0x32])),
  (0x1D7DB, (.Font, [0x33])),
  (0x1D7DC, (.Font, [0x34])),
  (0x1D7DD, (.Font, [0x35])),
  (0x1D7DE, (.Font, [0x36])),
  (0x1D7DF, (.Font, [0x37])),
  (0x1D7E0, (.Font, [0x38])),
  (0x1D7E1, (.Font, [0x39])),
  (0x1D7E2, (.Font, [0x30])),
  (0x1D7E3, (.Font, [0x31])),
  (0x1D7E4, (.Font, [0x32])),
  (0x1D7E5, (.Font, [0x33])),
  (0x1D7E6, (.Font, [0x34])),
  (0x1D7E7, (.Font, [0x35])),
  (0x1D7E8, (.Font, [0x36])),
  (0x1D7E9, (.Font, [0x37])),
  (0x1D7EA, (.Font, [0x38])),
  (0x1D7EB, (.Font, [0x39])),
  (0x1D7EC, (.Font, [0x30])),
  (0x1D7ED, (.Font, [0x31])),
  (0x1D7EE, (.Font, [0x32])),
  (0x1D7EF, (.Font, [0x33])),
  (0x1D7F0, (.Font, [0x34])),
  (0x1D7F1, (.Font, [0x35])),
  (0x1D7F2, (.Font, [0x36])),
  (0x1D7F3, (.Font, [0x37])),
  (0x1D7F4, (.Font, [0x38])),
  (0x1D7F5, (.Font, [0x39])),
  (0x1D7F6, (.Font, [0x30])),
  (0x1D7F7, (.Font, [0x31])),
  (0x1D7F8, (.Font, [0x32])),
  (0x1D7F9, (.Font, [0x33])),
  (0x1D7FA, (.Font, [0x34])),
  (0x1D7FB, (.Font, [0x35])),
  (0x1D7FC, (.Font, [0x36])),
  (0x1D7FD, (.Font, [0x37])),
  (0x1D7FE, (.Font, [0x38])),
  (0x1D7FF, (.Font, [0x39])),
  (0x1EE00, (.Font, [0x627])),
  (0x1EE01, (.Font, [0x628])),
  (0x1EE02, (.Font, [0x62C])),
  (0x1EE03, (.Font, [0x62F])),
  (0x1EE05, (.Font, [0x648])),
  (0x1EE06, (.Font, [0x632]))]
def compatibilityDecomposition_53 : List (Nat × DecompositionType × List Nat) := [
  (0x1EE07, (.Font, [0x62D])),
  (0x1EE08, (.Font, [0x637])),
  (0x1EE09, (.Font, [0x64A])),
  (0x1EE0A, (.Font, [0x643])),
  (0x1EE0B, (.Font, [0x644])),
  (0x1EE0C, (.Font, [0x645])),
  (0x1EE0D, (.Font, [0x646])),
  (0x1EE0E, (.Font, [0x633])),
  (0x1EE0F, (.Font, [0x639])),
  (0x1EE10, (.Font, [0x641])),
  (0x1EE11, (.Font, [0x635])),
  (0x1EE12, (.Font, [0x642])),
  (0x1EE13, (.Font, [0x631])),
  (0x1EE14, (.Font, [0x634])),
  (0x1EE15, (.Font, [0x62A])),
  (0x1EE16, (.Font, [0x62B])),
  (0x1EE17, (.Font, [0x62E])),
  (0x1EE18, (.Font, [0x630])),
  (0x1EE19, (.Font, [0x636])),
  (0x1EE1A, (.Font, [0x638])),
  (0x1EE1B, (.Font, [0x63A])),
  (0x1EE1C, (.Font, [0x66E])),
  (0x1EE1D, (.Font, [0x6BA])),
  (0x1EE1E, (.Font, [0x6A1])),
  (0x1EE1F, (.Font, [0x66F])),
  (0x1EE21, (.Font, [0x628])),
  (0x1EE22, (.Font, [0x62C])),
  (0x1EE24, (.Font, [0x647])),
  (0x1EE27, (.Font, [0x62D])),
  (0x1EE29, (.Font, [0x64A])),
  (0x1EE2A, (.Font, [0x643])),
  (0x1EE2B, (.Font, [0x644])),
  (0x1EE2C, (.Font, [0x645])),
  (0x1EE2D, (.Font, [0x646])),
  (0x1EE2E, (.Font, [0x633])),
  (0x1EE2F, (.Font, [0x639])),
  (0x1EE30, (.Font, [0x641])),
  (0x1EE31, (.Font, [0x635])),
  (0x1EE32, (.Font, [0x642])),
  (0x1EE34, (.Font, [0x634])),
  (0x1EE35, (.Font, [0x62A])),
  (0x1EE36, (.Font, [0x62B])),
  (0x1EE37, (.Font, [0x62E])),
  (0x1EE39, (.Font, [0x636])),
  (0x1EE3B, (.Font, [0x63A])),
  (0x1EE42, (.Font, [0x62C])),
  (0x1EE47, (.Font, [0x62D])),
  (0x1EE49, (.Font, [0x64A])),
  (0x1EE4B, (.Font, [0x644])),
  (0x1EE4D, (.Font, [0x646])),
  (0x1EE4E, (.Font, [0x633])),
  (0x1EE4F, (.Font, [0x639])),
  (0x1EE51, (.Font, [0x635])),
  (0x1EE52, (.Font, [0x642])),
  (0x1EE54, (.Font, [0x634])),
  (0x1EE57, (.Font, [0x62E])),
  (0x1EE59, (.Font, [0x636])),
  (0x1EE5B, (.Font, [0x63A])),
  (0x1EE5D, (.Font, [0x6BA])),
  (0x1EE5F, (.Font, [0x66F])),
  (0x1EE61, (.Font, [0x628])),
  (0x1EE62, (.Font, [0x62C])),
  (0x1EE64, (.Font, [0x647])),
  (0x1EE67, (.Font, [0x62D]))]
def compatibilityDecomposition_54 : List (Nat × DecompositionType × List Nat) := [
  (0x1EE68, (.Font, [0x637])),
  (0x1EE69, (.Font, [0x64A])),
  (0x1EE6A, (.Font, [0x643])),
  (0x1EE6C, (.Font, [0x645])),
  (0x1EE6D, (.Font, [0x646])),
  (0x1EE6E, (.Font, [0x633])),
  (0x1EE6F, (.Font, [0x639])),
  (0x1EE70, (.Font, [0x641])),
  (0x1EE71, (.Font, [0x635])),
  (0x1EE72, (.Font, [0x642])),
  (0x1EE74, (.Font, [0x634])),
  (0x1EE75, (.Font, [0x62A])),
  (0x1EE76, (.Font, [0x62B])),
  (0x1EE77, (.Font, [0x62E])),
  (0x1EE79, (.Font, [0x636])),
  (0x1EE7A, (.Font, [0x638])),
  (0x1EE7B, (.Font, [0x63A])),
  (0x1EE7C, (.Font, [0x66E])),
  (0x1EE7E, (.Font, [0x6A1])),
  (0x1EE80, (.Font, [0x627])),
  (0x1EE81, (.Font, [0x628])),
  (0x1EE82, (.Font, [0x62C])),
  (0x1EE83, (.Font, [0x62F])),
  (0x1EE84, (.Font, [0x647])),
  (0x1EE85, (.Font, [0x648])),
  (0x1EE86, (.Font, [0x632])),
  (0x1EE87, (.Font, [0x62D])),
  (0x1EE88, (.Font, [0x637])),
  (0x1EE89, (.Font, [0x64A])),
  (0x1EE8B, (.Font, [0x644])),
  (0x1EE8C, (.Font, [0x645])),
  (0x1EE8D, (.Font, [0x646])),
  (0x1EE8E, (.Font, [0x633])),
  (0x1EE8F, (.Font, [0x639])),
  (0x1EE90, (.Font, [0x641])),
  (0x1EE91, (.Font, [0x635])),
  (0x1EE92, (.Font, [0x642])),
  (0x1EE93, (.Font, [0x631])),
  (0x1EE94, (.Font, [0x634])),
  (0x1EE95, (.Font, [0x62A])),
  (0x1EE96, (.Font, [0x62B])),
  (0x1EE97, (.Font, [0x62E])),
  (0x1EE98, (.Font, [0x630])),
  (0x1EE99, (.Font, [0x636])),
  (0x1EE9A, (.Font, [0x638])),
  (0x1EE9B, (.Font, [0x63A])),
  (0x1EEA1, (.Font, [0x628])),
  (0x1EEA2, (.Font, [0x62C])),
  (0x1EEA3, (.Font, [0x62F])),
  (0x1EEA5, (.Font, [0x648])),
  (0x1EEA6, (.Font, [0x632])),
  (0x1EEA7, (.Font, [0x62D])),
  (0x1EEA8, (.Font, [0x637])),
  (0x1EEA9, (.Font, [0x64A])),
  (0x1EEAB, (.Font, [0x644])),
  (0x1EEAC, (.Font, [0x645])),
  (0x1EEAD, (.Font, [0x646])),
  (0x1EEAE, (.Font, [0x633])),
  (0x1EEAF, (.Font, [0x639])),
  (0x1EEB0, (.Font, [0x641])),
  (0x1EEB1, (.Font, [0x635])),
  (0x1EEB2, (.Font, [0x642])),
  (0x1EEB3, (.Font, [0x631])),
  (0x1EEB4, (.Font, [0x634]))]
def compatibilityDecomposition_55 : List (Nat × DecompositionType × List Nat) := [
  (0x1EEB5, (.Font, [0x62A])),
  (0x1EEB6, (.Font, [0x62B])),
  (0x1EEB7, (.Font, [0x62E])),
  (0x1EEB8, (.Font, [0x630])),
  (0x1EEB9, (.Font, [0x636])),
  (0x1EEBA, (.Font, [0x638])),
  (0x1EEBB, (.Font, [0x63A])),
  (0x1F100, (.Compat, [0x30, 0x2E])),
  (0x1F101, (.Compat, [0x30, 0x2C])),
  (0x1F102, (.Compat, [0x31, 0x2C])),
  (0x1F103, (.Compat, [0x32, 0x2C])),
  (0x1F104, (.Compat, [0x33, 0x2C])),
  (0x1F105, (.Compat, [0x34, 0x2C])),
  (0x1F106, (.Compat, [0x35, 0x2C])),
  (0x1F107, (.Compat, [0x36, 0x2C])),
  (0x1F108, (.Compat, [0x37, 0x2C])),
  (0x1F109, (.Compat, [0x38, 0x2C])),
  (0x1F10A, (.Compat, [0x39, 0x2C])),
  (0x1F110, (.Compat, [0x28, 0x41, 0x29])),
  (0x1F111, (.Compat, [0x28, 0x42, 0x29])),
  (0x1F112, (.Compat, [0x28, 0x43, 0x29])),
  (0x1F113, (.Compat, [0x28, 0x44, 0x29])),
  (0x1F114, (.Compat, [0x28, 0x45, 0x29])),
  (0x1F115, (.Compat, [0x28, 0x46, 0x29])),
  (0x1F116, (.Compat, [0x28, 0x47, 0x29])),
  (0x1F117, (.Compat, [0x28, 0x48, 0x29])),
  (0x1F118, (.Compat, [0x28, 0x49, 0x29])),
  (0x1F119, (.Compat, [0x28, 0x4A, 0x29])),
  (0x1F11A, (.Compat, [0x28, 0x4B, 0x29])),
  (0x1F11B, (.Compat, [0x28, 0x4C, 0x29])),
  (0x1F11C, (.Compat, [0x28, 0x4D, 0x29])),
  (0x1F11D, (.Compat, [0x28, 0x4E, 0x29])),
  (0x1F11E, (.Compat, [0x28, 0x4F, 0x29])),
  (0x1F11F, (.Compat, [0x28, 0x50, 0x29])),
  (0x1F120, (.Compat, [0x28, 0x51, 0x29])),
  (0x1F121, (.Compat, [0x28, 0x52, 0x29])),
  (0x1F122, (.Compat, [0x28, 0x53, 0x29])),
  (0x1F123, (.Compat, [0x28, 0x54, 0x29])),
  (0x1F124, (.Compat, [0x28, 0x55, 0x29])),
  (0x1F125, (.Compat, [0x28, 0x56, 0x29])),
  (0x1F126, (.Compat, [0x28, 0x57, 0x29])),
  (0x1F127, (.Compat, [0x28, 0x58, 0x29])),
  (0x1F128, (.Compat, [0x28, 0x59, 0x29])),
  (0x1F129, (.Compat, [0x28, 0x5A, 0x29])),
  (0x1F12A, (.Compat, [0x3014, 0x53, 0x3015])),
  (0x1F12B, (.Circle, [0x43])),
  (0x1F12C, (.Circle, [0x52])),
  (0x1F12D, (.Circle, [0x43, 0x44])),
  (0x1F12E, (.Circle, [0x57, 0x5A])),
  (0x1F130, (.Square, [0x41])),
  (0x1F131, (.Square, [0x42])),
  (0x1F132, (.Square, [0x43])),
  (0x1F133, (.Square, [0x44])),
  (0x1F134, (.Square, [0x45])),
  (0x1F135, (.Square, [0x46])),
  (0x1F136, (.Square, [0x47])),
  (0x1F137, (.Square, [0x48])),
  (0x1F138, (.Square, [0x49])),
  (0x1F139, (.Square, [0x4A])),
  (0x1F13A, (.Square, [0x4B])),
  (0x1F13B, (.Square, [0x4C])),
  (0x1F13C, (.Square, [0x4D])),
  (0x1F13D, (.Square, [0x4E])),
  (0x1F13E, (.Square, [0x4F]))]
def compatibilityDecomposition_56 : List (Nat × DecompositionType × List Nat) := [
  (0x1F13F, (.Square, [0x50])),
  (0x1F140, (.Square, [0x51])),
  (0x1F141, (.Square, [0x52])),
  (0x1F142, (.Square, [0x53])),
  (0x1F143, (.Square, [0x54])),
  (0x1F144, (.Square, [0x55])),
  (0x1F145, (.Square, [0x56])),
  (0x1F146, (.Square, [0x57])),
  (0x1F147, (.Square, [0x58])),
  (0x1F148, (.Square, [0x59])),
  (0x1F149, (.Square, [0x5A])),
  (0x1F14A, (.Square, [0x48, 0x56])),
  (0x1F14B, (.Square, [0x4D, 0x56])),
  (0x1F14C, (.Square, [0x53, 0x44])),
  (0x1F14D, (.Square, [0x53, 0x53])),
  (0x1F14E, (.Square, [0x50, 0x50, 0x56])),
  (0x1F14F, (.Square, [0x57, 0x43])),
  (0x1F16A, (.Super, [0x4D, 0x43])),
  (0x1F16B, (.Super, [0x4D, 0x44])),
  (0x1F190, (.Square, [0x44, 0x4A])),
  (0x1F200, (.Square, [0x307B, 0x304B])),
  (0x1F201, (.Square, [0x30B3, 0x30B3])),
  (0x1F202, (.Square, [0x30B5])),
  (0x1F210, (.Square, [0x624B])),
  (0x1F211, (.Square, [0x5B57])),
  (0x1F212, (.Square, [0x53CC])),
  (0x1F213, (.Square, [0x30C7])),
  (0x1F214, (.Square, [0x4E8C])),
  (0x1F215, (.Square, [0x591A])),
  (0x1F216, (.Square, [0x89E3])),
  (0x1F217, (.Square, [0x5929])),
  (0x1F218, (.Square, [0x4EA4])),
  (0x1F219, (.Square, [0x6620])),
  (0x1F21A, (.Square, [0x7121])),
  (0x1F21B, (.Square, [0x6599])),
  (0x1F21C, (.Square, [0x524D])),
  (0x1F21D, (.Square, [0x5F8C])),
  (0x1F21E, (.Square, [0x518D])),
  (0x1F21F, (.Square, [0x65B0])),
  (0x1F220, (.Square, [0x521D])),
  (0x1F221, (.Square, [0x7D42])),
  (0x1F222, (.Square, [0x751F])),
  (0x1F223, (.Square, [0x8CA9])),
  (0x1F224, (.Square, [0x58F0])),
  (0x1F225, (.Square, [0x5439])),
  (0x1F226, (.Square, [0x6F14])),
  (0x1F227, (.Square, [0x6295])),
  (0x1F228, (.Square, [0x6355])),
  (0x1F229, (.Square, [0x4E00])),
  (0x1F22A, (.Square, [0x4E09])),
  (0x1F22B, (.Square, [0x904A])),
  (0x1F22C, (.Square, [0x5DE6])),
  (0x1F22D, (.Square, [0x4E2D])),
  (0x1F22E, (.Square, [0x53F3])),
  (0x1F22F, (.Square, [0x6307])),
  (0x1F230, (.Square, [0x8D70])),
  (0x1F231, (.Square, [0x6253])),
  (0x1F232, (.Square, [0x7981])),
  (0x1F233, (.Square, [0x7A7A])),
  (0x1F234, (.Square, [0x5408])),
  (0x1F235, (.Square, [0x6E80])),
  (0x1F236, (.Square, [0x6709])),
  (0x1F237, (.Square, [0x6708])),
  (0x1F238, (.Square, [0x7533]))]
def compatibilityDecomposition_57 : List (Nat × DecompositionType × List Nat) := [
  (0x1F239, (.Square, [0x5272])),
  (0x1F23A, (.Square, [0x55B6])),
  (0x1F23B, (.Square, [0x914D])),
  (0x1F240, (.Compat, [0x3014, 0x672C, 0x3015])),
  (0x1F241, (.Compat, [0x3014, 0x4E09, 0x3015])),
  (0x1F242, (.Compat, [0x3014, 0x4E8C, 0x3015])),
  (0x1F243, (.Compat, [0x3014, 0x5B89, 0x3015])),
  (0x1F244, (.Compat, [0x3014, 0x70B9, 0x3015])),
  (0x1F245, (.Compat, [0x3014, 0x6253, 0x3015])),
  (0x1F246, (.Compat, [0x3014, 0x76D7, 0x3015])),
  (0x1F247, (.Compat, [0x3014, 0x52DD, 0x3015])),
  (0x1F248, (.Compat, [0x3014, 0x6557, 0x3015])),
  (0x1F250, (.Circle, [0x5F97])),
  (0x1F251, (.Circle, [0x53EF]))]
/-- unic/ucd/normal/tables/compatibility_decomposition_mapping.rsv (all 3662 entries, `CharDataTable::Direct`), in chunks of 64. -/
def compatibilityDecomposition : List (List (Nat × DecompositionType × List Nat)) := [compatibilityDecomposition_0, compatibilityDecomposition_1, compatibilityDecomposition_2, compatibilityDecomposition_3, compatibilityDecomposition_4, compatibilityDecomposition_5, compatibilityDecomposition_6, compatibilityDecomposition_7, compatibilityDecomposition_8, compatibilityDecomposition_9, compatibilityDecomposition_10, compatibilityDecomposition_11, compatibilityDecomposition_12, compatibilityDecomposition_13, compatibilityDecomposition_14, compatibilityDecomposition_15, compatibilityDecomposition_16, compatibilityDecomposition_17, compatibilityDecomposition_18, compatibilityDecomposition_19, compatibilityDecomposition_20, compatibilityDecomposition_21, compatibilityDecomposition_22, compatibilityDecomposition_23, compatibilityDecomposition_24, compatibilityDecomposition_25, compatibilityDecomposition_26, compatibilityDecomposition_27, compatibilityDecomposition_28, compatibilityDecomposition_29, compatibilityDecomposition_30, compatibilityDecomposition_31, compatibilityDecomposition_32, compatibilityDecomposition_33, compatibilityDecomposition_34, compatibilityDecomposition_35, compatibilityDecomposition_36, compatibilityDecomposition_37, compatibilityDecomposition_38, compatibilityDecomposition_39, compatibilityDecomposition_40, compatibilityDecomposition_41, compatibilityDecomposition_42, compatibilityDecomposition_43, compatibilityDecomposition_44, compatibilityDecomposition_45, compatibilityDecomposition_46, compatibilityDecomposition_47, compatibilityDecomposition_48, compatibilityDecomposition_49, compatibilityDecomposition_50, compatibilityDecomposition_51, compatibilityDecomposition_52, compatibilityDecomposition_53, compatibilityDecomposition_54, compatibilityDecomposition_55, compatibilityDecomposition_56, compatibilityDecomposition_57]

end Data
