/-! Generated by tools/gen_tables.py: literal translation of data tables. -/
namespace Data

/-- unic/ucd/name_aliases/src/name_aliases.rs L13-31 -/
inductive NameAliasType where
  | NameCorrections
  | ControlCodeNames
  | AlternateNames
  | Figments
  | NameAbbreviations
deriving DecidableEq, Repr

def aliasCorrections_0 : List (Nat × List String) := [
  (0x1A2, ["LATIN CAPITAL LETTER GHA"]),
  (0x1A3, ["LATIN SMALL LETTER GHA"]),
  (0x709, ["SYRIAC SUBLINEAR COLON SKEWED LEFT"]),
  (0xCDE, ["KANNADA LETTER LLLA"]),
  (0xE9D, ["LAO LETTER FO FON"]),
  (0xE9F, ["LAO LETTER FO FAY"]),
  (0xEA3, ["LAO LETTER RO"]),
  (0xEA5, ["LAO LETTER LO"]),
  (0xFD0, ["TIBETAN MARK BKA- SHOG GI MGO RGYAN"]),
  (0x11EC, ["HANGUL JONGSEONG YESIEUNG-KIYEOK"]),
  (0x11ED, ["HANGUL JONGSEONG YESIEUNG-SSANGKIYEOK"]),
  (0x11EE, ["HANGUL JONGSEONG SSANGYESIEUNG"]),
  (0x11EF, ["HANGUL JONGSEONG YESIEUNG-KHIEUKH"]),
  (0x2118, ["WEIERSTRASS ELLIPTIC FUNCTION"]),
  (0x2448, ["MICR ON US SYMBOL"]),
  (0x2449, ["MICR DASH SYMBOL"]),
  (0x2B7A, ["LEFTWARDS TRIANGLE-HEADED ARROW WITH DOUBLE VERTICAL STROKE"]),
  (0x2B7C, ["RIGHTWARDS TRIANGLE-HEADED ARROW WITH DOUBLE VERTICAL STROKE"]),
  (0xA015, ["YI SYLLABLE ITERATION MARK"]),
  (0xFE18, ["PRESENTATION FORM FOR VERTICAL RIGHT WHITE LENTICULAR BRACKET"]),
  (0x122D4, ["CUNEIFORM SIGN NU11 TENU"]),
  (0x122D5, ["CUNEIFORM SIGN NU11 OVER NU11 BUR OVER BUR"]),
  (0x1B001, ["HENTAIGANA LETTER E-1"]),
  (0x1D0C5, ["BYZANTINE MUSICAL SYMBOL FTHORA SKLIRON CHROMA VASIS"])]
/-- unic/ucd/name_aliases/tables/corrections.rsv (all 24 entries, `CharDataTable::Direct`), in chunks of 64. -/
def aliasCorrections : List (List (Nat × List String)) := [aliasCorrections_0]

def aliasControls_0 : List (Nat × List String) := [
  (0, ["NULL"]),
  (1, ["START OF HEADING"]),
  (2, ["START OF TEXT"]),
  (3, ["END OF TEXT"]),
  (4, ["END OF TRANSMISSION"]),
  (5, ["ENQUIRY"]),
  (6, ["ACKNOWLEDGE"]),
  (7, ["ALERT"]),
  (8, ["BACKSPACE"]),
  (9, ["CHARACTER TABULATION", "HORIZONTAL TABULATION"]),
  (0xA, ["LINE FEED", "NEW LINE", "END OF LINE"]),
  (0xB, ["LINE TABULATION", "VERTICAL TABULATION"]),
  (0xC, ["FORM FEED"]),
  (0xD, ["CARRIAGE RETURN"]),
  (0xE, ["SHIFT OUT", "LOCKING-SHIFT ONE"]),
  (0xF, ["SHIFT IN", "LOCKING-SHIFT ZERO"]),
  (0x10, ["DATA LINK ESCAPE"]),
  (0x11, ["DEVICE CONTROL ONE"]),
  (0x12, ["DEVICE CONTROL TWO"]),
  (0x13, ["DEVICE CONTROL THREE"]),
  (0x14, ["DEVICE CONTROL FOUR"]),
  (0x15, ["NEGATIVE ACKNOWLEDGE"]),
  (0x16, ["SYNCHRONOUS IDLE"]),
  (0x17, ["END OF TRANSMISSION BLOCK"]),
  (0x18, ["CANCEL"]),
  (0x19, ["END OF MEDIUM"]),
  (0x1A, ["SUBSTITUTE"]),
  (0x1B, ["ESCAPE"]),
  (0x1C, ["INFORMATION SEPARATOR FOUR", "FILE SEPARATOR"]),
  (0x1D, ["INFORMATION SEPARATOR THREE", "GROUP SEPARATOR"]),
  (0x1E, ["INFORMATION SEPARATOR TWO", "RECORD SEPARATOR"]),
  (0x1F, ["INFORMATION SEPARATOR ONE", "UNIT SEPARATOR"]),
  (0x7F, ["DELETE"]),
  (0x82, ["BREAK PERMITTED HERE"]),
  (0x83, ["NO BREAK HERE"]),
  (0x84, ["INDEX"]),
  (0x85, ["NEXT LINE"]),
  (0x86, ["START OF SELECTED AREA"]),
  (0x87, ["END OF SELECTED AREA"]),
  (0x88, ["CHARACTER TABULATION SET", "HORIZONTAL TABULATION SET"]),
  (0x89, ["CHARACTER TABULATION WITH JUSTIFICATION", "HORIZONTAL TABULATION WITH JUSTIFICATION"]),
  (0x8A, ["LINE TABULATION SET", "VERTICAL TABULATION SET"]),
  (0x8B, ["PARTIAL LINE FORWARD", "PARTIAL LINE DOWN"]),
  (0x8C, ["PARTIAL LINE BACKWARD", "PARTIAL LINE UP"]),
  (0x8D, ["REVERSE LINE FEED", "REVERSE INDEX"]),
  (0x8E, ["SINGLE SHIFT TWO", "SINGLE-SHIFT-2"]),
  (0x8F, ["SINGLE SHIFT THREE", "SINGLE-SHIFT-3"]),
  (0x90, ["DEVICE CONTROL STRING"]),
  (0x91, ["PRIVATE USE ONE", "PRIVATE USE-1"]),
  (0x92, ["PRIVATE USE TWO", "PRIVATE USE-2"]),
  (0x93, ["SET TRANSMIT STATE"]),
  (0x94, ["CANCEL CHARACTER"]),
  (0x95, ["MESSAGE WAITING"]),
  (0x96, ["START OF GUARDED AREA", "START OF PROTECTED AREA"]),
  (0x97, ["END OF GUARDED AREA", "END OF PROTECTED AREA"]),
  (0x98, ["START OF STRING"]),
  (0x9A, ["SINGLE CHARACTER INTRODUCER"]),
  (0x9B, ["CONTROL SEQUENCE INTRODUCER"]),
  (0x9C, ["STRING TERMINATOR"]),
  (0x9D, ["OPERATING SYSTEM COMMAND"]),
  (0x9E, ["PRIVACY MESSAGE"]),
  (0x9F, ["APPLICATION PROGRAM COMMAND"])]
/-- unic/ucd/name_aliases/tables/controls.rsv (all 62 entries, `CharDataTable::Direct`), in chunks of 64. -/
def aliasControls : List (List (Nat × List String)) := [aliasControls_0]

def aliasAlternates_0 : List (Nat × List String) := [
  (0xFEFF, ["BYTE ORDER MARK"])]
/-- unic/ucd/name_aliases/tables/alternates.rsv (all 1 entries, `CharDataTable::Direct`), in chunks of 64. -/
def aliasAlternates : List (List (Nat × List String)) := [aliasAlternates_0]

def aliasFigments_0 : List (Nat × List String) := [
  (0x80, ["PADDING CHARACTER"]),
  (0x81, ["HIGH OCTET PRESET"]),
  (0x99, ["SINGLE GRAPHIC CHARACTER INTRODUCER"])]
/-- unic/ucd/name_aliases/tables/figments.rsv (all 3 entries, `CharDataTable::Direct`), in chunks of 64. -/
def aliasFigments : List (List (Nat × List String)) := [aliasFigments_0]

def aliasAbbreviations_0 : List (Nat × List String) := [
  (0, ["NUL"]),
  (1, ["SOH"]),
  (2, ["STX"]),
  (3, ["ETX"]),
  (4, ["EOT"]),
  (5, ["ENQ"]),
  (6, ["ACK"]),
  (7, ["BEL"]),
  (8, ["BS"]),
  (9, ["HT", "TAB"]),
  (0xA, ["LF", "NL", "EOL"]),
  (0xB, ["VT"]),
  (0xC, ["FF"]),
  (0xD, ["CR"]),
  (0xE, ["SO"]),
  (0xF, ["SI"]),
  (0x10, ["DLE"]),
  (0x11, ["DC1"]),
  (0x12, ["DC2"]),
  (0x13, ["DC3"]),
  (0x14, ["DC4"]),
  (0x15, ["NAK"]),
  (0x16, ["SYN"]),
  (0x17, ["ETB"]),
  (0x18, ["CAN"]),
  (0x19, ["EOM"]),
  (0x1A, ["SUB"]),
  (0x1B, ["ESC"]),
  (0x1C, ["FS"]),
  (0x1D, ["GS"]),
  (0x1E, ["RS"]),
  (0x1F, ["US"]),
  (0x20, ["SP"]),
  (0x7F, ["DEL"]),
  (0x80, ["PAD"]),
  (0x81, ["HOP"]),
  (0x82, ["BPH"]),
  (0x83, ["NBH"]),
  (0x84, ["IND"]),
  (0x85, ["NEL"]),
  (0x86, ["SSA"]),
  (0x87, ["ESA"]),
  (0x88, ["HTS"]),
  (0x89, ["HTJ"]),
  (0x8A, ["VTS"]),
  (0x8B, ["PLD"]),
  (0x8C, ["PLU"]),
  (0x8D, ["RI"]),
  (0x8E, ["SS2"]),
  (0x8F, ["SS3"]),
  (0x90, ["DCS"]),
  (0x91, ["PU1"]),
  (0x92, ["PU2"]),
  (0x93, ["STS"]),
  (0x94, ["CCH"]),
  (0x95, ["MW"]),
  (0x96, ["SPA"]),
  (0x97, ["EPA"]),
  (0x98, ["SOS"]),
  (0x99, ["SGC"]),
  (0x9A, ["SCI"]),
  (0x9B, ["CSI"]),
  (0x9C, ["ST"]),
  (0x9D, ["OSC"])]
def aliasAbbreviations_1 : List (Nat × List String) := [
  (0x9E, ["PM"]),
  (0x9F, ["APC"]),
  (0xA0, ["NBSP"]),
  (0xAD, ["SHY"]),
  (0x34F, ["CGJ"]),
  (0x61C, ["ALM"]),
  (0x180B, ["FVS1"]),
  (0x180C, ["FVS2"]),
  (0x180D, ["FVS3"]),
  (0x180E, ["MVS"]),
  (0x200B, ["ZWSP"]),
  (0x200C, ["ZWNJ"]),
  (0x200D, ["ZWJ"]),
  (0x200E, ["LRM"]),
  (0x200F, ["RLM"]),
  (0x202A, ["LRE"]),
  (0x202B, ["RLE"]),
  (0x202C, ["PDF"]),
  (0x202D, ["LRO"]),
  (0x202E, ["RLO"]),
  (0x202F, ["NNBSP"]),
  (0x205F, ["MMSP"]),
  (0x2060, ["WJ"]),
  (0x2066, ["LRI"]),
  (0x2067, ["RLI"]),
  (0x2068, ["FSI"]),
  (0x2069, ["PDI"]),
  (0xFE00, ["VS1"]),
  (0xFE01, ["VS2"]),
  (0xFE02, ["VS3"]),
  (0xFE03, ["VS4"]),
  (0xFE04, ["VS5"]),
  (0xFE05, ["VS6"]),
  (0xFE06, ["VS7"]),
  (0xFE07, ["VS8"]),
  (0xFE08, ["VS9"]),
  (0xFE09, ["VS10"]),
  (0xFE0A, ["VS11"]),
  (0xFE0B, ["VS12"]),
  (0xFE0C, ["VS13"]),
  (0xFE0D, ["VS14"]),
  (0xFE0E, ["VS15"]),
  (0xFE0F, ["VS16"]),
  (0xFEFF, ["BOM", "ZWNBSP"]),
  (0xE0100, ["VS17"]),
  (0xE0101, ["VS18"]),
  (0xE0102, ["VS19"]),
  (0xE0103, ["VS20"]),
  (0xE0104, ["VS21"]),
  (0xE0105, ["VS22"]),
  (0xE0106, ["VS23"]),
  (0xE0107, ["VS24"]),
  (0xE0108, ["VS25"]),
  (0xE0109, ["VS26"]),
  (0xE010A, ["VS27"]),
  (0xE010B, ["VS28"]),
  (0xE010C, ["VS29"]),
  (0xE010D, ["VS30"]),
  (0xE010E, ["VS31"]),
  (0xE010F, ["VS32"]),
  (0xE0110, ["VS33"]),
  (0xE0111, ["VS34"]),
  (0xE0112, ["VS35"]),
  (0xE0113, ["VS36"])]
def aliasAbbreviations_2 : List (Nat × List String) := [
  (0xE0114, ["VS37"]),
  (0xE0115, ["VS38"]),
  (0xE0116, ["VS39"]),
  (0xE0117, ["VS40"]),
  (0xE0118, ["VS41"]),
  (0xE0119, ["VS42"]),
  (0xE011A, ["VS43"]),
  (0xE011B, ["VS44"]),
  (0xE011C, ["VS45"]),
  (0xE011D, ["VS46"]),
  (0xE011E, ["VS47"]),
  (0xE011F, ["VS48"]),
  (0xE0120, ["VS49"]),
  (0xE0121, ["VS50"]),
  (0xE0122, ["VS51"]),
  (0xE0123, ["VS52"]),
  (0xE0124, ["VS53"]),
  (0xE0125, ["VS54"]),
  (0xE0126, ["VS55"]),
  (0xE0127, ["VS56"]),
  (0xE0128, ["VS57"]),
  (0xE0129, ["VS58"]),
  (0xE012A, ["VS59"]),
  (0xE012B, ["VS60"]),
  (0xE012C, ["VS61"]),
  (0xE012D, ["VS62"]),
  (0xE012E, ["VS63"]),
  (0xE012F, ["VS64"]),
  (0xE0130, ["VS65"]),
  (0xE0131, ["VS66"]),
  (0xE0132, ["VS67"]),
  (0xE0133, ["VS68"]),
  (0xE0134, ["VS69"]),
  (0xE0135, ["VS70"]),
  (0xE0136, ["VS71"]),
  (0xE0137, ["VS72"]),
  (0xE0138, ["VS73"]),
  (0xE0139, ["VS74"]),
  (0xE013A, ["VS75"]),
  (0xE013B, ["VS76"]),
  (0xE013C, ["VS77"]),
  (0xE013D, ["VS78"]),
  (0xE013E, ["VS79"]),
  (0xE013F, ["VS80"]),
  (0xE0140, ["VS81"]),
  (0xE0141, ["VS82"]),
  (0xE0142, ["VS83"]),
  (0xE0143, ["VS84"]),
  (0xE0144, ["VS85"]),
  (0xE0145, ["VS86"]),
  (0xE0146, ["VS87"]),
  (0xE0147, ["VS88"]),
  (0xE0148, ["VS89"]),
  (0xE0149, ["VS90"]),
  (0xE014A, ["VS91"]),
  (0xE014B, ["VS92"]),
  (0xE014C, ["VS93"]),
  (0xE014D, ["VS94"]),
  (0xE014E, ["VS95"]),
  (0xE014F, ["VS96"]),
  (0xE0150, ["VS97"]),
  (0xE0151, ["VS98"]),
  (0xE0152, ["VS99"]),
  (0xE0153, ["VS100"])]
def aliasAbbreviations_3 : List (Nat × List String) := [
  (0xE0154, ["VS101"]),
  (0xE0155, ["VS102"]),
  (0xE0156, ["VS103"]),
  (0xE0157, ["VS104"]),
  (0xE0158, ["VS105"]),
  (0xE0159, ["VS106"]),
  (0xE015A, ["VS107"]),
  (0xE015B, ["VS108"]),
  (0xE015C, ["VS109"]),
  (0xE015D, ["VS110"]),
  (0xE015E, ["VS111"]),
  (0xE015F, ["VS112"]),
  (0xE0160, ["VS113"]),
  (0xE0161, ["VS114"]),
  (0xE0162, ["VS115"]),
  (0xE0163, ["VS116"]),
  (0xE0164, ["VS117"]),
  (0xE0165, ["VS118"]),
  (0xE0166, ["VS119"]),
  (0xE0167, ["VS120"]),
  (0xE0168, ["VS121"]),
  (0xE0169, ["VS122"]),
  (0xE016A, ["VS123"]),
  (0xE016B, ["VS124"]),
  (0xE016C, ["VS125"]),
  (0xE016D, ["VS126"]),
  (0xE016E, ["VS127"]),
  (0xE016F, ["VS128"]),
  (0xE0170, ["VS129"]),
  (0xE0171, ["VS130"]),
  (0xE0172, ["VS131"]),
  (0xE0173, ["VS132"]),
  (0xE0174, ["VS133"]),
  (0xE0175, ["VS134"]),
  (0xE0176, ["VS135"]),
  (0xE0177, ["VS136"]),
  (0xE0178, ["VS137"]),
  (0xE0179, ["VS138"]),
  (0xE017A, ["VS139"]),
  (0xE017B, ["VS140"]),
  (0xE017C, ["VS141"]),
  (0xE017D, ["VS142"]),
  (0xE017E, ["VS143"]),
  (0xE017F, ["VS144"]),
  (0xE0180, ["VS145"]),
  (0xE0181, ["VS146"]),
  (0xE0182, ["VS147"]),
  (0xE0183, ["VS148"]),
  (0xE0184, ["VS149"]),
  (0xE0185, ["VS150"]),
  (0xE0186, ["VS151"]),
  (0xE0187, ["VS152"]),
  (0xE0188, ["VS153"]),
  (0xE0189, ["VS154"]),
  (0xE018A, ["VS155"]),
  (0xE018B, ["VS156"]),
  (0xE018C, ["VS157"]),
  (0xE018D, ["VS158"]),
  (0xE018E, ["VS159"]),
  (0xE018F, ["VS160"]),
  (0xE0190, ["VS161"]),
  (0xE0191, ["VS162"]),
  (0xE0192, ["VS163"]),
  (0xE0193, ["VS164"])]
def aliasAbbreviations_4 : List (Nat × List String) := [
  (0xE0194, ["VS165"]),
  (0xE0195, ["VS166"]),
  (0xE0196, ["VS167"]),
  (0xE0197, ["VS168"]),
  (0xE0198, ["VS169"]),
  (0xE0199, ["VS170"]),
  (0xE019A, ["VS171"]),
  (0xE019B, ["VS172"]),
  (0xE019C, ["VS173"]),
  (0xE019D, ["VS174"]),
  (0xE019E, ["VS175"]),
  (0xE019F, ["VS176"]),
  (0xE01A0, ["VS177"]),
  (0xE01A1, ["VS178"]),
  (0xE01A2, ["VS179"]),
  (0xE01A3, ["VS180"]),
  (0xE01A4, ["VS181"]),
  (0xE01A5, ["VS182"]),
  (0xE01A6, ["VS183"]),
  (0xE01A7, ["VS184"]),
  (0xE01A8, ["VS185"]),
  (0xE01A9, ["VS186"]),
  (0xE01AA, ["VS187"]),
  (0xE01AB, ["VS188"]),
  (0xE01AC, ["VS189"]),
  (0xE01AD, ["VS190"]),
  (0xE01AE, ["VS191"]),
  (0xE01AF, ["VS192"]),
  (0xE01B0, ["VS193"]),
  (0xE01B1, ["VS194"]),
  (0xE01B2, ["VS195"]),
  (0xE01B3, ["VS196"]),
  (0xE01B4, ["VS197"]),
  (0xE01B5, ["VS198"]),
  (0xE01B6, ["VS199"]),
  (0xE01B7, ["VS200"]),
  (0xE01B8, ["VS201"]),
  (0xE01B9, ["VS202"]),
  (0xE01BA, ["VS203"]),
  (0xE01BB, ["VS204"]),
  (0xE01BC, ["VS205"]),
  (0xE01BD, ["VS206"]),
  (0xE01BE, ["VS207"]),
  (0xE01BF, ["VS208"]),
  (0xE01C0, ["VS209"]),
  (0xE01C1, ["VS210"]),
  (0xE01C2, ["VS211"]),
  (0xE01C3, ["VS212"]),
  (0xE01C4, ["VS213"]),
  (0xE01C5, ["VS214"]),
  (0xE01C6, ["VS215"]),
  (0xE01C7, ["VS216"]),
  (0xE01C8, ["VS217"]),
  (0xE01C9, ["VS218"]),
  (0xE01CA, ["VS219"]),
  (0xE01CB, ["VS220"]),
  (0xE01CC, ["VS221"]),
  (0xE01CD, ["VS222"]),
  (0xE01CE, ["VS223"]),
  (0xE01CF, ["VS224"]),
  (0xE01D0, ["VS225"]),
  (0xE01D1, ["VS226"]),
  (0xE01D2, ["VS227"]),
  (0xE01D3, ["VS228"])]
def aliasAbbreviations_5 : List (Nat × List String) := [
  (0xE01D4, ["VS229"]),
  (0xE01D5, ["VS230"]),
  (0xE01D6, ["VS231"]),
  (0xE01D7, ["VS232"]),
  (0xE01D8, ["VS233"]),
  (0xE01D9, ["VS234"]),
  (0xE01DA, ["VS235"]),
  (0xE01DB, ["VS236"]),
  (0xE01DC, ["VS237"]),
  (0xE01DD, ["VS238"]),
  (0xE01DE, ["VS239"]),
  (0xE01DF, ["VS240"]),
  (0xE01E0, ["VS241"]),
  (0xE01E1, ["VS242"]),
  (0xE01E2, ["VS243"]),
  (0xE01E3, ["VS244"]),
  (0xE01E4, ["VS245"]),
  (0xE01E5, ["VS246"]),
  (0xE01E6, ["VS247"]),
  (0xE01E7, ["VS248"]),
  (0xE01E8, ["VS249"]),
  (0xE01E9, ["VS250"]),
  (0xE01EA, ["VS251"]),
  (0xE01EB, ["VS252"]),
  (0xE01EC, ["VS253"]),
  (0xE01ED, ["VS254"]),
  (0xE01EE, ["VS255"]),
  (0xE01EF, ["VS256"])]
/-- unic/ucd/name_aliases/tables/abbreviations.rsv (all 348 entries, `CharDataTable::Direct`), in chunks of 64. -/
def aliasAbbreviations : List (List (Nat × List String)) := [aliasAbbreviations_0, aliasAbbreviations_1, aliasAbbreviations_2, aliasAbbreviations_3, aliasAbbreviations_4, aliasAbbreviations_5]

def nameAliasTypes_0 : List (Nat × List NameAliasType) := [
  (0, [.ControlCodeNames, .NameAbbreviations]),
  (1, [.ControlCodeNames, .NameAbbreviations]),
  (2, [.ControlCodeNames, .NameAbbreviations]),
  (3, [.ControlCodeNames, .NameAbbreviations]),
  (4, [.ControlCodeNames, .NameAbbreviations]),
  (5, [.ControlCodeNames, .NameAbbreviations]),
  (6, [.ControlCodeNames, .NameAbbreviations]),
  (7, [.ControlCodeNames, .NameAbbreviations]),
  (8, [.ControlCodeNames, .NameAbbreviations]),
  (9, [.ControlCodeNames, .NameAbbreviations]),
  (0xA, [.ControlCodeNames, .NameAbbreviations]),
  (0xB, [.ControlCodeNames, .NameAbbreviations]),
  (0xC, [.ControlCodeNames, .NameAbbreviations]),
  (0xD, [.ControlCodeNames, .NameAbbreviations]),
  (0xE, [.ControlCodeNames, .NameAbbreviations]),
  (0xF, [.ControlCodeNames, .NameAbbreviations]),
  (0x10, [.ControlCodeNames, .NameAbbreviations]),
  (0x11, [.ControlCodeNames, .NameAbbreviations]),
  (0x12, [.ControlCodeNames, .NameAbbreviations]),
  (0x13, [.ControlCodeNames, .NameAbbreviations]),
  (0x14, [.ControlCodeNames, .NameAbbreviations]),
  (0x15, [.ControlCodeNames, .NameAbbreviations]),
  (0x16, [.ControlCodeNames, .NameAbbreviations]),
  (0x17, [.ControlCodeNames, .NameAbbreviations]),
  (0x18, [.ControlCodeNames, .NameAbbreviations]),
  (0x19, [.ControlCodeNames, .NameAbbreviations]),
  (0x1A, [.ControlCodeNames, .NameAbbreviations]),
  (0x1B, [.ControlCodeNames, .NameAbbreviations]),
  (0x1C, [.ControlCodeNames, .NameAbbreviations]),
  (0x1D, [.ControlCodeNames, .NameAbbreviations]),
  (0x1E, [.ControlCodeNames, .NameAbbreviations]),
  (0x1F, [.ControlCodeNames, .NameAbbreviations]),
  (0x20, [.NameAbbreviations]),
  (0x7F, [.ControlCodeNames, .NameAbbreviations]),
  (0x80, [.Figments, .NameAbbreviations]),
  (0x81, [.Figments, .NameAbbreviations]),
  (0x82, [.ControlCodeNames, .NameAbbreviations]),
  (0x83, [.ControlCodeNames, .NameAbbreviations]),
  (0x84, [.ControlCodeNames, .NameAbbreviations]),
  (0x85, [.ControlCodeNames, .NameAbbreviations]),
  (0x86, [.ControlCodeNames, .NameAbbreviations]),
  (0x87, [.ControlCodeNames, .NameAbbreviations]),
  (0x88, [.ControlCodeNames, .NameAbbreviations]),
  (0x89, [.ControlCodeNames, .NameAbbreviations]),
  (0x8A, [.ControlCodeNames, .NameAbbreviations]),
  (0x8B, [.ControlCodeNames, .NameAbbreviations]),
  (0x8C, [.ControlCodeNames, .NameAbbreviations]),
  (0x8D, [.ControlCodeNames, .NameAbbreviations]),
  (0x8E, [.ControlCodeNames, .NameAbbreviations]),
  (0x8F, [.ControlCodeNames, .NameAbbreviations]),
  (0x90, [.ControlCodeNames, .NameAbbreviations]),
  (0x91, [.ControlCodeNames, .NameAbbreviations]),
  (0x92, [.ControlCodeNames, .NameAbbreviations]),
  (0x93, [.ControlCodeNames, .NameAbbreviations]),
  (0x94, [.ControlCodeNames, .NameAbbreviations]),
  (0x95, [.ControlCodeNames, .NameAbbreviations]),
  (0x96, [.ControlCodeNames, .NameAbbreviations]),
  (0x97, [.ControlCodeNames, .NameAbbreviations]),
  (0x98, [.ControlCodeNames, .NameAbbreviations]),
  (0x99, [.Figments, .NameAbbreviations]),
  (0x9A, [.ControlCodeNames, .NameAbbreviations]),
  (0x9B, [.ControlCodeNames, .NameAbbreviations]),
  (0x9C, [.ControlCodeNames, .NameAbbreviations]),
  (0x9D, [.ControlCodeNames, .NameAbbreviations])]
def nameAliasTypes_1 : List (Nat × List NameAliasType) := [
  (0x9E, [.ControlCodeNames, .NameAbbreviations]),
  (0x9F, [.ControlCodeNames, .NameAbbreviations]),
  (0xA0, [.NameAbbreviations]),
  (0xAD, [.NameAbbreviations]),
  (0x1A2, [.NameCorrections]),
  (0x1A3, [.NameCorrections]),
  (0x34F, [.NameAbbreviations]),
  (0x61C, [.NameAbbreviations]),
  (0x709, [.NameCorrections]),
  (0xCDE, [.NameCorrections]),
  (0xE9D, [.NameCorrections]),
  (0xE9F, [.NameCorrections]),
  (0xEA3, [.NameCorrections]),
  (0xEA5, [.NameCorrections]),
  (0xFD0, [.NameCorrections]),
  (0x11EC, [.NameCorrections]),
  (0x11ED, [.NameCorrections]),
  (0x11EE, [.NameCorrections]),
  (0x11EF, [.NameCorrections]),
  (0x180B, [.NameAbbreviations]),
  (0x180C, [.NameAbbreviations]),
  (0x180D, [.NameAbbreviations]),
  (0x180E, [.NameAbbreviations]),
  (0x200B, [.NameAbbreviations]),
  (0x200C, [.NameAbbreviations]),
  (0x200D, [.NameAbbreviations]),
  (0x200E, [.NameAbbreviations]),
  (0x200F, [.NameAbbreviations]),
  (0x202A, [.NameAbbreviations]),
  (0x202B, [.NameAbbreviations]),
  (0x202C, [.NameAbbreviations]),
  (0x202D, [.NameAbbreviations]),
  (0x202E, [.NameAbbreviations]),
  (0x202F, [.NameAbbreviations]),
  (0x205F, [.NameAbbreviations]),
  (0x2060, [.NameAbbreviations]),
  (0x2066, [.NameAbbreviations]),
  (0x2067, [.NameAbbreviations]),
  (0x2068, [.NameAbbreviations]),
  (0x2069, [.NameAbbreviations]),
  (0x2118, [.NameCorrections]),
  (0x2448, [.NameCorrections]),
  (0x2449, [.NameCorrections]),
  (0x2B7A, [.NameCorrections]),
  (0x2B7C, [.NameCorrections]),
  (0xA015, [.NameCorrections]),
  (0xFE00, [.NameAbbreviations]),
  (0xFE01, [.NameAbbreviations]),
  (0xFE02, [.NameAbbreviations]),
  (0xFE03, [.NameAbbreviations]),
  (0xFE04, [.NameAbbreviations]),
  (0xFE05, [.NameAbbreviations]),
  (0xFE06, [.NameAbbreviations]),
  (0xFE07, [.NameAbbreviations]),
  (0xFE08, [.NameAbbreviations]),
  (0xFE09, [.NameAbbreviations]),
  (0xFE0A, [.NameAbbreviations]),
  (0xFE0B, [.NameAbbreviations]),
  (0xFE0C, [.NameAbbreviations]),
  (0xFE0D, [.NameAbbreviations]),
  (0xFE0E, [.NameAbbreviations]),
  (0xFE0F, [.NameAbbreviations]),
  (0xFE18, [.NameCorrections]),
  (0xFEFF, [.AlternateNames, .NameAbbreviations])]
def nameAliasTypes_2 : List (Nat × List NameAliasType) := [
  (0x122D4, [.NameCorrections]),
  (0x122D5, [.NameCorrections]),
  (0x1B001, [.NameCorrections]),
  (0x1D0C5, [.NameCorrections]),
  (0xE0100, [.NameAbbreviations]),
  (0xE0101, [.NameAbbreviations]),
  (0xE0102, [.NameAbbreviations]),
  (0xE0103, [.NameAbbreviations]),
  (0xE0104, [.NameAbbreviations]),
  (0xE0105, [.NameAbbreviations]),
  (0xE0106, [.NameAbbreviations]),
  (0xE0107, [.NameAbbreviations]),
  (0xE0108, [.NameAbbreviations]),
  (0xE0109, [.NameAbbreviations]),
  (0xE010A, [.NameAbbreviations]),
  (0xE010B, [.NameAbbreviations]),
  (0xE010C, [.NameAbbreviations]),
  (0xE010D, [.NameAbbreviations]),
  (0xE010E, [.NameAbbreviations]),
  (0xE010F, [.NameAbbreviations]),
  (0xE0110, [.NameAbbreviations]),
  (0xE0111, [.NameAbbreviations]),
  (0xE0112, [.NameAbbreviations]),
  (0xE0113, [.NameAbbreviations]),
  (0xE0114, [.NameAbbreviations]),
  (0xE0115, [.NameAbbreviations]),
  (0xE0116, [.NameAbbreviations]),
  (0xE0117, [.NameAbbreviations]),
  (0xE0118, [.NameAbbreviations]),
  (0xE0119, [.NameAbbreviations]),
  (0xE011A, [.NameAbbreviations]),
  (0xE011B, [.NameAbbreviations]),
  (0xE011C, [.NameAbbreviations]),
  (0xE011D, [.NameAbbreviations]),
  (0xE011E, [.NameAbbreviations]),
  (0xE011F, [.NameAbbreviations]),
  (0xE0120, [.NameAbbreviations]),
  (0xE0121, [.NameAbbreviations]),
  (0xE0122, [.NameAbbreviations]),
  (0xE0123, [.NameAbbreviations]),
  (0xE0124, [.NameAbbreviations]),
  (0xE0125, [.NameAbbreviations]),
  (0xE0126, [.NameAbbreviations]),
  (0xE0127, [.NameAbbreviations]),
  (0xE0128, [.NameAbbreviations]),
  (0xE0129, [.NameAbbreviations]),
  (0xE012A, [.NameAbbreviations]),
  (0xE012B, [.NameAbbreviations]),
  (0xE012C, [.NameAbbreviations]),
  (0xE012D, [.NameAbbreviations]),
  (0xE012E, [.NameAbbreviations]),
  (0xE012F, [.NameAbbreviations]),
  (0xE0130, [.NameAbbreviations]),
  (0xE0131, [.NameAbbreviations]),
  (0xE0132, [.NameAbbreviations]),
  (0xE0133, [.NameAbbreviations]),
  (0xE0134, [.NameAbbreviations]),
  (0xE0135, [.NameAbbreviations]),
  (0xE0136, [.NameAbbreviations]),
  (0xE0137, [.NameAbbreviations]),
  (0xE0138, [.NameAbbreviations]),
  (0xE0139, [.NameAbbreviations]),
  (0xE013A, [.NameAbbreviations]),
  (0xE013B, [.NameAbbreviations])]
def nameAliasTypes_3 : List (Nat × List NameAliasType) := [
  (0xE013C, [.NameAbbreviations]),
  (0xE013D, [.NameAbbreviations]),
  (0xE013E, [.NameAbbreviations]),
  (0xE013F, [.NameAbbreviations]),
  (0xE0140, [.NameAbbreviations]),
  (0xE0141, [.NameAbbreviations]),
  (0xE0142, [.NameAbbreviations]),
  (0xE0143, [.NameAbbreviations]),
  (0xE0144, [.NameAbbreviations]),
  (0xE0145, [.NameAbbreviations]),
  (0xE0146, [.NameAbbreviations]),
  (0xE0147, [.NameAbbreviations]),
  (0xE0148, [.NameAbbreviations]),
  (0xE0149, [.NameAbbreviations]),
  (0xE014A, [.NameAbbreviations]),
  (0xE014B, [.NameAbbreviations]),
  (0xE014C, [.NameAbbreviations]),
  (0xE014D, [.NameAbbreviations]),
  (0xE014E, [.NameAbbreviations]),
  (0xE014F, [.NameAbbreviations]),
  (0xE0150, [.NameAbbreviations]),
  (0xE0151, [.NameAbbreviations]),
  (0xE0152, [.NameAbbreviations]),
  (0xE0153, [.NameAbbreviations]),
  (0xE0154, [.NameAbbreviations]),
  (0xE0155, [.NameAbbreviations]),
  (0xE0156, [.NameAbbreviations]),
  (0xE0157, [.NameAbbreviations]),
  (0xE0158, [.NameAbbreviations]),
  (0xE0159, [.NameAbbreviations]),
  (0xE015A, [.NameAbbreviations]),
  (0xE015B, [.NameAbbreviations]),
  (0xE015C, [.NameAbbreviations]),
  (0xE015D, [.NameAbbreviations]),
  (0xE015E, [.NameAbbreviations]),
  (0xE015F, [.NameAbbreviations]),
  (0xE0160, [.NameAbbreviations]),
  (0xE0161, [.NameAbbreviations]),
  (0xE0162, [.NameAbbreviations]),
  (0xE0163, [.NameAbbreviations]),
  (0xE0164, [.NameAbbreviations]),
  (0xE0165, [.NameAbbreviations]),
  (0xE0166, [.NameAbbreviations]),
  (0xE0167, [.NameAbbreviations]),
  (0xE0168, [.NameAbbreviations]),
  (0xE0169, [.NameAbbreviations]),
  (0xE016A, [.NameAbbreviations]),
  (0xE016B, [.NameAbbreviations]),
  (0xE016C, [.NameAbbreviations]),
  (0xE016D, [.NameAbbreviations]),
  (0xE016E, [.NameAbbreviations]),
  (0xE016F, [.NameAbbreviations]),
  (0xE0170, [.NameAbbreviations]),
  (0xE0171, [.NameAbbreviations]),
  (0xE0172, [.NameAbbreviations]),
  (0xE0173, [.NameAbbreviations]),
  (0xE0174, [.NameAbbreviations]),
  (0xE0175, [.NameAbbreviations]),
  (0xE0176, [.NameAbbreviations]),
  (0xE0177, [.NameAbbreviations]),
  (0xE0178, [.NameAbbreviations]),
  (0xE0179, [.NameAbbreviations]),
  (0xE017A, [.NameAbbreviations]),
  (0xE017B, [.NameAbbreviations])]
def nameAliasTypes_4 : List (Nat × List NameAliasType) := [
  (0xE017C, [.NameAbbreviations]),
  (0xE017D, [.NameAbbreviations]),
  (0xE017E, [.NameAbbreviations]),
  (0xE017F, [.NameAbbreviations]),
  (0xE0180, [.NameAbbreviations]),
  (0xE0181, [.NameAbbreviations]),
  (0xE0182, [.NameAbbreviations]),
  (0xE0183, [.NameAbbreviations]),
  (0xE0184, [.NameAbbreviations]),
  (0xE0185, [.NameAbbreviations]),
  (0xE0186, [.NameAbbreviations]),
  (0xE0187, [.NameAbbreviations]),
  (0xE0188, [.NameAbbreviations]),
  (0xE0189, [.NameAbbreviations]),
  (0xE018A, [.NameAbbreviations]),
  (0xE018B, [.NameAbbreviations]),
  (0xE018C, [.NameAbbreviations]),
  (0xE018D, [.NameAbbreviations]),
  (0xE018E, [.NameAbbreviations]),
  (0xE018F, [.NameAbbreviations]),
  (0xE0190, [.NameAbbreviations]),
  (0xE0191, [.NameAbbreviations]),
  (0xE0192, [.NameAbbreviations]),
  (0xE0193, [.NameAbbreviations]),
  (0xE0194, [.NameAbbreviations]),
  (0xE0195, [.NameAbbreviations]),
  (0xE0196, [.NameAbbreviations]),
  (0xE0197, [.NameAbbreviations]),
  (0xE0198, [.NameAbbreviations]),
  (0xE0199, [.NameAbbreviations]),
  (0xE019A, [.NameAbbreviations]),
  (0xE019B, [.NameAbbreviations]),
  (0xE019C, [.NameAbbreviations]),
  (0xE019D, [.NameAbbreviations]),
  (0xE019E, [.NameAbbreviations]),
  (0xE019F, [.NameAbbreviations]),
  (0xE01A0, [.NameAbbreviations]),
  (0xE01A1, [.NameAbbreviations]),
  (0xE01A2, [.NameAbbreviations]),
  (0xE01A3, [.NameAbbreviations]),
  (0xE01A4, [.NameAbbreviations]),
  (0xE01A5, [.NameAbbreviations]),
  (0xE01A6, [.NameAbbreviations]),
  (0xE01A7, [.NameAbbreviations]),
  (0xE01A8, [.NameAbbreviations]),
  (0xE01A9, [.NameAbbreviations]),
  (0xE01AA, [.NameAbbreviations]),
  (0xE01AB, [.NameAbbreviations]),
  (0xE01AC, [.NameAbbreviations]),
  (0xE01AD, [.NameAbbreviations]),
  (0xE01AE, [.NameAbbreviations]),
  (0xE01AF, [.NameAbbreviations]),
  (0xE01B0, [.NameAbbreviations]),
  (0xE01B1, [.NameAbbreviations]),
  (0xE01B2, [.NameAbbreviations]),
  (0xE01B3, [.NameAbbreviations]),
  (0xE01B4, [.NameAbbreviations]),
  (0xE01B5, [.NameAbbreviations]),
  (0xE01B6, [.NameAbbreviations]),
  (0xE01B7, [.NameAbbreviations]),
  (0xE01B8, [.NameAbbreviations]),
  (0xE01B9, [.NameAbbreviations]),
  (0xE01BA, [.NameAbbreviations]),
  (0xE01BB, [.NameAbbreviations])]
def nameAliasTypes_5 : List (Nat × List NameAliasType) := [
  (0xE01BC, [.NameAbbreviations]),
  (0xE01BD, [.NameAbbreviations]),
  (0xE01BE, [.NameAbbreviations]),
  (0xE01BF, [.NameAbbreviations]),
  (0xE01C0, [.NameAbbreviations]),
  (0xE01C1, [.NameAbbreviations]),
  (0xE01C2, [.NameAbbreviations]),
  (0xE01C3, [.NameAbbreviations]),
  (0xE01C4, [.NameAbbreviations]),
  (0xE01C5, [.NameAbbreviations]),
  (0xE01C6, [.NameAbbreviations]),
  (0xE01C7, [.NameAbbreviations]),
  (0xE01C8, [.NameAbbreviations]),
  (0xE01C9, [.NameAbbreviations]),
  (0xE01CA, [.NameAbbreviations]),
  (0xE01CB, [.NameAbbreviations]),
  (0xE01CC, [.NameAbbreviations]),
  (0xE01CD, [.NameAbbreviations]),
  (0xE01CE, [.NameAbbreviations]),
  (0xE01CF, [.NameAbbreviations]),
  (0xE01D0, [.NameAbbreviations]),
  (0xE01D1, [.NameAbbreviations]),
  (0xE01D2, [.NameAbbreviations]),
  (0xE01D3, [.NameAbbreviations]),
  (0xE01D4, [.NameAbbreviations]),
  (0xE01D5, [.NameAbbreviations]),
  (0xE01D6, [.NameAbbreviations]),
  (0xE01D7, [.NameAbbreviations]),
  (0xE01D8, [.NameAbbreviations]),
  (0xE01D9, [.NameAbbreviations]),
  (0xE01DA, [.NameAbbreviations]),
  (0xE01DB, [.NameAbbreviations]),
  (0xE01DC, [.NameAbbreviations]),
  (0xE01DD, [.NameAbbreviations]),
  (0xE01DE, [.NameAbbreviations]),
  (0xE01DF, [.NameAbbreviations]),
  (0xE01E0, [.NameAbbreviations]),
  (0xE01E1, [.NameAbbreviations]),
  (0xE01E2, [.NameAbbreviations]),
  (0xE01E3, [.NameAbbreviations]),
  (0xE01E4, [.NameAbbreviations]),
  (0xE01E5, [.NameAbbreviations]),
  (0xE01E6, [.NameAbbreviations]),
  (0xE01E7, [.NameAbbreviations]),
  (0xE01E8, [.NameAbbreviations]),
  (0xE01E9, [.NameAbbreviations]),
  (0xE01EA, [.NameAbbreviations]),
  (0xE01EB, [.NameAbbreviations]),
  (0xE01EC, [.NameAbbreviations]),
  (0xE01ED, [.NameAbbreviations]),
  (0xE01EE, [.NameAbbreviations]),
  (0xE01EF, [.NameAbbreviations])]
/-- unic/ucd/name_aliases/tables/name_alias_types.rsv (all 372 entries, `CharDataTable::Direct`), in chunks of 64. -/
def nameAliasTypes : List (List (Nat × List NameAliasType)) := [nameAliasTypes_0, nameAliasTypes_1, nameAliasTypes_2, nameAliasTypes_3, nameAliasTypes_4, nameAliasTypes_5]

end Data
