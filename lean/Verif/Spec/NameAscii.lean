/-! # Specification: the names of the printable ASCII characters (UnicodeData.txt) -/
namespace Spec.Name

/-- The names of `A`, `B`, ... as words -/
def alphabet : List String := "ABCDEFGHIJKLMNOPQRSTUVWXYZ".toList.map fun c => String.ofList [c]

/-- The names of U+0020 to U+007E -/
def asciiNames : List String :=
  ["SPACE", "EXCLAMATION MARK", "QUOTATION MARK", "NUMBER SIGN", "DOLLAR SIGN", "PERCENT SIGN", "AMPERSAND", "APOSTROPHE", "LEFT PARENTHESIS",
   "RIGHT PARENTHESIS", "ASTERISK", "PLUS SIGN", "COMMA", "HYPHEN-MINUS", "FULL STOP", "SOLIDUS"] ++
  (["ZERO", "ONE", "TWO", "THREE", "FOUR", "FIVE", "SIX", "SEVEN", "EIGHT", "NINE"].map fun s => "DIGIT " ++ s) ++
  ["COLON", "SEMICOLON", "LESS-THAN SIGN", "EQUALS SIGN", "GREATER-THAN SIGN", "QUESTION MARK", "COMMERCIAL AT"] ++
  (alphabet.map fun s => "LATIN CAPITAL LETTER " ++ s) ++
  ["LEFT SQUARE BRACKET", "REVERSE SOLIDUS", "RIGHT SQUARE BRACKET", "CIRCUMFLEX ACCENT", "LOW LINE", "GRAVE ACCENT"] ++
  (alphabet.map fun s => "LATIN SMALL LETTER " ++ s) ++
  ["LEFT CURLY BRACKET", "VERTICAL LINE", "RIGHT CURLY BRACKET", "TILDE"]

end Spec.Name
