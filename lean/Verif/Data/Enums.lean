/-! Generated by tools/gen_tables.py from the `char_property!` enums. -/
namespace Data

/-- unic/ucd/category/src/category.rs L20-236 -/
inductive GeneralCategory where
  | UppercaseLetter
  | LowercaseLetter
  | TitlecaseLetter
  | ModifierLetter
  | OtherLetter
  | NonspacingMark
  | SpacingMark
  | EnclosingMark
  | DecimalNumber
  | LetterNumber
  | OtherNumber
  | ConnectorPunctuation
  | DashPunctuation
  | OpenPunctuation
  | ClosePunctuation
  | InitialPunctuation
  | FinalPunctuation
  | OtherPunctuation
  | MathSymbol
  | CurrencySymbol
  | ModifierSymbol
  | OtherSymbol
  | SpaceSeparator
  | LineSeparator
  | ParagraphSeparator
  | Control
  | Format
  | Surrogate
  | PrivateUse
  | Unassigned
deriving DecidableEq, Repr

namespace GeneralCategory
/-- `EnumeratedCharProperty::all_values`, unic/ucd/category/src/category.rs L20-236 -/
def allValues : List GeneralCategory := [.UppercaseLetter, .LowercaseLetter, .TitlecaseLetter, .ModifierLetter, .OtherLetter, .NonspacingMark, .SpacingMark, .EnclosingMark, .DecimalNumber, .LetterNumber, .OtherNumber, .ConnectorPunctuation, .DashPunctuation, .OpenPunctuation, .ClosePunctuation, .InitialPunctuation, .FinalPunctuation, .OtherPunctuation, .MathSymbol, .CurrencySymbol, .ModifierSymbol, .OtherSymbol, .SpaceSeparator, .LineSeparator, .ParagraphSeparator, .Control, .Format, .Surrogate, .PrivateUse, .Unassigned]
/-- abbrName of each value, unic/ucd/category/src/category.rs L20-236 -/
def abbrName : GeneralCategory → String
  | .UppercaseLetter => "Lu"
  | .LowercaseLetter => "Ll"
  | .TitlecaseLetter => "Lt"
  | .ModifierLetter => "Lm"
  | .OtherLetter => "Lo"
  | .NonspacingMark => "Mn"
  | .SpacingMark => "Mc"
  | .EnclosingMark => "Me"
  | .DecimalNumber => "Nd"
  | .LetterNumber => "Nl"
  | .OtherNumber => "No"
  | .ConnectorPunctuation => "Pc"
  | .DashPunctuation => "Pd"
  | .OpenPunctuation => "Ps"
  | .ClosePunctuation => "Pe"
  | .InitialPunctuation => "Pi"
  | .FinalPunctuation => "Pf"
  | .OtherPunctuation => "Po"
  | .MathSymbol => "Sm"
  | .CurrencySymbol => "Sc"
  | .ModifierSymbol => "Sk"
  | .OtherSymbol => "So"
  | .SpaceSeparator => "Zs"
  | .LineSeparator => "Zl"
  | .ParagraphSeparator => "Zp"
  | .Control => "Cc"
  | .Format => "Cf"
  | .Surrogate => "Cs"
  | .PrivateUse => "Co"
  | .Unassigned => "Cn"
/-- longName of each value, unic/ucd/category/src/category.rs L20-236 -/
def longName : GeneralCategory → String
  | .UppercaseLetter => "Uppercase_Letter"
  | .LowercaseLetter => "Lowercase_Letter"
  | .TitlecaseLetter => "Titlecase_Letter"
  | .ModifierLetter => "Modifier_Letter"
  | .OtherLetter => "Other_Letter"
  | .NonspacingMark => "Nonspacing_Mark"
  | .SpacingMark => "Spacing_Mark"
  | .EnclosingMark => "Enclosing_Mark"
  | .DecimalNumber => "Decimal_Number"
  | .LetterNumber => "Letter_Number"
  | .OtherNumber => "Other_Number"
  | .ConnectorPunctuation => "Connector_Punctuation"
  | .DashPunctuation => "Dash_Punctuation"
  | .OpenPunctuation => "Open_Punctuation"
  | .ClosePunctuation => "Close_Punctuation"
  | .InitialPunctuation => "Initial_Punctuation"
  | .FinalPunctuation => "Final_Punctuation"
  | .OtherPunctuation => "Other_Punctuation"
  | .MathSymbol => "Math_Symbol"
  | .CurrencySymbol => "Currency_Symbol"
  | .ModifierSymbol => "Modifier_Symbol"
  | .OtherSymbol => "Other_Symbol"
  | .SpaceSeparator => "Space_Separator"
  | .LineSeparator => "Line_Separator"
  | .ParagraphSeparator => "Paragraph_Separator"
  | .Control => "Control"
  | .Format => "Format"
  | .Surrogate => "Surrogate"
  | .PrivateUse => "Private_Use"
  | .Unassigned => "Unassigned"
/-- humanName of each value, unic/ucd/category/src/category.rs L20-236 -/
def humanName : GeneralCategory → String
  | .UppercaseLetter => "Uppercase Letter"
  | .LowercaseLetter => "Lowercase Letter"
  | .TitlecaseLetter => "Titlecase Letter"
  | .ModifierLetter => "Modifier Letter"
  | .OtherLetter => "Other Letter"
  | .NonspacingMark => "Nonspacing Mark"
  | .SpacingMark => "Spacing Mark"
  | .EnclosingMark => "Enclosing Mark"
  | .DecimalNumber => "Decimal Digit"
  | .LetterNumber => "Letterlike Number"
  | .OtherNumber => "Other Numeric"
  | .ConnectorPunctuation => "Connecting Punctuation"
  | .DashPunctuation => "Dash Punctuation"
  | .OpenPunctuation => "Opening Punctuation"
  | .ClosePunctuation => "Closing Punctuation"
  | .InitialPunctuation => "Initial Quotation"
  | .FinalPunctuation => "Final Quotation"
  | .OtherPunctuation => "Other Punctuation"
  | .MathSymbol => "Math Symbol"
  | .CurrencySymbol => "Currency Symbol"
  | .ModifierSymbol => "Modifier Symbol"
  | .OtherSymbol => "Other Symbol"
  | .SpaceSeparator => "Space"
  | .LineSeparator => "Line Separator"
  | .ParagraphSeparator => "Paragraph Separator"
  | .Control => "Control"
  | .Format => "Formatting"
  | .Surrogate => "Surrogate"
  | .PrivateUse => "Private-Use"
  | .Unassigned => "Unassigned"
end GeneralCategory

/-- unic/ucd/bidi/src/bidi_class.rs L23-197 -/
inductive BidiClass where
  | ArabicLetter
  | ArabicNumber
  | ParagraphSeparator
  | BoundaryNeutral
  | CommonSeparator
  | EuropeanNumber
  | EuropeanSeparator
  | EuropeanTerminator
  | FirstStrongIsolate
  | LeftToRight
  | LeftToRightEmbedding
  | LeftToRightIsolate
  | LeftToRightOverride
  | NonspacingMark
  | OtherNeutral
  | PopDirectionalFormat
  | PopDirectionalIsolate
  | RightToLeft
  | RightToLeftEmbedding
  | RightToLeftIsolate
  | RightToLeftOverride
  | SegmentSeparator
  | WhiteSpace
deriving DecidableEq, Repr

namespace BidiClass
/-- `EnumeratedCharProperty::all_values`, unic/ucd/bidi/src/bidi_class.rs L23-197 -/
def allValues : List BidiClass := [.ArabicLetter, .ArabicNumber, .ParagraphSeparator, .BoundaryNeutral, .CommonSeparator, .EuropeanNumber, .EuropeanSeparator, .EuropeanTerminator, .FirstStrongIsolate, .LeftToRight, .LeftToRightEmbedding, .LeftToRightIsolate, .LeftToRightOverride, .NonspacingMark, .OtherNeutral, .PopDirectionalFormat, .PopDirectionalIsolate, .RightToLeft, .RightToLeftEmbedding, .RightToLeftIsolate, .RightToLeftOverride, .SegmentSeparator, .WhiteSpace]
/-- abbrName of each value, unic/ucd/bidi/src/bidi_class.rs L23-197 -/
def abbrName : BidiClass → String
  | .ArabicLetter => "AL"
  | .ArabicNumber => "AN"
  | .ParagraphSeparator => "B"
  | .BoundaryNeutral => "BN"
  | .CommonSeparator => "CS"
  | .EuropeanNumber => "EN"
  | .EuropeanSeparator => "ES"
  | .EuropeanTerminator => "ET"
  | .FirstStrongIsolate => "FSI"
  | .LeftToRight => "L"
  | .LeftToRightEmbedding => "LRE"
  | .LeftToRightIsolate => "LRI"
  | .LeftToRightOverride => "LRO"
  | .NonspacingMark => "NSM"
  | .OtherNeutral => "ON"
  | .PopDirectionalFormat => "PDF"
  | .PopDirectionalIsolate => "PDI"
  | .RightToLeft => "R"
  | .RightToLeftEmbedding => "RLE"
  | .RightToLeftIsolate => "RLI"
  | .RightToLeftOverride => "RLO"
  | .SegmentSeparator => "S"
  | .WhiteSpace => "WS"
/-- longName of each value, unic/ucd/bidi/src/bidi_class.rs L23-197 -/
def longName : BidiClass → String
  | .ArabicLetter => "Arabic_Letter"
  | .ArabicNumber => "Arabic_Number"
  | .ParagraphSeparator => "Paragraph_Separator"
  | .BoundaryNeutral => "Boundary_Neutral"
  | .CommonSeparator => "Common_Separator"
  | .EuropeanNumber => "European_Number"
  | .EuropeanSeparator => "European_Separator"
  | .EuropeanTerminator => "European_Terminator"
  | .FirstStrongIsolate => "First_Strong_Isolate"
  | .LeftToRight => "Left_To_Right"
  | .LeftToRightEmbedding => "Left_To_Right_Embedding"
  | .LeftToRightIsolate => "Left_To_Right_Isolate"
  | .LeftToRightOverride => "Left_To_Right_Override"
  | .NonspacingMark => "Nonspacing_Mark"
  | .OtherNeutral => "Other_Neutral"
  | .PopDirectionalFormat => "Pop_Directional_Format"
  | .PopDirectionalIsolate => "Pop_Directional_Isolate"
  | .RightToLeft => "Right_To_Left"
  | .RightToLeftEmbedding => "Right_To_Left_Embedding"
  | .RightToLeftIsolate => "Right_To_Left_Isolate"
  | .RightToLeftOverride => "Right_To_Left_Override"
  | .SegmentSeparator => "Segment_Separator"
  | .WhiteSpace => "White_Space"
/-- humanName of each value, unic/ucd/bidi/src/bidi_class.rs L23-197 -/
def humanName : BidiClass → String
  | .ArabicLetter => "Right-to-Left Arabic"
  | .ArabicNumber => "Arabic Number"
  | .ParagraphSeparator => "Paragraph Separator"
  | .BoundaryNeutral => "Neutral Boundary"
  | .CommonSeparator => "Common Number Separator"
  | .EuropeanNumber => "European Number"
  | .EuropeanSeparator => "European Number Separator"
  | .EuropeanTerminator => "European Number Terminator"
  | .FirstStrongIsolate => "First Strong Isolate"
  | .LeftToRight => "Left-to-Right"
  | .LeftToRightEmbedding => "Left-to-Right Embedding"
  | .LeftToRightIsolate => "Left-to-Right Isolate"
  | .LeftToRightOverride => "LeftToRightOverride"
  | .NonspacingMark => "Nonspacing Mark"
  | .OtherNeutral => "OtherNeutral"
  | .PopDirectionalFormat => "Pop Directional Format"
  | .PopDirectionalIsolate => "PopDirectionalIsolate"
  | .RightToLeft => "Right-to-Left"
  | .RightToLeftEmbedding => "Right-to-Left Embedding"
  | .RightToLeftIsolate => "Right-to-Left Isolate"
  | .RightToLeftOverride => "Right-to-Left Override"
  | .SegmentSeparator => "Segment Separator"
  | .WhiteSpace => "Whitespace"
end BidiClass

/-- unic/ucd/segment/src/grapheme_cluster_break.rs L31-311 -/
inductive GraphemeClusterBreak where
  | CR
  | LF
  | Control
  | Extend
  | ZWJ
  | RegionalIndicator
  | Prepend
  | SpacingMark
  | L
  | V
  | T
  | LV
  | LVT
  | EBase
  | EModifier
  | GlueAfterZwj
  | EBaseGAZ
  | Other
deriving DecidableEq, Repr

namespace GraphemeClusterBreak
/-- `EnumeratedCharProperty::all_values`, unic/ucd/segment/src/grapheme_cluster_break.rs L31-311 -/
def allValues : List GraphemeClusterBreak := [.CR, .LF, .Control, .Extend, .ZWJ, .RegionalIndicator, .Prepend, .SpacingMark, .L, .V, .T, .LV, .LVT, .EBase, .EModifier, .GlueAfterZwj, .EBaseGAZ, .Other]
/-- abbrName of each value, unic/ucd/segment/src/grapheme_cluster_break.rs L31-311 -/
def abbrName : GraphemeClusterBreak → String
  | .CR => "CR"
  | .LF => "LF"
  | .Control => "CN"
  | .Extend => "EX"
  | .ZWJ => "ZWJ"
  | .RegionalIndicator => "RI"
  | .Prepend => "PP"
  | .SpacingMark => "SM"
  | .L => "L"
  | .V => "V"
  | .T => "T"
  | .LV => "LV"
  | .LVT => "LVT"
  | .EBase => "EB"
  | .EModifier => "EM"
  | .GlueAfterZwj => "GAZ"
  | .EBaseGAZ => "EBG"
  | .Other => "XX"
/-- longName of each value, unic/ucd/segment/src/grapheme_cluster_break.rs L31-311 -/
def longName : GraphemeClusterBreak → String
  | .CR => "CR"
  | .LF => "LF"
  | .Control => "Control"
  | .Extend => "Extend"
  | .ZWJ => "ZWJ"
  | .RegionalIndicator => "Regional_Indicator"
  | .Prepend => "Prepend"
  | .SpacingMark => "SpacingMark"
  | .L => "L"
  | .V => "V"
  | .T => "T"
  | .LV => "LV"
  | .LVT => "LVT"
  | .EBase => "E_Base"
  | .EModifier => "E_Modifier"
  | .GlueAfterZwj => "Glue_After_Zwj"
  | .EBaseGAZ => "E_Base_GAZ"
  | .Other => "Other"
/-- humanName of each value, unic/ucd/segment/src/grapheme_cluster_break.rs L31-311 -/
def humanName : GraphemeClusterBreak → String
  | .CR => "Carriage Return"
  | .LF => "Line Feed"
  | .Control => "Control"
  | .Extend => "Extend"
  | .ZWJ => "Zero Width Joiner (ZWJ)"
  | .RegionalIndicator => "Regional Indicator"
  | .Prepend => "Prepend"
  | .SpacingMark => "Spacing Mark"
  | .L => "Hangul Syllable Type L"
  | .V => "Hangul Syllable Type V"
  | .T => "Hangul Syllable Type T"
  | .LV => "Hangul Syllable Type LV"
  | .LVT => "Hangul Syllable Type LVT"
  | .EBase => "Emoji Base"
  | .EModifier => "Emoji Modifier"
  | .GlueAfterZwj => "Glue After ZWJ"
  | .EBaseGAZ => "Emoji Base and Glue After ZWJ"
  | .Other => "Other"
end GraphemeClusterBreak

/-- unic/ucd/segment/src/word_break.rs L31-319 -/
inductive WordBreak where
  | CR
  | LF
  | Newline
  | Extend
  | ZWJ
  | RegionalIndicator
  | Format
  | Katakana
  | HebrewLetter
  | ALetter
  | SingleQuote
  | DoubleQuote
  | MidNumLet
  | MidLetter
  | MidNum
  | Numeric
  | ExtendNumLet
  | EBase
  | EModifier
  | GlueAfterZwj
  | EBaseGAZ
  | Other
deriving DecidableEq, Repr

namespace WordBreak
/-- `EnumeratedCharProperty::all_values`, unic/ucd/segment/src/word_break.rs L31-319 -/
def allValues : List WordBreak := [.CR, .LF, .Newline, .Extend, .ZWJ, .RegionalIndicator, .Format, .Katakana, .HebrewLetter, .ALetter, .SingleQuote, .DoubleQuote, .MidNumLet, .MidLetter, .MidNum, .Numeric, .ExtendNumLet, .EBase, .EModifier, .GlueAfterZwj, .EBaseGAZ, .Other]
/-- abbrName of each value, unic/ucd/segment/src/word_break.rs L31-319 -/
def abbrName : WordBreak → String
  | .CR => "CR"
  | .LF => "LF"
  | .Newline => "NL"
  | .Extend => "Extend"
  | .ZWJ => "ZWJ"
  | .RegionalIndicator => "RI"
  | .Format => "FO"
  | .Katakana => "KA"
  | .HebrewLetter => "HL"
  | .ALetter => "LE"
  | .SingleQuote => "SQ"
  | .DoubleQuote => "DQ"
  | .MidNumLet => "MB"
  | .MidLetter => "ML"
  | .MidNum => "MN"
  | .Numeric => "NU"
  | .ExtendNumLet => "EX"
  | .EBase => "EB"
  | .EModifier => "EM"
  | .GlueAfterZwj => "GAZ"
  | .EBaseGAZ => "EBG"
  | .Other => "XX"
/-- longName of each value, unic/ucd/segment/src/word_break.rs L31-319 -/
def longName : WordBreak → String
  | .CR => "CR"
  | .LF => "LF"
  | .Newline => "Newline"
  | .Extend => "Extend"
  | .ZWJ => "ZWJ"
  | .RegionalIndicator => "Regional_Indicator"
  | .Format => "Format"
  | .Katakana => "Katakana"
  | .HebrewLetter => "Hebrew_Letter"
  | .ALetter => "ALetter"
  | .SingleQuote => "Single_Quote"
  | .DoubleQuote => "Double_Quote"
  | .MidNumLet => "MidNumLet"
  | .MidLetter => "MidLetter"
  | .MidNum => "MidNum"
  | .Numeric => "Numeric"
  | .ExtendNumLet => "ExtendNumLet"
  | .EBase => "E_Base"
  | .EModifier => "E_Modifier"
  | .GlueAfterZwj => "Glue_After_Zwj"
  | .EBaseGAZ => "E_Base_GAZ"
  | .Other => "Other"
/-- humanName of each value, unic/ucd/segment/src/word_break.rs L31-319 -/
def humanName : WordBreak → String
  | .CR => "Carriage Return"
  | .LF => "Line Feed"
  | .Newline => "Newline"
  | .Extend => "Extend"
  | .ZWJ => "Zero Width Joiner (ZWJ)"
  | .RegionalIndicator => "Regional Indicator"
  | .Format => "Format"
  | .Katakana => "Katakana"
  | .HebrewLetter => "Hebrew Letter"
  | .ALetter => "Alphabetic Letter"
  | .SingleQuote => "Single Quote"
  | .DoubleQuote => "Double Quote"
  | .MidNumLet => "Middle of Numeric/Letter"
  | .MidLetter => "Middle of Letter"
  | .MidNum => "Middle of Numeric"
  | .Numeric => "Numeric"
  | .ExtendNumLet => "Extend Numeric/Letter"
  | .EBase => "Emoji Base"
  | .EModifier => "Emoji Modifier"
  | .GlueAfterZwj => "Glue After ZWJ"
  | .EBaseGAZ => "Emoji Base and Glue After ZWJ"
  | .Other => "Other"
end WordBreak

/-- unic/ucd/segment/src/sentence_break.rs L31-226 -/
inductive SentenceBreak where
  | CR
  | LF
  | Extend
  | Sep
  | Format
  | Sp
  | Lower
  | Upper
  | OLetter
  | Numeric
  | ATerm
  | SContinue
  | STerm
  | Close
  | Other
deriving DecidableEq, Repr

namespace SentenceBreak
/-- `EnumeratedCharProperty::all_values`, unic/ucd/segment/src/sentence_break.rs L31-226 -/
def allValues : List SentenceBreak := [.CR, .LF, .Extend, .Sep, .Format, .Sp, .Lower, .Upper, .OLetter, .Numeric, .ATerm, .SContinue, .STerm, .Close, .Other]
/-- abbrName of each value, unic/ucd/segment/src/sentence_break.rs L31-226 -/
def abbrName : SentenceBreak → String
  | .CR => "CR"
  | .LF => "LF"
  | .Extend => "Extend"
  | .Sep => "SE"
  | .Format => "FO"
  | .Sp => "SP"
  | .Lower => "LO"
  | .Upper => "UP"
  | .OLetter => "LE"
  | .Numeric => "NU"
  | .ATerm => "AT"
  | .SContinue => "SC"
  | .STerm => "ST"
  | .Close => "CL"
  | .Other => "XX"
/-- longName of each value, unic/ucd/segment/src/sentence_break.rs L31-226 -/
def longName : SentenceBreak → String
  | .CR => "CR"
  | .LF => "LF"
  | .Extend => "Extend"
  | .Sep => "Sep"
  | .Format => "Format"
  | .Sp => "Sp"
  | .Lower => "Lower"
  | .Upper => "Upper"
  | .OLetter => "OLetter"
  | .Numeric => "Numeric"
  | .ATerm => "ATerm"
  | .SContinue => "SContinue"
  | .STerm => "STerm"
  | .Close => "Close"
  | .Other => "Other"
/-- humanName of each value, unic/ucd/segment/src/sentence_break.rs L31-226 -/
def humanName : SentenceBreak → String
  | .CR => "Carriage Return"
  | .LF => "Line Feed"
  | .Extend => "Extend"
  | .Sep => "Separator"
  | .Format => "Format"
  | .Sp => "Space"
  | .Lower => "Lowercase"
  | .Upper => "Uppercase"
  | .OLetter => "Other Letter"
  | .Numeric => "Numeric"
  | .ATerm => "ATerm"
  | .SContinue => "Sentence Continue"
  | .STerm => "Sentence Terminal"
  | .Close => "Close"
  | .Other => "Other"
end SentenceBreak

/-- unic/ucd/normal/src/decomposition_type.rs L24-150 -/
inductive DecompositionType where
  | Canonical
  | Compat
  | Circle
  | Final
  | Font
  | Fraction
  | Initial
  | Isolated
  | Medial
  | Narrow
  | NoBreak
  | Small
  | Square
  | Sub
  | Super
  | Vertical
  | Wide
deriving DecidableEq, Repr

namespace DecompositionType
/-- `EnumeratedCharProperty::all_values`, unic/ucd/normal/src/decomposition_type.rs L24-150 -/
def allValues : List DecompositionType := [.Canonical, .Compat, .Circle, .Final, .Font, .Fraction, .Initial, .Isolated, .Medial, .Narrow, .NoBreak, .Small, .Square, .Sub, .Super, .Vertical, .Wide]
/-- abbrName of each value, unic/ucd/normal/src/decomposition_type.rs L24-150 -/
def abbrName : DecompositionType → String
  | .Canonical => "Can"
  | .Compat => "Com"
  | .Circle => "Enc"
  | .Final => "Fin"
  | .Font => "Font"
  | .Fraction => "Fra"
  | .Initial => "Init"
  | .Isolated => "Iso"
  | .Medial => "Med"
  | .Narrow => "Nar"
  | .NoBreak => "Nb"
  | .Small => "Sml"
  | .Square => "Sqr"
  | .Sub => "Sub"
  | .Super => "Sup"
  | .Vertical => "Vert"
  | .Wide => "Wide"
/-- longName of each value, unic/ucd/normal/src/decomposition_type.rs L24-150 -/
def longName : DecompositionType → String
  | .Canonical => "Canonical"
  | .Compat => "Compat"
  | .Circle => "Circle"
  | .Final => "Final"
  | .Font => "Font"
  | .Fraction => "Fraction"
  | .Initial => "Initial"
  | .Isolated => "Isolated"
  | .Medial => "Medial"
  | .Narrow => "Narrow"
  | .NoBreak => "Nobreak"
  | .Small => "Small"
  | .Square => "Square"
  | .Sub => "Sub"
  | .Super => "Super"
  | .Vertical => "Vertical"
  | .Wide => "Wide"
/-- humanName of each value, unic/ucd/normal/src/decomposition_type.rs L24-150 -/
def humanName : DecompositionType → String
  | .Canonical => "Canonical"
  | .Compat => "Unspecified"
  | .Circle => "Encircled"
  | .Final => "Arabic Final"
  | .Font => "Font Variant"
  | .Fraction => "Vulgar Fraction"
  | .Initial => "Arabic Initial"
  | .Isolated => "Arabic Isolated"
  | .Medial => "Arabic Medial"
  | .Narrow => "Narrow"
  | .NoBreak => "No-Break"
  | .Small => "Small"
  | .Square => "CJK Squared"
  | .Sub => "Subscript"
  | .Super => "Superscript"
  | .Vertical => "Vertical Layout"
  | .Wide => "Wide"
end DecompositionType

end Data
