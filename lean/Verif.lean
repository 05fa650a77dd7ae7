import Verif.Props.CharRange
import Verif.Props.Tables
import Verif.Props.Shipped
import Verif.Props.Derived
import Verif.Props.Blocks
import Verif.Props.Hangul
import Verif.Props.Property
import Verif.Props.Level
import Verif.Props.Version
import Verif.Props.Direction
import Verif.Props.Cli
import Verif.Props.Normal
import Verif.Props.Punycode
import Verif.Props.Idna
import Verif.Props.IdnaSpelling
import Verif.Props.Grapheme
import Verif.Props.GraphemeChunk
import Verif.Props.GraphemeAsk
import Verif.Props.DecompositionType
import Verif.Props.Word
import Verif.Props.PunycodeRfc
import Verif.Props.Bidi
import Verif.Props.BidiImplicit
import Verif.Props.BidiLine
import Verif.Props.BidiLtr
import Verif.Props.Name
import Verif.Props.Gen
import Verif.Props.ParIter
import Verif.Props.Relations
import Verif.Props.WordGrapheme
import Verif.Props.BidiPerChar
import Verif.Props.GenFiles
import Verif.Props.GenUcd
import Verif.Props.BidiDefaults
import Verif.Props.SegmentNormal
import Verif.Props.WordNormal
import Verif.Props.Echo
import Verif.Props.Inspector
import Verif.Props.GenTests
import Verif.Props.SegmentConcat
import Verif.Props.BidiConcat
import Verif.Props.BidiEquiv
import Verif.Props.BidiRtl
import Verif.Props.IdnaErrors
import Verif.Props.NormalText
import Verif.Props.NormalStream
import Verif.Props.NormalReads
import Verif.Props.NameAscii
import Verif.Props.Identifier
import Verif.Props.BidiShape
import Verif.Props.SegmentShape
import Verif.Props.BidiIsolate
import Verif.Props.IdnaLabels
import Verif.Props.IdnaInjective
import Verif.Props.RelationsMore
