import Verif.Model.GenSource

/-! # Model of the parsers and writers of versions, `gen/src/source/common/unicode_version.rs`, `gen/src/source/emoji/readme.rs`

`nd` says which characters beyond ASCII the crate `regex` takes for digits (`\d`). -/
namespace Model.GenVersion
open Model Model.Regex Model.GenSource

/-- `(\d+)`, the group number `i` -/
def digits (nd : Nat → Bool) (i : Nat) : Re := .cap i (plus (.cls fun c => digit c || (127 < c && nd c)))

/-- `Regex::captures` of the crate: the first match -/
def captures (r : Re) (s : List Nat) : Option Caps := (capturesIter r s).head?

/-- gen/src/source/common/unicode_version.rs L26 (`REGEX`) -/
def versionRe (nd : Nat → Bool) : Re := .seq (lit "for Version ") (cat [digits nd 1, dot, digits nd 2, dot, digits nd 3])

/-- gen/src/source/common/unicode_version.rs L24-37 (`from_str`), gen/src/source/ucd/readme.rs L14-20, gen/src/source/idna/readme.rs L14-20: `.panic` also where `unwrap` meets
`Err(())`; gen/src/writer/common/mod.rs L17-26 (`emit_unicode_version`) -/
def unicodeVersion (nd : Nat → Bool) (file : List Nat) : Outcome (List Nat) := do
  let c ← unwrap (captures (versionRe nd) file)
  let major ← (group c 1).bind fun t => unwrap (parseDec 0xFFFF t)
  let minor ← (group c 2).bind fun t => unwrap (parseDec 0xFFFF t)
  let micro ← (group c 3).bind fun t => unwrap (parseDec 0xFFFF t)
  return versionText major minor micro

/-- gen/src/source/emoji/readme.rs L36 (`REGEX`) -/
def emojiVersionRe (nd : Nat → Bool) : Re := .seq (lit "Unicode Emoji, Version ") (cat [digits nd 1, dot, digits nd 2])

/-- gen/src/source/emoji/readme.rs L23-48, gen/src/writer/emoji/char.rs L28-37 (`emit_emoji_data_version`) -/
def emojiVersion (nd : Nat → Bool) (file : List Nat) : Outcome (List Nat) := do
  let c ← unwrap (captures (emojiVersionRe nd) file)
  let major ← (group c 1).bind fun t => unwrap (parseDec 0xFF t)
  let minor ← (group c 2).bind fun t => unwrap (parseDec 0xFF t)
  return versionText major minor 0

end Model.GenVersion
