import Verif.Model.Monad
import Verif.Model.LongNames
/-!
Model of read/wl_character.rs and read/character_decoder.rs: reading one Wolfram
character, i.e. a source character or an escape sequence starting with a
backslash.

The parts of the decoder that only report issues (`if session.check_issues ..`
and `check_strange_syntax_issue`) are dropped.  The lookahead of
`CharacterDecoder_handleBackslash` (read/character_decoder.rs:996-1062) ends with
`seek(reset_mark)` and is such a part.
-/
namespace CodeParser

/-- The code point of an ordinary character. -/
@[reducible] def ch (c : Char) : CP := .char c.toNat

/-- `Escape`, read/wl_character.rs:25-38. -/
inductive Escape where
  | none | raw | single | hex2 | hex4 | hex6 | octal | longName
deriving DecidableEq, Repr, Inhabited

/-- `WLCharacter`, read/wl_character.rs:43-57. -/
structure WLC where
  point : CP
  escape : Escape
deriving DecidableEq, Repr, Inhabited

/-! ### Character classes -/

/-- `CodePoint::is_ascii`, read/code_point.rs:133-137. -/
def CP.isAscii : CP → Bool
  | .char n => n ≤ 0x7f
  | _ => false

/-- `WLCharacter::isLetterlike`, read/wl_character.rs:402-426. -/
def CP.isLetterlike : CP → Bool
  | .char n => inR 0x41 0x5a n || inR 0x61 0x7a n || n == 0x24 || inR 0 0x06 n || n == 0x08
      || inR 0x0e 0x1f n
  | _ => false

/-- `isWhitespace`, read/wl_character.rs:448-453, source.rs:1253-1259. -/
def CP.isWhitespace : CP → Bool
  | .char n => n == 0x20 || n == 0x09 || n == 0x0b || n == 0x0c
  | _ => false

/-- `isUpper`, read/wl_character.rs:462-467, source.rs:1225-1231. -/
def CP.isUpper : CP → Bool
  | .char n => inR 0x41 0x5a n
  | _ => false

/-- `isDigit`, read/wl_character.rs:476-481. -/
def CP.isDigit : CP → Bool
  | .char n => inR 0x30 0x39 n
  | _ => false

/-- `WLCharacter::isAlphaOrDigit`, read/wl_character.rs:483-488. -/
def CP.isAlphaOrDigit : CP → Bool
  | .char n => inR 0x41 0x5a n || inR 0x61 0x7a n || inR 0x30 0x39 n
  | _ => false

/-- `SourceCharacter::isAlphaOrDigit`, source.rs:1204-1209: Rust's Unicode-aware
`char::is_alphanumeric`. -/
def CP.isAlphaOrDigitSrc (cfg : Cfg) : CP → Bool
  | .char n => if n ≤ 0x7f then (CP.char n).isAlphaOrDigit else cfg.uniAlnum n
  | _ => false

/-- `isHex`, read/wl_character.rs:490-495, source.rs:1211-1216. -/
def CP.isHex : CP → Bool
  | .char n => inR 0x41 0x46 n || inR 0x61 0x66 n || inR 0x30 0x39 n
  | _ => false

/-- `isOctal`, read/wl_character.rs:497-502, source.rs:1218-1223. -/
def CP.isOctal : CP → Bool
  | .char n => inR 0x30 0x37 n
  | _ => false

/-- `isSign`, read/wl_character.rs:521-526. -/
def CP.isSign : CP → Bool
  | .char n => n == 0x2d || n == 0x2b
  | _ => false

/-- `isMBLinearSyntax`, read/wl_character.rs:532-551; the constants are in
read/code_point.rs:231-244. -/
def CP.isMBLinearSyntax : CP → Bool
  | .char n => inR 0xf7c0 0xf7c2 n || inR 0xf7c5 0xf7cd n
  | .linearSyntaxSpace => true
  | _ => false

/-- `isMBStringMeta`, read/wl_character.rs:553-568. -/
def CP.isMBStringMeta : CP → Bool
  | .metaOpen | .metaClose | .metaBackslash | .metaDoubleQuote | .metaBackspace | .metaFormFeed
  | .metaLineFeed | .metaCarriageReturn | .metaTab => true
  | _ => false

/-- `isMBLineContinuation`, read/wl_character.rs:717-724;
`CodePoint::is_line_continuation`, read/code_point.rs:179-187. -/
def CP.isLineContinuation : CP → Bool
  | .contLF | .contCR | .contCRLF => true
  | _ => false

/-- `isMBUnsafeUTF8Sequence`, read/wl_character.rs:726-733. -/
def CP.isMBUnsafe : CP → Bool
  | .unsafe1 | .unsafe2 | .unsafe3 => true
  | _ => false

/-- `isMBStrangeNewline`, read/wl_character.rs:652-681. -/
def CP.isMBStrangeNewline (p : CP) : Bool := p.isMBNewline && p != .crlf

/-- `isMBLetterlike`, read/wl_character.rs:573-628. -/
def CP.isMBLetterlike (p : CP) : Bool :=
  !p.isAscii && !p.isMBPunctuation && p != .eof && p != .crlf && !p.isLineContinuation
    && !p.isMBLinearSyntax && !p.isMBStringMeta && !p.isMBWhitespace && !p.isMBNewline
    && !p.isMBUninterpretable && !p.isMBUnsafe

/-- `DIGIT_LOOKUP` and `toDigit`, utils.rs:215-235: the table maps `0`..`9`, `A`..`Z`,
`a`..`z` to their digit value and every other byte to 99. -/
def toDigit (b : UInt8) : Nat :=
  if inR 0x30 0x39 b.toNat then b.toNat - 0x30
  else if inR 0x41 0x5a b.toNat then b.toNat - 0x41 + 10
  else if inR 0x61 0x7a b.toNat then b.toNat - 0x61 + 10
  else 99

/-! ### The decoder -/

/-- The plain backslash that malformed escapes decay to. -/
def backslash : WLC := ⟨.char 0x5c, .none⟩

/-- Escapes made of the backslash and one more source character:
read/character_decoder.rs:115-128 (`"`), 138-179 (`<`), 181-222 (`>`), 224-235 and
996-1062 (`\`), and the arms of `CharacterDecoder_handleUncommon`, 1379-1402 (line
continuations), 1438-1569 (`b f n r t`), 1574-1711 (linear syntax). -/
def simpleEscape (c : CP) : Option CP :=
  if c = ch '"' then some .metaDoubleQuote
  else if c = ch '<' then some .metaOpen
  else if c = ch '>' then some .metaClose
  else if c = ch '\\' then some .metaBackslash
  else if c = ch '\n' then some .contLF
  else if c = ch '\r' then some .contCR
  else if c = .crlf then some .contCRLF
  else if c = ch 'b' then some .metaBackspace
  else if c = ch 'f' then some .metaFormFeed
  else if c = ch 'n' then some .metaLineFeed
  else if c = ch 'r' then some .metaCarriageReturn
  else if c = ch 't' then some .metaTab
  else if c = ch '!' then some (.char 0xf7c1)
  else if c = ch '%' then some (.char 0xf7c5)
  else if c = ch '&' then some (.char 0xf7c7)
  else if c = ch '(' then some (.char 0xf7c9)
  else if c = ch ')' then some (.char 0xf7c0)
  else if c = ch '*' then some (.char 0xf7c8)
  else if c = ch '+' then some (.char 0xf7cb)
  else if c = ch '/' then some (.char 0xf7cc)
  else if c = ch '@' then some (.char 0xf7c2)
  else if c = ch '^' then some (.char 0xf7c6)
  else if c = ch '_' then some (.char 0xf7ca)
  else if c = ch '`' then some (.char 0xf7cd)
  else if c = ch ' ' then some .linearSyntaxSpace
  else none

/-- The canonicalisation of a quote or backslash written numerically,
read/character_decoder.rs:646-654, 746-754, 855-863, 975-983. -/
def canonPoint (n : Nat) : CP :=
  if n = 0x22 then .metaDoubleQuote else if n = 0x5c then .metaBackslash else .char n

/-- The loop `for _ in 0..n { if peek is a digit { next } else { .. } }`:
read/character_decoder.rs:575-633, 678-736, 781-840, 887-945.  `false` when a
character that is no digit was met. -/
def digitRun (cfg : Cfg) (isDig : CP → Bool) : Nat → M Bool
  | 0 => pure true
  | n + 1 => do
    let c ← peekSrc cfg
    if isDig c then
      let _ ← src cfg
      digitRun cfg isDig n
    else pure false

/-- The value of the `n` digits at the front of `buf` (most significant first):
`d3 << 12 | d2 << 8 | d1 << 4 | d0` and the like, read/character_decoder.rs:639-643,
742-744, 846-849, 951-959; the `|` of shifted digits is written as a sum. -/
def digitsValue (base : Nat) (buf : List UInt8) : Nat → M Nat
  | 0 => pure 0
  | n + 1 => do
    let hi ← digitsValue base buf n
    let b ← byteAt buf n
    pure (hi * base + toDigit b)

/-- `CodePoint::from_u32(point).unwrap()`, read/code_point.rs:109-113. -/
def fromU32 (n : Nat) : M Nat :=
  if n < 0xd800 ∨ (0xdfff < n ∧ n < 0x110000) then pure n else M.panic .surrogate

/-- `assert!(session.input[mark.offset] == b'..')`. -/
def assertStart (mark : St) (p : Nat → Bool) : M Unit :=
  match mark.rest with
  | b :: _ => if p b.toNat then pure () else M.panic .escapeStart
  | [] => M.panic .index

/-- `CharacterDecoder_handle4Hex`, read/character_decoder.rs:564-665. -/
def handle4Hex (cfg : Cfg) (colon : St) : M WLC := do
  assertStart colon (· == 0x3a)
  let start ← M.mark
  if ← digitRun cfg CP.isHex 4 then
    let v ← digitsValue 16 start.rest 4
    let v ← fromU32 v
    pure ⟨canonPoint v, .hex4⟩
  else
    M.seek colon
    pure backslash

/-- `CharacterDecoder_handle2Hex`, read/character_decoder.rs:667-765. -/
def handle2Hex (cfg : Cfg) (dot : St) : M WLC := do
  assertStart dot (· == 0x2e)
  let start ← M.mark
  if ← digitRun cfg CP.isHex 2 then
    let v ← digitsValue 16 start.rest 2
    pure ⟨canonPoint v, .hex2⟩
  else
    M.seek dot
    pure backslash

/-- `CharacterDecoder_handleOctal`, read/character_decoder.rs:767-874. -/
def handleOctal (cfg : Cfg) (firstOctal : St) : M WLC := do
  assertStart firstOctal (inR 0x30 0x37)
  if ← digitRun cfg CP.isOctal 2 then
    let v ← digitsValue 8 firstOctal.rest 3
    let v ← fromU32 v
    pure ⟨canonPoint v, .octal⟩
  else
    M.seek firstOctal
    pure backslash

/-- `CharacterDecoder_handle6Hex`, read/character_decoder.rs:876-994. -/
def handle6Hex (cfg : Cfg) (bar : St) : M WLC := do
  assertStart bar (· == 0x7c)
  let start ← M.mark
  if ← digitRun cfg CP.isHex 6 then
    let v ← digitsValue 16 start.rest 6
    if v > 0x10ffff then
      M.seek bar
      pure backslash
    else
      let v ← fromU32 v
      pure ⟨canonPoint v, .hex6⟩
  else
    M.seek bar
    pure backslash

/-- The loop of `CharacterDecoder_handleLongName`, read/character_decoder.rs:270-286:
skip letters and digits; whether a `]` comes next. -/
def longNameTail (cfg : Cfg) : M Bool :=
  M.loop (fun _ : Unit => do
    let c ← peekSrc cfg
    if c.isAlphaOrDigitSrc cfg then
      let _ ← src cfg
      pure (.inl ())
    else pure (.inr (c == ch ']'))) ()

/-- The first part of `CharacterDecoder_handleLongName`, read/character_decoder.rs:252-295,
behind the opening bracket; `c` is the character peeked there.  Whether a
well-formed name was skipped. -/
def longNameScan (cfg : Cfg) (c : CP) : M Bool :=
  if c.isUpper then do
    let _ ← src cfg
    longNameTail cfg
  else if c = ch ']' then do
    let _ ← src cfg
    let _ ← peekSrc cfg
    pure false
  else pure false

/-- The bytes between two positions of the reader
(`BufferAndLength::between`, source.rs). -/
def between (start stop : St) : List UInt8 :=
  start.rest.take (start.rest.length - stop.rest.length)

/-- `CharacterDecoder_handleLongName`, read/character_decoder.rs:237-562. -/
def handleLongName (cfg : Cfg) (openSquare : St) : M WLC := do
  assertStart openSquare (· == 0x5b)
  let start ← M.mark
  let c ← peekSrc cfg
  let wellFormed ← longNameScan cfg c
  if !wellFormed then
    M.seek openSquare
    pure backslash
  else
    let stop ← M.mark
    let name := between start stop
    match longnameToCodepoint name with
    | none =>
      M.seek openSquare
      pure backslash
    | some p =>
      let _ ← src cfg
      pure ⟨p, if isRaw name then .raw else .longName⟩

/-- The escape after a backslash; `escaped` is the position behind it:
`CHARACTER_DECODER_HANDLER_TABLE` (read/character_decoder.rs:30-62) and
`CharacterDecoder_handleUncommon` (1371-1716); everything else is
`CharacterDecoder_handleUnhandledEscape` (1064-1369). -/
def nextEscape (cfg : Cfg) (escaped : St) : M WLC := do
  let c ← peekSrc cfg
  match simpleEscape c with
  | some p =>
    let _ ← src cfg
    pure ⟨p, .single⟩
  | none =>
    if c = ch '[' then
      let _ ← src cfg
      handleLongName cfg escaped
    else if c = ch ':' then
      let _ ← src cfg
      handle4Hex cfg escaped
    else if c = ch '.' then
      let _ ← src cfg
      handle2Hex cfg escaped
    else if c = ch '|' then
      let _ ← src cfg
      handle6Hex cfg escaped
    else if c.isOctal then
      let _ ← src cfg
      handleOctal cfg escaped
    else
      M.seek escaped
      pure backslash

/-- `CharacterDecoder_nextWLCharacter`, read/character_decoder.rs:79-113
(= `Reader::next_wolfram_char`, read.rs:190-196). -/
def nextWL (cfg : Cfg) : M WLC := do
  let c ← src cfg
  if c ≠ ch '\\' then
    pure ⟨c, .none⟩
  else
    let escaped ← M.mark
    nextEscape cfg escaped

/-- `Reader::peek_wolfram_char`, read.rs:170-181. -/
def peekWL (cfg : Cfg) : M WLC := do
  let mark ← M.mark
  let c ← nextWL cfg
  M.seek mark
  pure c

end CodeParser
