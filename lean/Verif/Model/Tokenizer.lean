import Verif.Model.Char
import Verif.Model.TokenKind
import Verif.Model.Util
/-!
Model of tokenize/tokenizer.rs: from Wolfram characters to tokens.

Line numbers refer to tokenize/tokenizer.rs unless another file is named; paths are
relative to /repo/crates/wolfram-parser/src.  Simplifications common to the whole
file: the model is the program with `check_issues = false` and
`compute_oob = false`, so code that only reports issues or records embedded
newlines, tabs and line continuations is dropped; counters are natural numbers;
`debug_assert!`s are dropped (release build).
-/
namespace CodeParser

/-- The bits of `NextPolicy` (source.rs:211-332) that matter to the modelled code:
`TAGSLOT_BEHAVIOR_FOR_STRINGS`, `INTEGER_SHORT_CIRCUIT`, `RETURN_TOPLEVELNEWLINE`. -/
structure Pol where
  tagslot : Bool
  intShort : Bool
  toplevel : Bool
deriving DecidableEq, Repr

/-- `TOPLEVEL`, source.rs:301-303. -/
def Pol.top : Pol := ⟨false, false, true⟩
/-- `INSIDE_STRINGIFY_AS_TAG`, source.rs:309-313. -/
def Pol.tag : Pol := ⟨true, false, false⟩
/-- `INSIDE_STRINGIFY_AS_FILE`, source.rs:314. -/
def Pol.file : Pol := ⟨false, false, true⟩
/-- `INSIDE_SLOT`, source.rs:316-318. -/
def Pol.slot : Pol := ⟨true, true, false⟩
/-- `INSIDE_SLOTSEQUENCE`, source.rs:320-322. -/
def Pol.slotSequence : Pol := ⟨false, true, false⟩
/-- `INSIDE_OUT`, source.rs:324-326. -/
def Pol.out : Pol := ⟨false, true, false⟩

/-- `policy.contains(INSIDE_SLOT)` (source.rs:168-174); the third bit of
`INSIDE_SLOT`, `TRACK_LC`, is set in every policy that has the other two. -/
def Pol.insideSlot (p : Pol) : Bool := p.tagslot && p.intShort

/-- `TokenKind::newline_with_policy`, tokenize/token_kind.rs:884-890. -/
def Pol.newline (p : Pol) : TK := if p.toplevel then .ToplevelNewline else .InternalNewline

/-- `Token`, tokenize/token.rs:32-47.  The text of a token is a slice of the input, so
the program knows its offset; the model keeps the text and what follows it. -/
structure Tok where
  kind : TK
  text : List UInt8
  after : List UInt8
  start : Loc
  stop : Loc
deriving DecidableEq, Repr, Inhabited

/-- `Tokenizer::token`, 357-369, with `get_token_span`, 391-395, and the assertion of
`Span::new`, source.rs:728-732. -/
def tok (k : TK) (start : St) : M Tok := fun s =>
  match Span.new start.loc s.loc with
  | some sp => .ok (⟨k, between start s, s.rest, sp.start, sp.stop⟩, s)
  | none => .error (.panic .span)

/-- `Tokenizer::error_token_at`, 373-389, also 1685-1689: an empty token at the start of
the text; the reader stays where it is. -/
def errorTokAt (k : TK) (start : St) : M Tok := fun s =>
  .ok (⟨k, [], start.rest, start.loc, start.loc⟩, s)

/-- `assert!(b)` -/
def assertB (b : Bool) : M Unit := if b then pure () else M.panic .tokenizerAssert

/-- The inner loop 971-993 of `Tokenizer_nextWLCharacter`: skip whitespace; `c` is the
character ahead. -/
def skipWhite (cfg : Cfg) (c : WLC) : M WLC :=
  M.loop (fun c : WLC =>
    if c.point.isWhitespace then do
      let _ ← nextWL cfg
      let c ← peekWL cfg
      pure (.inl c)
    else pure (.inr c)) c

/-- `Tokenizer_nextWLCharacter`, 946-1007: a Wolfram character behind any line
continuations (and the white space that follows them). -/
def nextC (cfg : Cfg) : M WLC := do
  let c ← nextWL cfg
  M.loop (fun c : WLC =>
    if c.point.isLineContinuation then do
      let c ← peekWL cfg
      let c ← skipWhite cfg c
      let _ ← nextWL cfg
      pure (.inl c)
    else pure (.inr c)) c

/-- `Tokenizer_currentWLCharacter`, 1009-1026. -/
def curC (cfg : Cfg) : M WLC := do
  let mark ← M.mark
  let c ← nextC cfg
  M.seek mark
  pure c

/-- Read the next character and emit a token: the common tail
`Tokenizer_nextWLCharacter(..); return session.token(kind, token_start)`. -/
def tokNext (cfg : Cfg) (k : TK) (start : St) : M Tok := do
  let _ ← nextC cfg
  tok k start

/-- `c.isLetterlike() || c.isMBLetterlike()` -/
def WLC.isLetter (c : WLC) : Bool := c.point.isLetterlike || c.point.isMBLetterlike

/-! ### Comments, linear syntax, symbols, strings -/

/-- `Tokenizer_handleComment`, 1137-1212. -/
def handleComment (cfg : Cfg) (start : St) (c : CP) : M Tok := do
  assertB (c == ch '*')
  let _ ← src cfg
  let c ← src cfg
  let closed ← M.loop (fun (d : Nat × CP) =>
    if d.2 = ch '(' then do
      let c ← src cfg
      if c = ch '*' then do
        let c ← src cfg
        pure (.inl (d.1 + 1, c))
      else pure (.inl (d.1, c))
    else if d.2 = ch '*' then do
      let c ← src cfg
      if c = ch ')' then
        if d.1 - 1 = 0 then pure (.inr true)
        else do
          let c ← src cfg
          pure (.inl (d.1 - 1, c))
      else pure (.inl (d.1, c))
    else if d.2 = .eof then pure (.inr false)
    else do
      let c ← src cfg
      pure (.inl (d.1, c))) (1, c)
  tok (if closed then .Comment else .Error_UnterminatedComment) start

/-- `Tokenizer_handleMBLinearSyntaxBlob`, 1214-1254. -/
def handleBlob (cfg : Cfg) (start : St) (c : WLC) : M Tok := do
  assertB (c.point == .char 0xf7c9)
  let c ← nextC cfg
  let closed ← M.loop (fun (d : Nat × WLC) =>
    if d.2.point = .char 0xf7c9 then do
      let c ← nextC cfg
      pure (.inl (d.1 + 1, c))
    else if d.2.point = .char 0xf7c0 then
      if d.1 - 1 = 0 then pure (.inr true)
      else do
        let c ← nextC cfg
        pure (.inl (d.1 - 1, c))
    else if d.2.point = .eof then pure (.inr false)
    else do
      let c ← nextC cfg
      pure (.inl (d.1, c))) (1, c)
  tok (if closed then .LinearSyntaxBlob else .Error_UnterminatedLinearSyntaxBlob) start

/-- `Tokenizer_handleSymbolSegment`, 1352-1508; the result is the character that ended
the segment, which has been consumed if it is a backquote. -/
def symbolSegment (cfg : Cfg) (c : WLC) : M WLC := do
  assertB c.isLetter
  let c ← curC cfg
  M.loop (fun c : WLC =>
    if c.point.isDigit then do
      let _ ← nextC cfg
      let c ← curC cfg
      pure (.inl c)
    else if c.isLetter then do
      let _ ← nextC cfg
      let c ← curC cfg
      pure (.inl c)
    else if c.point = ch '`' then do
      let _ ← nextC cfg
      pure (.inr c)
    else pure (.inr c)) c

/-- The first segment, 1270-1279. -/
def symbolFirst (cfg : Cfg) (c : WLC) : M WLC :=
  if c.isLetter then symbolSegment cfg c else pure c

/-- `Tokenizer_handleSymbol`, 1260-1344. -/
def handleSymbol (cfg : Cfg) (pol : Pol) (start : St) (c : WLC) : M Tok := do
  assertB (c.point == ch '`' || c.isLetter)
  let c ← symbolFirst cfg c
  let ok ← M.loop (fun c : WLC =>
    if c.point ≠ ch '`' then pure (.inr true)
    else do
      let c ← curC cfg
      if c.isLetter then do
        let _ ← nextC cfg
        let c ← symbolSegment cfg c
        pure (.inl c)
      else pure (.inr false)) c
  if ok then tok (if pol.insideSlot then .String else .Symbol) start
  else tok .Error_ExpectedLetterlike start

/-- `Tokenizer_handleString`, 1510-1649 (the loop 1629-1648; the fast path needs a
cargo feature that is off). -/
def handleString (cfg : Cfg) (start : St) (c : WLC) : M Tok := do
  assertB (c.point == ch '"')
  let closed ← M.loop (fun _ : Unit => do
    let c ← nextC cfg
    if c.point = ch '"' then pure (.inr true)
    else if c.point = .eof then pure (.inr false)
    else pure (.inl ())) ()
  tok (if closed then .String else .Error_UnterminatedString) start

/-- `Tokenizer_handleString_stringifyAsTag`, 1651-1690. -/
def stringifyAsTagRest (cfg : Cfg) (start : St) (c : WLC) : M Tok :=
  if c.isLetter then do
    let _ ← symbolSegment cfg c
    tok .String start
  else errorTokAt .Error_ExpectedTag start

/-- `Tokenizer_nextToken_stringifyAsTag`, 801-845. -/
def nextTokenTag (cfg : Cfg) : M Tok := do
  let start ← M.mark
  let c ← nextC cfg
  if c.point = .eof then errorTokAt .Error_ExpectedTag start
  else if c.point = ch '\n' ∨ c.point = ch '\r' ∨ c.point = .crlf then
    errorTokAt .Error_ExpectedTag start
  else if c.point = ch '"' then handleString cfg start c
  else stringifyAsTagRest cfg start c

/-- The characters of a file name, 1770-1774. -/
def CP.isFileChar : CP → Bool
  | .char n => inR 0x41 0x5a n || inR 0x61 0x7a n || inR 0x30 0x39 n ||
      n == 0x60 || n == 0x2f || n == 0x2e || n == 0x5c || n == 0x21 ||
      n == 0x2d || n == 0x5f || n == 0x3a || n == 0x2a || n == 0x7e || n == 0x3f
  | _ => false

/-- The first character of a file name, 1715-1719. -/
def CP.isFileStart (c : CP) : Bool := c.isFileChar || c == ch '$'

/-- Characters ending an unterminated bracket, 1848-1849. -/
def CP.isFileBreak : CP → Bool
  | .char n => n == 0x20 || n == 0x09 || n == 0x0b || n == 0x0c || n == 0x0a || n == 0x0d
  | .crlf => true
  | _ => false

/-- `Tokenizer_handleFileOpsBrackets`, 1827-1888; `none` is `UnterminatedFileString`. -/
def fileBrackets (cfg : Cfg) (c : CP) : M (Option CP) := do
  assertB (c == ch '[')
  let c ← peekSrc cfg
  M.loop (fun (d : Nat × CP) =>
    if d.2.isFileBreak then pure (.inr none)
    else if d.2 = .eof then pure (.inr none)
    else if d.2 = ch '[' then do
      let _ ← src cfg
      let c ← peekSrc cfg
      pure (.inl (d.1 + 1, c))
    else if d.2 = ch ']' then do
      let _ ← src cfg
      let c ← peekSrc cfg
      if d.1 - 1 = 0 then pure (.inr (some c)) else pure (.inl (d.1 - 1, c))
    else if d.2.isMBWhitespace || d.2.isMBNewline then pure (.inr none)
    else do
      let _ ← src cfg
      let c ← peekSrc cfg
      pure (.inl (d.1, c))) (1, c)

/-- The loop of `Tokenizer_handleString_stringifyAsFile`, 1754-1805: `false` is an
unterminated bracket. -/
def fileLoop (cfg : Cfg) (c : CP) : M Bool :=
  M.loop (fun c : CP =>
    if c.isFileChar then do
      let _ ← src cfg
      let c ← peekSrc cfg
      pure (.inl c)
    else if c = ch '[' then do
      let _ ← src cfg
      let r ← fileBrackets cfg c
      match r with
      | some c => pure (.inl c)
      | none => pure (.inr false)
    else pure (.inr true)) c

/-- `Tokenizer_handleString_stringifyAsFile`, 1695-1806. -/
def stringifyAsFileRest (cfg : Cfg) (start : St) (c : CP) : M Tok :=
  if c.isFileStart then do
    let c ← peekSrc cfg
    let ok ← fileLoop cfg c
    tok (if ok then .String else .Error_UnterminatedFileString) start
  else if c = ch '[' then do
    let r ← fileBrackets cfg c
    match r with
    | none => tok .Error_UnterminatedFileString start
    | some c => do
      let ok ← fileLoop cfg c
      tok (if ok then .String else .Error_UnterminatedFileString) start
  else errorTokAt .Error_ExpectedFile start

/-- `Tokenizer_nextToken_stringifyAsFile`, 850-915. -/
def nextTokenFile (cfg : Cfg) : M Tok := do
  let start ← M.mark
  let c ← src cfg
  if c = .eof then errorTokAt .Error_ExpectedFile start
  else if c = ch '\n' ∨ c = ch '\r' ∨ c = .crlf then tok Pol.file.newline start
  else if c = ch ' ' ∨ c = ch '\t' then tok .Whitespace start
  else if c = ch '"' then handleString cfg start ⟨c, .none⟩
  else stringifyAsFileRest cfg start c

/-! ### Numbers -/

/-- `NumberTokenizationContext`, 447-461. -/
structure NumCtx where
  invalidBase : Bool := false
  unrecognizedDigit : Bool := false
  negativeExponent : Bool := false
  real : Bool := false
  nonZeroExponentDigits : Nat := 0
  base : Nat := 0
deriving DecidableEq, Repr

/-- `NumberTokenizationContext::computeTok`, 2918-2948. -/
def NumCtx.kind (x : NumCtx) : TK :=
  if x.invalidBase then .Error_Number
  else if x.unrecognizedDigit then .Error_Number
  else if x.real then .Real
  else if x.negativeExponent && x.nonZeroExponentDigits != 0 then .Rational
  else .Integer

/-- `ifASCIIWLCharacter`, utils.rs:239-261. -/
def ifAsciiWL (b test : UInt8) : Bool :=
  if b.toNat > 0x7f then true
  else if (CP.char b.toNat).isAlphaOrDigit || b == 0x5d then true
  else if b == 0x5c then true
  else b == test

/-- `assert!(utils::ifASCIIWLCharacter(buf[0], test))` -/
def assertAscii (at_ : St) (test : UInt8) : M Unit :=
  match at_.rest with
  | [] => M.panic .index
  | b :: _ => assertB (ifAsciiWL b test)

/-- `Tokenizer_handleZeros`, 3104-3129. -/
def handleZeros (cfg : Cfg) (c : WLC) : M (Nat × WLC) := do
  assertB (c.point == ch '0')
  let c ← curC cfg
  M.loop (fun (d : Nat × WLC) =>
    if d.2.point ≠ ch '0' then pure (.inr d)
    else do
      let _ ← nextC cfg
      let c ← curC cfg
      pure (.inl (d.1 + 1, c))) (1, c)

/-- `Tokenizer_handleDigits`, 3137-3162. -/
def handleDigits (cfg : Cfg) (c : WLC) : M (Nat × WLC) := do
  assertB c.point.isDigit
  let c ← curC cfg
  M.loop (fun (d : Nat × WLC) =>
    if !d.2.point.isDigit then pure (.inr d)
    else do
      let _ ← nextC cfg
      let c ← curC cfg
      pure (.inl (d.1 + 1, c))) (1, c)

/-- The digit value of an ASCII character, 3192-3196. -/
def CP.digitValue : CP → Nat
  | .char n => toDigit (UInt8.ofNat n)
  | _ => 99

/-- `Tokenizer_handleAlphaOrDigits`, 3170-3211; the count, the next character and
whether a digit out of range was seen. -/
def handleAlphaOrDigits (cfg : Cfg) (c : WLC) (base : Nat) : M (Nat × WLC × Bool) := do
  assertB c.point.isAlphaOrDigit
  M.loop (fun (d : Nat × WLC × Bool) =>
    if !d.2.1.point.isAlphaOrDigit then pure (.inr d)
    else if base = 0 then
      if !d.2.1.point.isDigit then pure (.inr d)
      else do
        let _ ← nextC cfg
        let c ← curC cfg
        pure (.inl (d.1 + 1, c, d.2.2))
    else do
      let _ ← nextC cfg
      let c ← curC cfg
      pure (.inl (d.1 + 1, c, d.2.2 || decide (base ≤ d.2.1.point.digitValue)))) (0, c, false)

/-- `HandledFractionalPart`, 2953-2958. -/
inductive Fraction where
  | count (n : Nat)
  | bailout
deriving DecidableEq, Repr

/-- `Tokenizer_handlePossibleFractionalPartPastDot`, 2998-3070. -/
def fractionPastDot (cfg : Cfg) (dot : St) (c : WLC) (base : Nat) (x : NumCtx) :
    M (Fraction × WLC × NumCtx) :=
  if c.point = ch '.' then do
    M.seek dot
    let c ← curC cfg
    pure (.bailout, c, x)
  else if c.point.isAlphaOrDigit then do
    let (n, c, bad) ← handleAlphaOrDigits cfg c base
    pure (.count n, c, { x with unrecognizedDigit := x.unrecognizedDigit || bad })
  else pure (.count 0, c, x)

/-- `Tokenizer_handlePossibleFractionalPart`, 2965-2988. -/
def possibleFraction (cfg : Cfg) (dot : St) (c : WLC) (x : NumCtx) :
    M (Fraction × WLC × NumCtx) := do
  assertB (c.point == ch '.')
  let c ← curC cfg
  fractionPastDot cfg dot c x.base x

/-- The end of the exponent in `Tokenizer_handleNumber`, 2849-2903. -/
def numExponentEnd (cfg : Cfg) (start : St) (x : NumCtx) (c : WLC) : M Tok :=
  if c.point ≠ ch '.' then tok x.kind start
  else do
    let dot ← M.mark
    assertAscii dot 0x2e
    let _ ← nextC cfg
    let c ← curC cfg
    let (h, _, x) ← fractionPastDot cfg dot c x.base x
    match h with
    | .bailout => tok x.kind start
    | .count _ => tok .Error_Number start

/-- The leading zeros of an exponent, 2837-2842. -/
def expZeros (cfg : Cfg) (c : WLC) : M WLC :=
  if c.point = ch '0' then do
    let (_, c) ← handleZeros cfg c
    pure c
  else pure c

/-- The digits of an exponent, 2844-2847. -/
def expDigits (cfg : Cfg) (x : NumCtx) (c : WLC) : M (NumCtx × WLC) :=
  if c.point.isDigit then do
    let (n, c) ← handleDigits cfg c
    pure ({ x with nonZeroExponentDigits := n }, c)
  else pure (x, c)

/-- The sign of an exponent, 2814-2821. -/
def expSign (cfg : Cfg) (x : NumCtx) (c : WLC) : M (NumCtx × WLC) :=
  if c.point = ch '+' ∨ c.point = ch '-' then do
    let _ ← nextC cfg
    let c' ← curC cfg
    pure ({ x with negativeExponent := x.negativeExponent || (c.point == ch '-') }, c')
  else pure (x, c)

/-- `Tokenizer_handleNumber` from the star of `*^` on, 2780-2903. -/
def numStar (cfg : Cfg) (start : St) (star : Option St) (x : NumCtx) (c : WLC) : M Tok := do
  assertB (c.point == ch '*')
  match star with
  | none => M.panic .tokenizerAssert
  | some star =>
    assertAscii star 0x2a
    let c ← curC cfg
    if c.point ≠ ch '^' then
      M.seek star
      tok x.kind start
    else
      let _ ← nextC cfg
      let c ← curC cfg
      let (x, c) ← expSign cfg x c
      if !c.point.isDigit then tok .Error_Number start
      else
        let c ← expZeros cfg c
        let (x, c) ← expDigits cfg x c
        numExponentEnd cfg start x c

/-- Where a precision ends, `Tokenizer_handleNumber` 2730-2777. -/
def numPrecisionEnd (cfg : Cfg) (start : St) (x : NumCtx) (accuracy supplied : Bool) (c : WLC) :
    M Tok :=
  if accuracy && !supplied then tok .Error_Number start
  else if c.point = ch '*' then do
    let star ← M.mark
    assertAscii star 0x2a
    let _ ← nextC cfg
    numStar cfg start (some star) x c
  else tok x.kind start

/-- The fraction of a precision, `Tokenizer_handleNumber` 2661-2726, behind the dot;
`sign` is the position of the sign, if there is one. -/
def numPrecisionFraction (cfg : Cfg) (start : St) (x : NumCtx) (accuracy : Bool) (sign : Option St)
    (supplied : Bool) (dot : St) (c : WLC) : M Tok := do
  let (h, c, x) ← fractionPastDot cfg dot c 0 x
  match h with
  | .bailout =>
    if supplied then tok x.kind start
    else
      match sign with
      | some sign =>
        M.seek sign
        tok x.kind start
      | none => M.panic .tokenizerAssert
  | .count n =>
    if !(supplied || n != 0) then tok .Error_Number start
    else numPrecisionEnd cfg start x accuracy true c

/-- The dot of a precision, `Tokenizer_handleNumber` 2553-2728. -/
def numPrecisionDot (cfg : Cfg) (start : St) (x : NumCtx) (accuracy : Bool) (sign : Option St)
    (supplied : Bool) (c : WLC) : M Tok :=
  if c.point = ch '.' then do
    let dot ← M.mark
    assertAscii dot 0x2e
    let _ ← nextC cfg
    let c ← curC cfg
    if sign.isSome || supplied then
      numPrecisionFraction cfg start x accuracy sign supplied dot c
    else if !c.point.isDigit then
      if accuracy then tok .Error_Number start
      else if c.point.isSign then tokNext cfg .Error_Number start
      else do
        M.seek dot
        tok x.kind start
    else numPrecisionFraction cfg start x accuracy sign supplied dot c
  else numPrecisionEnd cfg start x accuracy supplied c

/-- The integer digits of a precision, `Tokenizer_handleNumber` 2524-2551. -/
def numPrecisionDigits (cfg : Cfg) (start : St) (x : NumCtx) (accuracy : Bool) (sign : Option St)
    (c : WLC) : M Tok :=
  if c.point.isDigit then do
    let (n, c) ← handleDigits cfg c
    if c.point = ch '.' ∨ c.point = ch '*' then
      numPrecisionDot cfg start x accuracy sign (decide (n > 0)) c
    else tok x.kind start
  else numPrecisionDot cfg start x accuracy sign false c

/-- The sign of a precision, `Tokenizer_handleNumber` 2399-2522. -/
def numPrecisionSign (cfg : Cfg) (start : St) (x : NumCtx) (accuracy : Bool) (c : WLC) : M Tok :=
  if c.point = ch '-' ∨ c.point = ch '+' then do
    let sign ← M.mark
    match sign.rest with
    | [] => M.panic .index
    | b :: _ =>
      assertB (ifAsciiWL b 0x2d || ifAsciiWL b 0x2b)
      let _ ← nextC cfg
      let c ← curC cfg
      if c.point.isDigit || c.point == ch '.' then
        numPrecisionDigits cfg start x accuracy (some sign) c
      else if accuracy then tok .Error_Number start
      else
        M.seek sign
        tok x.kind start
  else numPrecisionDigits cfg start x accuracy none c

/-- `Tokenizer_handleNumber` from the backquote of a precision on, 2371-2778. -/
def numPrecision (cfg : Cfg) (start : St) (star : Option St) (x : NumCtx) (c : WLC) : M Tok := do
  assertB (c.point == ch '`' || c.point == ch '*')
  if c.point = ch '`' then
    let x := { x with real := true }
    let c ← curC cfg
    if c.point = ch '`' then
      let _ ← nextC cfg
      let c ← curC cfg
      numPrecisionSign cfg start x true c
    else numPrecisionSign cfg start x false c
  else numStar cfg start star x c

/-- After a fraction, `Tokenizer_handleNumber` 2291-2325 and 2332-2366. -/
def numAfterFraction (cfg : Cfg) (start : St) (star : Option St) (x : NumCtx) (c : WLC) : M Tok :=
  let x := { x with real := true }
  if c.point = ch '*' then do
    let star ← M.mark
    assertAscii star 0x2a
    let _ ← nextC cfg
    numPrecision cfg start (some star) x c
  else if c.point = ch '`' then do
    let _ ← nextC cfg
    numPrecision cfg start star x c
  else tok x.kind start

/-- `Tokenizer_handleNumber` from the radix point on, 2241-2904. -/
def numFraction (cfg : Cfg) (start lead : St) (leadCount : Nat) (star : Option St) (x : NumCtx)
    (c : WLC) : M Tok :=
  if c.point = ch '.' then do
    let (h, c, x) ← possibleFraction cfg lead c x
    match h with
    | .bailout => if leadCount = 0 then tok .Error_Number start else tok x.kind start
    | .count 0 =>
      if leadCount = 0 then tok .Error_Number start else numAfterFraction cfg start star x c
    | .count _ => numAfterFraction cfg start star x c
  else numPrecision cfg start star x c

/-- The base in front of `^^`, `Tokenizer_handleNumber` 2096-2130: `digits` is the text
from the first non-zero digit to the first caret. -/
def numBaseOf (digits : List UInt8) (x : NumCtx) : NumCtx :=
  match digits with
  | [] => { x with invalidBase := true }
  | [a] => checkBase { x with base := toDigit a }
  | [a, b] => checkBase { x with base := toDigit a * 10 + toDigit b }
  | _ => { x with invalidBase := true }
where
  /-- 2127-2129 -/
  checkBase (x : NumCtx) : NumCtx :=
    if 2 ≤ x.base ∧ x.base ≤ 36 then x else { x with invalidBase := true }

/-- Behind the digits that follow `^^`, `Tokenizer_handleNumber` 2157-2194. -/
def numAfterBaseDigits (cfg : Cfg) (start lead : St) (n : Nat) (x : NumCtx) (c : WLC) : M Tok :=
  if c.point = ch '*' then do
    let star ← M.mark
    assertAscii star 0x2a
    let _ ← nextC cfg
    numFraction cfg start lead n (some star) x c
  else if c.point = ch '.' ∨ c.point = ch '`' then do
    let _ ← nextC cfg
    numFraction cfg start lead n none x c
  else tok x.kind start

/-- `Tokenizer_handleNumber` behind the first caret of `^^`, 2063-2238; `nz` is the
position of the first non-zero digit. -/
def numBase (cfg : Cfg) (start nz caret : St) (x : NumCtx) : M Tok := do
  let c ← curC cfg
  if c.point ≠ ch '^' then
    M.seek caret
    tok x.kind start
  else
    let _ ← nextC cfg
    let x := numBaseOf (between nz caret) x
    let c ← curC cfg
    if c.point.isAlphaOrDigit then
      let (n, c, bad) ← handleAlphaOrDigits cfg c x.base
      let lead ← M.mark
      numAfterBaseDigits cfg start lead n { x with unrecognizedDigit := x.unrecognizedDigit || bad } c
    else if c.point = ch '.' then
      let lead ← M.mark
      let _ ← nextC cfg
      numFraction cfg start lead 0 none x c
    else if c.point = .eof then
      let _ ← nextC cfg
      let _ ← curC cfg
      tok .Error_Number start
    else tok .Error_Number start

/-- The leading zeros, `Tokenizer_handleNumber` 1957-1967: their number, the position of
the first non-zero digit, and the next character. -/
def numZeros (cfg : Cfg) (start : St) (c : WLC) : M (Nat × St × WLC) :=
  if c.point = ch '0' then do
    let (n, c) ← handleZeros cfg c
    let nz ← M.mark
    pure (n, nz, c)
  else pure (0, start, c)

/-- The other leading digits, `Tokenizer_handleNumber` 1973-1983: their number, the
position behind them, and the next character. -/
def numDigits (cfg : Cfg) (c : WLC) : M (Nat × St × WLC) := do
  let lead ← M.mark
  if c.point.isDigit then
    let (n, c) ← handleDigits cfg c
    let lead ← M.mark
    pure (n, lead, c)
  else pure (0, lead, c)

/-- `Tokenizer_handleNumber`, 1910-2904.  The mark of line 1937 (used for a number
starting with a dot) is the start of the token; it is never gone back to. -/
def handleNumber (cfg : Cfg) (pol : Pol) (start : St) (c : WLC) : M Tok := do
  assertB (c.point.isDigit || c.point == ch '.')
  if c.point.isDigit then
    let (n, nz, c) ← numZeros cfg start c
    let (m, lead, c) ← numDigits cfg c
    let x : NumCtx := {}
    if pol.intShort then tok x.kind start
    else if c.point = ch '^' then
      let caret ← M.mark
      assertAscii caret 0x5e
      let _ ← nextC cfg
      numBase cfg start nz caret x
    else if c.point = ch '*' then
      let star ← M.mark
      assertAscii star 0x2a
      let _ ← nextC cfg
      numFraction cfg start lead (n + m) (some star) x c
    else if c.point = ch '.' ∨ c.point = ch '`' then
      let _ ← nextC cfg
      numFraction cfg start lead (n + m) none x c
    else tok x.kind start
  else numFraction cfg start start 0 none {} c

/-! ### Operators -/

/-- `Tokenizer_handleColon`, 3213-3274. -/
def handleColon (cfg : Cfg) (start : St) (c : WLC) : M Tok := do
  assertB (c.point == ch ':')
  let c ← curC cfg
  if c.point = ch ':' then
    let _ ← nextC cfg
    let c ← curC cfg
    if c.point = ch '[' then tokNext cfg .ColonColonOpenSquare start
    else tok .ColonColon start
  else if c.point = ch '=' then tokNext cfg .ColonEqual start
  else if c.point = ch '>' then tokNext cfg .ColonGreater start
  else tok .Colon start

/-- `Tokenizer_handleOpenParen`, 3276-3311. -/
def handleOpenParen (cfg : Cfg) (start : St) (c : WLC) : M Tok := do
  assertB (c.point == ch '(')
  let second ← peekSrc cfg
  if c.escape = .none ∧ second = ch '*' then handleComment cfg start second
  else tok .OpenParen start

/-- `Tokenizer_handleDot`, 3313-3362. -/
def handleDot (cfg : Cfg) (pol : Pol) (start : St) (first : WLC) : M Tok := do
  assertB (first.point == ch '.')
  let c ← curC cfg
  if c.point.isDigit then handleNumber cfg pol start first
  else if c.point = ch '.' then
    let _ ← nextC cfg
    let c ← curC cfg
    if c.point = ch '.' then tokNext cfg .DotDotDot start
    else tok .DotDot start
  else tok .Dot start

/-- `Tokenizer_handleEqual`, 3364-3431. -/
def handleEqual (cfg : Cfg) (start : St) (c : WLC) : M Tok := do
  assertB (c.point == ch '=')
  let c ← curC cfg
  if c.point = ch '=' then
    let _ ← nextC cfg
    let c ← curC cfg
    if c.point = ch '=' then tokNext cfg .EqualEqualEqual start
    else tok .EqualEqual start
  else if c.point = ch '!' then
    let bang ← M.mark
    let _ ← nextC cfg
    let c ← curC cfg
    if c.point = ch '=' then tokNext cfg .EqualBangEqual start
    else
      M.seek bang
      tok .Equal start
  else tok .Equal start

/-- `Tokenizer_handleUnder`, 3433-3522. -/
def handleUnder (cfg : Cfg) (start : St) (c : WLC) : M Tok := do
  assertB (c.point == ch '_')
  let c ← curC cfg
  if c.point = ch '_' then
    let _ ← nextC cfg
    let c ← curC cfg
    if c.point = ch '_' then tokNext cfg .UnderUnderUnder start
    else tok .UnderUnder start
  else if c.point = ch '.' then tokNext cfg .UnderDot start
  else tok .Under start

/-- `Tokenizer_handleLess`, 3524-3606. -/
def handleLess (cfg : Cfg) (start : St) (c : WLC) : M Tok := do
  assertB (c.point == ch '<')
  let c ← curC cfg
  if c.point = ch '|' then tokNext cfg .LessBar start
  else if c.point = ch '<' then tokNext cfg .LessLess start
  else if c.point = ch '>' then tokNext cfg .LessGreater start
  else if c.point = ch '=' then tokNext cfg .LessEqual start
  else if c.point = ch '-' then
    let minus ← M.mark
    let _ ← nextC cfg
    let c ← curC cfg
    if c.point = ch '>' then tokNext cfg .LessMinusGreater start
    else
      M.seek minus
      tok .Less start
  else tok .Less start

/-- `Tokenizer_handleGreater`, 3608-3658. -/
def handleGreater (cfg : Cfg) (start : St) (c : WLC) : M Tok := do
  assertB (c.point == ch '>')
  let c ← curC cfg
  if c.point = ch '>' then
    let _ ← nextC cfg
    let c ← curC cfg
    if c.point = ch '>' then tokNext cfg .GreaterGreaterGreater start
    else tok .GreaterGreater start
  else if c.point = ch '=' then tokNext cfg .GreaterEqual start
  else tok .Greater start

/-- `Tokenizer_handleMinus`, 3660-3798. -/
def handleMinus (cfg : Cfg) (start : St) (c : WLC) : M Tok := do
  assertB (c.point == ch '-')
  let c ← curC cfg
  if c.point = ch '>' then tokNext cfg .MinusGreater start
  else if c.point = ch '-' then tokNext cfg .MinusMinus start
  else if c.point = ch '=' then tokNext cfg .MinusEqual start
  else tok .Minus start

/-- `Tokenizer_handleBar`, 3800-3898. -/
def handleBar (cfg : Cfg) (start : St) (c : WLC) : M Tok := do
  assertB (c.point == ch '|')
  let c ← curC cfg
  if c.point = ch '>' then tokNext cfg .BarGreater start
  else if c.point = ch '|' then tokNext cfg .BarBar start
  else if c.point = ch '-' then
    let bar ← M.mark
    let _ ← nextC cfg
    let c ← curC cfg
    if c.point = ch '>' then tokNext cfg .BarMinusGreater start
    else
      M.seek bar
      tok .Bar start
  else tok .Bar start

/-- The handlers whose only longer form is the doubled character:
`Tokenizer_handleSemi` 3900-3925, `Tokenizer_handleHash` 3966-3993,
`Tokenizer_handleAmp` 4032-4059, `Tokenizer_handleTilde` 4324-4349,
`Tokenizer_handleQuestion` 4351-4376. -/
def handleDoubled (cfg : Cfg) (x : Char) (single double : TK) (start : St) (c : WLC) : M Tok := do
  assertB (c.point == ch x)
  let c ← curC cfg
  if c.point = ch x then tokNext cfg double start
  else tok single start

/-- `Tokenizer_handleBang`, 3927-3964. -/
def handleBang (cfg : Cfg) (start : St) (c : WLC) : M Tok := do
  assertB (c.point == ch '!')
  let c ← curC cfg
  if c.point = ch '=' then tokNext cfg .BangEqual start
  else if c.point = ch '!' then tokNext cfg .BangBang start
  else tok .Bang start

/-- `Tokenizer_handlePercent`, 3995-4030. -/
def handlePercent (cfg : Cfg) (start : St) (c : WLC) : M Tok := do
  assertB (c.point == ch '%')
  let c ← curC cfg
  if c.point = ch '%' then
    let c ← curC cfg
    let _ ← M.loop (fun c : WLC =>
      if c.point ≠ ch '%' then pure (.inr ())
      else do
        let _ ← nextC cfg
        let c ← curC cfg
        pure (.inl c)) c
    tok .PercentPercent start
  else tok .Percent start

/-- `Tokenizer_handleSlash`, 4061-4198. -/
def handleSlash (cfg : Cfg) (start : St) (c : WLC) : M Tok := do
  assertB (c.point == ch '/')
  let c ← curC cfg
  if c.point = ch '@' then tokNext cfg .SlashAt start
  else if c.point = ch ';' then tokNext cfg .SlashSemi start
  else if c.point = ch '.' then
    let dot ← M.mark
    let _ ← nextC cfg
    let c ← curC cfg
    if !c.point.isDigit then tok .SlashDot start
    else
      M.seek dot
      tok .Slash start
  else if c.point = ch '/' then
    let _ ← nextC cfg
    let c ← curC cfg
    if c.point = ch '.' then tokNext cfg .SlashSlashDot start
    else if c.point = ch '@' then tokNext cfg .SlashSlashAt start
    else if c.point = ch '=' then tokNext cfg .SlashSlashEqual start
    else tok .SlashSlash start
  else if c.point = ch ':' then tokNext cfg .SlashColon start
  else if c.point = ch '=' then tokNext cfg .SlashEqual start
  else if c.point = ch '*' then tokNext cfg .SlashStar start
  else tok .Slash start

/-- `Tokenizer_handleAt`, 4200-4249. -/
def handleAt (cfg : Cfg) (start : St) (c : WLC) : M Tok := do
  assertB (c.point == ch '@')
  let c ← curC cfg
  if c.point = ch '@' then
    let _ ← nextC cfg
    let c ← curC cfg
    if c.point = ch '@' then tokNext cfg .AtAtAt start
    else tok .AtAt start
  else if c.point = ch '*' then tokNext cfg .AtStar start
  else tok .At start

/-- `Tokenizer_handlePlus`, 4251-4322. -/
def handlePlus (cfg : Cfg) (start : St) (c : WLC) : M Tok := do
  assertB (c.point == ch '+')
  let c ← curC cfg
  if c.point = ch '+' then tokNext cfg .PlusPlus start
  else if c.point = ch '=' then tokNext cfg .PlusEqual start
  else tok .Plus start

/-- `Tokenizer_handleStar`, 4378-4425. -/
def handleStar (cfg : Cfg) (start : St) (c : WLC) : M Tok := do
  assertB (c.point == ch '*')
  let c ← curC cfg
  if c.point = ch '=' then tokNext cfg .StarEqual start
  else if c.point = ch '*' then tokNext cfg .StarStar start
  else if c.point = ch ')' then tokNext cfg .Error_UnexpectedCommentCloser start
  else tok .Star start

/-- `Tokenizer_handleCaret`, 4427-4476. -/
def handleCaret (cfg : Cfg) (start : St) (c : WLC) : M Tok := do
  assertB (c.point == ch '^')
  let c ← curC cfg
  if c.point = ch ':' then
    let _ ← nextC cfg
    let c ← curC cfg
    if c.point = ch '=' then tokNext cfg .CaretColonEqual start
    else tok .Error_ExpectedEqual start
  else if c.point = ch '=' then tokNext cfg .CaretEqual start
  else tok .Caret start

/-- The loop 4514-4534 of `Tokenizer_handleUnhandledBackslash`: skip a name up to and
including a closing bracket. -/
def backslashName (cfg : Cfg) (reset : St) (c : WLC) : M Unit :=
  M.loop (fun (d : St × WLC) =>
    if d.2.point.isAlphaOrDigit then do
      let reset ← M.mark
      let c ← nextC cfg
      pure (.inl (reset, c))
    else if d.2.point = ch ']' then pure (.inr ())
    else do
      M.seek d.1
      pure (.inr ())) (reset, c)

/-- The loops 4554-4566, 4580-4592, 4606-4618, 4631-4643: up to `n` digits; after `n`
digits the character that follows them has been consumed as well. -/
def backslashDigits (cfg : Cfg) (isDig : CP → Bool) : Nat → St → WLC → M Unit
  | 0, _, _ => pure ()
  | n + 1, reset, c =>
    if isDig c.point then do
      let reset ← M.mark
      let c ← nextC cfg
      backslashDigits cfg isDig n reset c
    else M.seek reset

/-- The part of `Tokenizer_handleUnhandledBackslash` before the token is made,
4495-4653. -/
def backslashScan (cfg : Cfg) : M Unit := do
  let c ← nextC cfg
  if c.point = ch '[' then
    let _ ← M.mark
    let c ← nextC cfg
    if c.point.isUpper then
      let reset ← M.mark
      let c ← nextC cfg
      backslashName cfg reset c
    else pure ()
  else if c.point = ch ':' then
    let reset ← M.mark
    let c ← nextC cfg
    backslashDigits cfg CP.isHex 4 reset c
  else if c.point = ch '.' then
    let reset ← M.mark
    let c ← nextC cfg
    backslashDigits cfg CP.isHex 2 reset c
  else if c.point.isOctal then
    let reset ← M.mark
    let c ← nextC cfg
    backslashDigits cfg CP.isOctal 3 reset c
  else if c.point = ch '|' then
    let reset ← M.mark
    let c ← nextC cfg
    backslashDigits cfg CP.isHex 6 reset c
  else pure ()

/-- `Tokenizer_handleUnhandledBackslash`, 4478-4660. -/
def handleBackslash (cfg : Cfg) (start : St) (c : WLC) : M Tok := do
  assertB (c.point == ch '\\')
  let _ ← backslashScan cfg
  tok .Error_UnhandledCharacter start

/-- `Tokenizer_handleMBPunctuation`, 4707-4726. -/
def handlePunctuation (start : St) (c : WLC) : M Tok :=
  match c.point with
  | .char n =>
    match longNameCodePointToOperator n with
    | some k => tok k start
    | none => M.panic .longNameOperator
  | _ => M.panic .tokenizerAssert

/-- `Tokenizer_handleNakedMBLinearSyntax`, 4728-4774. -/
def handleLinearSyntax (start : St) (c : WLC) : M Tok :=
  if c.point = .char 0xf7c0 then tok .LinearSyntax_CloseParen start
  else if c.point = .char 0xf7c2 then tok .LinearSyntax_At start
  else if c.point = .char 0xf7c5 then tok .LinearSyntax_Percent start
  else if c.point = .char 0xf7c6 then tok .LinearSyntax_Caret start
  else if c.point = .char 0xf7c7 then tok .LinearSyntax_Amp start
  else if c.point = .char 0xf7c8 then tok .LinearSyntax_Star start
  else if c.point = .char 0xf7ca then tok .LinearSyntax_Under start
  else if c.point = .char 0xf7cb then tok .LinearSyntax_Plus start
  else if c.point = .char 0xf7cc then tok .LinearSyntax_Slash start
  else if c.point = .char 0xf7cd then tok .LinearSyntax_BackTick start
  else if c.point = .linearSyntaxSpace then tok .LinearSyntax_Space start
  else M.panic .tokenizerTodo

/-- The part of `Tokenizer_nextToken_uncommon` for other than ASCII characters, 725-798.
`isMBStrangeWhitespace`/`isMBWhitespace` and `isMBStrangeNewline`/`isMBNewline` lead to
the same token and are merged. -/
def nextTokenOther (cfg : Cfg) (pol : Pol) (start : St) (c : WLC) : M Tok :=
  if c.point = .char 0xf7c1 then tok .LinearSyntax_Bang start
  else if c.point = .char 0xf7c9 then handleBlob cfg start c
  else if c.point.isMBLinearSyntax then handleLinearSyntax start c
  else if c.point.isMBUninterpretable then tok .Error_UnhandledCharacter start
  else if c.point.isMBWhitespace then tok .Whitespace start
  else if c.point.isMBNewline then tok pol.newline start
  else if c.point.isMBPunctuation then handlePunctuation start c
  else if c.point.isMBStringMeta then tok .Error_UnhandledCharacter start
  else do
    assertB c.point.isMBLetterlike
    handleSymbol cfg pol start c

/-- The characters 579-585 that start a symbol in `Tokenizer_nextToken_uncommon`. -/
def CP.isSymbolStart : CP → Bool
  | .char n => n == 0x60 || inR 0x61 0x7a n || inR 0 0x06 n || n == 0x08 || inR 0x0e 0x1f n
  | _ => false

/-- `Tokenizer_nextToken_uncommon`, 548-799. -/
def nextTokenUncommon (cfg : Cfg) (pol : Pol) (start : St) (c : WLC) : M Tok :=
  if c.point = .eof then tok .EndOfFile start
  else if c.point.isMBUnsafe then tok .Error_UnsafeCharacterEncoding start
  else if c.point.isSymbolStart then handleSymbol cfg pol start c
  else if c.point = .char 0x07 ∨ c.point = .char 0x7f then tok .Error_UnhandledCharacter start
  else if c.point = ch '\t' then tok .Whitespace start
  else if c.point = .char 0x0b ∨ c.point = .char 0x0c then tok .Whitespace start
  else if c.point = ch '\r' then tok pol.newline start
  else if c.point = ch '(' then handleOpenParen cfg start c
  else if c.point = ch ')' then tok .CloseParen start
  else if c.point = ch '+' then handlePlus cfg start c
  else if c.point = ch '^' then handleCaret cfg start c
  else if c.point = ch '=' then handleEqual cfg start c
  else if c.point = ch ';' then handleDoubled cfg ';' .Semi .SemiSemi start c
  else if c.point = ch ':' then handleColon cfg start c
  else if c.point = ch '#' then handleDoubled cfg '#' .Hash .HashHash start c
  else if c.point = ch '&' then handleDoubled cfg '&' .Amp .AmpAmp start c
  else if c.point = ch '!' then handleBang cfg start c
  else if c.point = ch '%' then handlePercent cfg start c
  else if c.point = ch '\'' then tok .SingleQuote start
  else if c.point = ch '*' then handleStar cfg start c
  else if c.point = ch '.' then handleDot cfg pol start c
  else if c.point = ch '/' then handleSlash cfg start c
  else if c.point = ch '<' then handleLess cfg start c
  else if c.point = ch '>' then handleGreater cfg start c
  else if c.point = ch '?' then handleDoubled cfg '?' .Question .QuestionQuestion start c
  else if c.point = ch '@' then handleAt cfg start c
  else if c.point = ch '\\' then handleBackslash cfg start c
  else if c.point = ch '_' then handleUnder cfg start c
  else if c.point = ch '|' then handleBar cfg start c
  else if c.point = ch '~' then handleDoubled cfg '~' .Tilde .TildeTilde start c
  else nextTokenOther cfg pol start c

/-- Rows 65..=90 and 97..=122 of `TOKENIZER_HANDLER_TABLE`, 507 and 513. -/
def CP.isAlpha : CP → Bool
  | .char n => inR 65 90 n || inR 97 122 n
  | _ => false

/-- `TOKENIZER_HANDLER_TABLE`, 486-520, and the dispatch of `Tokenizer_nextToken`,
536-545. -/
def dispatch (cfg : Cfg) (pol : Pol) (start : St) (c : WLC) : M Tok :=
  if c.point = ch '\n' then tok pol.newline start
  else if c.point = ch ' ' then tok .Whitespace start
  else if c.point = ch '"' then handleString cfg start c
  else if c.point = ch '$' ∨ c.point.isAlpha then handleSymbol cfg pol start c
  else if c.point = ch ',' then tok .Comma start
  else if c.point = ch '-' then handleMinus cfg start c
  else if c.point.isDigit then handleNumber cfg pol start c
  else if c.point = ch '[' then tok .OpenSquare start
  else if c.point = ch ']' then tok .CloseSquare start
  else if c.point = ch '{' then tok .OpenCurly start
  else if c.point = ch '}' then tok .CloseCurly start
  else nextTokenUncommon cfg pol start c

/-- `Tokenizer_nextToken`, 525-546. -/
def nextToken (cfg : Cfg) (pol : Pol) : M Tok := do
  let start ← M.mark
  let c ← nextC cfg
  dispatch cfg pol start c

/-- `Tokenizer::peek_token_with`, 297-321; `insideGroup` says whether `GroupStack` is
non-empty. -/
def peekTokenWith (cfg : Cfg) (pol : Pol) (insideGroup : Bool) : M Tok := do
  let mark ← M.mark
  let t ← nextToken cfg { pol with toplevel := pol.toplevel && !insideGroup }
  M.seek mark
  pure t

/-- `Tokenizer::peek_token`, 290-292. -/
def peekToken (cfg : Cfg) (insideGroup : Bool) : M Tok := peekTokenWith cfg Pol.top insideGroup

/-- `Tokenizer_currentToken_stringifyAsTag`, 917-927. -/
def peekTokenTag (cfg : Cfg) : M Tok := do
  let mark ← M.mark
  let t ← nextTokenTag cfg
  M.seek mark
  pure t

/-- `Tokenizer_currentToken_stringifyAsFile`, 929-939. -/
def peekTokenFile (cfg : Cfg) : M Tok := do
  let mark ← M.mark
  let t ← nextTokenFile cfg
  M.seek mark
  pure t

/-- `TokenRef::reset`, tokenize/token.rs:389-397. -/
def Tok.reset (t : Tok) : M Unit := fun s =>
  .ok ((), { s with rest := t.text ++ t.after, loc := t.start })

/-- `TokenRef::skip`, tokenize/token.rs:399-406. -/
def Tok.skip (t : Tok) : M Unit := fun s =>
  .ok ((), { s with rest := t.after, loc := t.stop, eof := t.kind == .EndOfFile })

/-- `FirstLineBehavior`, lib.rs. -/
inductive FirstLine where
  | notScript | check | script
deriving DecidableEq, Repr

/-- `Tokenizer::handle_first_line`, 168-277. -/
def handleFirstLine (cfg : Cfg) : FirstLine → M Unit
  | .notScript => pure ()
  | _ => do
    let t ← peekToken cfg false
    if t.kind ≠ .Hash then pure ()
    else
      t.skip
      let t ← peekToken cfg false
      if t.kind ≠ .Bang then pure ()
      else
        t.skip
        M.loop (fun _ : Unit => do
          let t ← peekToken cfg false
          if t.kind = .EndOfFile then pure (.inr ())
          else if t.kind = .ToplevelNewline then do
            t.skip
            pure (.inr ())
          else do
            t.skip
            pure (.inl ())) ()

/-- The loop of `tokenize_bytes`, lib.rs:385-422, without the rewriting of unterminated
tokens at its end: the tokens up to (excluding) the end of the file. -/
def tokenLoop (cfg : Cfg) : M (List Tok) :=
  M.loop (fun ts : List Tok => do
    let t ← peekToken cfg false
    if t.kind = .EndOfFile then pure (.inr ts.reverse)
    else do
      t.skip
      pure (.inl (t :: ts))) []

/-- `Tokenizer::new`, 137-166, followed by the loop of `tokenize_bytes`. -/
def tokens (cfg : Cfg) (conv : Conv) (first : FirstLine) (bs : List UInt8) :
    Except Err (List Tok × St) :=
  (do handleFirstLine cfg first; tokenLoop cfg : M (List Tok)) (St.init conv bs)

end CodeParser
