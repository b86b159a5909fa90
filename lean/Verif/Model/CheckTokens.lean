import Verif.Model.Check
/-!
Model of tokenize/tokenizer.rs with `check_issues` and `compute_oob`: Model/Tokenizer.lean with the code
that reports issues and that records the positions of tokens with embedded newlines, tabs and line
continuations.  The simplifications are those of Model/Tokenizer.lean and Model/Check.lean.

Line numbers refer to tokenize/tokenizer.rs unless another file is named; paths are relative to
/repo/crates/wolfram-parser/src.
-/
namespace CodeParser.Chk

/-- `Tokenizer::token`, 357-369. -/
def tok (k : TK) (start : St) : M Tok := M.lift (CodeParser.tok k start)

/-- `Tokenizer::error_token_at`, 373-389. -/
def errorTokAt (k : TK) (start : St) : M Tok := M.lift (CodeParser.errorTokAt k start)

/-- `assert!(b)` -/
def assertB (b : Bool) : M Unit := M.lift (CodeParser.assertB b)

/-- `assert!(utils::ifASCIIWLCharacter(buf[0], test))` -/
def assertAscii (at_ : St) (test : UInt8) : M Unit := M.lift (CodeParser.assertAscii at_ test)

/-- The bits of the policies (source.rs:295-332) that decide about issues, and the start of the token. -/
def Env.at (E : Env) (start : Loc) (enable lc : Bool) : Env :=
  { E with enable := enable, lc := lc, str := false, scan := false, tokenStart := start }

/-- `policy |= STRING_OR_COMMENT`, 1153, 1627. -/
def Env.inText (E : Env) : Env := { E with str := true }

/-- `policy.remove(TRACK_LC)`, 1019. -/
def Env.unwatched (E : Env) : Env := { E with lc := false }

/-- The inner loop 971-993 of `Tokenizer_nextWLCharacter`: skip whitespace; `c` is the
character ahead. -/
def skipWhite (E : Env) (c : WLC) : M WLC :=
  M.loop (fun c : WLC =>
    if c.point.isWhitespace then do
      M.when (E.oob && c.point == ch '\t' && E.str) (emit (.embeddedTab E.tokenStart))
      let _ ← nextWL E
      let c ← peekWL E
      pure (.inl c)
    else pure (.inr c)) c

/-- `Tokenizer_nextWLCharacter`, 946-1007: a Wolfram character behind any line
continuations (and the white space that follows them). -/
def nextC (E : Env) : M WLC := do
  let c ← nextWL E
  M.loop (fun c : WLC =>
    if c.point.isLineContinuation then do
      let c ← peekWL E
      let c ← skipWhite E c
      M.when (E.oob && E.lc)
        (emit (if E.str then .complexContinuation E.tokenStart else .simpleContinuation E.tokenStart))
      let _ ← nextWL E
      pure (.inl c)
    else pure (.inr c)) c

/-- `Tokenizer_currentWLCharacter`, 1009-1026. -/
def curC (E : Env) : M WLC := do
  let mark ← M.mark
  let c ← nextC E.unwatched
  M.seek mark
  pure c

/-- `get_token_span(start)`, 391-395: the span from `start` to here. -/
def spanFrom (start : Loc) : M Span := do
  let stop ← here
  spanOf start stop

/-- The issue about a name behind `#`, 1290-1309, 1364-1383, 1518-1535. -/
def slotIssue (start : Loc) : M Unit := do
  let sp ← spanFrom start
  emit (.issue ⟨.syn, .undocumentedSlotSyntax, .warning, sp, 33, []⟩)

/-- The character in the message of `add_unexpected_char_issue`, 4793-4796: its graphical form
for newlines, otherwise both forms. -/
def shownFor (tag : Tag) (c : WLC) : M Unit :=
  if tag = .unexpectedNewlineCharacter then do
    let _ ← shown c.graphical
    pure ()
  else safeAndGraphical c

/-- `add_unexpected_char_issue`, 4780-4816. -/
def unexpectedChar (start : Loc) (c : WLC) (tag : Tag) (conf : Nat) : M Unit := do
  let sp ← spanFrom start
  let actions ← certainActions c sp
  shownFor tag c
  emit (.issue ⟨.syn, tag, .warning, sp, conf, actions⟩)

/-- The issues about a letter of a symbol, 1362-1420 and 1434-1483; `plain` is `isAlpha` for the first
letter of a segment and `isAlphaOrDigit` for the others. -/
def letterIssue (E : Env) (pol : Pol) (charLoc : Loc) (c : WLC) (plain : Bool) : M Unit :=
  if !E.check then pure ()
  else if c.point = ch '$' then
    M.when pol.insideSlot (slotIssue charLoc)
  else if isStrangeLetterlike c.point then unexpectedChar charLoc c .unexpectedLetterlikeCharacter 85
  else if isMBStrangeLetterlike c.point then unexpectedChar charLoc c .unexpectedLetterlikeCharacter 80
  else if !plain && (pol.tagslot && E.enable) then do
    let sp ← spanFrom charLoc
    emit (.issue ⟨.syn, .unexpectedCharacter, .warning, sp, 85, []⟩)
  else pure ()

/-- `addEmbeddedNewline` and `addEmbeddedTab` in comments and strings, 1194-1206 and 1638-1645. -/
def embedded (E : Env) (p : CP) : M Unit :=
  if E.oob && (p == ch '\n' || p == ch '\r' || p == .crlf) then emit (.embeddedNewline E.tokenStart)
  else if E.oob && p == ch '\t' then emit (.embeddedTab E.tokenStart)
  else pure ()

/-- `Tokenizer_backupAndWarn`, 3072-3096. -/
def backupAndWarn (E : Env) (reset : St) : M Unit := do
  M.when E.check
    (emit (.issue ⟨.fmt, .ambiguous, .formatting, spanAt reset.loc, 100, [.insert (spanAt reset.loc) (txt [' '])]⟩))
  M.seek reset

/-- A space is suggested here: the issue of 1986-2011 (`#2.a`), 3755-3773 (`--=`), 3830-3848 (`|>=`) and
4276-4297 (`++=`). -/
def ambiguousHere : M Unit := do
  let l ← here
  emit (.issue ⟨.fmt, .ambiguous, .formatting, spanAt l, 100, [.insert (spanAt l) (txt [' '])]⟩)

/-- `|>=` and `++=`, 3823-3850 and 4269-4297. -/
def equalIssue (E : Env) : M Unit := do
  let c ← curC E
  M.when (c.point = ch '=') ambiguousHere

/-- `_..`, 3472-3507. -/
def underDotIssue (E : Env) : M Unit := do
  let l ← here
  let c ← curC E
  if c.point = ch '.' then
    emit (.issue ⟨.syn, .unexpectedDot, .error, spanAt l, 95, [.insert (spanAt l) (txt [' '])]⟩)
  else pure ()

/-- `-->` and `--=`, 3698-3775. -/
def minusMinusIssue (E : Env) (start : St) : M Unit := do
  let l ← here
  let c ← curC E
  if c.point = ch '>' then
    let sp ← spanOf start.loc l
    emit (.issue ⟨.syn, .ambiguous, .error, sp, 95, [.replace sp (txt ['-']), .insert (spanAt l) (txt [' '])]⟩)
  else if c.point = ch '=' then ambiguousHere
  else pure ()

/-- Read the next character and emit a token: the common tail
`Tokenizer_nextWLCharacter(..); return session.token(kind, token_start)`. -/
def tokNext (E : Env) (k : TK) (start : St) : M Tok := do
  let _ ← nextC E
  tok k start

/-! ### Comments, linear syntax, symbols, strings -/

/-- `Tokenizer_handleComment`, 1137-1212. -/
def handleComment (E : Env) (start : St) (c : CP) : M Tok := do
  assertB (c == ch '*')
  let _ ← src E
  let c ← src E.inText
  let closed ← M.loop (fun (d : Nat × CP) =>
    if d.2 = ch '(' then do
      let c ← src E.inText
      if c = ch '*' then do
        let c ← src E.inText
        pure (.inl (d.1 + 1, c))
      else pure (.inl (d.1, c))
    else if d.2 = ch '*' then do
      let c ← src E.inText
      if c = ch ')' then
        if d.1 - 1 = 0 then pure (.inr true)
        else do
          let c ← src E.inText
          pure (.inl (d.1 - 1, c))
      else pure (.inl (d.1, c))
    else if d.2 = .eof then pure (.inr false)
    else do
      embedded E.inText d.2
      let c ← src E.inText
      pure (.inl (d.1, c))) (1, c)
  tok (if closed then .Comment else .Error_UnterminatedComment) start

/-- `Tokenizer_handleMBLinearSyntaxBlob`, 1214-1254. -/
def handleBlob (E : Env) (start : St) (c : WLC) : M Tok := do
  assertB (c.point == .char 0xf7c9)
  let c ← nextC E
  let closed ← M.loop (fun (d : Nat × WLC) =>
    if d.2.point = .char 0xf7c9 then do
      let c ← nextC E
      pure (.inl (d.1 + 1, c))
    else if d.2.point = .char 0xf7c0 then
      if d.1 - 1 = 0 then pure (.inr true)
      else do
        let c ← nextC E
        pure (.inl (d.1 - 1, c))
    else if d.2.point = .eof then pure (.inr false)
    else do
      let c ← nextC E
      pure (.inl (d.1, c))) (1, c)
  tok (if closed then .LinearSyntaxBlob else .Error_UnterminatedLinearSyntaxBlob) start

/-- A letter of a symbol is read, and the issues about it are reported, 1331-1337 and 1362-1420, or
1426-1483. -/
def letterRead (E : Env) (pol : Pol) (c : WLC) (plain : Bool) : M Unit := do
  let charLoc ← here
  let _ ← nextC E
  letterIssue E pol charLoc c plain

/-- `Tokenizer_handleSymbolSegment`, 1352-1508; the result is the character that ended
the segment, which has been consumed if it is a backquote.  The issues about the first letter (1362-1420)
are with the callers. -/
def symbolSegment (E : Env) (pol : Pol) (c : WLC) : M WLC := do
  assertB c.isLetter
  let c ← curC E
  M.loop (fun c : WLC =>
    if c.point.isDigit then do
      let _ ← nextC E
      let c ← curC E
      pure (.inl c)
    else if c.isLetter then do
      letterRead E pol c c.point.isAlphaOrDigit
      let c ← curC E
      pure (.inl c)
    else if c.point = ch '`' then do
      let _ ← nextC E
      pure (.inr c)
    else pure (.inr c)) c

/-- The first segment, 1270-1279. -/
def symbolFirst (E : Env) (pol : Pol) (start : St) (c : WLC) : M WLC :=
  if c.isLetter then do
    letterIssue E pol start.loc c c.point.isAlpha
    symbolSegment E pol c
  else pure c

/-- `Tokenizer_handleSymbol`, 1260-1344. -/
def handleSymbol (E : Env) (pol : Pol) (start : St) (c : WLC) : M Tok := do
  assertB (c.point == ch '`' || c.isLetter)
  let c ← symbolFirst E pol start c
  let ok ← M.loop (fun c : WLC =>
    if c.point ≠ ch '`' then pure (.inr true)
    else do
      M.when (E.check && pol.insideSlot) (slotIssue start.loc)
      let c ← curC E
      if c.isLetter then do
        letterRead E pol c c.point.isAlpha
        let c ← symbolSegment E pol c
        pure (.inl c)
      else pure (.inr false)) c
  if ok then tok (if pol.insideSlot then .String else .Symbol) start
  else tok .Error_ExpectedLetterlike start

/-- `Tokenizer_handleString`, 1510-1649 (the loop 1629-1648; the fast path needs a
cargo feature that is off). -/
def handleString (E : Env) (pol : Pol) (start : St) (c : WLC) : M Tok := do
  assertB (c.point == ch '"')
  M.when (E.check && pol.insideSlot) (slotIssue start.loc)
  let closed ← M.loop (fun _ : Unit => do
    let c ← nextC E.inText
    if c.point = ch '"' then pure (.inr true)
    else if c.point = .eof then pure (.inr false)
    else do
      embedded E.inText c.point
      pure (.inl ())) ()
  tok (if closed then .String else .Error_UnterminatedString) start

/-- `Tokenizer_handleString_stringifyAsTag`, 1651-1690. -/
def stringifyAsTagRest (E : Env) (start : St) (c : WLC) : M Tok :=
  if c.isLetter then do
    let letterLoc ← here
    letterIssue E Pol.tag letterLoc c c.point.isAlpha
    let _ ← symbolSegment E Pol.tag c
    tok .String start
  else errorTokAt .Error_ExpectedTag start

/-- `Tokenizer_nextToken_stringifyAsTag`, 801-845, behind the mark. -/
def nextTokenTagAt (E : Env) (start : St) : M Tok := do
  let c ← nextC E
  if c.point = .eof then errorTokAt .Error_ExpectedTag start
  else if c.point = ch '\n' ∨ c.point = ch '\r' ∨ c.point = .crlf then
    errorTokAt .Error_ExpectedTag start
  else if c.point = ch '"' then handleString E Pol.tag start c
  else stringifyAsTagRest E start c

/-- `Tokenizer_nextToken_stringifyAsTag`, 801-845. -/
def nextTokenTag (E : Env) : M Tok := do
  let start ← M.mark
  nextTokenTagAt (E.at start.loc true true) start

/-- `Tokenizer_handleFileOpsBrackets`, 1827-1888; `none` is `UnterminatedFileString`. -/
def fileBrackets (E : Env) (c : CP) : M (Option CP) := do
  assertB (c == ch '[')
  let c ← peekSrc E
  M.loop (fun (d : Nat × CP) =>
    if d.2.isFileBreak then pure (.inr none)
    else if d.2 = .eof then pure (.inr none)
    else if d.2 = ch '[' then do
      let _ ← src E
      let c ← peekSrc E
      pure (.inl (d.1 + 1, c))
    else if d.2 = ch ']' then do
      let _ ← src E
      let c ← peekSrc E
      if d.1 - 1 = 0 then pure (.inr (some c)) else pure (.inl (d.1 - 1, c))
    else if d.2.isMBWhitespace || d.2.isMBNewline then pure (.inr none)
    else do
      let _ ← src E
      let c ← peekSrc E
      pure (.inl (d.1, c))) (1, c)

/-- The loop of `Tokenizer_handleString_stringifyAsFile`, 1754-1805: `false` is an
unterminated bracket. -/
def fileLoop (E : Env) (c : CP) : M Bool :=
  M.loop (fun c : CP =>
    if c.isFileChar then do
      let _ ← src E
      let c ← peekSrc E
      pure (.inl c)
    else if c = ch '[' then do
      let _ ← src E
      let r ← fileBrackets E c
      match r with
      | some c => pure (.inl c)
      | none => pure (.inr false)
    else pure (.inr true)) c

/-- `Tokenizer_handleString_stringifyAsFile`, 1695-1806. -/
def stringifyAsFileRest (E : Env) (start : St) (c : CP) : M Tok :=
  if c.isFileStart then do
    let c ← peekSrc E
    let ok ← fileLoop E c
    tok (if ok then .String else .Error_UnterminatedFileString) start
  else if c = ch '[' then do
    let r ← fileBrackets E c
    match r with
    | none => tok .Error_UnterminatedFileString start
    | some c => do
      let ok ← fileLoop E c
      tok (if ok then .String else .Error_UnterminatedFileString) start
  else errorTokAt .Error_ExpectedFile start

/-- `Tokenizer_nextToken_stringifyAsFile`, 850-915, behind the mark. -/
def nextTokenFileAt (E : Env) (start : St) : M Tok := do
  let c ← src E
  if c = .eof then errorTokAt .Error_ExpectedFile start
  else if c = ch '\n' ∨ c = ch '\r' ∨ c = .crlf then tok Pol.file.newline start
  else if c = ch ' ' ∨ c = ch '\t' then tok .Whitespace start
  else if c = ch '"' then handleString E Pol.file start ⟨c, .none⟩
  else stringifyAsFileRest E start c

/-- `Tokenizer_nextToken_stringifyAsFile`, 850-915. -/
def nextTokenFile (E : Env) : M Tok := do
  let start ← M.mark
  nextTokenFileAt (E.at start.loc false false) start

/-! ### Numbers -/

/-- `Tokenizer_handleZeros`, 3104-3129. -/
def handleZeros (E : Env) (c : WLC) : M (Nat × WLC) := do
  assertB (c.point == ch '0')
  let c ← curC E
  M.loop (fun (d : Nat × WLC) =>
    if d.2.point ≠ ch '0' then pure (.inr d)
    else do
      let _ ← nextC E
      let c ← curC E
      pure (.inl (d.1 + 1, c))) (1, c)

/-- `Tokenizer_handleDigits`, 3137-3162. -/
def handleDigits (E : Env) (c : WLC) : M (Nat × WLC) := do
  assertB c.point.isDigit
  let c ← curC E
  M.loop (fun (d : Nat × WLC) =>
    if !d.2.point.isDigit then pure (.inr d)
    else do
      let _ ← nextC E
      let c ← curC E
      pure (.inl (d.1 + 1, c))) (1, c)

/-- `Tokenizer_handleAlphaOrDigits`, 3170-3211; the count, the next character and
whether a digit out of range was seen. -/
def handleAlphaOrDigits (E : Env) (c : WLC) (base : Nat) : M (Nat × WLC × Bool) := do
  assertB c.point.isAlphaOrDigit
  M.loop (fun (d : Nat × WLC × Bool) =>
    if !d.2.1.point.isAlphaOrDigit then pure (.inr d)
    else if base = 0 then
      if !d.2.1.point.isDigit then pure (.inr d)
      else do
        let _ ← nextC E
        let c ← curC E
        pure (.inl (d.1 + 1, c, d.2.2))
    else do
      let _ ← nextC E
      let c ← curC E
      pure (.inl (d.1 + 1, c, d.2.2 || decide (base ≤ d.2.1.point.digitValue)))) (0, c, false)

/-- `Tokenizer_handlePossibleFractionalPartPastDot`, 2998-3070. -/
def fractionPastDot (E : Env) (dot : St) (c : WLC) (base : Nat) (x : NumCtx) :
    M (Fraction × WLC × NumCtx) :=
  if c.point = ch '.' then do
    backupAndWarn E dot
    let c ← curC E
    pure (.bailout, c, x)
  else if c.point.isAlphaOrDigit then do
    let (n, c, bad) ← handleAlphaOrDigits E c base
    M.when (decide (n > 0) && E.check && c.point == ch '.')
      (emit (.issue ⟨.syn, .unexpectedImplicitTimes, .error, spanAt dot.loc, 99, [.insert (spanAt dot.loc) (txt ['*'])]⟩))
    pure (.count n, c, { x with unrecognizedDigit := x.unrecognizedDigit || bad })
  else pure (.count 0, c, x)

/-- `Tokenizer_handlePossibleFractionalPart`, 2965-2988. -/
def possibleFraction (E : Env) (dot : St) (c : WLC) (x : NumCtx) :
    M (Fraction × WLC × NumCtx) := do
  assertB (c.point == ch '.')
  let c ← curC E
  fractionPastDot E dot c x.base x

/-- The end of the exponent in `Tokenizer_handleNumber`, 2849-2903. -/
def numExponentEnd (E : Env) (start : St) (x : NumCtx) (c : WLC) : M Tok :=
  if c.point ≠ ch '.' then tok x.kind start
  else do
    let dot ← M.mark
    assertAscii dot 0x2e
    let _ ← nextC E
    let c ← curC E
    let (h, _, x) ← fractionPastDot E dot c x.base x
    match h with
    | .bailout => tok x.kind start
    | .count _ => tok .Error_Number start

/-- The leading zeros of an exponent, 2837-2842. -/
def expZeros (E : Env) (c : WLC) : M WLC :=
  if c.point = ch '0' then do
    let (_, c) ← handleZeros E c
    pure c
  else pure c

/-- The digits of an exponent, 2844-2847. -/
def expDigits (E : Env) (x : NumCtx) (c : WLC) : M (NumCtx × WLC) :=
  if c.point.isDigit then do
    let (n, c) ← handleDigits E c
    pure ({ x with nonZeroExponentDigits := n }, c)
  else pure (x, c)

/-- The sign of an exponent, 2814-2821. -/
def expSign (E : Env) (x : NumCtx) (c : WLC) : M (NumCtx × WLC) :=
  if c.point = ch '+' ∨ c.point = ch '-' then do
    let _ ← nextC E
    let c' ← curC E
    pure ({ x with negativeExponent := x.negativeExponent || (c.point == ch '-') }, c')
  else pure (x, c)

/-- `Tokenizer_handleNumber` from the star of `*^` on, 2780-2903. -/
def numStar (E : Env) (start : St) (star : Option St) (x : NumCtx) (c : WLC) : M Tok := do
  assertB (c.point == ch '*')
  match star with
  | none => M.panic .tokenizerAssert
  | some star =>
    assertAscii star 0x2a
    let c ← curC E
    if c.point ≠ ch '^' then
      M.seek star
      tok x.kind start
    else
      let _ ← nextC E
      let c ← curC E
      let (x, c) ← expSign E x c
      if !c.point.isDigit then tok .Error_Number start
      else
        let c ← expZeros E c
        let (x, c) ← expDigits E x c
        numExponentEnd E start x c

/-- Where a precision ends, `Tokenizer_handleNumber` 2730-2777. -/
def numPrecisionEnd (E : Env) (start : St) (x : NumCtx) (accuracy supplied : Bool) (c : WLC) :
    M Tok :=
  if accuracy && !supplied then tok .Error_Number start
  else if c.point = ch '*' then do
    let star ← M.mark
    assertAscii star 0x2a
    let _ ← nextC E
    numStar E start (some star) x c
  else tok x.kind start

/-- The fraction of a precision, `Tokenizer_handleNumber` 2661-2726, behind the dot;
`sign` is the position of the sign, if there is one. -/
def numPrecisionFraction (E : Env) (start : St) (x : NumCtx) (accuracy : Bool) (sign : Option St)
    (supplied : Bool) (dot : St) (c : WLC) : M Tok := do
  let (h, c, x) ← fractionPastDot E dot c 0 x
  match h with
  | .bailout =>
    if supplied then tok x.kind start
    else
      match sign with
      | some sign =>
        backupAndWarn E sign
        tok x.kind start
      | none => M.panic .tokenizerAssert
  | .count n =>
    if !(supplied || n != 0) then tok .Error_Number start
    else numPrecisionEnd E start x accuracy true c

/-- The dot of a precision, `Tokenizer_handleNumber` 2553-2728. -/
def numPrecisionDot (E : Env) (start : St) (x : NumCtx) (accuracy : Bool) (sign : Option St)
    (supplied : Bool) (c : WLC) : M Tok :=
  if c.point = ch '.' then do
    let dot ← M.mark
    assertAscii dot 0x2e
    let _ ← nextC E
    let c ← curC E
    if sign.isSome || supplied then
      numPrecisionFraction E start x accuracy sign supplied dot c
    else if !c.point.isDigit then
      if accuracy then tok .Error_Number start
      else if c.point.isSign then tokNext E .Error_Number start
      else do
        backupAndWarn E dot
        tok x.kind start
    else numPrecisionFraction E start x accuracy sign supplied dot c
  else numPrecisionEnd E start x accuracy supplied c

/-- The integer digits of a precision, `Tokenizer_handleNumber` 2524-2551. -/
def numPrecisionDigits (E : Env) (start : St) (x : NumCtx) (accuracy : Bool) (sign : Option St)
    (c : WLC) : M Tok :=
  if c.point.isDigit then do
    let (n, c) ← handleDigits E c
    if c.point = ch '.' ∨ c.point = ch '*' then
      numPrecisionDot E start x accuracy sign (decide (n > 0)) c
    else tok x.kind start
  else numPrecisionDot E start x accuracy sign false c

/-- The issue about the sign of a precision, 2438-2490; the first byte of the sign is taken as a text by
`as_str`. -/
def signIssue (sign : St) (b : UInt8) : M Unit :=
  if b.toNat > 0x7f then M.fail .shown
  else emit (.issue ⟨.syn, .unexpectedSign, .warning, spanAt sign.loc, 95, []⟩)

/-- The sign of a precision, `Tokenizer_handleNumber` 2399-2522. -/
def numPrecisionSign (E : Env) (start : St) (x : NumCtx) (accuracy : Bool) (c : WLC) : M Tok :=
  if c.point = ch '-' ∨ c.point = ch '+' then do
    let sign ← M.mark
    match sign.rest with
    | [] => M.panic .index
    | b :: _ =>
      assertB (ifAsciiWL b 0x2d || ifAsciiWL b 0x2b)
      let _ ← nextC E
      let c ← curC E
      if c.point.isDigit || c.point == ch '.' then
        M.when (E.check && !accuracy) (signIssue sign b)
        numPrecisionDigits E start x accuracy (some sign) c
      else if accuracy then tok .Error_Number start
      else
        backupAndWarn E sign
        tok x.kind start
  else numPrecisionDigits E start x accuracy none c

/-- `Tokenizer_handleNumber` from the backquote of a precision on, 2371-2778. -/
def numPrecision (E : Env) (start : St) (star : Option St) (x : NumCtx) (c : WLC) : M Tok := do
  assertB (c.point == ch '`' || c.point == ch '*')
  if c.point = ch '`' then
    let x := { x with real := true }
    let c ← curC E
    if c.point = ch '`' then
      let _ ← nextC E
      let c ← curC E
      numPrecisionSign E start x true c
    else numPrecisionSign E start x false c
  else numStar E start star x c

/-- After a fraction, `Tokenizer_handleNumber` 2291-2325 and 2332-2366. -/
def numAfterFraction (E : Env) (start : St) (star : Option St) (x : NumCtx) (c : WLC) : M Tok :=
  let x := { x with real := true }
  if c.point = ch '*' then do
    let star ← M.mark
    assertAscii star 0x2a
    let _ ← nextC E
    numPrecision E start (some star) x c
  else if c.point = ch '`' then do
    let _ ← nextC E
    numPrecision E start star x c
  else tok x.kind start

/-- `Tokenizer_handleNumber` from the radix point on, 2241-2904. -/
def numFraction (E : Env) (start lead : St) (leadCount : Nat) (star : Option St) (x : NumCtx)
    (c : WLC) : M Tok :=
  if c.point = ch '.' then do
    let (h, c, x) ← possibleFraction E lead c x
    match h with
    | .bailout => if leadCount = 0 then tok .Error_Number start else tok x.kind start
    | .count 0 =>
      if leadCount = 0 then tok .Error_Number start else numAfterFraction E start star x c
    | .count _ => numAfterFraction E start star x c
  else numPrecision E start star x c

/-- Behind the digits that follow `^^`, `Tokenizer_handleNumber` 2157-2194. -/
def numAfterBaseDigits (E : Env) (start lead : St) (n : Nat) (x : NumCtx) (c : WLC) : M Tok :=
  if c.point = ch '*' then do
    let star ← M.mark
    assertAscii star 0x2a
    let _ ← nextC E
    numFraction E start lead n (some star) x c
  else if c.point = ch '.' ∨ c.point = ch '`' then do
    let _ ← nextC E
    numFraction E start lead n none x c
  else tok x.kind start

/-- `Tokenizer_handleNumber` behind the first caret of `^^`, 2063-2238; `nz` is the
position of the first non-zero digit. -/
def numBase (E : Env) (start nz caret : St) (x : NumCtx) : M Tok := do
  let c ← curC E
  if c.point ≠ ch '^' then
    M.seek caret
    tok x.kind start
  else
    let _ ← nextC E
    let x := numBaseOf (between nz caret) x
    let c ← curC E
    if c.point.isAlphaOrDigit then
      let (n, c, bad) ← handleAlphaOrDigits E c x.base
      let lead ← M.mark
      numAfterBaseDigits E start lead n { x with unrecognizedDigit := x.unrecognizedDigit || bad } c
    else if c.point = ch '.' then
      let lead ← M.mark
      let _ ← nextC E
      numFraction E start lead 0 none x c
    else if c.point = .eof then
      let _ ← nextC E
      let _ ← curC E
      tok .Error_Number start
    else tok .Error_Number start

/-- The leading zeros, `Tokenizer_handleNumber` 1957-1967: their number, the position of
the first non-zero digit, and the next character. -/
def numZeros (E : Env) (start : St) (c : WLC) : M (Nat × St × WLC) :=
  if c.point = ch '0' then do
    let (n, c) ← handleZeros E c
    let nz ← M.mark
    pure (n, nz, c)
  else pure (0, start, c)

/-- The other leading digits, `Tokenizer_handleNumber` 1973-1983: their number, the
position behind them, and the next character. -/
def numDigits (E : Env) (c : WLC) : M (Nat × St × WLC) := do
  let lead ← M.mark
  if c.point.isDigit then
    let (n, c) ← handleDigits E c
    let lead ← M.mark
    pure (n, lead, c)
  else pure (0, lead, c)

/-- `Tokenizer_handleNumber`, 1910-2904.  The mark of line 1937 (used for a number
starting with a dot) is the start of the token; it is never gone back to. -/
def handleNumber (E : Env) (pol : Pol) (start : St) (c : WLC) : M Tok := do
  assertB (c.point.isDigit || c.point == ch '.')
  if c.point.isDigit then
    let (n, nz, c) ← numZeros E start c
    let (m, lead, c) ← numDigits E c
    let x : NumCtx := {}
    if pol.intShort then
      M.when (E.check && c.point == ch '.') ambiguousHere
      tok x.kind start
    else if c.point = ch '^' then
      let caret ← M.mark
      assertAscii caret 0x5e
      let _ ← nextC E
      numBase E start nz caret x
    else if c.point = ch '*' then
      let star ← M.mark
      assertAscii star 0x2a
      let _ ← nextC E
      numFraction E start lead (n + m) (some star) x c
    else if c.point = ch '.' ∨ c.point = ch '`' then
      let _ ← nextC E
      numFraction E start lead (n + m) none x c
    else tok x.kind start
  else numFraction E start start 0 none {} c

/-! ### Operators -/

/-- `Tokenizer_handleColon`, 3213-3274. -/
def handleColon (E : Env) (start : St) (c : WLC) : M Tok := do
  assertB (c.point == ch ':')
  let c ← curC E
  if c.point = ch ':' then
    let _ ← nextC E
    let c ← curC E
    if c.point = ch '[' then tokNext E .ColonColonOpenSquare start
    else tok .ColonColon start
  else if c.point = ch '=' then tokNext E .ColonEqual start
  else if c.point = ch '>' then tokNext E .ColonGreater start
  else tok .Colon start

/-- `Tokenizer_handleOpenParen`, 3276-3311. -/
def handleOpenParen (E : Env) (start : St) (c : WLC) : M Tok := do
  assertB (c.point == ch '(')
  let second ← peekSrc E
  if c.escape = .none ∧ second = ch '*' then handleComment E start second
  else tok .OpenParen start

/-- `Tokenizer_handleDot`, 3313-3362. -/
def handleDot (E : Env) (pol : Pol) (start : St) (first : WLC) : M Tok := do
  assertB (first.point == ch '.')
  let c ← curC E
  if c.point.isDigit then handleNumber E pol start first
  else if c.point = ch '.' then
    let _ ← nextC E
    let c ← curC E
    if c.point = ch '.' then tokNext E .DotDotDot start
    else tok .DotDot start
  else tok .Dot start

/-- `Tokenizer_handleEqual`, 3364-3431. -/
def handleEqual (E : Env) (start : St) (c : WLC) : M Tok := do
  assertB (c.point == ch '=')
  let c ← curC E
  if c.point = ch '=' then
    let _ ← nextC E
    let c ← curC E
    if c.point = ch '=' then tokNext E .EqualEqualEqual start
    else tok .EqualEqual start
  else if c.point = ch '!' then
    let bang ← M.mark
    let _ ← nextC E
    let c ← curC E
    if c.point = ch '=' then tokNext E .EqualBangEqual start
    else
      backupAndWarn E bang
      tok .Equal start
  else tok .Equal start

/-- `Tokenizer_handleUnder`, 3433-3522. -/
def handleUnder (E : Env) (start : St) (c : WLC) : M Tok := do
  assertB (c.point == ch '_')
  let c ← curC E
  if c.point = ch '_' then
    let _ ← nextC E
    let c ← curC E
    if c.point = ch '_' then tokNext E .UnderUnderUnder start
    else tok .UnderUnder start
  else if c.point = ch '.' then
    let _ ← nextC E
    M.when E.check (underDotIssue E)
    tok .UnderDot start
  else tok .Under start

/-- `Tokenizer_handleLess`, 3524-3606. -/
def handleLess (E : Env) (start : St) (c : WLC) : M Tok := do
  assertB (c.point == ch '<')
  let c ← curC E
  if c.point = ch '|' then tokNext E .LessBar start
  else if c.point = ch '<' then tokNext E .LessLess start
  else if c.point = ch '>' then tokNext E .LessGreater start
  else if c.point = ch '=' then tokNext E .LessEqual start
  else if c.point = ch '-' then
    let minus ← M.mark
    let _ ← nextC E
    let c ← curC E
    if c.point = ch '>' then tokNext E .LessMinusGreater start
    else
      backupAndWarn E minus
      tok .Less start
  else tok .Less start

/-- `Tokenizer_handleGreater`, 3608-3658. -/
def handleGreater (E : Env) (start : St) (c : WLC) : M Tok := do
  assertB (c.point == ch '>')
  let c ← curC E
  if c.point = ch '>' then
    let _ ← nextC E
    let c ← curC E
    if c.point = ch '>' then tokNext E .GreaterGreaterGreater start
    else tok .GreaterGreater start
  else if c.point = ch '=' then tokNext E .GreaterEqual start
  else tok .Greater start

/-- `Tokenizer_handleMinus`, 3660-3798. -/
def handleMinus (E : Env) (start : St) (c : WLC) : M Tok := do
  assertB (c.point == ch '-')
  let c ← curC E
  if c.point = ch '>' then tokNext E .MinusGreater start
  else if c.point = ch '-' then
    let _ ← nextC E
    M.when E.check (minusMinusIssue E start)
    tok .MinusMinus start
  else if c.point = ch '=' then tokNext E .MinusEqual start
  else tok .Minus start

/-- `Tokenizer_handleBar`, 3800-3898. -/
def handleBar (E : Env) (start : St) (c : WLC) : M Tok := do
  assertB (c.point == ch '|')
  let c ← curC E
  if c.point = ch '>' then
    let _ ← nextC E
    M.when E.check (equalIssue E)
    tok .BarGreater start
  else if c.point = ch '|' then tokNext E .BarBar start
  else if c.point = ch '-' then
    let bar ← M.mark
    let _ ← nextC E
    let c ← curC E
    if c.point = ch '>' then tokNext E .BarMinusGreater start
    else
      backupAndWarn E bar
      tok .Bar start
  else tok .Bar start

/-- The handlers whose only longer form is the doubled character:
`Tokenizer_handleSemi` 3900-3925, `Tokenizer_handleHash` 3966-3993,
`Tokenizer_handleAmp` 4032-4059, `Tokenizer_handleTilde` 4324-4349,
`Tokenizer_handleQuestion` 4351-4376. -/
def handleDoubled (E : Env) (x : Char) (single double : TK) (start : St) (c : WLC) : M Tok := do
  assertB (c.point == ch x)
  let c ← curC E
  if c.point = ch x then tokNext E double start
  else tok single start

/-- `Tokenizer_handleBang`, 3927-3964. -/
def handleBang (E : Env) (start : St) (c : WLC) : M Tok := do
  assertB (c.point == ch '!')
  let c ← curC E
  if c.point = ch '=' then tokNext E .BangEqual start
  else if c.point = ch '!' then tokNext E .BangBang start
  else tok .Bang start

/-- `Tokenizer_handlePercent`, 3995-4030. -/
def handlePercent (E : Env) (start : St) (c : WLC) : M Tok := do
  assertB (c.point == ch '%')
  let c ← curC E
  if c.point = ch '%' then
    let c ← curC E
    let _ ← M.loop (fun c : WLC =>
      if c.point ≠ ch '%' then pure (.inr ())
      else do
        let _ ← nextC E
        let c ← curC E
        pure (.inl c)) c
    tok .PercentPercent start
  else tok .Percent start

/-- `Tokenizer_handleSlash`, 4061-4198. -/
def handleSlash (E : Env) (start : St) (c : WLC) : M Tok := do
  assertB (c.point == ch '/')
  let c ← curC E
  if c.point = ch '@' then tokNext E .SlashAt start
  else if c.point = ch ';' then tokNext E .SlashSemi start
  else if c.point = ch '.' then
    let dot ← M.mark
    let _ ← nextC E
    let c ← curC E
    if !c.point.isDigit then tok .SlashDot start
    else
      backupAndWarn E dot
      tok .Slash start
  else if c.point = ch '/' then
    let _ ← nextC E
    let c ← curC E
    if c.point = ch '.' then tokNext E .SlashSlashDot start
    else if c.point = ch '@' then tokNext E .SlashSlashAt start
    else if c.point = ch '=' then tokNext E .SlashSlashEqual start
    else tok .SlashSlash start
  else if c.point = ch ':' then tokNext E .SlashColon start
  else if c.point = ch '=' then tokNext E .SlashEqual start
  else if c.point = ch '*' then tokNext E .SlashStar start
  else tok .Slash start

/-- `Tokenizer_handleAt`, 4200-4249. -/
def handleAt (E : Env) (start : St) (c : WLC) : M Tok := do
  assertB (c.point == ch '@')
  let c ← curC E
  if c.point = ch '@' then
    let _ ← nextC E
    let c ← curC E
    if c.point = ch '@' then tokNext E .AtAtAt start
    else tok .AtAt start
  else if c.point = ch '*' then tokNext E .AtStar start
  else tok .At start

/-- `Tokenizer_handlePlus`, 4251-4322. -/
def handlePlus (E : Env) (start : St) (c : WLC) : M Tok := do
  assertB (c.point == ch '+')
  let c ← curC E
  if c.point = ch '+' then
    let _ ← nextC E
    M.when E.check (equalIssue E)
    tok .PlusPlus start
  else if c.point = ch '=' then tokNext E .PlusEqual start
  else tok .Plus start

/-- `Tokenizer_handleStar`, 4378-4425. -/
def handleStar (E : Env) (start : St) (c : WLC) : M Tok := do
  assertB (c.point == ch '*')
  let c ← curC E
  if c.point = ch '=' then tokNext E .StarEqual start
  else if c.point = ch '*' then tokNext E .StarStar start
  else if c.point = ch ')' then tokNext E .Error_UnexpectedCommentCloser start
  else tok .Star start

/-- `Tokenizer_handleCaret`, 4427-4476. -/
def handleCaret (E : Env) (start : St) (c : WLC) : M Tok := do
  assertB (c.point == ch '^')
  let c ← curC E
  if c.point = ch ':' then
    let _ ← nextC E
    let c ← curC E
    if c.point = ch '=' then tokNext E .CaretColonEqual start
    else tok .Error_ExpectedEqual start
  else if c.point = ch '=' then tokNext E .CaretEqual start
  else tok .Caret start

/-- The loop 4514-4534 of `Tokenizer_handleUnhandledBackslash`: skip a name up to and
including a closing bracket. -/
def backslashName (E : Env) (reset : St) (c : WLC) : M Unit :=
  M.loop (fun (d : St × WLC) =>
    if d.2.point.isAlphaOrDigit then do
      let reset ← M.mark
      let c ← nextC E
      pure (.inl (reset, c))
    else if d.2.point = ch ']' then pure (.inr ())
    else do
      M.seek d.1
      pure (.inr ())) (reset, c)

/-- The loops 4554-4566, 4580-4592, 4606-4618, 4631-4643: up to `n` digits; after `n`
digits the character that follows them has been consumed as well. -/
def backslashDigits (E : Env) (isDig : CP → Bool) : Nat → St → WLC → M Unit
  | 0, _, _ => pure ()
  | n + 1, reset, c =>
    if isDig c.point then do
      let reset ← M.mark
      let c ← nextC E
      backslashDigits E isDig n reset c
    else M.seek reset

/-- The part of `Tokenizer_handleUnhandledBackslash` before the token is made,
4495-4653. -/
def backslashScan (E : Env) : M Unit := do
  let c ← nextC E
  if c.point = ch '[' then
    let _ ← M.mark
    let c ← nextC E
    if c.point.isUpper then
      let reset ← M.mark
      let c ← nextC E
      backslashName E reset c
    else pure ()
  else if c.point = ch ':' then
    let reset ← M.mark
    let c ← nextC E
    backslashDigits E CP.isHex 4 reset c
  else if c.point = ch '.' then
    let reset ← M.mark
    let c ← nextC E
    backslashDigits E CP.isHex 2 reset c
  else if c.point.isOctal then
    let reset ← M.mark
    let c ← nextC E
    backslashDigits E CP.isOctal 3 reset c
  else if c.point = ch '|' then
    let reset ← M.mark
    let c ← nextC E
    backslashDigits E CP.isHex 6 reset c
  else pure ()

/-- `Tokenizer_handleUnhandledBackslash`, 4478-4660. -/
def handleBackslash (E : Env) (start : St) (c : WLC) : M Tok := do
  assertB (c.point == ch '\\')
  let _ ← backslashScan E
  tok .Error_UnhandledCharacter start

/-- `Tokenizer_handleMBPunctuation`, 4707-4726. -/
def handlePunctuation (start : St) (c : WLC) : M Tok := M.lift (CodeParser.handlePunctuation start c)

/-- `Tokenizer_handleNakedMBLinearSyntax`, 4728-4774. -/
def handleLinearSyntax (start : St) (c : WLC) : M Tok := M.lift (CodeParser.handleLinearSyntax start c)

/-- The part of `Tokenizer_nextToken_uncommon` for other than ASCII characters, 725-798.
`isMBStrangeWhitespace` is `isMBWhitespace`; `isMBStrangeNewline` is a newline other than CR LF. -/
def nextTokenOther (E : Env) (pol : Pol) (start : St) (c : WLC) : M Tok :=
  if c.point = .char 0xf7c1 then tok .LinearSyntax_Bang start
  else if c.point = .char 0xf7c9 then handleBlob E start c
  else if c.point.isMBLinearSyntax then handleLinearSyntax start c
  else if c.point.isMBUninterpretable then tok .Error_UnhandledCharacter start
  else if c.point.isMBWhitespace then do
    M.when E.check (unexpectedChar start.loc c .unexpectedSpaceCharacter 85)
    tok .Whitespace start
  else if c.point.isMBNewline then do
    M.when (E.check && c.point != .crlf) (unexpectedChar start.loc c .unexpectedNewlineCharacter 85)
    tok pol.newline start
  else if c.point.isMBPunctuation then handlePunctuation start c
  else if c.point.isMBStringMeta then tok .Error_UnhandledCharacter start
  else do
    assertB c.point.isMBLetterlike
    handleSymbol E pol start c

/-- `Tokenizer_nextToken_uncommon`, 548-799. -/
def nextTokenUncommon (E : Env) (pol : Pol) (start : St) (c : WLC) : M Tok :=
  if c.point = .eof then tok .EndOfFile start
  else if c.point.isMBUnsafe then tok .Error_UnsafeCharacterEncoding start
  else if c.point.isSymbolStart then handleSymbol E pol start c
  else if c.point = .char 0x07 ∨ c.point = .char 0x7f then tok .Error_UnhandledCharacter start
  else if c.point = ch '\t' then tok .Whitespace start
  else if c.point = .char 0x0b ∨ c.point = .char 0x0c then do
    M.when E.check (unexpectedChar start.loc c .unexpectedSpaceCharacter 95)
    tok .Whitespace start
  else if c.point = ch '\r' then tok pol.newline start
  else if c.point = ch '(' then handleOpenParen E start c
  else if c.point = ch ')' then tok .CloseParen start
  else if c.point = ch '+' then handlePlus E start c
  else if c.point = ch '^' then handleCaret E start c
  else if c.point = ch '=' then handleEqual E start c
  else if c.point = ch ';' then handleDoubled E ';' .Semi .SemiSemi start c
  else if c.point = ch ':' then handleColon E start c
  else if c.point = ch '#' then handleDoubled E '#' .Hash .HashHash start c
  else if c.point = ch '&' then handleDoubled E '&' .Amp .AmpAmp start c
  else if c.point = ch '!' then handleBang E start c
  else if c.point = ch '%' then handlePercent E start c
  else if c.point = ch '\'' then tok .SingleQuote start
  else if c.point = ch '*' then handleStar E start c
  else if c.point = ch '.' then handleDot E pol start c
  else if c.point = ch '/' then handleSlash E start c
  else if c.point = ch '<' then handleLess E start c
  else if c.point = ch '>' then handleGreater E start c
  else if c.point = ch '?' then handleDoubled E '?' .Question .QuestionQuestion start c
  else if c.point = ch '@' then handleAt E start c
  else if c.point = ch '\\' then handleBackslash E start c
  else if c.point = ch '_' then handleUnder E start c
  else if c.point = ch '|' then handleBar E start c
  else if c.point = ch '~' then handleDoubled E '~' .Tilde .TildeTilde start c
  else nextTokenOther E pol start c

/-- `TOKENIZER_HANDLER_TABLE`, 486-520, and the dispatch of `Tokenizer_nextToken`,
536-545. -/
def dispatch (E : Env) (pol : Pol) (start : St) (c : WLC) : M Tok :=
  if c.point = ch '\n' then tok pol.newline start
  else if c.point = ch ' ' then tok .Whitespace start
  else if c.point = ch '"' then handleString E pol start c
  else if c.point = ch '$' ∨ c.point.isAlpha then handleSymbol E pol start c
  else if c.point = ch ',' then tok .Comma start
  else if c.point = ch '-' then handleMinus E start c
  else if c.point.isDigit then handleNumber E pol start c
  else if c.point = ch '[' then tok .OpenSquare start
  else if c.point = ch ']' then tok .CloseSquare start
  else if c.point = ch '{' then tok .OpenCurly start
  else if c.point = ch '}' then tok .CloseCurly start
  else nextTokenUncommon E pol start c

/-- `Tokenizer_nextToken`, 525-546, behind the mark. -/
def nextTokenAt (E : Env) (pol : Pol) (start : St) : M Tok := do
  let c ← nextC E
  dispatch E pol start c

/-- `Tokenizer_nextToken`, 525-546; all policies but `INSIDE_SLOT` report issues about characters. -/
def nextToken (E : Env) (pol : Pol) : M Tok := do
  let start ← M.mark
  nextTokenAt (E.at start.loc (!pol.insideSlot) true) pol start

/-- `Tokenizer::peek_token_with`, 297-321; `insideGroup` says whether `GroupStack` is
non-empty. -/
def peekTokenWith (E : Env) (pol : Pol) (insideGroup : Bool) : M Tok := do
  let mark ← M.mark
  let t ← nextToken E { pol with toplevel := pol.toplevel && !insideGroup }
  M.seek mark
  pure t

/-- `Tokenizer::peek_token`, 290-292. -/
def peekToken (E : Env) (insideGroup : Bool) : M Tok := peekTokenWith E Pol.top insideGroup

/-- `Tokenizer_currentToken_stringifyAsTag`, 917-927. -/
def peekTokenTag (E : Env) : M Tok := do
  let mark ← M.mark
  let t ← nextTokenTag E
  M.seek mark
  pure t

/-- `Tokenizer_currentToken_stringifyAsFile`, 929-939. -/
def peekTokenFile (E : Env) : M Tok := do
  let mark ← M.mark
  let t ← nextTokenFile E
  M.seek mark
  pure t

/-- `Tokenizer::handle_first_line`, 168-277. -/
def handleFirstLine (E : Env) : FirstLine → M Unit
  | .notScript => pure ()
  | _ => do
    let t ← peekToken E false
    if t.kind ≠ .Hash then pure ()
    else
      M.lift t.skip
      let t ← peekToken E false
      if t.kind ≠ .Bang then pure ()
      else
        M.lift t.skip
        M.loop (fun _ : Unit => do
          let t ← peekToken E false
          if t.kind = .EndOfFile then pure (.inr ())
          else if t.kind = .ToplevelNewline then do
            M.lift t.skip
            pure (.inr ())
          else do
            M.lift t.skip
            pure (.inl ())) ()

/-- The loop of `tokenize_bytes`, lib.rs:385-422, without the rewriting of unterminated
tokens at its end: the tokens up to (excluding) the end of the file. -/
def tokenLoop (E : Env) : M (List Tok) :=
  M.loop (fun ts : List Tok => do
    let t ← peekToken E false
    if t.kind = .EndOfFile then pure (.inr ts.reverse)
    else do
      M.lift t.skip
      pure (.inl (t :: ts))) []

/-- `Tokenizer::new`, 137-166, followed by the loop of `tokenize_bytes`. -/
def tokens (E : Env) (conv : Conv) (first : FirstLine) (bs : List UInt8) :
    Except Fail (List Tok × St × List Ev) :=
  (do handleFirstLine E first; tokenLoop E : M (List Tok)) (St.init conv bs)

end CodeParser.Chk
