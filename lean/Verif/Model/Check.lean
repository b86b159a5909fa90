import Verif.Model.Tokenizer
import Verif.Model.Show
import Verif.Model.Issues
import Verif.Model.Gen.AsciiReplacements
/-!
Model of the reader with `check_issues` and `compute_oob` (lib.rs:282-330; both are on by default):
read/byte_decoder.rs and read/character_decoder.rs with the code that reports issues.  The tokenizer
follows in Model/CheckTokens.lean.

Paths are relative to /repo/crates/wolfram-parser/src.  Simplifications: the messages and descriptions of
issues are dropped, but formatting a character for them is kept because it can panic; an issue keeps its
maker, tag, severity, source, confidence and code actions.  Texts are byte lists; the `as_str` of a slice
between two decoded characters is dropped, as in Model/Char.lean.  `addIssue` and the sets of tracked
locations are modelled as a list of events, in the order in which they are raised; what `addIssue` does
with them is Model/Issues.lean, the tracked locations are kept in hash sets.
-/
namespace CodeParser.Chk

/-- A panic of the model without issues, or one of the panics of the code that reports issues:
`Location::previous` at the first column (source.rs:641-661), or a character that cannot be formatted. -/
inductive Fail where
  | base (e : Err)
  | column
  | shown
deriving DecidableEq, Repr

/-- `SyntaxIssue`, `EncodingIssue`, `FormatIssue`, issue.rs:369-431. -/
inductive Maker where
  | syn | enc | fmt
deriving DecidableEq, Repr

/-- `IssueTag`, issue.rs:25-50, as far as the reader uses it. -/
inductive Tag where
  | unexpectedCarriageReturn | unexpectedCharacter | unexpectedNewlineCharacter
  | unexpectedSpaceCharacter | unexpectedLetterlikeCharacter | nonASCIICharacter
  | incompleteUTF8Sequence | straySurrogate | bom | unhandledCharacter | unrecognizedLongName
  | undocumentedSlotSyntax | ambiguous | unexpectedSign | unexpectedImplicitTimes | unexpectedDot
deriving DecidableEq, Repr

/-- `CodeAction` and `CodeActionKind`, issue.rs:61-86, without the label. -/
inductive Action where
  | replace (span : Span) (text : List UInt8)
  | insert (span : Span) (text : List UInt8)
  | delete (span : Span)
deriving DecidableEq, Repr

/-- The source of an action. -/
def Action.span : Action → Span
  | .replace sp _ | .insert sp _ | .delete sp => sp

/-- `Issue`, issue.rs:12-23; the confidence is in hundredths. -/
structure Report where
  maker : Maker
  tag : Tag
  sev : Severity
  span : Span
  conf : Nat
  actions : List Action
deriving DecidableEq, Repr

/-- What reading leaves behind besides characters: an issue (`Reader::addIssue`, read.rs:247-278), or an
entry of `TrackedSourceLocations` (tokenize/tokenizer.rs:410-424). -/
inductive Ev where
  | issue (i : Report)
  | simpleContinuation (l : Loc)
  | complexContinuation (l : Loc)
  | embeddedNewline (l : Loc)
  | embeddedTab (l : Loc)
deriving DecidableEq, Repr

/-- The options of the session (lib.rs:282-290) and the bits of `NextPolicy` (source.rs:211-332) that
decide about issues.  `dist` is `edit_distance` of a crate outside the repository; nothing is assumed
about it.  `tokenStart` is the location of the `TokenStart` passed around in the tokenizer. -/
structure Env where
  cfg : Cfg
  /-- `check_issues` -/
  check : Bool
  /-- `compute_oob` -/
  oob : Bool
  /-- `encoding_mode == EncodingMode::Normal` -/
  normal : Bool
  dist : List UInt8 → List Char → Nat
  /-- `ENABLE_CHARACTER_DECODING_ISSUES` -/
  enable : Bool := true
  /-- `TRACK_LC` -/
  lc : Bool := true
  /-- `STRING_OR_COMMENT` -/
  str : Bool := false
  /-- `SCAN_FOR_UNRECOGNIZEDLONGNAMES` -/
  scan : Bool := false
  tokenStart : Loc := .lineCol 1 1

/-- A computation over the reader that may leave events behind. -/
def M (α : Type) : Type := St → Except Fail (α × St × List Ev)

namespace M

/-- Return a value. -/
def pure {α} (a : α) : M α := fun s => .ok (a, s, [])

/-- Sequential composition. -/
def bind {α β} (m : M α) (f : α → M β) : M β := fun s =>
  match m s with
  | .error e => .error e
  | .ok (a, s', es) =>
    match f a s' with
    | .error e => .error e
    | .ok (b, s'', fs) => .ok (b, s'', es ++ fs)

instance : Monad M where
  pure := pure
  bind := bind

/-- A failure. -/
def fail {α} (e : Fail) : M α := fun _ => .error e

/-- A step that raises no events. -/
def lift {α} (m : CodeParser.M α) : M α := fun s =>
  match m s with
  | .error e => .error (.base e)
  | .ok (a, s') => .ok (a, s', [])

/-- A panic. -/
def panic {α} (site : Site) : M α := lift (CodeParser.M.panic site)

/-- `Reader::mark`, read.rs:211-217. -/
def mark : M St := lift CodeParser.M.mark

/-- `Reader::seek`, read.rs:221-234; the issues stay. -/
def seek (m : St) : M Unit := lift (CodeParser.M.seek m)

/-- `if b { .. }` -/
def when (b : Bool) (m : M Unit) : M Unit := if b then m else pure ()

/-- A loop, as in Model/Monad.lean. -/
def loopN {α β} (body : β → M (β ⊕ α)) : Nat → β → M α
  | 0, _ => fun _ => .error (.base .fuel)
  | n + 1, b => fun s =>
    match body b s with
    | .error e => .error e
    | .ok (.inr a, s', es) => .ok (a, s', es)
    | .ok (.inl b', s', es) =>
      match loopN body n b' s' with
      | .error e => .error e
      | .ok (a, s'', fs) => .ok (a, s'', es ++ fs)

/-- A loop with enough fuel for every loop that consumes input. -/
def loop {α β} (body : β → M (β ⊕ α)) (b : β) : M α := fun s =>
  loopN body (s.rest.length + 2) b s

end M

/-- Raise an event. -/
def emit (e : Ev) : M Unit := fun s => .ok ((), s, [e])

/-- `session.SrcLoc` -/
def here : M Loc := fun s => .ok (s.loc, s, [])

/-- `Location::previous`, source.rs:641-661. -/
def Loc.previous : Loc → Option Loc
  | .lineCol l c => if c - 1 = 0 then none else some (.lineCol l (c - 1))
  | .index i => some (.index (i - 1))

/-- `Location::next`, source.rs:622-639. -/
def Loc.next : Loc → Loc
  | .lineCol l c => .lineCol l (c + 1)
  | .index i => .index (i + 1)

/-- `loc.previous()` in the code that reports issues. -/
def previous (l : Loc) : M Loc :=
  match Loc.previous l with
  | some l => pure l
  | none => M.fail .column

/-- `Span::new`, source.rs:728-732. -/
def spanOf (a b : Loc) : M Span :=
  match Span.new a b with
  | some sp => pure sp
  | none => M.fail (.base (.panic .span))

/-- A formatted character. -/
def shown (o : Option (List UInt8)) : M (List UInt8) :=
  match o with
  | some t => pure t
  | none => M.fail .shown

/-- `Span::at`, source.rs:734-739. -/
def spanAt (l : Loc) : Span := ⟨l, l⟩

/-- A text of the program as bytes. -/
def txt (cs : List Char) : List UInt8 := cs.flatMap String.utf8EncodeChar

/-! ### Strange characters -/

/-- `isStrange`, utils.rs:13-32. -/
def isStrange : CP → Bool
  | .char n => inR 0 0x08 n || n == 0x0b || n == 0x0c || inR 0x0e 0x1a n || inR 0x1c 0x1f n || n == 0x7f
  | _ => false

/-- `isMBStrange`, utils.rs:34-185; the code points are in read/code_point.rs:221-226 and
generated/long_names_registration.rs. -/
def isMBStrange : CP → Bool
  | .char n => n == 0x200b || n == 0x200c || n == 0x200d || n == 0x2018 || n == 0x2019 || n == 0x201c
      || n == 0x201d || n == 0x2061 || n == 0x2063 || n == 0x2064 || n == 0x2192 || n == 0x279d
      || n == 0x29f4 || n == 0xf3a2 || n == 0xf76d || inR 0x80 0x9f n || inR 0xf0000 0xffffd n
      || inR 0x100000 0x10fffd n
  | _ => false

/-- `isStrangeWhitespace`, read/wl_character.rs:455-460. -/
def isStrangeWhitespace : CP → Bool
  | .char n => n == 0x0b || n == 0x0c
  | _ => false

/-- `isStrangeLetterlike`, read/wl_character.rs:428-446, with `isControl`, 504-519. -/
def isStrangeLetterlike : CP → Bool
  | .char n => (CP.char n).isLetterlike && (n ≤ 0x1f || n == 0x7f)
  | _ => false

/-- `isMBStrangeLetterlike`, read/wl_character.rs:630-639. -/
def isMBStrangeLetterlike (p : CP) : Bool := p.isMBLetterlike && !p.isMBNotStrangeLetterlike

/-- `asciiReplacements`, long_names.rs:71-92. -/
def asciiReplacements : CP → List (List UInt8)
  | .char n =>
    match bsearch (fun e => cmpNat e.1 n) asciiReplacementTable with
    | none => []
    | some i => ((asciiReplacementTable[i]?).map (fun e => e.2.map txt)).getD []
  | _ => []

/-- The character that is meant by some characters that look the same, and its long name:
utils.rs:282-390. -/
def certainTarget : CP → Option (Nat × List Char)
  | .char n =>
    if n = 0xf3a2 then some (0x2060, "\\[NoBreak]".toList)
    else if n = 0x2192 ∨ n = 0x279d then some (0xf522, "\\[Rule]".toList)
    else if n = 0x29f4 then some (0xf51f, "\\[RuleDelayed]".toList)
    else if n = 0x2061 then some (0xf76d, "\\[InvisibleApplication]".toList)
    else if n = 0x2063 then some (0xf765, "\\[InvisibleComma]".toList)
    else if n = 0x2064 then some (0xf39e, "\\[ImplicitPlus]".toList)
    else if n = 0x200b then some (0xf360, "\\[InvisibleSpace]".toList)
    else none
  | _ => none

/-- `WLCharacter::safeAndGraphicalString`, read/wl_character.rs:384-392; whether it can be formatted. -/
def safeAndGraphical (c : WLC) : M Unit := do
  let _ ← shown c.display
  if c.escape = .none then
    let _ ← shown c.graphical
    pure ()
  else pure ()

/-- `certainCharacterReplacementActions`, utils.rs:275-394. -/
def certainActions (c : WLC) (sp : Span) : M (List Action) :=
  match certainTarget c.point with
  | none => pure []
  | some (n, name) => do
    safeAndGraphical c
    safeAndGraphical ⟨.char n, .none⟩
    let a := Action.replace sp (if c.escape = .none then String.utf8EncodeChar (Char.ofNat n) else txt name)
    pure (if c.point = .char 0x2061 then [a, .delete sp] else [a])

/-- `LongNames::asciiReplacements(..)` as actions. -/
def asciiActions (p : CP) (sp : Span) : List Action :=
  (asciiReplacements p).map (Action.replace sp)

/-! ### Source characters -/

/-- `ByteDecoder_strangeWarning`, read/byte_decoder.rs:801-878, for a character that has just been read. -/
def strangeWarning (E : Env) (p : CP) : M Unit := do
  let stop ← here
  let start ← previous stop
  let _ ← shown p.display
  let g ← shown p.graphical
  let sp ← spanOf start stop
  let certain ← certainActions ⟨p, .none⟩ sp
  let actions := certain ++ [.replace sp g] ++ asciiActions p sp
  if E.str then emit (.issue ⟨.enc, .unexpectedCharacter, .remark, sp, 95, actions⟩)
  else if isStrangeWhitespace p || p.isMBWhitespace then pure ()
  else emit (.issue ⟨.enc, .unexpectedCharacter, .warning, sp, 95, actions⟩)

/-- `ByteDecoder_nonASCIIWarning`, read/byte_decoder.rs:880-926. -/
def nonASCIIWarning (p : CP) : M Unit := do
  let stop ← here
  let start ← previous stop
  let _ ← shown p.display
  let g ← shown p.graphical
  let sp ← spanOf start stop
  emit (.issue ⟨.enc, .nonASCIICharacter, .remark, sp, 100, .replace sp g :: asciiActions p sp⟩)

/-- The issue of `ByteDecoder_incompleteByteSequence`, `ByteDecoder_straySurrogate` and `ByteDecoder_bom`,
read/byte_decoder.rs:1018-1133; `start` is `errSrcLoc`. -/
def encodingIssue (start : Loc) (flag : Option Unsafe) : M Unit := do
  let sp ← spanOf start (Loc.next start)
  let tag := match flag with
    | some .straySurrogate => Tag.straySurrogate
    | some .bom => Tag.bom
    | _ => Tag.incompleteUTF8Sequence
  emit (.issue ⟨.enc, tag, .fatal, sp, 100, []⟩)

/-- The encoding flag, which has just been raised. -/
def flagNow : M (Option Unsafe) := fun s => .ok (s.flag, s, [])

/-- The part of `ByteDecoder_nextSourceCharacter_uncommon` (read/byte_decoder.rs:105-799) that reports
issues: the carriage return, 142-168, `ByteDecoder_validStrange`, 928-949, `ByteDecoder_validMB`, 951-980,
and the invalid sequences.  It comes after the character has been read. -/
def sourceIssues (E : Env) (before : Loc) (p : CP) : M Unit :=
  match p with
  | .char n =>
    if n = 0x0d then
      if E.enable then do
        let l ← here
        let sp ← spanOf l l
        emit (.issue ⟨.enc, .unexpectedCarriageReturn, .warning, sp, 100, []⟩)
      else pure ()
    else if (n ≤ 0x1f ∧ n ≠ 0x09 ∧ n ≠ 0x0a) ∨ n = 0x7f then strangeWarning E p
    else if 0x80 ≤ n then
      if isMBStrange p then strangeWarning E p
      else if E.normal then nonASCIIWarning p
      else pure ()
    else pure ()
  | .unsafe1 | .unsafe2 | .unsafe3 => do
    let f ← flagNow
    encodingIssue before f
  | _ => pure ()

/-- `Reader::next_source_char`, read.rs:161-166. -/
def src (E : Env) : M CP := do
  let before ← here
  let p ← M.lift (CodeParser.src E.cfg)
  M.when E.check (sourceIssues E before p)
  pure p

/-- `Reader::peek_source_char`, read.rs:148-159. -/
def peekSrc (E : Env) : M CP := do
  let mark ← M.mark
  let p ← src E
  M.seek mark
  pure p

/-! ### Wolfram characters -/

/-- `check_strange_syntax_issue`, read/character_decoder.rs:1769-1856, with the confidence `conf`. -/
def strangeSyntaxIssue (E : Env) (c : WLC) (start : Loc) (conf : Nat) : M Unit := do
  let start ← previous start
  let stop ← here
  let _ ← shown c.graphical
  let sp ← spanOf start stop
  let certain ← certainActions c sp
  emit (.issue ⟨.syn, .unexpectedCharacter, if E.str then .remark else .warning, sp, conf,
    certain ++ asciiActions c.point sp⟩)

/-- `check_strange_syntax_issue`, read/character_decoder.rs:1769-1797. -/
def checkStrangeSyntax (E : Env) (c : WLC) (start : Loc) : M Unit :=
  if !E.check then pure ()
  else if isStrange c.point then
    if isStrangeWhitespace c.point then pure () else strangeSyntaxIssue E c start 95
  else if isMBStrange c.point then
    if c.point.isMBWhitespace then pure () else strangeSyntaxIssue E c start 85
  else pure ()

/-- The issue about the backslash, bracket, ... from in front of `escaped` to here, with actions. -/
def unhandled (escaped : St) (actions : Span → List Action) : M Unit := do
  let start ← previous escaped.loc
  let stop ← here
  let sp ← spanOf start stop
  emit (.issue ⟨.syn, .unhandledCharacter, .fatal, sp, 100, actions sp⟩)

/-- The bytes between a mark and here. -/
def textFrom (start : St) : M (List UInt8) := fun s => .ok (between start s, s, [])

/-- The issue about digits that are missing: read/character_decoder.rs:588-623, 691-726, 794-829,
900-935. -/
def malformedDigits (E : Env) (escaped digits : St) (intro : List Char) : M Unit :=
  if E.check && E.enable then do
    let t ← textFrom digits
    unhandled escaped fun sp => [.replace sp (txt intro ++ t)]
  else pure ()

/-- The loop over the digits, as `digitRun`. -/
def digitRun (E : Env) (isDig : CP → Bool) : Nat → M Bool
  | 0 => pure true
  | n + 1 => do
    let c ← peekSrc E
    if isDig c then
      let _ ← src E
      digitRun E isDig n
    else pure false

/-- `CharacterDecoder_handle4Hex`, read/character_decoder.rs:564-665. -/
def handle4Hex (E : Env) (colon : St) : M WLC := do
  M.lift (assertStart colon (· == 0x3a))
  let start ← M.mark
  if ← digitRun E CP.isHex 4 then
    let v ← M.lift (digitsValue 16 start.rest 4)
    let v ← M.lift (fromU32 v)
    checkStrangeSyntax E ⟨canonPoint v, .hex4⟩ colon.loc
    pure ⟨canonPoint v, .hex4⟩
  else
    malformedDigits E colon start ['\\', '\\', ':']
    M.seek colon
    pure backslash

/-- `CharacterDecoder_handle2Hex`, read/character_decoder.rs:667-765. -/
def handle2Hex (E : Env) (dot : St) : M WLC := do
  M.lift (assertStart dot (· == 0x2e))
  let start ← M.mark
  if ← digitRun E CP.isHex 2 then
    let v ← M.lift (digitsValue 16 start.rest 2)
    checkStrangeSyntax E ⟨canonPoint v, .hex2⟩ dot.loc
    pure ⟨canonPoint v, .hex2⟩
  else
    malformedDigits E dot start ['\\', '\\', '.']
    M.seek dot
    pure backslash

/-- `CharacterDecoder_handleOctal`, read/character_decoder.rs:767-874. -/
def handleOctal (E : Env) (firstOctal : St) : M WLC := do
  M.lift (assertStart firstOctal (inR 0x30 0x37))
  if ← digitRun E CP.isOctal 2 then
    let v ← M.lift (digitsValue 8 firstOctal.rest 3)
    let v ← M.lift (fromU32 v)
    checkStrangeSyntax E ⟨canonPoint v, .octal⟩ firstOctal.loc
    pure ⟨canonPoint v, .octal⟩
  else
    malformedDigits E firstOctal firstOctal ['\\', '\\']
    M.seek firstOctal
    pure backslash

/-- `CharacterDecoder_handle6Hex`, read/character_decoder.rs:876-994. -/
def handle6Hex (E : Env) (bar : St) : M WLC := do
  M.lift (assertStart bar (· == 0x7c))
  let start ← M.mark
  if ← digitRun E CP.isHex 6 then
    let v ← M.lift (digitsValue 16 start.rest 6)
    if v > 0x10ffff then
      M.seek bar
      pure backslash
    else
      let v ← M.lift (fromU32 v)
      checkStrangeSyntax E ⟨canonPoint v, .hex6⟩ bar.loc
      pure ⟨canonPoint v, .hex6⟩
  else
    malformedDigits E bar start ['\\', '\\', '|']
    M.seek bar
    pure backslash

/-- The loop of `CharacterDecoder_handleLongName`, read/character_decoder.rs:270-286. -/
def longNameTail (E : Env) : M Bool :=
  M.loop (fun _ : Unit => do
    let c ← peekSrc E
    if c.isAlphaOrDigitSrc E.cfg then
      let _ ← src E
      pure (.inl ())
    else pure (.inr (c == ch ']'))) ()

/-- The first part of `CharacterDecoder_handleLongName`, read/character_decoder.rs:252-295. -/
def longNameScan (E : Env) (c : CP) : M Bool :=
  if c.isUpper then do
    let _ ← src E
    longNameTail E
  else if c = ch ']' then do
    let _ ← src E
    let _ ← peekSrc E
    pure false
  else pure false

/-- The issue about a long name that is not well-formed, read/character_decoder.rs:296-387. -/
def malformedLongName (E : Env) (openSquare start : St) (c : CP) : M Unit :=
  if E.check && E.enable then do
    let name ← textFrom start
    let stop ← here
    if c.isUpper then
      unhandled openSquare fun _ =>
        if (longnameToCodepoint name).isSome then [.insert (spanAt stop) (txt [']'])] else []
    else
      unhandled openSquare fun sp => [.replace sp (txt ['\\', '\\', '['] ++ name)]
  else pure ()

/-- `iter().min_by_key(..)`: the first name with the least distance. -/
def closest (d : List Char → Nat) : List (CP × List Char) → Option (List Char)
  | [] => none
  | e :: es =>
    match closest d es with
    | none => some e.2
    | some n => if d e.2 ≤ d n then some e.2 else some n

/-- `CharacterDecoder_longNameSuggestion`, read/character_decoder.rs:1743-1765. -/
def Env.suggest (E : Env) (name : List UInt8) : List UInt8 :=
  match closest (E.dist name) codePointNameTable with
  | none => []
  | some n => if E.dist name n ≤ 2 then txt n else []

/-- The replacement of an unknown long name, read/character_decoder.rs:458-468, 485-497. -/
def suggestion (E : Env) (name : List UInt8) (intro : List Char) (sp : Span) : List Action :=
  if E.suggest name = [] then [] else [.replace sp (txt intro ++ E.suggest name ++ txt [']'])]

/-- The issue about an unknown long name, read/character_decoder.rs:409-517. -/
def unknownLongName (E : Env) (openSquare : St) (name : List UInt8) : M Unit :=
  if E.check && E.enable then do
    let l ← here
    let start ← previous openSquare.loc
    let stop := Loc.next l
    if E.scan then
      let start ← previous start
      let sp ← spanOf start stop
      emit (.issue ⟨.syn, .unrecognizedLongName, .error, sp, 75, suggestion E name ['\\', '\\', '['] sp⟩)
    else
      let sp ← spanOf start stop
      emit (.issue ⟨.syn, .unhandledCharacter, .fatal, sp, 100, suggestion E name ['\\', '['] sp⟩)
  else pure ()

/-- `CharacterDecoder_handleLongName`, read/character_decoder.rs:237-562. -/
def handleLongName (E : Env) (openSquare : St) : M WLC := do
  M.lift (assertStart openSquare (· == 0x5b))
  let start ← M.mark
  let c ← peekSrc E
  let wellFormed ← longNameScan E c
  if !wellFormed then
    malformedLongName E openSquare start c
    M.seek openSquare
    pure backslash
  else
    let stop ← M.mark
    let name := between start stop
    match longnameToCodepoint name with
    | none =>
      unknownLongName E openSquare name
      M.seek openSquare
      pure backslash
    | some p =>
      let _ ← src E
      let c : WLC := ⟨p, if isRaw name then .raw else .longName⟩
      M.when E.enable (checkStrangeSyntax E c openSquare.loc)
      pure c

/-- The characters of a name behind `\\[`, read/character_decoder.rs:1027-1043; `c` has been read. -/
def skippedName (E : Env) (c : CP) : M Bool :=
  M.loop (fun c : CP =>
    if c.isAlphaOrDigitSrc E.cfg then do
      let c ← src E
      pure (.inl c)
    else pure (.inr (c == ch ']'))) c

/-- `session.offset = ..; session.SrcLoc = ..`, read/character_decoder.rs:1051-1052. -/
def goBack (m : St) : M Unit := fun s => .ok ((), { s with rest := m.rest, loc := m.loc }, [])

/-- The lookahead of `CharacterDecoder_handleBackslash`, read/character_decoder.rs:1011-1056. -/
def lookForLongName (E : Env) (reset : St) : M Unit := do
  let c ← src E
  if c = ch '[' then
    let start ← M.mark
    let c ← src E
    if c.isUpper then
      let c ← src E
      let wellFormed ← skippedName E c
      if wellFormed then
        goBack start
        let _ ← handleLongName { E with enable := true, scan := true } reset
        pure ()
      else pure ()
    else pure ()
  else pure ()

/-- `CharacterDecoder_handleBackslash`, read/character_decoder.rs:996-1062. -/
def escapedBackslash (E : Env) : M Unit :=
  if E.check then do
    let reset ← M.mark
    lookForLongName E reset
    M.seek reset
  else pure ()

/-- The loop of `CharacterDecoder_handleUnhandledEscape`, read/character_decoder.rs:1102-1126: letters and
digits, then whether a `]` has been skipped. -/
def escapedName (E : Env) : M Bool :=
  M.loop (fun _ : Unit => do
    let c ← peekSrc E
    if c.isAlphaOrDigitSrc E.cfg then
      let _ ← src E
      pure (.inl ())
    else if c = ch ']' then
      let _ ← src E
      pure (.inr true)
    else pure (.inr false)) ()

/-- `\A`, read/character_decoder.rs:1089-1253; `stop` is the location behind the letter, where `start`
is the mark in front of it. -/
def escapedUpper (E : Env) (escaped : St) (c : CP) (first : Loc) (stop : Loc) : M Unit := do
  let closed ← escapedName E
  let name ← textFrom escaped
  -- the name does not include the bracket that has been skipped
  if closed && (longnameToCodepoint (name.take (name.length - 1))).isSome then
    unhandled escaped fun _ => [.insert (spanAt (Loc.next first)) (txt ['['])]
  else
    let g ← shown (WLC.graphical ⟨c, .none⟩)
    let sp ← spanOf first stop
    let a := Action.replace sp (txt ['\\', '['] ++ g ++ txt ['X', 'X', 'X', ']'])
    let b := Action.replace sp (txt ['\\', ':'] ++ g ++ txt ['X', 'X', 'X'])
    emit (.issue ⟨.syn, .unhandledCharacter, .fatal, sp, 100, if c.isHex then [a, b] else [a]⟩)

/-- The issue of `CharacterDecoder_handleUnhandledEscape`, read/character_decoder.rs:1084-1351. -/
def unhandledIssue (E : Env) (escaped : St) (c : CP) : M Unit := do
  let first ← previous escaped.loc
  let stop ← here
  if c.isUpper then escapedUpper E escaped c first stop
  else if c.isHex then
    let g ← shown (WLC.graphical ⟨c, .none⟩)
    unhandled escaped fun sp => [.replace sp (txt ['\\', ':'] ++ g ++ txt ['x', 'x', 'x'])]
  else if c = .eof then pure ()
  else if c.isMBUnsafe then pure ()
  else
    let g ← shown (WLC.graphical ⟨c, .none⟩)
    unhandled escaped fun sp => if g.length > 1 then [] else [.replace sp (txt ['\\', '\\'] ++ g)]

/-- `CharacterDecoder_handleUnhandledEscape`, read/character_decoder.rs:1064-1369. -/
def unhandledEscape (E : Env) (escaped : St) : M WLC := do
  let c ← peekSrc E
  let _ ← src E
  M.when (E.check && E.enable) (unhandledIssue E escaped c)
  M.seek escaped
  pure backslash

/-- The issues of the escapes with one character: `\<` and `\>`, read/character_decoder.rs:150-179,
191-222, `\\`, and `\b` and `\f`, 1438-1520. -/
def simpleIssue (E : Env) (escaped : St) (p : CP) : M Unit :=
  if p = .metaBackslash then escapedBackslash E
  else if E.check && (p == .metaOpen || p == .metaClose || p == .metaBackspace || p == .metaFormFeed) then do
    let _ ← shown (WLC.graphical ⟨p, .single⟩)
    let start ← previous escaped.loc
    let stop ← here
    let sp ← spanOf start stop
    emit (.issue ⟨.syn, .unexpectedCharacter, .remark, sp, 95, []⟩)
  else pure ()

/-- The escape after a backslash, as `CodeParser.nextEscape`. -/
def nextEscape (E : Env) (escaped : St) : M WLC := do
  let c ← peekSrc E
  match simpleEscape c with
  | some p =>
    let _ ← src E
    simpleIssue E escaped p
    pure ⟨p, .single⟩
  | none =>
    if c = ch '[' then
      let _ ← src E
      handleLongName E escaped
    else if c = ch ':' then
      let _ ← src E
      handle4Hex E escaped
    else if c = ch '.' then
      let _ ← src E
      handle2Hex E escaped
    else if c = ch '|' then
      let _ ← src E
      handle6Hex E escaped
    else if c.isOctal then
      let _ ← src E
      handleOctal E escaped
    else unhandledEscape E escaped

/-- `CharacterDecoder_nextWLCharacter`, read/character_decoder.rs:79-113. -/
def nextWL (E : Env) : M WLC := do
  let c ← src E
  if c ≠ ch '\\' then
    pure ⟨c, .none⟩
  else
    let escaped ← M.mark
    nextEscape E escaped

/-- `Reader::peek_wolfram_char`, read.rs:170-181. -/
def peekWL (E : Env) : M WLC := do
  let mark ← M.mark
  let c ← nextWL E
  M.seek mark
  pure c

end CodeParser.Chk
