import Verif.Model.CheckTokens
import Verif.Model.Recover
/-!
The parser with `check_issues` and `compute_oob`: Model/Parser.lean, on top of the tokenizer that reports
issues (Model/CheckTokens.lean).  Nothing in parse.rs, parse_cst.rs and parse/ reports issues, so the
functions that do not read are those of Model/Parser.lean (`P.of`); the others are spelled out again.

Paths are relative to /repo/crates/wolfram-parser/src.  The simplifications are those of
Model/Parser.lean and Model/Check.lean.
-/
namespace CodeParser.Chk.Par

/-- The parameters of a parse, as `CodeParser.PEnv`. -/
structure PEnv where
  E : Env
  recover : GroupOp → List Cst → Except Err (List Cst)

/-- The parameters without issues. -/
def PEnv.base (env : PEnv) : CodeParser.PEnv := ⟨env.E.cfg, env.recover⟩

/-- A computation of the parser, with the events it leaves behind. -/
def P (α : Type) : Type := PS → Except Fail (α × PS × List Ev)

namespace P
/-- Return a value. -/
def pure {α} (a : α) : P α := fun s => .ok (a, s, [])
/-- Sequential composition; an error ends the computation. -/
def bind {α β} (m : P α) (f : α → P β) : P β := fun s =>
  match m s with
  | .error e => .error e
  | .ok (a, s', es) =>
    match f a s' with
    | .error e => .error e
    | .ok (b, s'', fs) => .ok (b, s'', es ++ fs)
instance : Monad P where
  pure := pure
  bind := bind
/-- A panic. -/
def panic {α} (site : Site) : P α := fun _ => .error (.base (.panic site))
/-- A computation of the tokenizer. -/
def lift {α} (m : M α) : P α := fun s =>
  match m s.st with
  | .ok (a, t, es) => .ok (a, { s with st := t }, es)
  | .error e => .error e
/-- A computation of the parser that does not read. -/
def of {α} (m : CodeParser.P α) : P α := fun s =>
  match m s with
  | .ok (a, t) => .ok (a, t, [])
  | .error e => .error (.base e)
/-- The current state. -/
def get : P PS := fun s => .ok (s, s, [])
end P

/-! ### Tokens -/

/-- `tokenizer.peek_token()`, tokenize/tokenizer.rs:290-292. -/
def peekP (env : PEnv) : P Tok := fun s =>
  P.lift (peekToken env.E (!s.groups.isEmpty)) s

/-- `tokenizer.peek_token_with(policy)`, tokenize/tokenizer.rs:297-321. -/
def peekWithP (env : PEnv) (pol : Pol) : P Tok := fun s =>
  P.lift (peekTokenWith env.E pol (!s.groups.isEmpty)) s

/-- `tok.skip(&mut session.tokenizer)` -/
def skipP (t : Tok) : P Unit := P.lift (M.lift t.skip)

/-- The loops of `current_token`, parse.rs:1162-1182, and
`current_token_eat_trivia_but_not_toplevel_newlines_into`, 1222-1241: the leading tokens
satisfying `p` and the first other token. -/
def eatM (E : Env) (inside : Bool) (p : TK → Bool) : M (List Tok × Tok) :=
  M.loop (fun ts : List Tok => do
    let t ← peekToken E inside
    if p t.kind then do
      M.lift t.skip
      pure (.inl (ts ++ [t]))
    else pure (.inr (ts, t))) []

/-- The loop of `current_syntax_token_stringify_as_file`, parse.rs:1184-1208. -/
def eatFileM (E : Env) : M (List Tok × Tok) :=
  M.loop (fun ts : List Tok => do
    let t ← peekTokenFile E
    if t.kind.isTrivia then do
      M.lift t.skip
      pure (.inl (ts ++ [t]))
    else pure (.inr (ts, t))) []

/-- `current_token`, parse.rs:1162-1182. -/
def currentToken (env : PEnv) : P (List Tok × Tok) := fun s =>
  P.lift (eatM env.E (!s.groups.isEmpty) TK.isTrivia) s

/-- `current_token_eat_trivia_but_not_toplevel_newlines_into`, parse.rs:1222-1241. -/
def currentTokenNTN (env : PEnv) : P (List Tok × Tok) := fun s =>
  P.lift (eatM env.E (!s.groups.isEmpty) TK.isTriviaButNotToplevelNewline) s

/-! ### Builder and contexts -/

/-- `push_node`, parse_cst.rs:801-803. -/
def pushNode (c : Cst) : P Unit := P.of (CodeParser.pushNode c)

/-- `push_leaf`, parse.rs:1075-1077, and `push_syntax`. -/
def pushTok (t : Tok) : P Unit := P.of (CodeParser.pushTok t)

/-- `push_leaf_and_next`, parse.rs:1084-1093, and `push_syntax_and_next`, 1099-1108. -/
def pushNext (t : Tok) : P Unit := do
  pushTok t
  skipP t

/-- `push_trivia_seq`, parse_cst.rs:95-106. -/
def pushTrivia (ts : List Tok) : P Unit := P.of (CodeParser.pushTrivia ts)

/-- `trivia_reset`, parse.rs:1126-1133. -/
def triviaReset : List Tok → P Unit
  | [] => pure ()
  | t :: _ => P.lift (M.lift t.reset)

/-- `current_token_eat_trivia`, parse.rs:1144-1153. -/
def eatTrivia (env : PEnv) : P Tok := do
  let (ts, t) ← currentToken env
  pushTrivia ts
  pure t

/-- `current_token_eat_trivia_but_not_toplevel_newlines`, parse.rs:1210-1220. -/
def eatTriviaNTN (env : PEnv) : P Tok := do
  let (ts, t) ← currentTokenNTN env
  pushTrivia ts
  pure t

/-- `current_syntax_token_stringify_as_file`, parse.rs:1184-1208. -/
def eatTriviaFile (env : PEnv) : P Tok := do
  let (ts, t) ← P.lift (eatFileM env.E)
  pushTrivia ts
  pure t

/-- `commit_syntax_and_next`, parse.rs:1112-1122. -/
def commitNext (ts : List Tok) (t : Tok) : P Unit := do
  pushTrivia ts
  pushNext t

/-- `push_context`, parse.rs:1528-1539, and `begin_context`, parse_cst.rs:195-203. -/
def pushContext (prec : Nat) : P Unit := P.of (CodeParser.pushContext prec)

/-- `set_precedence`, parse.rs:1559-1566, and `top_context().set_precedence(..)`. -/
def setPrecedence (prec : Nat) : P Unit := P.of (CodeParser.setPrecedence prec)

/-- `context_stack.pop().unwrap()`. -/
def popContext : P Nat := P.of (CodeParser.popContext)

/-- `push_group`, parse.rs:1572-1574. -/
def pushGroup (c : Closer) : P Unit := P.of (CodeParser.pushGroup c)

/-- `pop_group`, parse.rs:1576-1580. -/
def popGroup : P Unit := P.of (CodeParser.popGroup)

/-- `ParseCst::reduce`, parse_cst.rs:816-822: `node_stack.drain(start_index..)`. -/
def drainStack (i : Nat) : P (List Cst) := P.of (CodeParser.drainStack i)

/-- The operator node constructors: `OperatorNode::new`, cst.rs:481-488, and
`SyntaxErrorNode::new`, cst.rs:803-810, assert that there are children. -/
def mkNode (k : NodeKind) (cs : List Cst) : P Unit := P.of (CodeParser.mkNode k cs)

/-- `reduce_prefix`, `reduce_binary`, …, parse.rs:1247-1425, parse_cst.rs:303-495 and
`reduce_syntax_error`, parse.rs:1462-1469. -/
def reduceNode (k : NodeKind) : P Unit := P.of (CodeParser.reduceNode k)

/-- `reduce_group`, parse.rs:1427-1445, and `reduce_group_missing_closer`, 1500-1511. -/
def reduceGroup (k : NodeKind) : P Unit := P.of (CodeParser.reduceGroup k)

/-- `reduce_unterminated_group`, parse.rs:1471-1498, parse_cst.rs:614-632. -/
def reduceUnterminated (env : PEnv) (op : GroupOp) : P Unit := P.of (CodeParser.reduceUnterminated env.base op)

/-- `pop_node`, parse_cst.rs:805-807. -/
def popNode : P Cst := P.of (CodeParser.popNode)

/-- The body of a call, parse_cst.rs:542-573. -/
def mkCall (body : Cst) (head : List Cst) : P Unit := P.of (CodeParser.mkCall body head)

/-- `reduce_call`, parse.rs:1447-1456, parse_cst.rs:531-574. -/
def reduceCall : P Unit := P.of (CodeParser.reduceCall)

/-- `check_colon_lhs`, parse_cst.rs:671-760. -/
def checkColonLhs : P ColonLHS := P.of (CodeParser.checkColonLhs)

/-- `top_node_is_span`, parse_cst.rs:762-798. -/
def topNodeIsSpan : P Bool := P.of (CodeParser.topNodeIsSpan)

/-! ### Infix parselets: precedence, operator, implicit times -/

/-- `getPrecedence` of the infix parselet of a token kind, parse/parselet.rs:645-2347,
semi_semi_parselet.rs:29-31, times_parselet.rs:47-49, integral_parselet.rs:131-144. -/
def infixPrec (k : TK) : P Nat := P.of (CodeParser.infixPrec k)

/-- `do_process_implicit_times`, parse.rs:1009-1016, with `process_implicit_times` of
parse/parselet.rs:73-80, 828-834, integral_parselet.rs:146-160, semi_semi_parselet.rs:33-47. -/
def processImplicitTimes (t : Tok) : P Tok := P.of (CodeParser.processImplicitTimes t)

/-! ### The recursive functions -/

section
variable (env : PEnv) (rec : Job → P Unit)

/-- `reduce_…` followed by `parse_climb`, the end of most parselets. -/
def reduceClimb (k : NodeKind) : P Unit := do
  reduceNode k
  rec .climb

/-- `parse_climb`, parse.rs:1027-1064, once the token is known. -/
def climbRest (ts : List Tok) (t : Tok) : P Unit := do
  let p ← infixPrec t.kind
  let s ← P.get
  if precGreater s.topPrec p then triviaReset ts
  else do
    pushContext p
    pushTrivia ts
    rec (.infix t)

/-- `parse_climb`, parse.rs:1027-1064. -/
def climb : P Unit := do
  let (ts, t) ← currentTokenNTN env
  let t' ← processImplicitTimes t
  climbRest rec ts t'

/-- `push_and_climb`, parse.rs:1018-1022. -/
def pushClimb (c : Cst) : P Unit := do
  pushNode c
  rec .climb

/-- `current_token_eat_trivia` and `parse_prefix` of the token found. -/
def operand : P Unit := do
  let t ← eatTrivia env
  rec (.prefix t)

/-! #### Prefix parselets -/

/-- `LeafParselet` and `UnderDotParselet`, parse/parselet.rs:376-387, under_parselet.rs:120-140. -/
def leafPrefix (t : Tok) : P Unit := do
  pushNext t
  rec .climb

/-- `PrefixErrorParselet`, parse/parselet.rs:393-407. -/
def errorPrefix (t : Tok) : P Unit :=
  if t.kind.isError then pushNext t else P.panic .parserAssert

/-- `PrefixCloserParselet`, parse/parselet.rs:413-447. -/
def closerPrefix (t : Tok) : P Unit :=
  if t.kind.isCloser then do
    let s ← P.get
    pushTok (t.atStart (missingKind s))
    let _ ← peekP env
    pure ()
  else P.panic .parserAssert

/-- `PrefixToplevelCloserParselet`, parse/parselet.rs:453-477. -/
def toplevelCloser (t : Tok) : P Unit :=
  if t.kind.isCloser then do
    pushTok (t.at .Error_UnexpectedCloser)
    skipP t
  else P.panic .parserAssert

/-- `PrefixEndOfFileParselet`, parse/parselet.rs:483-508. -/
def eofPrefix (t : Tok) : P Unit := do
  let s ← P.get
  pushTok (t.atStart (missingKind s))

/-- `PrefixUnsupportedTokenParselet`, parse/parselet.rs:514-532. -/
def unsupportedPrefix (t : Tok) : P Unit := do
  pushTok (t.at .Error_UnsupportedToken)
  skipP t

/-- `PrefixCommaParselet`, parse/parselet.rs:538-565. -/
def commaPrefix (t : Tok) : P Unit := do
  let s ← P.get
  pushTok (t.atStart (if s.topPrec = 0 then .Error_PrefixImplicitNull else .Error_ExpectedOperand))
  rec .climb

/-- `PrefixUnhandledParselet`, parse/parselet.rs:571-626. -/
def unhandledPrefix (t : Tok) : P Unit :=
  if t.kind.isPossibleBeginning then P.panic .parserAssert
  else do
    pushTok (t.atStart .Error_ExpectedOperand)
    let _ ← peekP env
    let p ← infixPrec t.kind
    let s ← P.get
    if precGreater s.topPrec p then pure ()
    else do
      pushContext p
      rec (.infix t)

/-- `get_parse_under_context_sensitive`, under_parselet.rs:57-113, with
`UnderParseData::into_cst`, parse_cst.rs:825-835. -/
def parseUnder (bop : CompoundOp) (t : Tok) : P Cst := do
  skipP t
  let t2 ← peekP env
  if t2.kind = .Symbol ∨ t2.kind = .Error_ExpectedLetterlike then do
    skipP t2
    pure (.node (.compound bop) [.tok t, .tok t2])
  else pure (.tok t)

/-- `UnderParselet`, under_parselet.rs:18-37. -/
def underPrefix (bop : CompoundOp) (t : Tok) : P Unit := do
  let c ← parseUnder env bop t
  pushClimb rec c

/-- A symbol followed by a blank, parse/parselet.rs:680-730. -/
def symbolUnder (t : Tok) (bop pbop : CompoundOp) (t2 : Tok) : P Unit := do
  let c ← parseUnder env bop t2
  pushClimb rec (.node (.compound pbop) [.tok t, c])

/-- `SymbolParselet`, parse/parselet.rs:658-759, after the symbol. -/
def symbolRest (t t2 : Tok) : P Unit :=
  match t2.kind with
  | .Under => symbolUnder env rec t .Blank .CodeParser_PatternBlank t2
  | .UnderUnder => symbolUnder env rec t .BlankSequence .CodeParser_PatternBlankSequence t2
  | .UnderUnderUnder =>
    symbolUnder env rec t .BlankNullSequence .CodeParser_PatternBlankNullSequence t2
  | .UnderDot => do
    skipP t2
    pushClimb rec (.node (.compound .CodeParser_PatternOptionalDefault) [.tok t, .tok t2])
  | _ => pushClimb rec (.tok t)

/-- `SymbolParselet`, parse/parselet.rs:658-759. -/
def symbolPrefix (t : Tok) : P Unit := do
  skipP t
  let t2 ← peekP env
  symbolRest env rec t t2

/-- `HashParselet`, `HashHashParselet`, `PercentParselet`, parse/parselet.rs:2394-2515. -/
def slotPrefix (pol : Pol) (op : CompoundOp) (str : Bool) (t : Tok) : P Unit := do
  skipP t
  let t2 ← peekWithP env pol
  if t2.kind = .Integer ∨ (str = true ∧ t2.kind = .String) then do
    skipP t2
    pushClimb rec (.node (.compound op) [.tok t, .tok t2])
  else pushClimb rec (.tok t)

/-- `PrefixOperatorParselet`, parse/parselet.rs:778-801. -/
def opPrefix (prec : Nat) (op : PrefixOp) (t : Tok) : P Unit := do
  pushNext t
  pushContext prec
  operand env rec
  reduceClimb rec (.prefix op)

/-- `GroupParselet`, parse/parselet.rs:1107-1221. -/
def groupPrefix (opener : TK) (op : GroupOp) (t : Tok) : P Unit :=
  match groupOpenerToCloser opener, groupOpenerToCloser t.kind with
  | some closer, some closer' => do
    pushGroup closer'
    pushNext t
    pushContext 0
    rec (.groupLoop closer op)
  | _, _ => P.panic .parselet

/-- `SemiSemiParselet::parse_prefix`, semi_semi_parselet.rs:50-77. -/
def semiSemiPrefix (t : Tok) : P Unit := do
  pushTok (t.atStart .Fake_ImplicitOne)
  pushContext Prec.SEMISEMI
  rec (.infix t)

/-- `IntegralParselet::parse1`, integral_parselet.rs:60-115. -/
def integral1 (op1 : PrefixBinaryOp) (op2 : PrefixOp) : P Unit := do
  let (ts, t) ← currentToken env
  if t.kind.isDifferential then do
    pushTrivia ts
    rec (.prefix t)
    reduceClimb rec (.prefixBinary op1)
  else do
    triviaReset ts
    reduceClimb rec (.prefix op2)

/-- `IntegralParselet::parse_prefix`, integral_parselet.rs:17-57. -/
def integralPrefix (op1 : PrefixBinaryOp) (op2 : PrefixOp) (t : Tok) : P Unit := do
  pushNext t
  pushContext Prec.CLASS_INTEGRATIONOPERATORS
  let t2 ← eatTrivia env
  if t2.kind.isDifferential then do
    pushTok (t2.atStart .Fake_ImplicitOne)
    integral1 env rec op1 op2
  else do
    rec (.prefix t2)
    integral1 env rec op1 op2

/-- `LessLessParselet`, parse/parselet.rs:2355-2388. -/
def lessLessPrefix (t : Tok) : P Unit := do
  pushNext t
  pushContext Prec.HIGHEST
  let t2 ← eatTriviaFile env
  pushNext t2
  reduceClimb rec (.prefix .Get)

/-- `parse_prefix`, parse.rs:985-990. -/
def parsePrefix (t : Tok) : P Unit :=
  match t.kind.prefixParselet with
  | .leaf => leafPrefix rec t
  | .error => errorPrefix t
  | .closer => closerPrefix env t
  | .eof => eofPrefix t
  | .unsupported => unsupportedPrefix t
  | .comma => commaPrefix rec t
  | .unhandled => unhandledPrefix env rec t
  | .symbol => symbolPrefix env rec t
  | .underDot => leafPrefix rec t
  | .hash => slotPrefix env rec Pol.slot .Slot true t
  | .hashHash => slotPrefix env rec Pol.slotSequence .SlotSequence false t
  | .percent => slotPrefix env rec Pol.out .Out false t
  | .semiSemi => semiSemiPrefix rec t
  | .lessLess => lessLessPrefix env rec t
  | .op p op => opPrefix env rec p op t
  | .group opener op => groupPrefix rec opener op t
  | .under bop _ => underPrefix env rec bop t
  | .integral op1 op2 => integralPrefix env rec op1 op2 t

/-! #### Infix parselets -/

/-- `BinaryOperatorParselet` and `ColonEqualParselet`, parse/parselet.rs:896-932, 1711-1745. -/
def binaryInfix (op : BinaryOp) (t : Tok) : P Unit := do
  pushNext t
  operand env rec
  reduceClimb rec (.binary op)

/-- `InfixOperatorParselet` and `TimesParselet`, parse/parselet.rs:944-989,
times_parselet.rs:9-41. -/
def loopInfix (j : Job) (t : Tok) : P Unit := do
  pushNext t
  operand env rec
  rec j

/-- `PostfixOperatorParselet`, parse/parselet.rs:1064-1092. -/
def postfixInfix (op : PostfixOp) (t : Tok) : P Unit := do
  pushNext t
  reduceClimb rec (.postfix op)

/-- `CallParselet`, parse/parselet.rs:1233-1264. -/
def callInfix (opener : TK) (op : GroupOp) (t : Tok) : P Unit := do
  setPrecedence Prec.HIGHEST
  groupPrefix rec opener op t
  reduceCall
  rec .climb

/-- `TildeParselet`, parse/parselet.rs:1270-1347, after the middle operand. -/
def tildeRest : P Unit := do
  let (ts, t) ← currentToken env
  if t.kind = .Tilde then do
    commitNext ts t
    operand env rec
    reduceClimb rec (.ternary .CodeParser_TernaryTilde)
  else do
    triviaReset ts
    reduceClimb rec (.syntaxError .ExpectedTilde)

/-- `TildeParselet`, parse/parselet.rs:1270-1347. -/
def tildeInfix (t : Tok) : P Unit := do
  pushNext t
  operand env rec
  tildeRest env rec

/-- The three cases of `ColonParselet`, parse/parselet.rs:1374-1430. -/
def colonRest (l : ColonLHS) (t : Tok) : P Unit :=
  match l with
  | .pattern => do
    setPrecedence Prec.FAKE_PATTERNCOLON
    rec (.prefix t)
    reduceClimb rec (.binary .Pattern)
  | .optional => do
    setPrecedence Prec.FAKE_OPTIONALCOLON
    rec (.prefix t)
    reduceClimb rec (.binary .Optional)
  | .error => do
    setPrecedence Prec.FAKE_PATTERNCOLON
    rec (.prefix t)
    reduceClimb rec (.syntaxError .ExpectedSymbol)

/-- `ColonParselet`, parse/parselet.rs:1353-1443. -/
def colonInfix (t : Tok) : P Unit := do
  let l ← checkColonLhs
  pushNext t
  let t2 ← eatTrivia env
  colonRest rec l t2

/-- `EqualParselet`, parse/parselet.rs:1564-1622, and `EqualParselet::parse_infix_tag`,
1624-1694, after the operator. -/
def equalRest (unset set : NodeKind) : P Unit := do
  let t ← eatTrivia env
  if t.kind = .Dot then do
    pushNext t
    reduceClimb rec unset
  else do
    rec (.prefix t)
    reduceClimb rec set

/-- `EqualParselet`, parse/parselet.rs:1564-1622. -/
def equalInfix (t : Tok) : P Unit := do
  pushNext t
  equalRest env rec (.binary .Unset) (.binary .Set)

/-- `SlashColonParselet`, parse/parselet.rs:1482-1539. -/
def slashColonRest : P Unit := do
  let (ts, t) ← currentToken env
  if t.kind = .Equal then do
    setPrecedence Prec.EQUAL
    commitNext ts t
    equalRest env rec (.ternary .TagUnset) (.ternary .TagSet)
  else if t.kind = .ColonEqual then do
    setPrecedence Prec.COLONEQUAL
    commitNext ts t
    operand env rec
    reduceClimb rec (.ternary .TagSetDelayed)
  else do
    triviaReset ts
    reduceClimb rec (.syntaxError .ExpectedSet)

/-- `SlashColonParselet`, parse/parselet.rs:1449-1547. -/
def slashColonInfix (t : Tok) : P Unit := do
  pushNext t
  operand env rec
  slashColonRest env rec

/-- An operand of a comma sequence, parse/parselet.rs:1809-1825, 1879-1895. -/
def commaOperand : P Unit := do
  let t ← eatTrivia env
  if t.kind.isComma then pushTok (t.atStart .Error_InfixImplicitNull)
  else rec (.prefix t)

/-- `CommaParselet`, parse/parselet.rs:1788-1848. -/
def commaInfix (t : Tok) : P Unit := do
  pushNext t
  commaOperand env rec
  rec .commaLoop

/-- An operand of a compound expression and what follows, parse/parselet.rs:1953-2019,
2064-2135. -/
def semiOperand : P Unit := do
  let t ← eatTriviaNTN env
  if t.kind = .Semi then do
    pushTok (t.atStart .Fake_ImplicitNull)
    rec .semiLoop
  else if t.kind.isPossibleBeginning then do
    rec (.prefix t)
    rec .semiLoop
  else do
    pushTok (t.atStart .Fake_ImplicitNull)
    reduceClimb rec (.infix .CompoundExpression)

/-- `SemiParselet`, parse/parselet.rs:1931-2028. -/
def semiInfix (t : Tok) : P Unit := do
  pushNext t
  semiOperand env rec

/-- `ColonColonParselet`, parse/parselet.rs:2153-2204, and one round of its loop. -/
def colonColonTag : P Unit := do
  let t2 ← P.lift (peekTokenTag env.E)
  pushNext t2
  rec .colonColonLoop

/-- `ColonColonParselet`, parse/parselet.rs:2153-2204. -/
def colonColonInfix (t : Tok) : P Unit := do
  pushNext t
  colonColonTag env rec

/-- `GreaterGreaterParselet` and `GreaterGreaterGreaterParselet`, parse/parselet.rs:2251-2349. -/
def putInfix (op : BinaryOp) (t : Tok) : P Unit := do
  pushNext t
  let t2 ← eatTriviaFile env
  pushNext t2
  reduceClimb rec (.binary op)

/-- The end of `SemiSemiParselet::parse2`, semi_semi_parselet.rs:278-342; `ts3` and `t3` are the
trivia before the second `;;` and that token. -/
def span3 (ts3 : List Tok) (t3 : Tok) : P Unit := do
  skipP t3
  let (ts4, t4) ← currentTokenNTN env
  if !t4.kind.isPossibleBeginning || t4.kind = .SemiSemi then do
    triviaReset ts4
    P.lift (M.lift t3.reset)
    triviaReset ts3
    reduceClimb rec (.binary .Span)
  else do
    pushTrivia ts3
    pushTok t3
    pushTrivia ts4
    rec (.prefix t4)
    reduceClimb rec (.ternary .Span)

/-- `SemiSemiParselet::parse2`, semi_semi_parselet.rs:225-343. -/
def span2 : P Unit := do
  let (ts3, t3) ← currentTokenNTN env
  if !t3.kind.isPossibleBeginning || t3.kind ≠ .SemiSemi then do
    triviaReset ts3
    reduceClimb rec (.binary .Span)
  else span3 env rec ts3 t3

/-- `SemiSemiParselet::parse1`, semi_semi_parselet.rs:152-222; `t2` is the second `;;`. -/
def spanImplicit (t2 : Tok) : P Unit := do
  skipP t2
  let (ts4, t3) ← currentTokenNTN env
  if !t3.kind.isPossibleBeginning || t3.kind = .SemiSemi then do
    triviaReset ts4
    P.lift (M.lift t2.reset)
    reduceClimb rec (.binary .Span)
  else do
    pushTok t2
    pushTrivia ts4
    rec (.prefix t3)
    reduceClimb rec (.ternary .Span)

/-- `SemiSemiParselet::parse_infix` and `parse1`, semi_semi_parselet.rs:13-27, 80-223. -/
def semiSemiInfix (t : Tok) : P Unit := do
  pushNext t
  let t2 ← eatTriviaNTN env
  if !t2.kind.isPossibleBeginning then do
    pushTok (t2.atStart .Fake_ImplicitAll)
    reduceClimb rec (.binary .Span)
  else if t2.kind ≠ .SemiSemi then do
    rec (.prefix t2)
    span2 env rec
  else do
    pushTok (t2.atStart .Fake_ImplicitAll)
    spanImplicit env rec t2

/-- `parse_infix`, parse.rs:997-1007. -/
def parseInfix (t : Tok) : P Unit :=
  match t.kind.infixParselet with
  | .assertFalse => P.panic .parselet
  | .toplevelNewline => P.panic .parselet
  | .implicitTimes => P.panic .parselet
  | .differentialD => P.panic .parselet
  | .times => loopInfix env rec .timesLoop t
  | .semi => semiInfix env rec t
  | .comma => commaInfix env rec t
  | .semiSemi => semiSemiInfix env rec t
  | .tilde => tildeInfix env rec t
  | .colon => colonInfix env rec t
  | .slashColon => slashColonInfix env rec t
  | .equal => equalInfix env rec t
  | .colonEqual => binaryInfix env rec .SetDelayed t
  | .colonColon => colonColonInfix env rec t
  | .greaterGreater => putInfix env rec .Put t
  | .greaterGreaterGreater => putInfix env rec .PutAppend t
  | .binary _ op => binaryInfix env rec op t
  | .infix _ op => loopInfix env rec (.infixLoop op) t
  | .postfix _ op => postfixInfix rec op t
  | .call opener op => callInfix rec opener op t

/-! #### Loops -/

/-- One round of `InfixOperatorParselet::parse_loop`, parse/parselet.rs:997-1047. -/
def infixLoop (op : InfixOp) : P Unit := do
  let (ts, t) ← currentToken env
  if t.kind.infixOp ≠ .infix op then do
    triviaReset ts
    reduceClimb rec (.infix op)
  else do
    commitNext ts t
    operand env rec
    rec (.infixLoop op)

/-- The token that decides about the next round of `TimesParselet::parse_loop`,
times_parselet.rs:61-78. -/
def timesToken : P (List Tok × Tok) := do
  let (ts, t) ← currentToken env
  let t' ← processImplicitTimes t
  if t'.kind = .Fake_ImplicitTimes then do
    triviaReset ts
    let (ts2, t2) ← currentTokenNTN env
    let t2' ← processImplicitTimes t2
    pure (ts2, t2')
  else pure (ts, t')

/-- One round of `TimesParselet::parse_loop`, times_parselet.rs:57-119. -/
def timesLoop : P Unit := do
  let (ts, t) ← timesToken env
  if t.kind.infixOp ≠ .infix .Times then do
    triviaReset ts
    reduceClimb rec (.infix .Times)
  else do
    commitNext ts t
    operand env rec
    rec .timesLoop

/-- One round of `CommaParselet::parse_loop`, parse/parselet.rs:1855-1904. -/
def commaLoop : P Unit := do
  let (ts, t) ← currentToken env
  if t.kind.isComma then do
    commitNext ts t
    commaOperand env rec
    rec .commaLoop
  else do
    triviaReset ts
    reduceNode (.infix .CodeParser_Comma)

/-- One round of `SemiParselet::parse_loop`, parse/parselet.rs:2035-2136. -/
def semiLoop : P Unit := do
  let (ts, t) ← currentToken env
  if t.kind = .Semi then do
    commitNext ts t
    semiOperand env rec
  else do
    triviaReset ts
    reduceClimb rec (.infix .CompoundExpression)

/-- One round of `ColonColonParselet::parse_loop`, parse/parselet.rs:2211-2243. -/
def colonColonLoop : P Unit := do
  let (ts, t) ← currentToken env
  if t.kind = .ColonColon then do
    commitNext ts t
    colonColonTag env rec
  else do
    triviaReset ts
    reduceClimb rec (.infix .MessageName)

/-- One round of the loop of `GroupParselet::parse_prefix`, parse/parselet.rs:1128-1219. -/
def groupLoop (closer : Closer) (op : GroupOp) : P Unit := do
  let (ts, t) ← currentToken env
  if tokenToCloser t.kind = closer then do
    commitNext ts t
    reduceGroup (.group op)
    rec .climb
  else if t.kind.isCloser then do
    let s ← P.get
    if checkGroup s (tokenToCloser t.kind) then do
      triviaReset ts
      reduceGroup (.groupMissingCloser op)
    else do
      pushTrivia ts
      toplevelCloser t
      rec (.groupLoop closer op)
  else do
    pushTrivia ts
    if t.kind = .EndOfFile then reduceUnterminated env op
    else do
      rec (.prefix t)
      rec (.groupLoop closer op)

/-- One call of a recursive function, the recursive calls being made by `rec`. -/
def step : Job → P Unit
  | .prefix t => parsePrefix env rec t
  | .climb => climb env rec
  | .infix t => parseInfix env rec t
  | .groupLoop closer op => groupLoop env rec closer op
  | .infixLoop op => infixLoop env rec op
  | .timesLoop => timesLoop env rec
  | .commaLoop => commaLoop env rec
  | .semiLoop => semiLoop env rec
  | .colonColonLoop => colonColonLoop env rec
end

/-- The recursive functions, with at most `n` nested calls. -/
def run (env : PEnv) : Nat → Job → P Unit
  | 0, _ => fun _ => .error (.base .fuel)
  | n + 1, j => step env (run env n) j

/-- `is_quiescent`, parse.rs:1619-1629. -/
def assertQuiescent : P Unit := P.of (CodeParser.assertQuiescent)

/-- The body of the loop of `do_parse`, parse.rs:132-170, given the token at its beginning
(not the end of the file): the finished top-level node. -/
def parseItem (env : PEnv) (t : Tok) : P Cst :=
  if t.kind.isTrivia then do
    skipP t
    pure (.tok t)
  else if t.kind.isCloser then do
    toplevelCloser t
    let c ← popNode
    assertQuiescent
    pure c
  else do
    let s ← P.get
    run env (8 * s.st.rest.length + 8) (.prefix t)
    let c ← popNode
    assertQuiescent
    pure c

/-- The loop of `do_parse`, parse.rs:132-170, with at most `n` rounds. -/
def parseLoopN (env : PEnv) : Nat → List Cst → P (List Cst)
  | 0, _ => fun _ => .error (.base .fuel)
  | n + 1, cs => do
    let t ← peekP env
    if t.kind = .EndOfFile then pure cs
    else do
      let c ← parseItem env t
      parseLoopN env n (cs ++ [c])

/-- The loop of `do_parse`, parse.rs:132-170. -/
def parseLoop (env : PEnv) : P (List Cst) := fun s =>
  parseLoopN env (s.st.rest.length + 1) [] s

/-- `do_parse`, parse.rs:113-179: the finished nodes before `ParseBuilder::finish`, and the
final tokenizer state. -/
def doParse (env : PEnv) (conv : Conv) (first : FirstLine) (bs : List UInt8) :
    Except Fail (List Cst × PS × List Ev) :=
  (do P.lift (handleFirstLine env.E first)
      parseLoop env : P (List Cst)) ⟨St.init conv bs, [], [], []⟩

/-! ### Recovery and the entry points -/

/-- Panics as those of the model without issues; the two others do not occur in nested calls, because
they do not occur in `tokens` (C62). -/
def errOf : Fail → Err
  | .base e => e
  | .column | .shown => .panic .recovery

/-- The result of `tokenize_bytes`, lib.rs:385-422, as `CodeParser.tokenizeBytesWith`. -/
def tokenizeBytesWith (isNew : List Char → Except Err Bool) (E : Env) (conv : Conv) (first : FirstLine)
    (bs : List UInt8) : Except Err (Except Unsafe (List Tok)) :=
  match tokens E conv first bs with
  | .error e => .error (errOf e)
  | .ok (ts, s, _) =>
    match s.flag with
    | some f => .ok (.error f)
    | none =>
      match fromUtf8 bs with
      | none => .ok (.ok ts)
      | some input =>
        match fixToks E.cfg isNew input ts with
        | .error e => .error e
        | .ok ts => .ok (.ok ts)

/-- `tokenize`, lib.rs:376-382. -/
def tokenizeWith (isNew : List Char → Except Err Bool) (E : Env) (conv : Conv) (first : FirstLine)
    (input : List Char) : Except Err (List Tok) :=
  match tokenizeBytesWith isNew E conv first (input.flatMap String.utf8EncodeChar) with
  | .error e => .error e
  | .ok (.error _) => .error (.panic .encoding)
  | .ok (.ok ts) => .ok ts

/-- `ParseOptions::default()`, lib.rs:292-304, in the nested call of `tokenize`, error.rs:370. -/
def nested (E : Env) : Env := { E with cfg := E.cfg.nested, check := true, oob := true, normal := true }

/-- `is_new_statement_line`, error.rs:367-468, as `CodeParser.isStatement`. -/
def isStatement (E : Env) (line : List Char) : Except Err Bool :=
  match tokenizeWith (fun _ => .error .fuel) (nested E) .lineColumn .notScript line with
  | .error e => .error e
  | .ok ts => statementToks (ts.filter keepsTok)

/-- `reparse_unterminated_group_node`, error.rs:64-120, as `CodeParser.recoverGroup`. -/
def recoverGroup (E : Env) (bs : List UInt8) (_op : GroupOp) (cs : List Cst) : Except Err (List Cst) :=
  match fromUtf8 bs with
  | none => .error (.panic .utf8)
  | some input =>
    match sourceOf cs with
    | .error e => .error e
    | .ok src =>
      match goodLines E.cfg (isStatement E) input src with
      | .error e => .error e
      | .ok (_, _, better) => keepLeaves better (Cst.leavesL cs)

/-- An issue as `addIssue` sees it, read.rs:247-278. -/
def Report.entry (r : Report) : Issue Report Unit := ⟨r, r.sev, ()⟩

/-- What `Reader::addIssue`, read.rs:247-278, keeps of the issues among the events. -/
def logOf (es : List Ev) : IssueLog Report Unit :=
  es.foldl (fun log e =>
    match e with
    | .issue i => log.add (Report.entry i)
    | _ => log) .empty

/-- `ParseResult`, lib.rs:200-216: the tree, the encoding error, the two lists of issues, and the tracked
locations (tokenize/tokenizer.rs:410-424; sets in the program, here lists without repetitions). -/
structure Result where
  syntax' : List Cst
  unsafeEncoding : Option Unsafe
  fatal : List Report
  nonFatal : List Report
  simpleContinuations : List Loc
  complexContinuations : List Loc
  embeddedNewlines : List Loc
  embeddedTabs : List Loc
deriving Repr

/-- `create_parse_result`, lib.rs:811-821, and `parse`, parse.rs:94-112. -/
def resultOf (cs : List Cst) (flag : Option Unsafe) (es : List Ev) : Result where
  syntax' := cs
  unsafeEncoding := flag
  fatal := (logOf es).fatal.map (·.key)
  nonFatal := (logOf es).nonFatal.map (·.key)
  simpleContinuations := (es.filterMap fun | .simpleContinuation l => some l | _ => none).eraseDups
  complexContinuations := (es.filterMap fun | .complexContinuation l => some l | _ => none).eraseDups
  embeddedNewlines := (es.filterMap fun | .embeddedNewline l => some l | _ => none).eraseDups
  embeddedTabs := (es.filterMap fun | .embeddedTab l => some l | _ => none).eraseDups

/-- `parse_bytes_cst_seq`, lib.rs:500-505, = `parse::<ParseCst>`, parse.rs:94-112, with
`ParseCst::finish`, parse_cst.rs:167-189. -/
def parseBytesCst (E : Env) (conv : Conv) (first : FirstLine) (bs : List UInt8) : Except Fail Result :=
  match doParse ⟨E, recoverGroup E bs⟩ conv first bs with
  | .error e => .error e
  | .ok (cs, s, es) =>
    match fromUtf8 bs with
    | none => .ok (resultOf cs s.st.flag es)
    | some input =>
      match fixCsts E.cfg (isStatement E) input cs with
      | .error e => .error (.base e)
      | .ok cs' => .ok (resultOf cs' s.st.flag es)

end CodeParser.Chk.Par
