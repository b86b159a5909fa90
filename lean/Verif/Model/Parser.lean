import Verif.Model.Cst
import Verif.Model.Gen.Parselets
/-!
The parser: `ParserSession` (parse.rs), the parselets (parse/parselet.rs, parse/parselet/*.rs)
and the CST builder (parse_cst.rs).  Paths are relative to /repo/crates/wolfram-parser/src.

The mutually recursive functions of the program become jobs of one function `run` with fuel;
`Proofs/Parser*.lean` show that the fuel given by `parseLoop` is always enough.
`debug_assert!`s are not modelled (release semantics); aborts (`feature::CHECK_ABORT`) are off.
The handles the program passes around for nodes, trivia and infix states carry no data in the
CST builder and are left out.
-/
namespace CodeParser

/-- The parameters of a parse: the reader configuration and the function that rewrites the
children of an unterminated group (`reparse_unterminated_group_node`, error.rs:64-120, called
from parse.rs:1471-1498 and parse_cst.rs:614-632). -/
structure PEnv where
  cfg : Cfg
  recover : GroupOp → List Cst → Except Err (List Cst)

/-- The mutable state of `ParserSession`, parse.rs:188-196, `Tokenizer::GroupStack` and
`ParseCst::node_stack`, parse_cst.rs:27-31.  All three stacks have their top first.
A context is a precedence (0 for `None`) and the `start_index` of the builder. -/
structure PS where
  st : St
  groups : List Closer
  ctxs : List (Nat × Nat)
  stack : List Cst

/-- A computation of the parser. -/
def P (α : Type) : Type := PS → Except Err (α × PS)

namespace P
/-- Return a value. -/
def pure {α} (a : α) : P α := fun s => .ok (a, s)
/-- Sequential composition; an error ends the computation. -/
def bind {α β} (m : P α) (f : α → P β) : P β := fun s =>
  match m s with
  | .ok (a, s') => f a s'
  | .error e => .error e
instance : Monad P where
  pure := pure
  bind := bind
/-- A panic. -/
def panic {α} (site : Site) : P α := fun _ => .error (.panic site)
/-- A computation of the tokenizer. -/
def lift {α} (m : M α) : P α := fun s =>
  match m s.st with
  | .ok (a, t) => .ok (a, { s with st := t })
  | .error e => .error e
/-- The current state. -/
def get : P PS := fun s => .ok (s, s)
end P

/-- Changes of token kind that empty the token, tokenize/token.rs:342-373, used with
`at_start` only. -/
def TK.emptied : TK → Bool
  | .Fake_ImplicitOne | .Fake_ImplicitAll | .Fake_ImplicitTimes | .Fake_ImplicitNull
  | .Error_InfixImplicitNull | .Error_ExpectedOperand | .Error_PrefixImplicitNull => true
  | _ => false

/-- `Token::at_start`, tokenize/token.rs:328-336, for the kinds of `TK.emptied`. -/
def Tok.atStart (k : TK) (t : Tok) : Tok := ⟨k, [], t.text ++ t.after, t.start, t.start⟩

/-- `Token::at`, tokenize/token.rs:342-373, for the kinds that keep the text. -/
def Tok.«at» (k : TK) (t : Tok) : Tok := { t with kind := k }

/-- `Precedence::greater`, precedence.rs:31-39. -/
def precGreater (l r : Nat) : Bool := (l ||| 1) > r

/-! ### Tokens -/

/-- `tokenizer.peek_token()`, tokenize/tokenizer.rs:290-292. -/
def peekP (env : PEnv) : P Tok := fun s =>
  P.lift (peekToken env.cfg (!s.groups.isEmpty)) s

/-- `tokenizer.peek_token_with(policy)`, tokenize/tokenizer.rs:297-321. -/
def peekWithP (env : PEnv) (pol : Pol) : P Tok := fun s =>
  P.lift (peekTokenWith env.cfg pol (!s.groups.isEmpty)) s

/-- `tok.skip(&mut session.tokenizer)` -/
def skipP (t : Tok) : P Unit := P.lift t.skip

/-- The loops of `current_token`, parse.rs:1162-1182, and
`current_token_eat_trivia_but_not_toplevel_newlines_into`, 1222-1241: the leading tokens
satisfying `p` and the first other token. -/
def eatM (cfg : Cfg) (inside : Bool) (p : TK → Bool) : M (List Tok × Tok) :=
  M.loop (fun ts : List Tok => do
    let t ← peekToken cfg inside
    if p t.kind then do
      t.skip
      pure (.inl (ts ++ [t]))
    else pure (.inr (ts, t))) []

/-- The loop of `current_syntax_token_stringify_as_file`, parse.rs:1184-1208. -/
def eatFileM (cfg : Cfg) : M (List Tok × Tok) :=
  M.loop (fun ts : List Tok => do
    let t ← peekTokenFile cfg
    if t.kind.isTrivia then do
      t.skip
      pure (.inl (ts ++ [t]))
    else pure (.inr (ts, t))) []

/-- `current_token`, parse.rs:1162-1182. -/
def currentToken (env : PEnv) : P (List Tok × Tok) := fun s =>
  P.lift (eatM env.cfg (!s.groups.isEmpty) TK.isTrivia) s

/-- `current_token_eat_trivia_but_not_toplevel_newlines_into`, parse.rs:1222-1241. -/
def currentTokenNTN (env : PEnv) : P (List Tok × Tok) := fun s =>
  P.lift (eatM env.cfg (!s.groups.isEmpty) TK.isTriviaButNotToplevelNewline) s

/-! ### Builder and contexts -/

/-- `push_node`, parse_cst.rs:801-803. -/
def pushNode (c : Cst) : P Unit := fun s => .ok ((), { s with stack := c :: s.stack })

/-- `push_leaf`, parse.rs:1075-1077, and `push_syntax`. -/
def pushTok (t : Tok) : P Unit := pushNode (.tok t)

/-- `push_leaf_and_next`, parse.rs:1084-1093, and `push_syntax_and_next`, 1099-1108. -/
def pushNext (t : Tok) : P Unit := do
  pushTok t
  skipP t

/-- `push_trivia_seq`, parse_cst.rs:95-106. -/
def pushTrivia (ts : List Tok) : P Unit := fun s =>
  .ok ((), { s with stack := (ts.map Cst.tok).reverse ++ s.stack })

/-- `trivia_reset`, parse.rs:1126-1133. -/
def triviaReset : List Tok → P Unit
  | [] => pure ()
  | t :: _ => P.lift t.reset

/-- `current_token_eat_trivia`, parse.rs:1144-1153. -/
def eatTrivia (env : PEnv) : P Tok := do
  let (ts, t) ← currentToken env
  pushTrivia ts
  pure t

/-- `current_token_eat_trivia_but_not_toplevel_newlines`, parse.rs:1210-1220. -/
def eatTriviaNTN (env : PEnv) : P Tok := do
  let (ts, t) ← currentTokenNTN env
  pushTrivia ts
  pure t

/-- `current_syntax_token_stringify_as_file`, parse.rs:1184-1208. -/
def eatTriviaFile (env : PEnv) : P Tok := do
  let (ts, t) ← P.lift (eatFileM env.cfg)
  pushTrivia ts
  pure t

/-- `commit_syntax_and_next`, parse.rs:1112-1122. -/
def commitNext (ts : List Tok) (t : Tok) : P Unit := do
  pushTrivia ts
  pushNext t

/-- `push_context`, parse.rs:1528-1539, and `begin_context`, parse_cst.rs:195-203. -/
def pushContext (prec : Nat) : P Unit := fun s =>
  match s.stack with
  | [] => .error (.panic .parserStack)
  | _ :: st => .ok ((), { s with ctxs := (prec, st.length) :: s.ctxs })

/-- `top_precedence`, parse.rs:1552-1557. -/
def PS.topPrec (s : PS) : Nat :=
  match s.ctxs with
  | [] => 0
  | (p, _) :: _ => p

/-- `set_precedence`, parse.rs:1559-1566, and `top_context().set_precedence(..)`. -/
def setPrecedence (prec : Nat) : P Unit := fun s =>
  match s.ctxs with
  | [] => .error (.panic .parserContext)
  | (_, i) :: cs => .ok ((), { s with ctxs := (prec, i) :: cs })

/-- `context_stack.pop().unwrap()`. -/
def popContext : P Nat := fun s =>
  match s.ctxs with
  | [] => .error (.panic .parserContext)
  | (_, i) :: cs => .ok (i, { s with ctxs := cs })

/-- `push_group`, parse.rs:1572-1574. -/
def pushGroup (c : Closer) : P Unit := fun s => .ok ((), { s with groups := c :: s.groups })

/-- `pop_group`, parse.rs:1576-1580. -/
def popGroup : P Unit := fun s =>
  match s.groups with
  | [] => .error (.panic .parserAssert)
  | _ :: gs => .ok ((), { s with groups := gs })

/-- `ParseCst::reduce`, parse_cst.rs:816-822: `node_stack.drain(start_index..)`. -/
def drainStack (i : Nat) : P (List Cst) := fun s =>
  if i ≤ s.stack.length then
    .ok ((s.stack.take (s.stack.length - i)).reverse,
      { s with stack := s.stack.drop (s.stack.length - i) })
  else .error (.panic .parserStack)

/-- The operator node constructors: `OperatorNode::new`, cst.rs:481-488, and
`SyntaxErrorNode::new`, cst.rs:803-810, assert that there are children. -/
def mkNode (k : NodeKind) (cs : List Cst) : P Unit :=
  if cs.isEmpty then P.panic .parserAssert else pushNode (.node k cs)

/-- `reduce_prefix`, `reduce_binary`, …, parse.rs:1247-1425, parse_cst.rs:303-495 and
`reduce_syntax_error`, parse.rs:1462-1469. -/
def reduceNode (k : NodeKind) : P Unit := do
  let i ← popContext
  let cs ← drainStack i
  mkNode k cs

/-- `reduce_group`, parse.rs:1427-1445, and `reduce_group_missing_closer`, 1500-1511. -/
def reduceGroup (k : NodeKind) : P Unit := do
  let i ← popContext
  popGroup
  let cs ← drainStack i
  mkNode k cs

/-- The recovery of an unterminated group, parse.rs:1482-1496. -/
def recoverP (env : PEnv) (op : GroupOp) (cs : List Cst) : P (List Cst) := fun s =>
  match env.recover op cs with
  | .ok cs' => .ok (cs', s)
  | .error e => .error e

/-- `reduce_unterminated_group`, parse.rs:1471-1498, parse_cst.rs:614-632. -/
def reduceUnterminated (env : PEnv) (op : GroupOp) : P Unit := do
  let i ← popContext
  popGroup
  let cs ← drainStack i
  let cs' ← recoverP env op cs
  pushNode (.node (.groupMissingCloser op) cs')

/-- `pop_node`, parse_cst.rs:805-807. -/
def popNode : P Cst := fun s =>
  match s.stack with
  | [] => .error (.panic .parserStack)
  | c :: st => .ok (c, { s with stack := st })

/-- The body of a call, parse_cst.rs:542-573. -/
def mkCall (body : Cst) (head : List Cst) : P Unit :=
  match body with
  | .node (.group op) cs =>
    match op.toCall with
    | some op' => pushNode (.call head false op' cs)
    | none => P.panic .callBody
  | .node (.groupMissingCloser op) cs =>
    match op.toCall with
    | some op' => pushNode (.call head true op' cs)
    | none => P.panic .callBody
  | _ => P.panic .callBody

/-- `reduce_call`, parse.rs:1447-1456, parse_cst.rs:531-574. -/
def reduceCall : P Unit := do
  let i ← popContext
  let body ← popNode
  let head ← drainStack i
  mkCall body head

/-- `check_group`, parse.rs:1582-1590. -/
def checkGroup (s : PS) (c : Closer) : Bool := s.groups.contains c

/-- `check_pattern_precedence`, parse.rs:1596-1617. -/
def checkPatternPrec : List (Nat × Nat) → Bool
  | [] => false
  | (p, _) :: cs =>
    if p = 0 then false
    else if p > Prec.FAKE_PATTERNCOLON then checkPatternPrec cs
    else if p < Prec.FAKE_PATTERNCOLON then false
    else true

/-- `ColonLHS`, parse.rs:934-938. -/
inductive ColonLHS where
  | pattern | optional | error
deriving DecidableEq, Repr

/-- The `match` of `check_colon_lhs`, parse_cst.rs:687-759. -/
def colonLhsOf : Cst → Except Err ColonLHS
  | .node (.binary op) _ => .ok (if op = .Pattern then .optional else .error)
  | .node (.compound op) _ =>
    match op with
    | .CodeParser_PatternBlank | .CodeParser_PatternBlankSequence
    | .CodeParser_PatternBlankNullSequence | .Blank | .BlankSequence | .BlankNullSequence =>
      .ok .optional
    | _ => .ok .error
  | .tok t =>
    match t.kind with
    | .Symbol => .ok .pattern
    | .Under | .UnderUnder | .UnderUnderUnder => .ok .optional
    | .Colon => .error (.panic .colon)
    | k => .ok (if k.isError then .pattern else .error)
  | _ => .ok .error

/-- `check_colon_lhs`, parse_cst.rs:671-760. -/
def checkColonLhs : P ColonLHS := fun s =>
  match s.stack.find? (fun c => !c.isTrivia) with
  | none => .error (.panic .parserStack)
  | some c =>
    match colonLhsOf c with
    | .ok l => .ok (l, s)
    | .error e => .error e

/-- The `match` of `top_node_is_span`, parse_cst.rs:783-797. -/
def isSpan : Cst → Bool
  | .node (.binary .Span) _ => true
  | .node (.ternary .Span) _ => true
  | _ => false

/-- `top_node_is_span`, parse_cst.rs:762-798. -/
def topNodeIsSpan : P Bool := fun s =>
  match s.stack.find? (fun c => !c.isTrivia) with
  | none => .error (.panic .parserStack)
  | some c => .ok (isSpan c, s)

/-! ### Infix parselets: precedence, operator, implicit times -/

/-- `getPrecedence` of the infix parselet of a token kind, parse/parselet.rs:645-2347,
semi_semi_parselet.rs:29-31, times_parselet.rs:47-49, integral_parselet.rs:131-144. -/
def infixPrec (k : TK) : P Nat := fun s =>
  match k.infixParselet with
  | .assertFalse => .ok (0, s)
  | .toplevelNewline => .ok (0, s)
  | .implicitTimes => .error (.panic .parselet)
  | .differentialD =>
    .ok (if s.topPrec = Prec.CLASS_INTEGRATIONOPERATORS then 0 else Prec.FAKE_IMPLICITTIMES, s)
  | .times => .ok (Prec.STAR, s)
  | .semi => .ok (Prec.SEMI, s)
  | .comma => .ok (Prec.COMMA, s)
  | .semiSemi => .ok (Prec.SEMISEMI, s)
  | .tilde => .ok (Prec.TILDE, s)
  | .colon =>
    .ok (if checkPatternPrec s.ctxs then Prec.FAKE_OPTIONALCOLON else Prec.HIGHEST, s)
  | .slashColon => .ok (Prec.SLASHCOLON, s)
  | .equal => .ok (Prec.EQUAL, s)
  | .colonEqual => .ok (Prec.COLONEQUAL, s)
  | .colonColon => .ok (Prec.COLONCOLON, s)
  | .greaterGreater => .ok (Prec.GREATERGREATER, s)
  | .greaterGreaterGreater => .ok (Prec.GREATERGREATERGREATER, s)
  | .binary p _ => .ok (p, s)
  | .infix p _ => .ok (p, s)
  | .postfix p _ => .ok (p, s)
  | .call _ _ => .ok (Prec.CALL, s)

/-- `InfixParseletOperator`, parse/parselet.rs:83-89. -/
inductive ParseletOp where
  | «infix» (op : InfixOp) | binary (op : BinaryOp) | «postfix» (op : PostfixOp)
deriving DecidableEq, Repr

/-- `getOp`, parse/parselet.rs:66-71, 929-931, 986-988, 1089-1091, times_parselet.rs:43-45. -/
def TK.infixOp (k : TK) : ParseletOp :=
  match k.infixParselet with
  | .binary _ op => .binary op
  | .infix _ op => .infix op
  | .postfix _ op => .postfix op
  | .times => .infix .Times
  | _ => .infix .CodeParser_InternalInvalid

/-- `do_process_implicit_times`, parse.rs:1009-1016, with `process_implicit_times` of
parse/parselet.rs:73-80, 828-834, integral_parselet.rs:146-160, semi_semi_parselet.rs:33-47. -/
def processImplicitTimes (t : Tok) : P Tok := fun s =>
  match t.kind.infixParselet with
  | .implicitTimes => .ok (t.atStart .Fake_ImplicitTimes, s)
  | .differentialD =>
    .ok (if s.topPrec = Prec.CLASS_INTEGRATIONOPERATORS then t
      else t.atStart .Fake_ImplicitTimes, s)
  | .semiSemi =>
    match topNodeIsSpan s with
    | .ok (b, s') => .ok (if b then t.atStart .Fake_ImplicitTimes else t, s')
    | .error e => .error e
  | _ => .ok (t, s)

/-! ### The recursive functions -/

/-- The recursive functions of the parser with their arguments. -/
inductive Job where
  /-- `ParserSession::parse_prefix(token)`, parse.rs:985-990 -/
  | «prefix» (t : Tok)
  /-- `ParserSession::parse_climb`, parse.rs:1027-1064 -/
  | climb
  /-- `ParserSession::parse_infix(.., token)`, parse.rs:997-1007 -/
  | «infix» (t : Tok)
  /-- the loop of `GroupParselet::parse_prefix`, parse/parselet.rs:1128-1219 -/
  | groupLoop (closer : Closer) (op : GroupOp)
  /-- `InfixOperatorParselet::parse_loop`, parse/parselet.rs:992-1048 -/
  | infixLoop (op : InfixOp)
  /-- `TimesParselet::parse_loop`, times_parselet.rs:53-120 -/
  | timesLoop
  /-- `CommaParselet::parse_loop`, parse/parselet.rs:1851-1905 -/
  | commaLoop
  /-- `SemiParselet::parse_loop`, parse/parselet.rs:2031-2137 -/
  | semiLoop
  /-- `ColonColonParselet::parse_loop`, parse/parselet.rs:2207-2244 -/
  | colonColonLoop
deriving DecidableEq, Repr

section
variable (env : PEnv) (rec : Job → P Unit)

/-- `reduce_…` followed by `parse_climb`, the end of most parselets. -/
def reduceClimb (k : NodeKind) : P Unit := do
  reduceNode k
  rec .climb

/-- `parse_climb`, parse.rs:1027-1064, once the token is known. -/
def climbRest (ts : List Tok) (t : Tok) : P Unit := do
  let p ← infixPrec t.kind
  let s ← P.get
  if precGreater s.topPrec p then triviaReset ts
  else do
    pushContext p
    pushTrivia ts
    rec (.infix t)

/-- `parse_climb`, parse.rs:1027-1064. -/
def climb : P Unit := do
  let (ts, t) ← currentTokenNTN env
  let t' ← processImplicitTimes t
  climbRest rec ts t'

/-- `push_and_climb`, parse.rs:1018-1022. -/
def pushClimb (c : Cst) : P Unit := do
  pushNode c
  rec .climb

/-- `current_token_eat_trivia` and `parse_prefix` of the token found. -/
def operand : P Unit := do
  let t ← eatTrivia env
  rec (.prefix t)

/-! #### Prefix parselets -/

/-- `LeafParselet` and `UnderDotParselet`, parse/parselet.rs:376-387, under_parselet.rs:120-140. -/
def leafPrefix (t : Tok) : P Unit := do
  pushNext t
  rec .climb

/-- `PrefixErrorParselet`, parse/parselet.rs:393-407. -/
def errorPrefix (t : Tok) : P Unit :=
  if t.kind.isError then pushNext t else P.panic .parserAssert

/-- The kind chosen at parse/parselet.rs:430-434 and 498-502. -/
def missingKind (s : PS) : TK :=
  if s.topPrec = Prec.COMMA then .Error_InfixImplicitNull else .Error_ExpectedOperand

/-- `PrefixCloserParselet`, parse/parselet.rs:413-447. -/
def closerPrefix (t : Tok) : P Unit :=
  if t.kind.isCloser then do
    let s ← P.get
    pushTok (t.atStart (missingKind s))
    let _ ← peekP env
    pure ()
  else P.panic .parserAssert

/-- `PrefixToplevelCloserParselet`, parse/parselet.rs:453-477. -/
def toplevelCloser (t : Tok) : P Unit :=
  if t.kind.isCloser then do
    pushTok (t.at .Error_UnexpectedCloser)
    skipP t
  else P.panic .parserAssert

/-- `PrefixEndOfFileParselet`, parse/parselet.rs:483-508. -/
def eofPrefix (t : Tok) : P Unit := do
  let s ← P.get
  pushTok (t.atStart (missingKind s))

/-- `PrefixUnsupportedTokenParselet`, parse/parselet.rs:514-532. -/
def unsupportedPrefix (t : Tok) : P Unit := do
  pushTok (t.at .Error_UnsupportedToken)
  skipP t

/-- `PrefixCommaParselet`, parse/parselet.rs:538-565. -/
def commaPrefix (t : Tok) : P Unit := do
  let s ← P.get
  pushTok (t.atStart (if s.topPrec = 0 then .Error_PrefixImplicitNull else .Error_ExpectedOperand))
  rec .climb

/-- `PrefixUnhandledParselet`, parse/parselet.rs:571-626. -/
def unhandledPrefix (t : Tok) : P Unit :=
  if t.kind.isPossibleBeginning then P.panic .parserAssert
  else do
    pushTok (t.atStart .Error_ExpectedOperand)
    let _ ← peekP env
    let p ← infixPrec t.kind
    let s ← P.get
    if precGreater s.topPrec p then pure ()
    else do
      pushContext p
      rec (.infix t)

/-- `get_parse_under_context_sensitive`, under_parselet.rs:57-113, with
`UnderParseData::into_cst`, parse_cst.rs:825-835. -/
def parseUnder (bop : CompoundOp) (t : Tok) : P Cst := do
  skipP t
  let t2 ← peekP env
  if t2.kind = .Symbol ∨ t2.kind = .Error_ExpectedLetterlike then do
    skipP t2
    pure (.node (.compound bop) [.tok t, .tok t2])
  else pure (.tok t)

/-- `UnderParselet`, under_parselet.rs:18-37. -/
def underPrefix (bop : CompoundOp) (t : Tok) : P Unit := do
  let c ← parseUnder env bop t
  pushClimb rec c

/-- A symbol followed by a blank, parse/parselet.rs:680-730. -/
def symbolUnder (t : Tok) (bop pbop : CompoundOp) (t2 : Tok) : P Unit := do
  let c ← parseUnder env bop t2
  pushClimb rec (.node (.compound pbop) [.tok t, c])

/-- `SymbolParselet`, parse/parselet.rs:658-759, after the symbol. -/
def symbolRest (t t2 : Tok) : P Unit :=
  match t2.kind with
  | .Under => symbolUnder env rec t .Blank .CodeParser_PatternBlank t2
  | .UnderUnder => symbolUnder env rec t .BlankSequence .CodeParser_PatternBlankSequence t2
  | .UnderUnderUnder =>
    symbolUnder env rec t .BlankNullSequence .CodeParser_PatternBlankNullSequence t2
  | .UnderDot => do
    skipP t2
    pushClimb rec (.node (.compound .CodeParser_PatternOptionalDefault) [.tok t, .tok t2])
  | _ => pushClimb rec (.tok t)

/-- `SymbolParselet`, parse/parselet.rs:658-759. -/
def symbolPrefix (t : Tok) : P Unit := do
  skipP t
  let t2 ← peekP env
  symbolRest env rec t t2

/-- `HashParselet`, `HashHashParselet`, `PercentParselet`, parse/parselet.rs:2394-2515. -/
def slotPrefix (pol : Pol) (op : CompoundOp) (str : Bool) (t : Tok) : P Unit := do
  skipP t
  let t2 ← peekWithP env pol
  if t2.kind = .Integer ∨ (str = true ∧ t2.kind = .String) then do
    skipP t2
    pushClimb rec (.node (.compound op) [.tok t, .tok t2])
  else pushClimb rec (.tok t)

/-- `PrefixOperatorParselet`, parse/parselet.rs:778-801. -/
def opPrefix (prec : Nat) (op : PrefixOp) (t : Tok) : P Unit := do
  pushNext t
  pushContext prec
  operand env rec
  reduceClimb rec (.prefix op)

/-- `GroupParselet`, parse/parselet.rs:1107-1221. -/
def groupPrefix (opener : TK) (op : GroupOp) (t : Tok) : P Unit :=
  match groupOpenerToCloser opener, groupOpenerToCloser t.kind with
  | some closer, some closer' => do
    pushGroup closer'
    pushNext t
    pushContext 0
    rec (.groupLoop closer op)
  | _, _ => P.panic .parselet

/-- `SemiSemiParselet::parse_prefix`, semi_semi_parselet.rs:50-77. -/
def semiSemiPrefix (t : Tok) : P Unit := do
  pushTok (t.atStart .Fake_ImplicitOne)
  pushContext Prec.SEMISEMI
  rec (.infix t)

/-- `\[DifferentialD]` and `\[CapitalDifferentialD]`. -/
def TK.isDifferential : TK → Bool
  | .LongName_DifferentialD | .LongName_CapitalDifferentialD => true
  | _ => false

/-- `IntegralParselet::parse1`, integral_parselet.rs:60-115. -/
def integral1 (op1 : PrefixBinaryOp) (op2 : PrefixOp) : P Unit := do
  let (ts, t) ← currentToken env
  if t.kind.isDifferential then do
    pushTrivia ts
    rec (.prefix t)
    reduceClimb rec (.prefixBinary op1)
  else do
    triviaReset ts
    reduceClimb rec (.prefix op2)

/-- `IntegralParselet::parse_prefix`, integral_parselet.rs:17-57. -/
def integralPrefix (op1 : PrefixBinaryOp) (op2 : PrefixOp) (t : Tok) : P Unit := do
  pushNext t
  pushContext Prec.CLASS_INTEGRATIONOPERATORS
  let t2 ← eatTrivia env
  if t2.kind.isDifferential then do
    pushTok (t2.atStart .Fake_ImplicitOne)
    integral1 env rec op1 op2
  else do
    rec (.prefix t2)
    integral1 env rec op1 op2

/-- `LessLessParselet`, parse/parselet.rs:2355-2388. -/
def lessLessPrefix (t : Tok) : P Unit := do
  pushNext t
  pushContext Prec.HIGHEST
  let t2 ← eatTriviaFile env
  pushNext t2
  reduceClimb rec (.prefix .Get)

/-- `parse_prefix`, parse.rs:985-990. -/
def parsePrefix (t : Tok) : P Unit :=
  match t.kind.prefixParselet with
  | .leaf => leafPrefix rec t
  | .error => errorPrefix t
  | .closer => closerPrefix env t
  | .eof => eofPrefix t
  | .unsupported => unsupportedPrefix t
  | .comma => commaPrefix rec t
  | .unhandled => unhandledPrefix env rec t
  | .symbol => symbolPrefix env rec t
  | .underDot => leafPrefix rec t
  | .hash => slotPrefix env rec Pol.slot .Slot true t
  | .hashHash => slotPrefix env rec Pol.slotSequence .SlotSequence false t
  | .percent => slotPrefix env rec Pol.out .Out false t
  | .semiSemi => semiSemiPrefix rec t
  | .lessLess => lessLessPrefix env rec t
  | .op p op => opPrefix env rec p op t
  | .group opener op => groupPrefix rec opener op t
  | .under bop _ => underPrefix env rec bop t
  | .integral op1 op2 => integralPrefix env rec op1 op2 t

/-! #### Infix parselets -/

/-- `BinaryOperatorParselet` and `ColonEqualParselet`, parse/parselet.rs:896-932, 1711-1745. -/
def binaryInfix (op : BinaryOp) (t : Tok) : P Unit := do
  pushNext t
  operand env rec
  reduceClimb rec (.binary op)

/-- `InfixOperatorParselet` and `TimesParselet`, parse/parselet.rs:944-989,
times_parselet.rs:9-41. -/
def loopInfix (j : Job) (t : Tok) : P Unit := do
  pushNext t
  operand env rec
  rec j

/-- `PostfixOperatorParselet`, parse/parselet.rs:1064-1092. -/
def postfixInfix (op : PostfixOp) (t : Tok) : P Unit := do
  pushNext t
  reduceClimb rec (.postfix op)

/-- `CallParselet`, parse/parselet.rs:1233-1264. -/
def callInfix (opener : TK) (op : GroupOp) (t : Tok) : P Unit := do
  setPrecedence Prec.HIGHEST
  groupPrefix rec opener op t
  reduceCall
  rec .climb

/-- `TildeParselet`, parse/parselet.rs:1270-1347, after the middle operand. -/
def tildeRest : P Unit := do
  let (ts, t) ← currentToken env
  if t.kind = .Tilde then do
    commitNext ts t
    operand env rec
    reduceClimb rec (.ternary .CodeParser_TernaryTilde)
  else do
    triviaReset ts
    reduceClimb rec (.syntaxError .ExpectedTilde)

/-- `TildeParselet`, parse/parselet.rs:1270-1347. -/
def tildeInfix (t : Tok) : P Unit := do
  pushNext t
  operand env rec
  tildeRest env rec

/-- The three cases of `ColonParselet`, parse/parselet.rs:1374-1430. -/
def colonRest (l : ColonLHS) (t : Tok) : P Unit :=
  match l with
  | .pattern => do
    setPrecedence Prec.FAKE_PATTERNCOLON
    rec (.prefix t)
    reduceClimb rec (.binary .Pattern)
  | .optional => do
    setPrecedence Prec.FAKE_OPTIONALCOLON
    rec (.prefix t)
    reduceClimb rec (.binary .Optional)
  | .error => do
    setPrecedence Prec.FAKE_PATTERNCOLON
    rec (.prefix t)
    reduceClimb rec (.syntaxError .ExpectedSymbol)

/-- `ColonParselet`, parse/parselet.rs:1353-1443. -/
def colonInfix (t : Tok) : P Unit := do
  let l ← checkColonLhs
  pushNext t
  let t2 ← eatTrivia env
  colonRest rec l t2

/-- `EqualParselet`, parse/parselet.rs:1564-1622, and `EqualParselet::parse_infix_tag`,
1624-1694, after the operator. -/
def equalRest (unset set : NodeKind) : P Unit := do
  let t ← eatTrivia env
  if t.kind = .Dot then do
    pushNext t
    reduceClimb rec unset
  else do
    rec (.prefix t)
    reduceClimb rec set

/-- `EqualParselet`, parse/parselet.rs:1564-1622. -/
def equalInfix (t : Tok) : P Unit := do
  pushNext t
  equalRest env rec (.binary .Unset) (.binary .Set)

/-- `SlashColonParselet`, parse/parselet.rs:1482-1539. -/
def slashColonRest : P Unit := do
  let (ts, t) ← currentToken env
  if t.kind = .Equal then do
    setPrecedence Prec.EQUAL
    commitNext ts t
    equalRest env rec (.ternary .TagUnset) (.ternary .TagSet)
  else if t.kind = .ColonEqual then do
    setPrecedence Prec.COLONEQUAL
    commitNext ts t
    operand env rec
    reduceClimb rec (.ternary .TagSetDelayed)
  else do
    triviaReset ts
    reduceClimb rec (.syntaxError .ExpectedSet)

/-- `SlashColonParselet`, parse/parselet.rs:1449-1547. -/
def slashColonInfix (t : Tok) : P Unit := do
  pushNext t
  operand env rec
  slashColonRest env rec

/-- `Comma` and `\[InvisibleComma]`. -/
def TK.isComma : TK → Bool
  | .Comma | .LongName_InvisibleComma => true
  | _ => false

/-- An operand of a comma sequence, parse/parselet.rs:1809-1825, 1879-1895. -/
def commaOperand : P Unit := do
  let t ← eatTrivia env
  if t.kind.isComma then pushTok (t.atStart .Error_InfixImplicitNull)
  else rec (.prefix t)

/-- `CommaParselet`, parse/parselet.rs:1788-1848. -/
def commaInfix (t : Tok) : P Unit := do
  pushNext t
  commaOperand env rec
  rec .commaLoop

/-- An operand of a compound expression and what follows, parse/parselet.rs:1953-2019,
2064-2135. -/
def semiOperand : P Unit := do
  let t ← eatTriviaNTN env
  if t.kind = .Semi then do
    pushTok (t.atStart .Fake_ImplicitNull)
    rec .semiLoop
  else if t.kind.isPossibleBeginning then do
    rec (.prefix t)
    rec .semiLoop
  else do
    pushTok (t.atStart .Fake_ImplicitNull)
    reduceClimb rec (.infix .CompoundExpression)

/-- `SemiParselet`, parse/parselet.rs:1931-2028. -/
def semiInfix (t : Tok) : P Unit := do
  pushNext t
  semiOperand env rec

/-- `ColonColonParselet`, parse/parselet.rs:2153-2204, and one round of its loop. -/
def colonColonTag : P Unit := do
  let t2 ← P.lift (peekTokenTag env.cfg)
  pushNext t2
  rec .colonColonLoop

/-- `ColonColonParselet`, parse/parselet.rs:2153-2204. -/
def colonColonInfix (t : Tok) : P Unit := do
  pushNext t
  colonColonTag env rec

/-- `GreaterGreaterParselet` and `GreaterGreaterGreaterParselet`, parse/parselet.rs:2251-2349. -/
def putInfix (op : BinaryOp) (t : Tok) : P Unit := do
  pushNext t
  let t2 ← eatTriviaFile env
  pushNext t2
  reduceClimb rec (.binary op)

/-- The end of `SemiSemiParselet::parse2`, semi_semi_parselet.rs:278-342; `ts3` and `t3` are the
trivia before the second `;;` and that token. -/
def span3 (ts3 : List Tok) (t3 : Tok) : P Unit := do
  skipP t3
  let (ts4, t4) ← currentTokenNTN env
  if !t4.kind.isPossibleBeginning || t4.kind = .SemiSemi then do
    triviaReset ts4
    P.lift t3.reset
    triviaReset ts3
    reduceClimb rec (.binary .Span)
  else do
    pushTrivia ts3
    pushTok t3
    pushTrivia ts4
    rec (.prefix t4)
    reduceClimb rec (.ternary .Span)

/-- `SemiSemiParselet::parse2`, semi_semi_parselet.rs:225-343. -/
def span2 : P Unit := do
  let (ts3, t3) ← currentTokenNTN env
  if !t3.kind.isPossibleBeginning || t3.kind ≠ .SemiSemi then do
    triviaReset ts3
    reduceClimb rec (.binary .Span)
  else span3 env rec ts3 t3

/-- `SemiSemiParselet::parse1`, semi_semi_parselet.rs:152-222; `t2` is the second `;;`. -/
def spanImplicit (t2 : Tok) : P Unit := do
  skipP t2
  let (ts4, t3) ← currentTokenNTN env
  if !t3.kind.isPossibleBeginning || t3.kind = .SemiSemi then do
    triviaReset ts4
    P.lift t2.reset
    reduceClimb rec (.binary .Span)
  else do
    pushTok t2
    pushTrivia ts4
    rec (.prefix t3)
    reduceClimb rec (.ternary .Span)

/-- `SemiSemiParselet::parse_infix` and `parse1`, semi_semi_parselet.rs:13-27, 80-223. -/
def semiSemiInfix (t : Tok) : P Unit := do
  pushNext t
  let t2 ← eatTriviaNTN env
  if !t2.kind.isPossibleBeginning then do
    pushTok (t2.atStart .Fake_ImplicitAll)
    reduceClimb rec (.binary .Span)
  else if t2.kind ≠ .SemiSemi then do
    rec (.prefix t2)
    span2 env rec
  else do
    pushTok (t2.atStart .Fake_ImplicitAll)
    spanImplicit env rec t2

/-- `parse_infix`, parse.rs:997-1007. -/
def parseInfix (t : Tok) : P Unit :=
  match t.kind.infixParselet with
  | .assertFalse => P.panic .parselet
  | .toplevelNewline => P.panic .parselet
  | .implicitTimes => P.panic .parselet
  | .differentialD => P.panic .parselet
  | .times => loopInfix env rec .timesLoop t
  | .semi => semiInfix env rec t
  | .comma => commaInfix env rec t
  | .semiSemi => semiSemiInfix env rec t
  | .tilde => tildeInfix env rec t
  | .colon => colonInfix env rec t
  | .slashColon => slashColonInfix env rec t
  | .equal => equalInfix env rec t
  | .colonEqual => binaryInfix env rec .SetDelayed t
  | .colonColon => colonColonInfix env rec t
  | .greaterGreater => putInfix env rec .Put t
  | .greaterGreaterGreater => putInfix env rec .PutAppend t
  | .binary _ op => binaryInfix env rec op t
  | .infix _ op => loopInfix env rec (.infixLoop op) t
  | .postfix _ op => postfixInfix rec op t
  | .call opener op => callInfix rec opener op t

/-! #### Loops -/

/-- One round of `InfixOperatorParselet::parse_loop`, parse/parselet.rs:997-1047. -/
def infixLoop (op : InfixOp) : P Unit := do
  let (ts, t) ← currentToken env
  if t.kind.infixOp ≠ .infix op then do
    triviaReset ts
    reduceClimb rec (.infix op)
  else do
    commitNext ts t
    operand env rec
    rec (.infixLoop op)

/-- The token that decides about the next round of `TimesParselet::parse_loop`,
times_parselet.rs:61-78. -/
def timesToken : P (List Tok × Tok) := do
  let (ts, t) ← currentToken env
  let t' ← processImplicitTimes t
  if t'.kind = .Fake_ImplicitTimes then do
    triviaReset ts
    let (ts2, t2) ← currentTokenNTN env
    let t2' ← processImplicitTimes t2
    pure (ts2, t2')
  else pure (ts, t')

/-- One round of `TimesParselet::parse_loop`, times_parselet.rs:57-119. -/
def timesLoop : P Unit := do
  let (ts, t) ← timesToken env
  if t.kind.infixOp ≠ .infix .Times then do
    triviaReset ts
    reduceClimb rec (.infix .Times)
  else do
    commitNext ts t
    operand env rec
    rec .timesLoop

/-- One round of `CommaParselet::parse_loop`, parse/parselet.rs:1855-1904. -/
def commaLoop : P Unit := do
  let (ts, t) ← currentToken env
  if t.kind.isComma then do
    commitNext ts t
    commaOperand env rec
    rec .commaLoop
  else do
    triviaReset ts
    reduceNode (.infix .CodeParser_Comma)

/-- One round of `SemiParselet::parse_loop`, parse/parselet.rs:2035-2136. -/
def semiLoop : P Unit := do
  let (ts, t) ← currentToken env
  if t.kind = .Semi then do
    commitNext ts t
    semiOperand env rec
  else do
    triviaReset ts
    reduceClimb rec (.infix .CompoundExpression)

/-- One round of `ColonColonParselet::parse_loop`, parse/parselet.rs:2211-2243. -/
def colonColonLoop : P Unit := do
  let (ts, t) ← currentToken env
  if t.kind = .ColonColon then do
    commitNext ts t
    colonColonTag env rec
  else do
    triviaReset ts
    reduceClimb rec (.infix .MessageName)

/-- One round of the loop of `GroupParselet::parse_prefix`, parse/parselet.rs:1128-1219. -/
def groupLoop (closer : Closer) (op : GroupOp) : P Unit := do
  let (ts, t) ← currentToken env
  if tokenToCloser t.kind = closer then do
    commitNext ts t
    reduceGroup (.group op)
    rec .climb
  else if t.kind.isCloser then do
    let s ← P.get
    if checkGroup s (tokenToCloser t.kind) then do
      triviaReset ts
      reduceGroup (.groupMissingCloser op)
    else do
      pushTrivia ts
      toplevelCloser t
      rec (.groupLoop closer op)
  else do
    pushTrivia ts
    if t.kind = .EndOfFile then reduceUnterminated env op
    else do
      rec (.prefix t)
      rec (.groupLoop closer op)

/-- One call of a recursive function, the recursive calls being made by `rec`. -/
def step : Job → P Unit
  | .prefix t => parsePrefix env rec t
  | .climb => climb env rec
  | .infix t => parseInfix env rec t
  | .groupLoop closer op => groupLoop env rec closer op
  | .infixLoop op => infixLoop env rec op
  | .timesLoop => timesLoop env rec
  | .commaLoop => commaLoop env rec
  | .semiLoop => semiLoop env rec
  | .colonColonLoop => colonColonLoop env rec
end

/-- The recursive functions, with at most `n` nested calls. -/
def run (env : PEnv) : Nat → Job → P Unit
  | 0, _ => fun _ => .error .fuel
  | n + 1, j => step env (run env n) j

/-- `is_quiescent`, parse.rs:1619-1629. -/
def assertQuiescent : P Unit := fun s =>
  if s.ctxs.isEmpty && s.groups.isEmpty then .ok ((), s) else .error (.panic .parserAssert)

/-- The body of the loop of `do_parse`, parse.rs:132-170, given the token at its beginning
(not the end of the file): the finished top-level node. -/
def parseItem (env : PEnv) (t : Tok) : P Cst :=
  if t.kind.isTrivia then do
    skipP t
    pure (.tok t)
  else if t.kind.isCloser then do
    toplevelCloser t
    let c ← popNode
    assertQuiescent
    pure c
  else do
    let s ← P.get
    run env (8 * s.st.rest.length + 8) (.prefix t)
    let c ← popNode
    assertQuiescent
    pure c

/-- The loop of `do_parse`, parse.rs:132-170, with at most `n` rounds. -/
def parseLoopN (env : PEnv) : Nat → List Cst → P (List Cst)
  | 0, _ => fun _ => .error .fuel
  | n + 1, cs => do
    let t ← peekP env
    if t.kind = .EndOfFile then pure cs
    else do
      let c ← parseItem env t
      parseLoopN env n (cs ++ [c])

/-- The loop of `do_parse`, parse.rs:132-170. -/
def parseLoop (env : PEnv) : P (List Cst) := fun s =>
  parseLoopN env (s.st.rest.length + 1) [] s

/-- `do_parse`, parse.rs:113-179: the finished nodes before `ParseBuilder::finish`, and the
final tokenizer state. -/
def doParse (env : PEnv) (conv : Conv) (first : FirstLine) (bs : List UInt8) :
    Except Err (List Cst × PS) :=
  (do P.lift (handleFirstLine env.cfg first)
      parseLoop env : P (List Cst)) ⟨St.init conv bs, [], [], []⟩

end CodeParser
