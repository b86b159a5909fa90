import Verif.Model.Cst
import Verif.Model.Gen.Parselets
/-!
Independent vocabulary for what a concrete syntax tree should look like.  The precedences
and the operators belonging to a token come from the program's tables
(`Model/Gen/Parselets.lean`); nothing here refers to how the parser works.
-/
namespace CodeParser.Spec

/-- `Sub m n`: the tree `m` occurs in the tree `n`. -/
inductive Sub : Cst → Cst → Prop
  | refl {n} : Sub n n
  | node {m c k cs} : c ∈ cs → Sub m c → Sub m (.node k cs)
  | head {m c h b op body} : c ∈ h → Sub m c → Sub m (.call h b op body)
  | body {m c h b op body} : c ∈ body → Sub m c → Sub m (.call h b op body)

/-- The tokens the parser invents: they stand for something that is not in the input. -/
def invented : TK → Bool
  | .Fake_ImplicitTimes | .Fake_ImplicitNull | .Fake_ImplicitOne | .Fake_ImplicitAll
  | .Error_ExpectedOperand | .Error_PrefixImplicitNull | .Error_InfixImplicitNull
  | .Error_ExpectedTag | .Error_ExpectedFile => true
  | _ => false

/-- The tokens that miss their end. -/
def unterminated : TK → Bool
  | .Error_UnterminatedComment | .Error_UnterminatedString | .Error_UnterminatedFileString
  | .Error_UnterminatedLinearSyntaxBlob => true
  | _ => false

/-- Kinds of tokens that no text gives: place holders, the end of the file, and those of
boxes. -/
def spare : TK → Bool
  | .Unknown | .EndOfFile | .Buffer1 | .Buffer2 | .Buffer3 | .Buffer4 | .Error_Aborted
  | .Boxes_OpenParenStar | .Boxes_StarCloseParen | .Boxes_MultiSingleQuote
  | .Boxes_MultiWhitespace => true
  | _ => false

/-- White space, comments and newlines, as trees. -/
def tt (ts : List Tok) : List Cst := ts.map .tok

/-- All of `ts` are white space, comments or newlines. -/
def Tr (ts : List Tok) : Prop := ∀ t ∈ ts, t.kind.isTrivia = true

/-- The children of a node without white space, comments and newlines. -/
def proper (cs : List Cst) : List Cst := cs.filter fun c => !c.isTrivia

mutual
/-- Every group in the tree has a closer. -/
def complete : Cst → Bool
  | .node (.groupMissingCloser _) _ => false
  | .node _ cs => completeL cs
  | .call h missing _ b => !missing && completeL h && completeL b
  | .callAgg h missing _ b => !missing && complete h && completeL b
  | .box _ cs => completeL cs
  | _ => true
/-- Every group in the trees has a closer. -/
def completeL : List Cst → Bool
  | [] => true
  | c :: cs => complete c && completeL cs
end

/-- There is an error in the tree: an error token, or a group without closer. -/
def Flawed (c : Cst) : Prop := (∃ t ∈ c.leaves, t.kind.isError = true) ∨ complete c = false

/-! ### Precedence

A precedence is a number; the larger the tighter.  Odd precedences are right associative. -/

/-- The precedence of a token between two operands (or behind one); tokens that start an
operand count as implicit multiplication, tokens that can do neither have precedence 0.
The precedence of `:` and of `\[DifferentialD]` depends on where they stand. -/
def opPrec (k : TK) : Option Nat :=
  match k.infixParselet with
  | .binary p _ | .infix p _ | .postfix p _ => some p
  | .times | .implicitTimes => some Prec.STAR
  | .semi => some Prec.SEMI
  | .comma => some Prec.COMMA
  | .semiSemi => some Prec.SEMISEMI
  | .tilde => some Prec.TILDE
  | .slashColon => some Prec.SLASHCOLON
  | .equal => some Prec.EQUAL
  | .colonEqual => some Prec.COLONEQUAL
  | .colonColon => some Prec.COLONCOLON
  | .greaterGreater => some Prec.GREATERGREATER
  | .greaterGreaterGreater => some Prec.GREATERGREATERGREATER
  | .call _ _ => some Prec.CALL
  | .colon | .differentialD => none
  | .assertFalse | .toplevelNewline => some 0

/-- An operator of precedence `q` keeps what stands between it and an operator of
precedence `p`: `q` is tighter than `p`, or they are the same and left associative. -/
def keeps (q p : Nat) : Prop := p < (q ||| 1)

/-- The first token of a tree. -/
def first : Cst → Option Tok
  | .tok t => some t
  | .node _ (c :: _) => first c
  | .call (c :: _) _ _ _ => first c
  | .callAgg h _ _ _ => first h
  | _ => none

/-- The operator of an operator node with a first operand: the first proper child behind it. -/
def opAfter (rest : List Cst) : Option Tok :=
  match rest.find? fun c => !c.isTrivia with
  | some (.tok o) => some o
  | _ => none

/-- The tree is an implicit `1` (as in `;; b`). -/
def isImplicitOne : Cst → Bool
  | .tok t => t.kind == .Fake_ImplicitOne
  | _ => false

/-- The kinds of nodes that start with an operand. -/
def leftOpen : NodeKind → Bool
  | .infix _ | .postfix _ | .binary _ | .ternary _ | .syntaxError _ => true
  | _ => false

/-- The precedences of the operators at the left edge of a tree: those whose first operand
starts where the tree starts. -/
def heads : Cst → List Nat
  | .node k (l :: rest) =>
    if leftOpen k && !isImplicitOne l then ((opAfter rest).bind fun o => opPrec o.kind).toList ++ heads l
    else []
  | .call (l :: _) _ _ _ => Prec.CALL :: heads l
  | _ => []

/-- The precedence of the operator of a node that ends in an operand. -/
def lastPrec : NodeKind → List Cst → Option Nat
  | .prefix _, .tok o :: _ =>
    match o.kind.prefixParselet with
    | .op p _ => some p
    | .integral _ _ => some Prec.CLASS_INTEGRATIONOPERATORS
    | _ => none
  | .prefixBinary _, _ => some Prec.CLASS_INTEGRATIONOPERATORS
  | .binary op, _ :: rest =>
    match op with
    | .Pattern => some Prec.FAKE_PATTERNCOLON
    | .Optional => some Prec.FAKE_OPTIONALCOLON
    | .Unset | .Put | .PutAppend => none
    | _ => (opAfter rest).bind fun o => opPrec o.kind
  | .ternary op, _ =>
    match op with
    | .TagSet => some Prec.EQUAL
    | .TagSetDelayed => some Prec.COLONEQUAL
    | .Span => some Prec.SEMISEMI
    | .CodeParser_TernaryTilde => some Prec.TILDE
    | _ => none
  | .infix op, _ :: rest =>
    if op = .MessageName then none else (opAfter rest).bind fun o => opPrec o.kind
  | .syntaxError err, _ =>
    match err with
    | .ExpectedSymbol => some Prec.FAKE_PATTERNCOLON
    | .ExpectedSet => some Prec.SLASHCOLON
    | .ExpectedTilde => some Prec.TILDE
  | _, _ => none

mutual
/-- The precedences of the operators at the right edge of a tree: those whose last operand
ends where the tree ends. -/
def tails : Cst → List Nat
  | .node k cs =>
    match lastPrec k cs with
    | some p => p :: tailsL cs
    | none => []
  | _ => []
/-- The same for the last of a sequence of trees. -/
def tailsL : List Cst → List Nat
  | [] => []
  | [c] => tails c
  | _ :: c :: cs => tailsL (c :: cs)
end

mutual
/-- The tree ends properly: not in an error, an invented token, a group without closer or
a comma sequence.  The parser does not look for further operators behind those. -/
def ends : Cst → Bool
  | .tok t => !(t.kind.isError || invented t.kind)
  | .node k cs =>
    match k with
    | .groupMissingCloser _ => false
    | .infix .CodeParser_Comma => false
    | _ => endsL cs
  | .call _ missing _ _ => !missing
  | _ => false
/-- The same for the last of a sequence of trees. -/
def endsL : List Cst → Bool
  | [] => false
  | [c] => ends c
  | _ :: c :: cs => endsL (c :: cs)
end

/-- The right operand `r` of an operator of precedence `q`: every operator at its left edge
is tighter than `q`, or the same and right associative. -/
def Holds (q : Nat) (r : Cst) : Prop := ∀ h ∈ heads r, ¬ keeps q h

/-- The left operand `l` of an operator of precedence `p`, `ts` being what stands between
them: every operator at its right edge is tighter than `p`, or the same and left
associative.  An operator on a new line does not count as following an expression at top
level, and neither does one that follows an error. -/
def Yields (l : Cst) (ts : List Tok) (p : Option Nat) : Prop :=
  (∃ t ∈ ts, t.kind = .ToplevelNewline) ∨ ends l = false ∨ ∀ p', p = some p' → ∀ q ∈ tails l, keeps q p'

/-- The precedence that counts for the left operand of the operator `o` with right operand
`r`.  An implicit multiplication sign in front of `;;` counts as `;;`, and one in front of
`\[DifferentialD]` does not count. -/
def leftPrec (o : Tok) (r : Cst) : Option Nat :=
  if o.kind = .Fake_ImplicitTimes then
    match first r with
    | some t =>
      match t.kind with
      | .LongName_DifferentialD | .LongName_CapitalDifferentialD => none
      | .Fake_ImplicitOne => some Prec.SEMISEMI
      | _ => some Prec.STAR
    | none => none
  else opPrec o.kind

/-! ### Shapes -/

/-- A tree that can be an operand. -/
def Operand : Cst → Prop
  | .tok t => t.kind.isTrivia = false ∧ t.kind.isCloser = false ∧ t.kind ≠ .Colon ∧ t.kind ≠ .EndOfFile
  | _ => True

/-- None of the trees is a closing bracket. -/
def NoCloser (cs : List Cst) : Prop := ∀ t, .tok t ∈ cs → t.kind.isCloser = false

/-- `BinaryOf k op q`: the token kind `k` makes binary nodes with operator `op`, whose right
operand has to hold against precedence `q`. -/
inductive BinaryOf : TK → BinaryOp → Nat → Prop
  | table {k p op} : k.infixParselet = .binary p op → BinaryOf k op p
  | set {k} : k.infixParselet = .equal → BinaryOf k .Set Prec.EQUAL
  | setDelayed {k} : k.infixParselet = .colonEqual → BinaryOf k .SetDelayed Prec.COLONEQUAL
  | pattern {k} : k.infixParselet = .colon → BinaryOf k .Pattern Prec.FAKE_PATTERNCOLON
  | optional {k} : k.infixParselet = .colon → BinaryOf k .Optional Prec.FAKE_OPTIONALCOLON
  | span {k} : k.infixParselet = .semiSemi → BinaryOf k .Span Prec.SEMISEMI

/-- `PutOf k op`: the token kind `k` makes nodes with operator `op` that end in a file name. -/
inductive PutOf : TK → BinaryOp → Prop
  | put {k} : k.infixParselet = .greaterGreater → PutOf k .Put
  | putAppend {k} : k.infixParselet = .greaterGreaterGreater → PutOf k .PutAppend

/-- `TernaryOf k k' op q q'`: the token kinds `k` and `k'` make ternary nodes with operator
`op`, whose middle and last operands have to hold against `q` and `q'`. -/
inductive TernaryOf : TK → TK → TernaryOp → Nat → Nat → Prop
  | tilde : TernaryOf .Tilde .Tilde .CodeParser_TernaryTilde Prec.TILDE Prec.TILDE
  | tagSet : TernaryOf .SlashColon .Equal .TagSet Prec.SLASHCOLON Prec.EQUAL
  | tagSetDelayed : TernaryOf .SlashColon .ColonEqual .TagSetDelayed Prec.SLASHCOLON Prec.COLONEQUAL
  | span : TernaryOf .SemiSemi .SemiSemi .Span Prec.SEMISEMI Prec.SEMISEMI

/-- `InfixOf k op`: the token kind `k` makes infix nodes with operator `op`. -/
inductive InfixOf : TK → InfixOp → Prop
  | table {k p op} : k.infixParselet = .infix p op → InfixOf k op
  | times {k} : k.infixParselet = .times → InfixOf k .Times
  | semi {k} : k.infixParselet = .semi → InfixOf k .CompoundExpression
  | comma {k} : k.infixParselet = .comma → InfixOf k .CodeParser_Comma
  | tag {k} : k.infixParselet = .colonColon → InfixOf k .MessageName

/-- `ErrorOf k err q`: a missing symbol, `=` or `~` after the token kind `k`. -/
inductive ErrorOf : TK → SyntaxErrorKind → Nat → Prop
  | symbol : ErrorOf .Colon .ExpectedSymbol Prec.FAKE_PATTERNCOLON
  | set : ErrorOf .SlashColon .ExpectedSet Prec.SLASHCOLON
  | tilde : ErrorOf .Tilde .ExpectedTilde Prec.TILDE

/-- `BlankOf k op`: `_`, `__`, `___` and the operator of `_h`, `__h`, `___h`. -/
inductive BlankOf : TK → CompoundOp → Prop
  | one : BlankOf .Under .Blank
  | two : BlankOf .UnderUnder .BlankSequence
  | three : BlankOf .UnderUnderUnder .BlankNullSequence

/-- `PatternOf k op`: `_`, `__`, `___` and the operator of `x_`, `x__`, `x___`. -/
inductive PatternOf : TK → CompoundOp → Prop
  | one : PatternOf .Under .CodeParser_PatternBlank
  | two : PatternOf .UnderUnder .CodeParser_PatternBlankSequence
  | three : PatternOf .UnderUnderUnder .CodeParser_PatternBlankNullSequence

/-- The children of a compound node. -/
inductive CompoundShape : CompoundOp → List Cst → Prop
  | blank {u h op} : BlankOf u.kind op → h.kind = .Symbol ∨ h.kind = .Error_ExpectedLetterlike →
      CompoundShape op [.tok u, .tok h]
  | pattern {x u op} : x.kind = .Symbol → PatternOf u.kind op → CompoundShape op [.tok x, .tok u]
  | patternHead {x u h op bop} : x.kind = .Symbol → PatternOf u.kind op → BlankOf u.kind bop →
      CompoundShape op [.tok x, .node (.compound bop) [.tok u, .tok h]]
  | default {x u} : x.kind = .Symbol → u.kind = .UnderDot →
      CompoundShape .CodeParser_PatternOptionalDefault [.tok x, .tok u]
  | slot {h n} : h.kind = .Hash → n.kind = .Integer ∨ n.kind = .String →
      CompoundShape .Slot [.tok h, .tok n]
  | slotSequence {h n} : h.kind = .HashHash → n.kind = .Integer →
      CompoundShape .SlotSequence [.tok h, .tok n]
  | out {h n} : h.kind = .Percent → n.kind = .Integer → CompoundShape .Out [.tok h, .tok n]

/-- The kinds of the token behind `<<`, `>>` and `>>>`. -/
def isFile : TK → Bool
  | .String | .Error_UnterminatedString | .Error_ExpectedFile | .Error_UnterminatedFileString => true
  | _ => false

/-- `Opens o op`: the token kind `o` opens groups with operator `op`. -/
def Opens (o : TK) (op : GroupOp) : Prop :=
  o.prefixParselet = .group o op ∨ o.infixParselet = .call o op

/-- The children of a group: an opener, anything without closers, the matching closer.
Without errors there is at most one tree between them. -/
def GroupShape (op : GroupOp) (cs : List Cst) : Prop :=
  ∃ o mid c, cs = .tok o :: (mid ++ [.tok c]) ∧ Opens o.kind op ∧ NoCloser mid ∧
    c.kind.isCloser = true ∧ groupOpenerToCloser o.kind = some (tokenToCloser c.kind) ∧
    ((∃ x ∈ mid, Flawed x) ∨ (proper mid).length ≤ 1)

/-- The children of a group without closer: an opener and anything without closers. -/
def OpenGroupShape (op : GroupOp) (cs : List Cst) : Prop :=
  ∃ o mid, cs = .tok o :: mid ∧ Opens o.kind op ∧ NoCloser mid

/-- The children of a group without closer after error recovery: as before, or only tokens,
the first of which is an opener. -/
def Recovered (op : GroupOp) (cs : List Cst) : Prop :=
  OpenGroupShape op cs ∨ ∃ o ts, cs = tt (o :: ts) ∧ Opens o.kind op

/-- `Chain op p cs x`: `cs` is a sequence of operands separated by operators belonging to
`op`, the last operand is `x`, and the operands behind the first hold against `p`. -/
inductive Chain (op : InfixOp) (p : Nat) : List Cst → Cst → Prop
  | one {l} : Operand l → Chain op p [l] l
  | more {cs x ts o us r} : Chain op p cs x → InfixOf o.kind op → Tr ts → Tr us → Operand r →
      Yields x ts (leftPrec o r) → Holds p r →
      Chain op p (cs ++ (tt ts ++ .tok o :: (tt us ++ [r]))) r

/-- The first operator of a sequence of operands and operators has precedence `p`. -/
def FirstOp (p : Nat) (cs : List Cst) : Prop :=
  ∃ l rest o, cs = l :: rest ∧ opAfter rest = some o ∧ opPrec o.kind = some p

/-- What the children `cs` of a node of kind `k` look like; `ρ` is what is known about the
children of a group without closer. -/
inductive NodeOK (ρ : GroupOp → List Cst → Prop) : NodeKind → List Cst → Prop
  | prefixOp {o ts r p op} : o.kind.prefixParselet = .op p op → Tr ts → Operand r → Holds p r →
      NodeOK ρ (.prefix op) (.tok o :: (tt ts ++ [r]))
  | get {o ts f} : o.kind = .LessLess → Tr ts → isFile f.kind = true →
      NodeOK ρ (.prefix .Get) (.tok o :: (tt ts ++ [.tok f]))
  | integral {o ts r op1 op2} : o.kind.prefixParselet = .integral op1 op2 → Tr ts → Operand r →
      Holds Prec.CLASS_INTEGRATIONOPERATORS r → NodeOK ρ (.prefix op2) (.tok o :: (tt ts ++ [r]))
  | integrate {o ts r us d op1 op2} : o.kind.prefixParselet = .integral op1 op2 → Tr ts →
      Operand r → Holds Prec.CLASS_INTEGRATIONOPERATORS r → Tr us → Operand d →
      Holds Prec.CLASS_INTEGRATIONOPERATORS d →
      NodeOK ρ (.prefixBinary op1) (.tok o :: (tt ts ++ r :: (tt us ++ [d])))
  | postfix {l ts o p op} : o.kind.infixParselet = .postfix p op → Operand l → Tr ts →
      Yields l ts (some p) → NodeOK ρ (.postfix op) (l :: (tt ts ++ [.tok o]))
  | binary {l ts o us r op q} : BinaryOf o.kind op q → Operand l → Tr ts → Tr us → Operand r →
      Yields l ts (opPrec o.kind) → Holds q r →
      NodeOK ρ (.binary op) (l :: (tt ts ++ .tok o :: (tt us ++ [r])))
  | unset {l ts o us d} : o.kind.infixParselet = .equal → Operand l → Tr ts → Tr us →
      d.kind = .Dot → Yields l ts (opPrec o.kind) →
      NodeOK ρ (.binary .Unset) (l :: (tt ts ++ .tok o :: (tt us ++ [.tok d])))
  | put {l ts o us f op} : PutOf o.kind op → Operand l → Tr ts → Tr us →
      isFile f.kind = true → Yields l ts (opPrec o.kind) →
      NodeOK ρ (.binary op) (l :: (tt ts ++ .tok o :: (tt us ++ [.tok f])))
  | ternary {l ts o us m vs o' ws r op q q'} : TernaryOf o.kind o'.kind op q q' → Operand l →
      Tr ts → Tr us → Operand m → Tr vs → Tr ws → Operand r → Yields l ts (opPrec o.kind) →
      Holds q m → Yields m vs (opPrec o'.kind) → Holds q' r →
      NodeOK ρ (.ternary op)
        (l :: (tt ts ++ .tok o :: (tt us ++ m :: (tt vs ++ .tok o' :: (tt ws ++ [r])))))
  | tagUnset {l ts o us m vs o' ws d} : o.kind = .SlashColon → o'.kind = .Equal → Operand l →
      Tr ts → Tr us → Operand m → Tr vs → Tr ws → d.kind = .Dot → Yields l ts (opPrec o.kind) →
      Holds Prec.SLASHCOLON m → Yields m vs (opPrec o'.kind) →
      NodeOK ρ (.ternary .TagUnset)
        (l :: (tt ts ++ .tok o :: (tt us ++ m :: (tt vs ++ .tok o' :: (tt ws ++ [.tok d])))))
  | infix {cs x op p} : Chain op p cs x → FirstOp p cs → NodeOK ρ (.infix op) cs
  | compound {op cs} : CompoundShape op cs → NodeOK ρ (.compound op) cs
  | group {op cs} : GroupShape op cs → NodeOK ρ (.group op) cs
  | missing {op cs} : ρ op cs → NodeOK ρ (.groupMissingCloser op) cs
  | error {l ts o us r err q} : ErrorOf o.kind err q → Operand l → Tr ts → Tr us → Operand r →
      Yields l ts (opPrec o.kind) → Holds q r →
      NodeOK ρ (.syntaxError err) (l :: (tt ts ++ .tok o :: (tt us ++ [r])))

/-- What a call looks like. -/
inductive CallOK (ρ : GroupOp → List Cst → Prop) : List Cst → Bool → CallOp → List Cst → Prop
  | group {l ts op cop body} : Operand l → Tr ts → Yields l ts (some Prec.CALL) →
      GroupOp.toCall op = some cop → GroupShape op body → CallOK ρ (l :: tt ts) false cop body
  | missing {l ts op cop body} : Operand l → Tr ts → Yields l ts (some Prec.CALL) →
      GroupOp.toCall op = some cop → ρ op body → CallOK ρ (l :: tt ts) true cop body

/-- The tokens for line ends. -/
def isNewline (k : TK) : Prop := k = .ToplevelNewline ∨ k = .InternalNewline

/-- The text starts with a line feed or a carriage return. -/
def onNewline (r : List UInt8) : Prop := r.head? = some 10 ∨ r.head? = some 13

/-- Invented tokens, and only they, are empty; only line ends start with one; and the kind
is one that a text can give. -/
structure TokOK (t : Tok) : Prop where
  hollow : invented t.kind = true → t.text = [] ∧ t.stop = t.start
  solid : invented t.kind = false → t.text ≠ []
  line : onNewline t.text → isNewline t.kind
  known : spare t.kind = false

/-- Every node in the tree looks as it should. -/
inductive TreeOK (ρ : GroupOp → List Cst → Prop) : Cst → Prop
  | tok {t} : TokOK t → TreeOK ρ (.tok t)
  | node {k cs} : NodeOK ρ k cs → (∀ c ∈ cs, TreeOK ρ c) → TreeOK ρ (.node k cs)
  | call {h b op body} : CallOK ρ h b op body → (∀ c ∈ h, TreeOK ρ c) → (∀ c ∈ body, TreeOK ρ c) →
      TreeOK ρ (.call h b op body)

/-- What a tree in the result of parsing looks like; `ρ` is what is known about the children
of a group without closer. -/
def Looks (ρ : GroupOp → List Cst → Prop) : Cst → Prop
  | .tok _ => True
  | .node k cs => NodeOK ρ k cs
  | .call h m op b => CallOK ρ h m op b
  | _ => False

/-- `In n cs`: the tree `n` occurs in one of the trees `cs`. -/
def In (n : Cst) (cs : List Cst) : Prop := ∃ c ∈ cs, Sub n c

/-- The children of a tree. -/
def children : Cst → List Cst
  | .node _ cs => cs
  | .call h _ _ b => h ++ b
  | _ => []

end CodeParser.Spec
