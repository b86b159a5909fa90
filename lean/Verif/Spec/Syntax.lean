import Verif.Spec.Grouping
import Verif.Spec.LexText
/-!
# Specification: how an expression is written, and the tree it stands for

Used to state C48: a text in which an expression is written, parenthesised so that its
precedences are respected, is parsed as this expression.
-/
namespace CodeParser.Spec
open CodeParser

/-- A token of a text: its kind and its bytes. -/
abbrev Lexeme := TK × List UInt8

/-! ### Blanks -/

/-- White space and comments; line breaks only where they do not end an expression (`g`: inside
brackets, or behind an operator). -/
def blankKind (g : Bool) : TK → Bool
  | .Whitespace | .Comment | .InternalNewline => true
  | .ToplevelNewline => g
  | _ => false

/-- The lexemes are blanks. -/
def Blank (g : Bool) (ws : List Lexeme) : Prop := ∀ x ∈ ws, blankKind g x.1 = true

/-! ### Operators -/

/-- The precedence and the operator of a token between two operands. -/
def binaryOf (k : TK) : Option (Nat × BinaryOp) :=
  match k.infixParselet with
  | .binary p op => some (p, op)
  | .equal => some (Prec.EQUAL, .Set)
  | .colonEqual => some (Prec.COLONEQUAL, .SetDelayed)
  | _ => none

/-- The precedence and the operator of a token between the operands of a sequence. -/
def infixOf (k : TK) : Option (Nat × InfixOp) :=
  match k.infixParselet with
  | .infix p op => some (p, op)
  | .times => some (Prec.STAR, .Times)
  | _ => none

/-- The precedence and the operator of a token before its operand, other than `\[DifferentialD]` and
`\[CapitalDifferentialD]`, which may end the operand of an integral. -/
def prefixOf (k : TK) : Option (Nat × PrefixOp) :=
  match k, k.prefixParselet with
  | .LongName_DifferentialD, _ | .LongName_CapitalDifferentialD, _ => none
  | _, .op p op => some (p, op)
  | _, _ => none

/-- The precedence and the operator of a token behind its operand. -/
def postfixOf (k : TK) : Option (Nat × PostfixOp) :=
  match k.infixParselet with
  | .postfix p op => some (p, op)
  | _ => none

/-- The operator of an opening bracket. -/
def groupOf (k : TK) : Option GroupOp :=
  match k.prefixParselet with
  | .group _ op => some op
  | _ => none

/-- The operator of an opening bracket behind a head. -/
def callOpOf (k : TK) : Option CallOp :=
  match k.infixParselet with
  | .call _ op => op.toCall
  | _ => none

/-- `c` is the closing bracket of `o`. -/
def Closes (o c : TK) : Prop := c.isCloser = true ∧ groupOpenerToCloser o = some (tokenToCloser c)

/-- A binary operator. -/
structure Binary where
  lex : Lexeme
  prec : Nat
  op : BinaryOp
  known : binaryOf lex.1 = some (prec, op)

/-- A prefix operator. -/
structure Prefix where
  lex : Lexeme
  prec : Nat
  op : PrefixOp
  known : prefixOf lex.1 = some (prec, op)

/-- A postfix operator. -/
structure Postfix where
  lex : Lexeme
  prec : Nat
  op : PostfixOp
  known : postfixOf lex.1 = some (prec, op)

/-- A pair of brackets. -/
structure Bracket where
  opener : Lexeme
  closer : Lexeme
  op : GroupOp
  known : groupOf opener.1 = some op
  closes : Closes opener.1 closer.1

/-- A pair of brackets behind a head. -/
structure CallBracket where
  opener : Lexeme
  closer : Lexeme
  op : CallOp
  known : callOpOf opener.1 = some op
  closes : Closes opener.1 closer.1

/-- The precedences of the two operators of `a ~ f ~ b`, `a /: b = c` or `a /: b := c`, and what
they are together. -/
def ternaryOf : TK → TK → Option (Nat × Nat × TernaryOp)
  | .Tilde, .Tilde => some (Prec.TILDE, Prec.TILDE, .CodeParser_TernaryTilde)
  | .SlashColon, .Equal => some (Prec.SLASHCOLON, Prec.EQUAL, .TagSet)
  | .SlashColon, .ColonEqual => some (Prec.SLASHCOLON, Prec.COLONEQUAL, .TagSetDelayed)
  | _, _ => none

/-- Two operators between three operands. -/
structure Ternary where
  first : Lexeme
  second : Lexeme
  prec : Nat
  prec' : Nat
  op : TernaryOp
  known : ternaryOf first.1 second.1 = some (prec, prec', op)

/-- The multiplication written by juxtaposition. -/
def implicitTimes : Lexeme := (.Fake_ImplicitTimes, [])

/-- The operand that is missing behind a `;`. -/
def implicitNull : Lexeme := (.Fake_ImplicitNull, [])

/-- The first and the second operand that are missing at a `;;`. -/
def implicitOne : Lexeme := (.Fake_ImplicitOne, [])
def implicitAll : Lexeme := (.Fake_ImplicitAll, [])

/-! ### Patterns and slots -/

/-- `_h`, `__h`, `___h` -/
def blankOf : TK → Option CompoundOp
  | .Under => some .Blank
  | .UnderUnder => some .BlankSequence
  | .UnderUnderUnder => some .BlankNullSequence
  | _ => none

/-- `x_`, `x__`, `x___`, `x_.` -/
def patternOf : TK → Option CompoundOp
  | .Under => some .CodeParser_PatternBlank
  | .UnderUnder => some .CodeParser_PatternBlankSequence
  | .UnderUnderUnder => some .CodeParser_PatternBlankNullSequence
  | .UnderDot => some .CodeParser_PatternOptionalDefault
  | _ => none

/-- `#1`, `##1`, `%1` -/
def slotOf : TK → Option CompoundOp
  | .Hash => some .Slot
  | .HashHash => some .SlotSequence
  | .Percent => some .Out
  | _ => none

/-- Lexemes that belong together, with nothing between them. -/
inductive Compound where
  /-- `_h` -/
  | blank (u h : Lexeme) (op : CompoundOp) (known : blankOf u.1 = some op) (head : h.1 = .Symbol)
  /-- `x_` -/
  | named (x u : Lexeme) (op : CompoundOp) (known : patternOf u.1 = some op) (name : x.1 = .Symbol)
  /-- `x_h` -/
  | typed (x u h : Lexeme) (op op' : CompoundOp) (known : blankOf u.1 = some op) (known' : patternOf u.1 = some op')
      (name : x.1 = .Symbol) (head : h.1 = .Symbol)
  /-- `#1` -/
  | slot (s n : Lexeme) (op : CompoundOp) (known : slotOf s.1 = some op) (number : n.1 = .Integer) 
      (digits : ∃ ds : List Char, n.2 = bytes ds ∧ ∀ c ∈ ds, isDec c = true)
  /-- `#name`, `#"name"` -/
  | slotName (s n : Lexeme) (known : s.1 = .Hash) (name : n.1 = .Symbol ∨ n.1 = .String)

/-- The lexemes. -/
def Compound.lexemes : Compound → List Lexeme
  | .blank u h _ _ _ => [u, h]
  | .named x u _ _ _ => [x, u]
  | .typed x u h _ _ _ _ _ _ => [x, u, h]
  | .slot s n _ _ _ _ => [s, n]
  | .slotName s n _ _ => [s, n]

/-- Lexemes of these kinds would belong together, with nothing between them. -/
def joins : TK → TK → Bool
  | .Symbol, .Under | .Symbol, .UnderUnder | .Symbol, .UnderUnderUnder | .Symbol, .UnderDot => true
  | .Under, .Symbol | .UnderUnder, .Symbol | .UnderUnderUnder, .Symbol => true
  | .Hash, .Symbol | .Hash, .String | .Hash, .Integer | .Hash, .Real | .Hash, .Rational | .Hash, .Error_Number => true
  | .HashHash, .Integer | .HashHash, .Real | .HashHash, .Rational | .HashHash, .Error_Number => true
  | .Percent, .Integer | .Percent, .Real | .Percent, .Rational | .Percent, .Error_Number => true
  | _, _ => false

/-- The last lexeme of `ks` and the first of `ks'` do not belong together. -/
def Apart (ks ks' : List Lexeme) : Prop := ∀ a ∈ ks.getLast?, ∀ b ∈ ks'.head?, joins a.1 b.1 = false

/-! ### Expressions -/

mutual
/-- An expression, with the operators it is written with. -/
inductive Form where
  /-- a name, number or string, `_`, `#`, `%` -/
  | atom (x : Lexeme)
  /-- `_h`, `x_`, `x_h`, `#1`, `%1` -/
  | compound (c : Compound)
  /-- `( … )`, `{ … }`, `<| … |>` -/
  | group (o : Bracket) (b : Body)
  /-- `f[ … ]` -/
  | call (f : Form) (o : CallBracket) (b : Body)
  /-- two operands and an operator -/
  | binary (l : Form) (o : Binary) (r : Form)
  /-- operands and operators of the same kind between them -/
  | chain (op : InfixOp) (prec : Nat) (f : Form) (t : Tail)
  /-- an operator and its operand -/
  | «prefix» (o : Prefix) (f : Form)
  /-- an operand and its operator -/
  | «postfix» (f : Form) (o : Postfix)
  /-- `a; b; c` -/
  | semi (f : Form) (t : Semis)
  /-- three operands and two operators -/
  | ternary (l : Form) (o : Ternary) (m r : Form)
  /-- `a =.` -/
  | unset (f : Form) (equal dot : Lexeme)
  /-- `a /: b =.` -/
  | tagUnset (l : Form) (o : Lexeme) (m : Form) (equal dot : Lexeme)
  /-- `x : p`, a name for a pattern -/
  | pattern (x o : Lexeme) (r : Form)
  /-- `p : d`, a pattern and its default -/
  | optional (l : Form) (o : Lexeme) (r : Form)
  /-- `a ;; …` -/
  | span (l : Form) (o : Lexeme) (e : Reach)
  /-- `;; …` -/
  | spanFrom (o : Lexeme) (e : Reach)
/-- What is behind a `;;`. -/
inductive Reach where
  /-- nothing -/
  | all
  /-- `;; b` -/
  | to (f : Form)
  /-- `;; b ;; c` -/
  | step (f : Form) (o : Lexeme) (g : Form)
  /-- `;; ;; c` -/
  | allStep (o : Lexeme) (g : Form)
/-- What is between brackets: nothing, an expression, or several expressions with commas. -/
inductive Body where
  | empty
  | one (f : Form)
  | many (f : Form) (t : Tail)
  /-- commas between which expressions may be missing, as in `a, , b,` -/
  | gaps (f : Form) (t : Gaps)
  /-- the same, and there is nothing in front of the first comma -/
  | gap (t : Gaps)
/-- Operators or commas, each with the operand that follows. -/
inductive Tail where
  | last (o : Lexeme) (f : Form)
  | more (o : Lexeme) (f : Form) (t : Tail)
/-- Semicolons, each with the operand that follows, which may be missing. -/
inductive Semis where
  | stop (o : Lexeme)
  | last (o : Lexeme) (f : Form)
  | skip (o : Lexeme) (t : Semis)
  | more (o : Lexeme) (f : Form) (t : Semis)
/-- Commas, each with the expression that follows, which may be missing. -/
inductive Gaps where
  | stop (o : Lexeme)
  | last (o : Lexeme) (f : Form)
  | skip (o : Lexeme) (t : Gaps)
  | more (o : Lexeme) (f : Form) (t : Gaps)
end

/-- The kinds of the atoms. -/
def atomKind : TK → Bool
  | .Symbol | .String | .Integer | .Real | .Rational => true
  | .Under | .UnderUnder | .UnderUnderUnder | .UnderDot => true
  | .Hash | .HashHash | .Percent | .PercentPercent => true
  | _ => false

/-- The operator `o` is written: with blanks on both sides, or, when it is the multiplication by
juxtaposition, as blanks only. -/
inductive Sep (g : Bool) : Lexeme → List Lexeme → Prop
  | shown {o w w'} : o ≠ implicitTimes → Blank g w → Blank true w' → Sep g o (w ++ o :: w')
  | silent {w} : Blank g w → Sep g implicitTimes w

mutual
/-- `Writes g f ks`: the lexemes `ks` write the expression `f`; `g` says whether they are inside
of brackets. -/
inductive Writes : Bool → Form → List Lexeme → Prop
  | atom {g x} : atomKind x.1 = true → Writes g (.atom x) [x]
  | compound {g c} : Writes g (.compound c) c.lexemes
  | group {g o b ks} : Inside b ks → Writes g (.group o b) (o.opener :: (ks ++ [o.closer]))
  | call {g f o b kf w ks} : Writes g f kf → Blank g w → Inside b ks →
      Writes g (.call f o b) (kf ++ (w ++ o.opener :: (ks ++ [o.closer])))
  | binary {g l o r kl w w' kr} : Writes g l kl → Blank g w → Blank true w' → Writes g r kr →
      Writes g (.binary l o r) (kl ++ (w ++ o.lex :: (w' ++ kr)))
  | chain {g op prec f t kf kt} : Writes g f kf → Rest g t kt → Apart kf kt →
      Writes g (.chain op prec f t) (kf ++ kt)
  | «prefix» {g o f w kf} : Blank true w → Writes g f kf → Writes g (.prefix o f) (o.lex :: (w ++ kf))
  | «postfix» {g f o kf w} : Writes g f kf → Blank g w → Writes g (.postfix f o) (kf ++ (w ++ [o.lex]))
  | semi {g f t kf kt} : Writes g f kf → Steps g t kt → Writes g (.semi f t) (kf ++ kt)
  | ternary {g l o m r kl km kr v v' w w'} : Writes g l kl → Blank g v → Blank true v' → Writes g m km → Blank g w → Blank true w' →
      Writes g r kr → Writes g (.ternary l o m r) (kl ++ (v ++ o.first :: (v' ++ (km ++ (w ++ o.second :: (w' ++ kr))))))
  | unset {g f e d kf w w'} : e.1 = .Equal → d.1 = .Dot → Writes g f kf → Blank g w → Blank true w' →
      Writes g (.unset f e d) (kf ++ (w ++ e :: (w' ++ [d])))
  | tagUnset {g l o m e d kl km v v' w w'} : o.1 = .SlashColon → e.1 = .Equal → d.1 = .Dot → Writes g l kl → Blank g v → Blank true v' →
      Writes g m km → Blank g w → Blank true w' →
      Writes g (.tagUnset l o m e d) (kl ++ (v ++ o :: (v' ++ (km ++ (w ++ e :: (w' ++ [d]))))))
  | pattern {g x o r w w' kr} : x.1 = .Symbol → o.1 = .Colon → Blank g w → Blank true w' → Writes g r kr →
      Writes g (.pattern x o r) (x :: (w ++ o :: (w' ++ kr)))
  | optional {g l o r kl w w' kr} : o.1 = .Colon → Writes g l kl → Blank g w → Blank true w' → Writes g r kr →
      Writes g (.optional l o r) (kl ++ (w ++ o :: (w' ++ kr)))
  | span {g l o e kl w ke} : o.1 = .SemiSemi → Writes g l kl → Blank g w → Reaches g e ke →
      Writes g (.span l o e) (kl ++ (w ++ o :: ke))
  | spanFrom {g o e ke} : o.1 = .SemiSemi → Reaches g e ke → Writes g (.spanFrom o e) (o :: ke)
/-- The lexemes write what is behind a `;;`. -/
inductive Reaches : Bool → Reach → List Lexeme → Prop
  | all {g} : Reaches g .all []
  | to {g f w kf} : Blank g w → Writes g f kf → Reaches g (.to f) (w ++ kf)
  | step {g f o f' w v v' kf kf'} : o.1 = .SemiSemi → Blank g w → Writes g f kf → Blank g v → Blank g v' → Writes g f' kf' →
      Reaches g (.step f o f') (w ++ (kf ++ (v ++ o :: (v' ++ kf'))))
  | allStep {g o f w w' kf} : o.1 = .SemiSemi → Blank g w → Blank g w' → Writes g f kf →
      Reaches g (.allStep o f) (w ++ o :: (w' ++ kf))
/-- The lexemes write what is between brackets. -/
inductive Inside : Body → List Lexeme → Prop
  | empty {w} : Blank true w → Inside .empty w
  | one {w f kf w'} : Blank true w → Writes true f kf → Blank true w' → Inside (.one f) (w ++ (kf ++ w'))
  | many {w f kf t kt w'} : Blank true w → Writes true f kf → Rest true t kt → Blank true w' →
      Inside (.many f t) (w ++ (kf ++ (kt ++ w')))
  | gaps {w f kf t kt w'} : Blank true w → Writes true f kf → Lists t kt → Blank true w' → Inside (.gaps f t) (w ++ (kf ++ (kt ++ w')))
  | gap {t kt w'} : Lists t kt → Blank true w' → Inside (.gap t) (kt ++ w')
/-- The lexemes write the operators and the operands behind them. -/
inductive Rest : Bool → Tail → List Lexeme → Prop
  | last {g o f ks kf} : Sep g o ks → Writes g f kf → Rest g (.last o f) (ks ++ kf)
  | more {g o f t ks kf kt} : Sep g o ks → Writes g f kf → Rest g t kt → Apart kf kt →
      Rest g (.more o f t) (ks ++ (kf ++ kt))
/-- The lexemes write the semicolons and the operands behind them. -/
inductive Steps : Bool → Semis → List Lexeme → Prop
  | stop {g o w} : o.1 = .Semi → Blank g w → Steps g (.stop o) (w ++ [o])
  | last {g o f w w' kf} : o.1 = .Semi → Blank g w → Blank g w' → Writes g f kf → Steps g (.last o f) (w ++ o :: (w' ++ kf))
  | skip {g o t w kt} : o.1 = .Semi → Blank g w → Steps g t kt → Steps g (.skip o t) (w ++ o :: kt)
  | more {g o f t w w' kf kt} : o.1 = .Semi → Blank g w → Blank g w' → Writes g f kf → Steps g t kt →
      Steps g (.more o f t) (w ++ o :: (w' ++ (kf ++ kt)))
/-- The lexemes write the commas and the expressions behind them. -/
inductive Lists : Gaps → List Lexeme → Prop
  | stop {o w} : o.1 = .Comma → Blank true w → Lists (.stop o) (w ++ [o])
  | last {o f w w' kf} : o.1 = .Comma → Blank true w → Blank true w' → Writes true f kf → Lists (.last o f) (w ++ o :: (w' ++ kf))
  | skip {o t w kt} : o.1 = .Comma → Blank true w → Lists t kt → Lists (.skip o t) (w ++ o :: kt)
  | more {o f t w w' kf kt} : o.1 = .Comma → Blank true w → Blank true w' → Writes true f kf → Lists t kt →
      Lists (.more o f t) (w ++ o :: (w' ++ (kf ++ kt)))
end

/-- The first lexeme of an expression. -/
def Form.first : Form → Lexeme
  | .atom x => x
  | .compound (.blank u _ _ _ _) => u
  | .compound (.named x _ _ _ _) => x
  | .compound (.typed x _ _ _ _ _ _ _ _) => x
  | .compound (.slot s _ _ _ _ _) => s
  | .compound (.slotName s _ _ _) => s
  | .group o _ => o.opener
  | .call f _ _ => f.first
  | .binary l _ _ => l.first
  | .chain _ _ f _ => f.first
  | .prefix o _ => o.lex
  | .postfix f _ => f.first
  | .semi f _ => f.first
  | .ternary l _ _ _ => l.first
  | .unset f _ _ => f.first
  | .tagUnset l _ _ _ _ => l.first
  | .pattern x _ _ => x
  | .optional l _ _ => l.first
  | .span l _ _ => l.first
  | .spanFrom o _ => o

/-- The kind of the lexeme that follows the first operand. -/
def Tail.next : Tail → TK
  | .last o f | .more o f _ => if o = implicitTimes then f.first.1 else o.1

/-! ### Precedences -/

/-- The precedences of the operators that have no operand of an operator further left: those a
looser operator in front of the expression would tear apart. -/
def Form.left : Form → List Nat
  | .atom _ | .compound _ | .group _ _ | .prefix _ _ | .spanFrom _ _ => []
  | .call f _ _ => Prec.CALL :: f.left
  | .binary l o _ => o.prec :: l.left
  | .chain _ p f _ => p :: f.left
  | .postfix f o => o.prec :: f.left
  | .semi f _ => Prec.SEMI :: f.left
  | .ternary l o _ _ => o.prec :: l.left
  | .unset f _ _ => Prec.EQUAL :: f.left
  | .tagUnset l _ _ _ _ => Prec.SLASHCOLON :: l.left
  | .pattern _ _ _ => [Prec.HIGHEST]
  | .optional l _ _ => Prec.HIGHEST :: l.left
  | .span l _ _ => Prec.SEMISEMI :: l.left

/-- What ends an expression. -/
inductive Edge where
  /-- The last operand of an operator of this precedence; a sequence is named with its operator,
  because the same operator would continue it. -/
  | operand (prec : Nat) (again : Option InfixOp)
  /-- A `;` behind which an operand could stand. -/
  | semi
  /-- A `;;`, with an operand behind it. -/
  | span
  /-- A `;;` behind which an operand could stand. -/
  | spanOpen

mutual
/-- What ends the expression, and its last operand, and so on. -/
def Form.right : Form → List Edge
  | .atom _ | .compound _ | .group _ _ | .call _ _ _ | .postfix _ _ => []
  | .binary _ o r => .operand o.prec none :: r.right
  | .chain op p _ t => .operand p (some op) :: t.right
  | .prefix o f => .operand o.prec none :: f.right
  | .semi _ t => t.right
  | .ternary _ o _ r => .operand o.prec' none :: r.right
  | .unset _ _ _ | .tagUnset _ _ _ _ _ => []
  | .pattern _ _ r => .operand Prec.FAKE_PATTERNCOLON none :: r.right
  | .optional _ _ r => .operand Prec.FAKE_OPTIONALCOLON none :: r.right
  | .span _ _ e | .spanFrom _ e => e.right
/-- The same for what is behind a `;;`. -/
def Reach.right : Reach → List Edge
  | .all => [.spanOpen]
  | .to f | .step _ _ f | .allStep _ f => .span :: .operand Prec.SEMISEMI none :: f.right
/-- The same for the last operand of a sequence. -/
def Tail.right : Tail → List Edge
  | .last _ f => f.right
  | .more _ _ t => t.right
/-- The same for semicolons. -/
def Semis.right : Semis → List Edge
  | .stop _ => [.semi]
  | .last _ f => .operand Prec.SEMI (some .CompoundExpression) :: f.right
  | .skip _ t | .more _ _ t => t.right
end

/-- The precedence with which a token takes what is before it as an operand; `0` if it does not.
For `:` it is the one behind `x : p`, and for `;;` the one behind what is not itself written with
`;;`. -/
def follows (k : TK) : Option Nat :=
  match k.infixParselet with
  | .assertFalse | .toplevelNewline => some 0
  | .implicitTimes | .times => some Prec.STAR
  | .binary p _ | .infix p _ | .postfix p _ => some p
  | .call _ _ => some Prec.CALL
  | .semi => some Prec.SEMI
  | .comma => some Prec.COMMA
  | .tilde => some Prec.TILDE
  | .slashColon => some Prec.SLASHCOLON
  | .equal => some Prec.EQUAL
  | .colonEqual => some Prec.COLONEQUAL
  | .colonColon => some Prec.COLONCOLON
  | .greaterGreater => some Prec.GREATERGREATER
  | .greaterGreaterGreater => some Prec.GREATERGREATERGREATER
  | .colon => some Prec.FAKE_OPTIONALCOLON
  | .semiSemi => some Prec.SEMISEMI
  | .differentialD => none

/-- The operator of the sequences a token continues. -/
def continues (k : TK) : Option InfixOp :=
  match k.infixParselet with
  | .infix _ op => some op
  | .times | .implicitTimes => some .Times
  | .semi => some .CompoundExpression
  | _ => none

/-- The operator of the sequences a token continues even on the next line. -/
def again (k : TK) : Option InfixOp :=
  match k.infixParselet with
  | .infix _ op => some op
  | .times => some .Times
  | .semi => some .CompoundExpression
  | _ => none

/-- An operator at the end of an expression keeps its operand when a token of the kind `k` follows:
it binds tighter than it, and it does not continue a sequence; a `:` ends the pattern `p` of
`x : p`, which has no looser operators than `:`; behind a `;` without operand, it is no other `;`
and begins no operand; behind a `;;` it is no other `;;`, and begins no operand if there is none. -/
def Edge.Kept (k : TK) : Edge → Prop
  | .operand p a => (∃ q, follows k = some q ∧ TighterOrLeft p q) ∧ (∀ op, a = some op → continues k ≠ some op) ∧
      (k = .Colon → Prec.FAKE_PATTERNCOLON ≤ p)
  | .semi => k ≠ .Semi ∧ k.isPossibleBeginning = false
  | .span => k ≠ .SemiSemi
  | .spanOpen => k.isPossibleBeginning = false

/-- A token of the kind `k` on the next line does not continue a sequence. -/
def Edge.Ends (k : TK) : Edge → Prop
  | .operand _ a => ∀ op, a = some op → again k ≠ some op
  | .semi | .span | .spanOpen => True

/-- The operators at the end of the expression keep their operands when a token of the kind `k`
follows. -/
def Form.KeptBefore (f : Form) (k : TK) : Prop := ∀ e ∈ f.right, e.Kept k

/-- The operators at the beginning of the expression keep their operands behind an operator of
precedence `p`. -/
def Form.KeptAfter (f : Form) (p : Nat) : Prop := ∀ q ∈ f.left, TighterOrRight q p

mutual
/-- The expression has a `:` that another `:` before it would tear apart: one that is not inside of
brackets or behind an operator looser than `:`. -/
def Form.colon : Form → Bool
  | .atom _ | .compound _ | .group _ _ => false
  | .call f _ _ => f.colon
  | .binary l o r => l.colon || (decide (Prec.FAKE_PATTERNCOLON ≤ o.prec) && r.colon)
  | .chain _ p f t => f.colon || (decide (Prec.FAKE_PATTERNCOLON ≤ p) && t.colon)
  | .prefix o f => decide (Prec.FAKE_PATTERNCOLON ≤ o.prec) && f.colon
  | .postfix f _ => f.colon
  | .semi f _ => f.colon
  | .ternary l o m r => l.colon || (decide (Prec.FAKE_PATTERNCOLON ≤ o.prec) && m.colon) ||
      (decide (Prec.FAKE_PATTERNCOLON ≤ o.prec') && r.colon)
  | .unset f _ _ => f.colon
  | .tagUnset l _ _ _ _ => l.colon
  | .pattern _ _ _ | .optional _ _ _ => true
  | .span l _ e => l.colon || e.colon
  | .spanFrom _ e => e.colon
/-- The same for what is behind a `;;`, which is tighter than `:`. -/
def Reach.colon : Reach → Bool
  | .all => false
  | .to f | .allStep _ f => f.colon
  | .step f _ g => f.colon || g.colon
/-- The same for the operands of a sequence. -/
def Tail.colon : Tail → Bool
  | .last _ f => f.colon
  | .more _ f t => f.colon || t.colon
end

/-- The patterns that may be followed by a default: blanks, perhaps with a name and a head, and
`x : p`. -/
def Form.isPattern : Form → Bool
  | .atom x => (blankOf x.1).isSome
  | .compound (.blank _ _ _ _ _) => true
  | .compound (.named _ u _ _ _) => (blankOf u.1).isSome
  | .compound (.typed _ _ _ _ _ _ _ _ _) => true
  | .pattern _ _ _ => true
  | _ => false

/-- A token of the kind `k` begins an operand of `;;`. -/
def StartsOperand (k : TK) : Prop := k.isPossibleBeginning = true ∧ k ≠ .SemiSemi

mutual
/-- The expression is parenthesised where it has to be. -/
def Form.Grouped : Form → Prop
  | .atom _ | .compound _ => True
  | .group _ b => b.Grouped
  | .call f o b => f.Grouped ∧ f.KeptBefore o.opener.1 ∧ b.Grouped
  | .binary l o r => l.Grouped ∧ l.KeptBefore o.lex.1 ∧ r.Grouped ∧ r.KeptAfter o.prec
  | .chain op p f t => f.Grouped ∧ f.KeptBefore t.next ∧ t.Grouped op p
  | .prefix o f => f.Grouped ∧ f.KeptAfter o.prec
  | .postfix f o => f.Grouped ∧ f.KeptBefore o.lex.1
  | .semi f t => f.Grouped ∧ f.KeptBefore .Semi ∧ t.Grouped
  | .ternary l o m r => l.Grouped ∧ l.KeptBefore o.first.1 ∧ m.Grouped ∧ m.KeptAfter o.prec ∧ m.KeptBefore o.second.1 ∧
      r.Grouped ∧ r.KeptAfter o.prec'
  | .unset f _ _ => f.Grouped ∧ f.KeptBefore .Equal
  | .tagUnset l _ m _ _ => l.Grouped ∧ l.KeptBefore .SlashColon ∧ m.Grouped ∧ m.KeptAfter Prec.SLASHCOLON ∧ m.KeptBefore .Equal
  | .pattern _ _ r => r.Grouped ∧ r.KeptAfter Prec.FAKE_PATTERNCOLON ∧ r.colon = false
  | .optional l _ r => l.isPattern = true ∧ l.Grouped ∧ l.KeptBefore .Colon ∧ r.Grouped ∧ r.KeptAfter Prec.FAKE_OPTIONALCOLON
  | .span l _ e => l.Grouped ∧ l.KeptBefore .SemiSemi ∧ e.Grouped
  | .spanFrom _ e => e.Grouped
/-- The same for what is behind a `;;`; an operand that itself begins with `;;` has to be in parentheses. -/
def Reach.Grouped : Reach → Prop
  | .all => True
  | .to f | .allStep _ f => StartsOperand f.first.1 ∧ f.Grouped ∧ f.KeptAfter Prec.SEMISEMI
  | .step f _ g => StartsOperand f.first.1 ∧ f.Grouped ∧ f.KeptAfter Prec.SEMISEMI ∧ f.KeptBefore .SemiSemi ∧
      StartsOperand g.first.1 ∧ g.Grouped ∧ g.KeptAfter Prec.SEMISEMI
/-- The same for what is between brackets. -/
def Body.Grouped : Body → Prop
  | .empty => True
  | .one f => f.Grouped
  | .many f t => f.Grouped ∧ t.Commas
  | .gaps f t => f.Grouped ∧ t.Grouped
  | .gap t => t.Grouped
/-- The same for the operands of a sequence; the tokens are operators of the sequence. -/
def Tail.Grouped (op : InfixOp) (p : Nat) : Tail → Prop
  | .last o f => infixOf o.1 = some (p, op) ∧ (o = implicitTimes → f.first.1.infixParselet = .implicitTimes) ∧
      f.Grouped ∧ f.KeptAfter p
  | .more o f t => infixOf o.1 = some (p, op) ∧ (o = implicitTimes → f.first.1.infixParselet = .implicitTimes) ∧
      f.Grouped ∧ f.KeptAfter p ∧ f.KeptBefore t.next ∧ t.Grouped op p
/-- The same for expressions with commas. -/
def Tail.Commas : Tail → Prop
  | .last o f => o.1 = .Comma ∧ f.Grouped
  | .more o f t => o.1 = .Comma ∧ f.Grouped ∧ t.Commas
/-- The same for the operands behind semicolons; `[x]` would be the arguments of a call there. -/
def Semis.Grouped : Semis → Prop
  | .stop _ => True
  | .last _ f => f.first.1.isPossibleBeginning = true ∧ f.Grouped ∧ f.KeptAfter Prec.SEMI
  | .skip _ t => t.Grouped
  | .more _ f t => f.first.1.isPossibleBeginning = true ∧ f.Grouped ∧ f.KeptAfter Prec.SEMI ∧ f.KeptBefore .Semi ∧ t.Grouped
/-- The same for expressions with commas, some of which may be missing. -/
def Gaps.Grouped : Gaps → Prop
  | .stop _ => True
  | .last _ f => f.Grouped
  | .skip _ t => t.Grouped
  | .more _ f t => f.Grouped ∧ t.Grouped
end

/-! ### Trees -/

/-- A token without its place in the text. -/
def leaf (x : Lexeme) : Cst := .tok ⟨x.1, x.2, [], .index 0, .index 0⟩

/-- The tree of a pattern or slot. -/
def Compound.cst : Compound → Cst
  | .blank u h op _ _ => .node (.compound op) [leaf u, leaf h]
  | .named x u op _ _ => .node (.compound op) [leaf x, leaf u]
  | .typed x u h op op' _ _ _ _ => .node (.compound op') [leaf x, .node (.compound op) [leaf u, leaf h]]
  | .slot s n op _ _ _ => .node (.compound op) [leaf s, leaf n]
  | .slotName s n _ _ => .node (.compound .Slot) [leaf s, leaf (.String, n.2)]

/-- What stands for the expressions missing behind a comma and in front of the first one. -/
def missing : Lexeme := (.Error_InfixImplicitNull, [])
def missingFirst : Lexeme := (.Error_PrefixImplicitNull, [])

/-- What a `;;` makes of its operands. -/
def Reach.kind : Reach → NodeKind
  | .all | .to _ => .binary .Span
  | .step _ _ _ | .allStep _ _ => .ternary .Span

mutual
/-- The tree an expression stands for. -/
def Form.cst : Form → Cst
  | .atom x => leaf x
  | .compound c => c.cst
  | .group o b => .node (.group o.op) (leaf o.opener :: (b.csts ++ [leaf o.closer]))
  | .call f o b => .call [f.cst] false o.op (leaf o.opener :: (b.csts ++ [leaf o.closer]))
  | .binary l o r => .node (.binary o.op) [l.cst, leaf o.lex, r.cst]
  | .chain op _ f t => .node (.infix op) (f.cst :: t.csts)
  | .prefix o f => .node (.prefix o.op) [leaf o.lex, f.cst]
  | .postfix f o => .node (.postfix o.op) [f.cst, leaf o.lex]
  | .semi f t => .node (.infix .CompoundExpression) (f.cst :: t.csts)
  | .ternary l o m r => .node (.ternary o.op) [l.cst, leaf o.first, m.cst, leaf o.second, r.cst]
  | .unset f e d => .node (.binary .Unset) [f.cst, leaf e, leaf d]
  | .tagUnset l o m e d => .node (.ternary .TagUnset) [l.cst, leaf o, m.cst, leaf e, leaf d]
  | .pattern x o r => .node (.binary .Pattern) [leaf x, leaf o, r.cst]
  | .optional l o r => .node (.binary .Optional) [l.cst, leaf o, r.cst]
  | .span l o e => .node e.kind (l.cst :: leaf o :: e.csts)
  | .spanFrom o e => .node e.kind (leaf implicitOne :: leaf o :: e.csts)
/-- The operands behind a `;;`. -/
def Reach.csts : Reach → List Cst
  | .all => [leaf implicitAll]
  | .to f => [f.cst]
  | .step f o g => [f.cst, leaf o, g.cst]
  | .allStep o g => [leaf implicitAll, leaf o, g.cst]
/-- The trees between brackets: at most one. -/
def Body.csts : Body → List Cst
  | .empty => []
  | .one f => [f.cst]
  | .many f t => [.node (.infix .CodeParser_Comma) (f.cst :: t.csts)]
  | .gaps f t => [.node (.infix .CodeParser_Comma) (f.cst :: t.csts)]
  | .gap t => [.node (.infix .CodeParser_Comma) (leaf missingFirst :: t.csts)]
/-- The operators and operands of a sequence. -/
def Tail.csts : Tail → List Cst
  | .last o f => [leaf o, f.cst]
  | .more o f t => leaf o :: f.cst :: t.csts
/-- The semicolons and the operands behind them. -/
def Semis.csts : Semis → List Cst
  | .stop o => [leaf o, leaf implicitNull]
  | .last o f => [leaf o, f.cst]
  | .skip o t => leaf o :: leaf implicitNull :: t.csts
  | .more o f t => leaf o :: f.cst :: t.csts
/-- The commas and the expressions behind them. -/
def Gaps.csts : Gaps → List Cst
  | .stop o => [leaf o, leaf missing]
  | .last o f => [leaf o, f.cst]
  | .skip o t => leaf o :: leaf missing :: t.csts
  | .more o f t => leaf o :: f.cst :: t.csts
end

mutual
/-- The tree without blanks and without the places of its tokens in the text. -/
def plain : Cst → Cst
  | .tok t => leaf (t.kind, t.text)
  | .node k cs => .node k (plains cs)
  | .call h m op b => .call (plains h) m op (plains b)
  | .callAgg h m op b => .callAgg (plain h) m op (plains b)
  | .box k cs => .box k (plains cs)
  | .code n => .code n
/-- The same for a sequence of trees. -/
def plains : List Cst → List Cst
  | [] => []
  | c :: cs => if c.isTrivia then plains cs else plain c :: plains cs
end

/-! ### Programs -/

/-- The kind of the first lexeme that is not a blank; the end of the text counts as one. -/
def nextKind (g : Bool) : List Lexeme → TK
  | [] => .EndOfFile
  | x :: ks => if blankKind g x.1 then nextKind g ks else x.1

/-- `Program fs ks`: the lexemes `ks` are the expressions `fs`, one per line or with lines
between them.  The next line may not begin with an operator that continues the sequence that
ends the line. -/
inductive Program : List Form → List Lexeme → Prop
  | nil {w} : Blank true w → Program [] w
  | last {w f ks w'} : Blank true w → Writes false f ks → f.Grouped → Blank true w' → Program [f] (w ++ (ks ++ w'))
  | cons {w f ks w' nl fs rest} : Blank true w → Writes false f ks → f.Grouped → Blank false w' →
      (∀ e ∈ f.right, e.Ends (nextKind true rest)) →
      Program fs rest → Program (f :: fs) (w ++ (ks ++ (w' ++ (.ToplevelNewline, nl) :: rest)))

end CodeParser.Spec
