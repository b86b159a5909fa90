import Verif.Spec.Syntax
import Verif.Model.Ast
/-!
# Specification: the meaning of a written expression

Used to state C50: what abstraction makes of a written expression.  The meaning is an expression in
full form, such as `Plus[a, Times[-1, b]]` for `a - b`.
-/
namespace CodeParser.Spec
open CodeParser

/-- An expression in full form.  `error` stands for the nodes of abstract syntax that are not
expressions. -/
inductive Expr where
  /-- a symbol, number or string and its text -/
  | leaf (kind : TK) (text : List UInt8)
  /-- `head[arg₁, arg₂, …]` -/
  | call (head : Expr) (args : List Expr)
  | error
deriving Repr

mutual
/-- The expression of an abstract syntax tree: the tree without positions and issues. -/
def erase : Ast → Expr
  | .leaf k t _ => .leaf k t
  | .call h args _ => .call (erase h) (erases args)
  | _ => .error
/-- The same for a sequence. -/
def erases : List Ast → List Expr
  | [] => []
  | a :: as => erase a :: erases as
end

/-- A symbol. -/
def word (s : String) : Expr := .leaf .Symbol (utf8 s.toList)

/-- The symbol of an operator: its name, with its context unless that is `` System` ``. -/
def operator (s : Sym) : Expr := .leaf .Symbol s.text

/-- A number. -/
def number (n : Nat) : Expr := .leaf .Integer (utf8 (Nat.toDigits 10 n))

/-- `-1` -/
def minusOne : Expr := .leaf .Integer [byte '-', byte '1']

/-- `Times[-1, e]` -/
def opposite (e : Expr) : Expr := .call (word "Times") [minusOne, e]

/-- `Derivative[n][e]` -/
def derivative (n : Nat) (e : Expr) : Expr := .call (.call (word "Derivative") [number n]) [e]

/-- Settings for compatibility with other versions of the language. -/
structure Quirks where
  /-- `Plus @ x` as an operand of a sum counts as `x`, and so for other operators -/
  operandAt : Bool
  /-- `f @@@ x` is `Apply[f, x, {1}]`, not `MapApply[f, x]` -/
  oldAtAtAt : Bool

/-! ### What the meaning depends on -/

/-- Where an expression stands. -/
inductive Role where
  /-- anywhere else -/
  | value
  /-- it is an operand of the operator of this name -/
  | operand (name : List UInt8)
  /-- it is an operand of a sum -/
  | term
  /-- it is behind a unary `+` -/
  | afterPlus
  /-- it is behind a `-` -/
  | negated
  /-- it is before `n` primes -/
  | primed (n : Nat)

/-- What becomes of an expression that is nothing special in its place. -/
def Role.of : Role → Expr → Expr
  | .negated, e => opposite e
  | .primed n, e => derivative n e
  | _, e => e

/-- The operator `f` that counts for nothing in the operand `f @ x`. -/
def Role.swallows : Role → Option (List UInt8)
  | .operand name => some name
  | .term => some (utf8 "Plus".toList)
  | .negated => some (utf8 "Times".toList)
  | _ => none

/-- The place of `x` in such an operand `f @ x`. -/
def Role.inner : Role → Role
  | .term => .afterPlus
  | _ => .value

/-- A number without a sign, perhaps in parentheses. -/
def Form.isNumber : Form → Bool
  | .atom x => x.1 == .Integer || x.1 == .Real
  | .group o (.one f) => o.op == .CodeParser_GroupParen && f.isNumber
  | _ => false

/-- The number `0`, perhaps in parentheses or behind minus signs. -/
def Form.isZero : Form → Bool
  | .atom x => x.1 == .Integer && x.2 == [byte '0']
  | .group o (.one f) => o.op == .CodeParser_GroupParen && f.isZero
  | .prefix o f => o.op == .Minus && f.isZero
  | _ => false

/-- The expression is `name`. -/
def Form.isName (name : List UInt8) : Form → Bool
  | .atom x => x.1 == .Symbol && x.2 == name
  | _ => false

/-- The symbol of a comparison. -/
def comparisonOf : TK → Option String
  | .EqualEqual | .LongName_Equal | .LongName_LongEqual => some "Equal"
  | .BangEqual | .LongName_NotEqual => some "Unequal"
  | .Less => some "Less"
  | .Greater => some "Greater"
  | .LessEqual | .LongName_LessEqual | .LongName_LessSlantEqual => some "LessEqual"
  | .GreaterEqual | .LongName_GreaterEqual | .LongName_GreaterSlantEqual => some "GreaterEqual"
  | .LongName_GreaterEqualLess => some "GreaterEqualLess"
  | .LongName_GreaterFullEqual => some "GreaterFullEqual"
  | .LongName_GreaterGreater => some "GreaterGreater"
  | .LongName_GreaterLess => some "GreaterLess"
  | .LongName_GreaterTilde => some "GreaterTilde"
  | .LongName_LessEqualGreater => some "LessEqualGreater"
  | .LongName_LessFullEqual => some "LessFullEqual"
  | .LongName_LessGreater => some "LessGreater"
  | .LongName_LessLess => some "LessLess"
  | .LongName_LessTilde => some "LessTilde"
  | .LongName_NestedGreaterGreater => some "NestedGreaterGreater"
  | .LongName_NestedLessLess => some "NestedLessLess"
  | .LongName_NotGreater => some "NotGreater"
  | .LongName_NotGreaterEqual => some "NotGreaterEqual"
  | .LongName_NotGreaterFullEqual => some "NotGreaterFullEqual"
  | .LongName_NotGreaterGreater => some "NotGreaterGreater"
  | .LongName_NotGreaterLess => some "NotGreaterLess"
  | .LongName_NotGreaterSlantEqual => some "NotGreaterSlantEqual"
  | .LongName_NotGreaterTilde => some "NotGreaterTilde"
  | .LongName_NotLess => some "NotLess"
  | .LongName_NotLessEqual => some "NotLessEqual"
  | .LongName_NotLessFullEqual => some "NotLessFullEqual"
  | .LongName_NotLessGreater => some "NotLessGreater"
  | .LongName_NotLessLess => some "NotLessLess"
  | .LongName_NotLessSlantEqual => some "NotLessSlantEqual"
  | .LongName_NotLessTilde => some "NotLessTilde"
  | .LongName_NotNestedGreaterGreater => some "NotNestedGreaterGreater"
  | .LongName_NotNestedLessLess => some "NotNestedLessLess"
  | .LongName_VectorLess => some "VectorLess"
  | .LongName_VectorGreater => some "VectorGreater"
  | .LongName_VectorLessEqual => some "VectorLessEqual"
  | .LongName_VectorGreaterEqual => some "VectorGreaterEqual"
  | _ => none

/-- The sort of a comparison: those between vectors (`true`) and others (`false`) are not put into
one expression; six are of no sort and go with both. -/
def sortOf (s : String) : Option Bool :=
  if s ∈ ["VectorLess", "VectorGreater", "VectorLessEqual", "VectorGreaterEqual"] then some true
  else if s ∈ ["Equal", "Unequal", "Less", "Greater", "LessEqual", "GreaterEqual"] then none
  else some false

/-- `e s₁ e₁ s₂ e₂ …` where no two comparisons are of different sorts: `s[e, e₁, e₂, …]`, or
`s[{e, e₁, e₂, …}]` for a comparison between vectors, if there is only one kind of comparison, and
otherwise `Inequality[e, s₁, e₁, s₂, e₂, …]`, or ``Developer`VectorInequality`` if one of them is
between vectors. -/
def compareAlike (e : Expr) (rest : List (String × Expr)) : Expr :=
  match rest with
  | [] => e
  | (s, _) :: more =>
    if more.all fun p => p.1 == s then
      if sortOf s = some true then .call (word s) [.call (word "List") (e :: rest.map (·.2))]
      else .call (word s) (e :: rest.map (·.2))
    else .call (word (if rest.any fun p => sortOf p.1 == some true then "Developer`VectorInequality" else "Inequality"))
      (e :: rest.flatMap fun p => [word p.1, p.2])

/-- The comparisons from left to right: `e` and `done` have been read, the last comparison in `done`
that is of a sort is of the sort `last`.  In front of a comparison of the other sort, what has been
read is made one operand. -/
def compareFrom (e : Expr) (done : List (String × Expr)) (last : Option Bool) : List (String × Expr) → Expr
  | [] => compareAlike e done
  | p :: more =>
    match sortOf p.1 with
    | none => compareFrom e (done ++ [p]) last more
    | some k =>
      if last = some !k then compareFrom (compareAlike e done) [p] (some k) more
      else compareFrom e (done ++ [p]) (some k) more

/-- `e s₁ e₁ s₂ e₂ …`. -/
def compare (e : Expr) (rest : List (String × Expr)) : Expr := compareFrom e [] none rest

/-- The meaning of two operands and an operator. -/
def binaryExpr (q : Quirks) (op : BinaryOp) (l r : Expr) : Expr :=
  match op with
  | .Divide => .call (word "Times") [l, .call (word "Power") [r, minusOne]]
  | .CodeParser_BinaryAt => .call l [r]
  | .CodeParser_BinarySlashSlash => .call r [l]
  | .MapApply =>
    if q.oldAtAtAt then .call (word "Apply") [l, r, .call (word "List") [number 1]] else .call (word "MapApply") [l, r]
  | op => .call (operator op.toSymbol) [l, r]

/-- The meaning of a head and what is in brackets. -/
def callExpr (op : CallOp) (double : Bool) (h : Expr) (args : List Expr) : Expr :=
  match op with
  | .CodeParser_GroupSquare => if double then .call (word "Part") (h :: args) else .call h args
  | .CodeParser_GroupDoubleBracket => .call (word "Part") (h :: args)
  | .CodeParser_GroupTypeSpecifier => .call (.call (word "TypeSpecifier") [h]) args

/-- Square brackets directly inside of square brackets, as in `f[[1]]`. -/
def Body.double : Body → Bool
  | .one (.group o _) => o.op == .CodeParser_GroupSquare
  | _ => false

/-- The number with a minus sign. -/
def negativeNumber (x : Lexeme) : Expr := .leaf x.1 (if x.1 = .Integer ∧ x.2 = [byte '0'] then x.2 else byte '-' :: x.2)

/-- `Blank[…]` for `_`, `BlankSequence[…]` for `__`, `BlankNullSequence[…]` for `___`. -/
def blankExpr (u : TK) (args : List Expr) : Expr :=
  match u with
  | .Under => .call (word "Blank") args
  | .UnderUnder => .call (word "BlankSequence") args
  | _ => .call (word "BlankNullSequence") args

/-- `Slot[…]` for `#`, `SlotSequence[…]` for `##`, `Out[…]` for `%`. -/
def slotExpr (s : TK) (arg : Expr) : Expr :=
  match s with
  | .Hash => .call (word "Slot") [arg]
  | .HashHash => .call (word "SlotSequence") [arg]
  | _ => .call (word "Out") [arg]

/-- Characters that are symbols with another name: the code point, the long name and the symbol. -/
def constants : List (Nat × String × String) :=
  [(0x03c0, "Pi", "Pi"), (0x00b0, "Degree", "Degree"), (0x221e, "Infinity", "Infinity"), (0xf74d, "ExponentialE", "E"),
   (0xf74e, "ImaginaryI", "I"), (0xf74f, "ImaginaryJ", "I")]

/-- The number with `w` digits to the base `b`. -/
def digits (b w n : Nat) : List Char := let ds := Nat.toDigits b n; List.replicate (w - ds.length) '0' ++ ds

/-- The ways to write a character: itself, with its long name, and with its code point. -/
def spellings (n : Nat) (long : String) : List (List Char) :=
  [[Char.ofNat n], "\\[".toList ++ long.toList ++ [']'], "\\:".toList ++ digits 16 4 n] ++
  (if n < 0x100 then ["\\.".toList ++ digits 16 2 n, '\\' :: digits 8 3 n] else []) ++ ["\\|".toList ++ digits 16 6 n]

/-- The symbol a name stands for, if it has another name; the digits of code points have to be in lower
case. -/
def constant (text : List UInt8) : Option String :=
  (constants.find? fun c => (spellings c.1 c.2.1).any fun s => utf8 s == text).map (·.2.2)

/-- The meaning of an atom: a name, number or string stands for itself, `π` for `Pi`; `_.` is
`Optional[Blank[]]`, `#` is `Slot[1]`, `%` is `Out[]`, `%%%` is `Out[-3]`. -/
def atomExpr (x : Lexeme) : Expr :=
  match x.1 with
  | .Under | .UnderUnder | .UnderUnderUnder => blankExpr x.1 []
  | .UnderDot => .call (word "Optional") [.call (word "Blank") []]
  | .Hash | .HashHash => slotExpr x.1 (number 1)
  | .Percent => .call (word "Out") []
  | .PercentPercent => .call (word "Out") [.leaf .Integer (byte '-' :: utf8 (Nat.toDigits 10 x.2.length))]
  | .Symbol => match constant x.2 with
    | some s => word s
    | none => .leaf .Symbol x.2
  | k => .leaf k x.2

/-- The meaning of a pattern or slot: `x_h` is `Pattern[x, Blank[h]]`, `x_.` is
`Optional[Pattern[x, Blank[]]]`, `#name` is `Slot["name"]`. -/
def Compound.expr : Compound → Expr
  | .blank u h _ _ _ => blankExpr u.1 [atomExpr h]
  | .named x u _ _ _ =>
    if u.1 = .UnderDot then .call (word "Optional") [.call (word "Pattern") [atomExpr x, .call (word "Blank") []]]
    else .call (word "Pattern") [atomExpr x, blankExpr u.1 []]
  | .typed x u h _ _ _ _ _ _ => .call (word "Pattern") [atomExpr x, blankExpr u.1 [atomExpr h]]
  | .slot s n _ _ _ _ => slotExpr s.1 (atomExpr n)
  | .slotName s n _ _ =>
    slotExpr s.1 (.leaf .String (if n.1 = .String then n.2 else byte '"' :: (n.2 ++ [byte '"'])))

/-- The meaning of three operands and two operators: `a ~ f ~ b` is `f[a, b]`. -/
def ternaryExpr (op : TernaryOp) (l m r : Expr) : Expr :=
  match op with
  | .CodeParser_TernaryTilde => .call m [l, r]
  | .TagSet => .call (word "TagSet") [l, m, r]
  | .TagSetDelayed => .call (word "TagSetDelayed") [l, m, r]
  | _ => .error

mutual
/-- The meaning of an expression in its place. -/
def Form.expr (q : Quirks) (r : Role) : Form → Expr
  | .atom x =>
    match r with
    | .negated => if x.1 = .Integer ∨ x.1 = .Real then negativeNumber x else opposite (atomExpr x)
    | r => r.of (atomExpr x)
  | .compound c => r.of c.expr
  | .group o b =>
    if o.op = .CodeParser_GroupParen then b.inParens q r
    else r.of (.call (operator o.op.toSymbol) (b.exprs q))
  | .call f o b =>
    match o.op, b.double with
    | .CodeParser_GroupSquare, true => r.of (callExpr o.op true (f.expr q .value) (b.inner q))
    | op, _ => r.of (callExpr op false (f.expr q .value) (b.exprs q))
  | .binary l o r' =>
    match r.swallows with
    | some name =>
      if q.operandAt ∧ o.op = .CodeParser_BinaryAt ∧ l.isName name then r.of (r'.expr q r.inner)
      else r.of (binaryExpr q o.op (l.expr q .value) (r'.expr q .value))
    | none => r.of (binaryExpr q o.op (l.expr q .value) (r'.expr q .value))
  | .chain op _ f t =>
    match op with
    | .Plus => r.of (.call (word "Plus") (f.expr q .term :: t.terms q))
    | .Times =>
      let factors := f.expr q (.operand (utf8 "Times".toList)) :: t.exprs q (.operand (utf8 "Times".toList))
      match r with
      | .negated => .call (word "Times") (minusOne :: factors)
      | r => r.of (.call (word "Times") factors)
    | .CodeParser_InfixInequality => r.of (compare (f.expr q .value) (t.comparisons q))
    | .Divisible =>
      r.of (.call (word "Divisible")
        (f.expr q (.operand (utf8 "Divisible".toList)) :: t.exprs q (.operand (utf8 "Divisible".toList))).reverse)
    | .SameQ | .UnsameQ => r.of (.call (operator op.toSymbol) (f.expr q .value :: t.exprs q .value))
    | op => r.of (.call (operator op.toSymbol) (f.expr q (.operand op.toSymbol.short) :: t.exprs q (.operand op.toSymbol.short)))
  | .prefix o f =>
    match o.op with
    | .Minus =>
      match r with
      | .negated => if f.isZero then f.expr q .negated else opposite (f.expr q .negated)
      | r => r.of (f.expr q .negated)
    | .Plus =>
      match r with
      | .term | .afterPlus => f.expr q .afterPlus
      | r => r.of (.call (word "Plus") [f.expr q .afterPlus])
    | .CodeParser_PrefixNot2 => r.of (.call (word "Not") [.call (word "Not") [f.expr q .value]])
    | op => r.of (.call (operator op.toSymbol) [f.expr q .value])
  | .postfix f o =>
    match o.op with
    | .Derivative =>
      match r with
      | .primed n => f.expr q (.primed (n + 1))
      | r => r.of (f.expr q (.primed 1))
    | .HermitianConjugate => r.of (.call (word "ConjugateTranspose") [f.expr q .value])
    | op => r.of (.call (operator op.toSymbol) [f.expr q .value])
  | .semi f t => r.of (.call (word "CompoundExpression") (f.expr q .value :: t.exprs q))
  | .ternary l o m r' => r.of (ternaryExpr o.op (l.expr q .value) (m.expr q .value) (r'.expr q .value))
  | .unset f _ _ => r.of (.call (word "Unset") [f.expr q .value])
  | .tagUnset l _ m _ _ => r.of (.call (word "TagUnset") [l.expr q .value, m.expr q .value])
  | .pattern x _ p => r.of (.call (word "Pattern") [atomExpr x, p.expr q .value])
  | .optional p _ d => r.of (.call (word "Optional") [p.expr q .value, d.expr q .value])
  | .span l _ e => r.of (.call (word "Span") (l.expr q .value :: e.exprs q))
  | .spanFrom _ e => r.of (.call (word "Span") (number 1 :: e.exprs q))
/-- The meanings of the operands behind a `;;`; a missing one is `All`. -/
def Reach.exprs (q : Quirks) : Reach → List Expr
  | .all => [word "All"]
  | .to f => [f.expr q .value]
  | .step f _ g => [f.expr q .value, g.expr q .value]
  | .allStep _ g => [word "All", g.expr q .value]
/-- The meaning of parentheses around one expression: this expression. -/
def Body.inParens (q : Quirks) (r : Role) : Body → Expr
  | .one f =>
    match r with
    | .negated => if f.isNumber ∨ f.isZero then f.expr q .negated else opposite (f.expr q .value)
    | r => r.of (f.expr q .value)
  | _ => .error
/-- The meanings of the expressions between brackets. -/
def Body.exprs (q : Quirks) : Body → List Expr
  | .empty => []
  | .one f => [f.expr q .value]
  | .many f t => f.expr q .value :: t.exprs q .value
  | .gaps f t => f.expr q .value :: t.exprs q
  | .gap t => .error :: t.exprs q
/-- The meanings of the expressions between double brackets. -/
def Body.inner (q : Quirks) : Body → List Expr
  | .one (.group _ b) => b.exprs q
  | _ => []
/-- The meanings of the operands of a sequence. -/
def Tail.exprs (q : Quirks) (r : Role) : Tail → List Expr
  | .last _ f => [f.expr q r]
  | .more _ f t => f.expr q r :: t.exprs q r
/-- The meanings of the operands of a sum. -/
def Tail.terms (q : Quirks) : Tail → List Expr
  | .last o f => [if o.1 = .Minus ∨ o.1 = .LongName_Minus then f.expr q .negated else f.expr q .term]
  | .more o f t => (if o.1 = .Minus ∨ o.1 = .LongName_Minus then f.expr q .negated else f.expr q .term) :: t.terms q
/-- The comparisons and the meanings of the operands. -/
def Tail.comparisons (q : Quirks) : Tail → List (String × Expr)
  | .last o f => [((comparisonOf o.1).getD "", f.expr q .value)]
  | .more o f t => ((comparisonOf o.1).getD "", f.expr q .value) :: t.comparisons q
/-- The meanings of the expressions behind semicolons; a missing one is `Null`. -/
def Semis.exprs (q : Quirks) : Semis → List Expr
  | .stop _ => [word "Null"]
  | .last _ f => [f.expr q .value]
  | .skip _ t => word "Null" :: t.exprs q
  | .more _ f t => f.expr q .value :: t.exprs q
/-- The meanings of the expressions behind commas; a missing one is an error. -/
def Gaps.exprs (q : Quirks) : Gaps → List Expr
  | .stop _ => [.error]
  | .last _ f => [f.expr q .value]
  | .skip _ t => .error :: t.exprs q
  | .more _ f t => f.expr q .value :: t.exprs q
end

/-! ### Which expressions have a meaning -/

/-- A call of ``CodeParser`Comma``, the symbol the code uses for commas. -/
def isComma : Expr → Bool
  | .call (.leaf k t) _ => k == .Symbol && t == utf8 "CodeParser`Comma".toList
  | _ => false

/-- The expression is `a ? b`. -/
def Form.isPatternTest : Form → Bool
  | .binary _ o _ => o.op == .PatternTest
  | _ => false

/-- The expression is `name @ x`. -/
def Form.isAt (name : List UInt8) : Form → Bool
  | .binary l o _ => o.op == .CodeParser_BinaryAt && l.isName name
  | _ => false

/-- There is exactly one expression between the brackets. -/
def Body.single : Body → Bool
  | .one _ => true
  | _ => false

/-- All operators and the operands behind them have a property. -/
def Tail.Each (p : Lexeme → Form → Prop) : Tail → Prop
  | .last o f => p o f
  | .more o f t => p o f ∧ t.Each p

/-- A name written in ASCII, or a string that begins with a quotation mark and not with a line continuation. -/
def PlainName (x : Lexeme) : Prop := (x.1 = .Symbol → ∃ n, Name n ∧ x.2 = bytes n) ∧ (x.1 = .String → x.2.head? = some (byte '"'))

/-- Left out are names behind `#` that are not written in ASCII. -/
def Compound.Meaningful : Compound → Prop
  | .slotName _ n _ _ => PlainName n
  | _ => True

mutual
/-- Left out are: commas with missing expressions, which are errors; parentheses without or with more than one expression; square brackets
without a head; `#` with a name that is not written in ASCII; `a ? b ? c`, which is an error; `\!`;
the primes of boxes; with the setting `operandAt`, `\[InvisibleApplication]` behind the name of an
operator such as `Plus`, where the code panics (C37); and two uses of the symbol the code has for
commas: a call of ``CodeParser`Comma`` alone between brackets and, with the setting `operandAt`,
`Comma @ x` between commas. -/
def Form.Meaningful (q : Quirks) : Form → Prop
  | .atom _ => True
  | .compound c => c.Meaningful
  | .group o b => (o.op = .CodeParser_GroupParen → b.single = true) ∧ o.op ≠ .CodeParser_GroupSquare ∧
      o.op ≠ .CodeParser_GroupDoubleBracket ∧ o.op ≠ .CodeParser_GroupTypeSpecifier ∧ b.Meaningful q
  | .call f o b => f.Meaningful q ∧ (if o.op = .CodeParser_GroupSquare ∧ b.double then b.InnerMeaningful q else b.Meaningful q)
  | .binary l o r => l.Meaningful q ∧ r.Meaningful q ∧ (o.op = .PatternTest → l.isPatternTest = false) ∧
      (q.operandAt = true → o.lex.1 = .LongName_InvisibleApplication → ∀ op : InfixOp, l.isName op.toSymbol.short = false)
  | .chain _ _ f t => f.Meaningful q ∧ t.Meaningful q
  | .prefix o f => f.Meaningful q ∧ o.op ≠ .CodeParser_PrefixLinearSyntaxBang
  | .postfix f o => f.Meaningful q ∧ (o.op = .Derivative → o.lex.1 = .SingleQuote)
  | .semi f t => f.Meaningful q ∧ t.Meaningful q
  | .ternary l _ m r => l.Meaningful q ∧ m.Meaningful q ∧ r.Meaningful q
  | .unset f _ _ => f.Meaningful q
  | .tagUnset l _ m _ _ => l.Meaningful q ∧ m.Meaningful q
  | .pattern _ _ p => p.Meaningful q
  | .optional p _ d => p.Meaningful q ∧ d.Meaningful q
  | .span l _ e => l.Meaningful q ∧ e.Meaningful q
  | .spanFrom _ e => e.Meaningful q
/-- The same for the operands of `;;`. -/
def Reach.Meaningful (q : Quirks) : Reach → Prop
  | .all => True
  | .to f | .allStep _ f => f.Meaningful q
  | .step f _ g => f.Meaningful q ∧ g.Meaningful q
/-- The same for what is between brackets. -/
def Body.Meaningful (q : Quirks) : Body → Prop
  | .empty => True
  | .one f => f.Meaningful q ∧ isComma (f.expr q .value) = false
  | .many f t => f.Meaningful q ∧ t.Meaningful q ∧
      (q.operandAt = true → f.isAt (utf8 "Comma".toList) = false ∧ t.Each fun _ f => f.isAt (utf8 "Comma".toList) = false)
  | .gaps _ _ | .gap _ => False
/-- The same for what is between double brackets. -/
def Body.InnerMeaningful (q : Quirks) : Body → Prop
  | .one (.group _ b) => b.Meaningful q
  | _ => True
/-- The same for the operands of a sequence. -/
def Tail.Meaningful (q : Quirks) : Tail → Prop
  | .last _ f => f.Meaningful q
  | .more _ f t => f.Meaningful q ∧ t.Meaningful q
/-- The same for the operands of semicolons. -/
def Semis.Meaningful (q : Quirks) : Semis → Prop
  | .stop _ => True
  | .last _ f => f.Meaningful q
  | .skip _ t => t.Meaningful q
  | .more _ f t => f.Meaningful q ∧ t.Meaningful q
end

/-- A way to write a text as a string that puts a name between quotation marks. -/
def QuotesNames (debug : List UInt8 → List UInt8) : Prop :=
  ∀ n, Name n → debug (bytes n) = byte '"' :: (bytes n ++ [byte '"'])

end CodeParser.Spec
