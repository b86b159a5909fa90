import Verif.Spec.Tree
import Verif.Model.Ast
/-!
Independent vocabulary for what abstraction needs.
-/
namespace CodeParser.Spec

/-- Brackets without anything in front: `[…]`, `::[…]` and `\[LeftDoubleBracket]…`. -/
def isNaked : GroupOp → Bool
  | .CodeParser_GroupSquare | .CodeParser_GroupTypeSpecifier | .CodeParser_GroupDoubleBracket => true
  | _ => false

/-- `s\[InvisibleApplication]x` where `s` is the name of an operator with any number of operands,
such as `Plus`. -/
def InvisiblyApplied : Cst → Prop
  | .node (.binary .CodeParser_BinaryAt) cs => ∃ s t x, proper cs = [.tok s, .tok t, x] ∧
      (s.kind = .Symbol ∧ ∃ op : InfixOp, s.text = op.toSymbol.short) ∧ t.kind = .LongName_InvisibleApplication
  | _ => False

/-- What a tree must be like (not counting its parts) for abstraction to go well.  A token has its
end and, if it is the name of a file, is not missing; parentheses have one tree between them, and
square brackets at most one.  If the program should treat `Plus @ a + b` in a special way
(`quirk`), then there is no `Plus\[InvisibleApplication]x`. -/
def Fine (quirk : Bool) : Cst → Prop
  | .tok t => unterminated t.kind = false ∧ t.kind ≠ .Error_ExpectedFile
  | .node (.binary op) cs => quirk = true → ¬ InvisiblyApplied (.node (.binary op) cs)
  | .node (.group op) cs =>
    (op = .CodeParser_GroupParen → (proper cs).length = 3) ∧ (isNaked op = true → (proper cs).length ≤ 3)
  | .call _ false .CodeParser_GroupSquare b => (proper b).length ≤ 3
  | _ => True

/-- `()`: parentheses with nothing but white space and comments between them. -/
def EmptyParens : Cst → Prop
  | .node (.group .CodeParser_GroupParen) cs => (proper cs).length = 2
  | _ => False

/-! ### Chains of inequalities -/

/-- The inequalities between vectors. -/
def isVector : Sym → Bool
  | .System_VectorLess | .System_VectorGreater | .System_VectorLessEqual | .System_VectorGreaterEqual => true
  | _ => false

/-- The inequalities that go with those between vectors and with all others. -/
def isPlain : Sym → Bool
  | .System_Equal | .System_Unequal | .System_Less | .System_Greater | .System_LessEqual | .System_GreaterEqual => true
  | _ => false

/-- Two inequalities that cannot be in one `Inequality[…]`. -/
def clash (s t : Sym) : Bool := (isVector s && !isVector t && !isPlain t) || (isVector t && !isVector s && !isPlain s)

/-- `s[x₁, x₂, …]`, or `s[{x₁, x₂, …}]` for an inequality between vectors. -/
def flatCall (s : Sym) (xs : List Ast) (d : AMeta) : Ast :=
  if isVector s then .callS s [.callS .System_List xs .none] d else .callS s xs d

/-- The expression for `x s₁ x₁ s₂ x₂ …`.  If there is only one kind of inequality, it is
`s[x, x₁, x₂, …]`, or `s[{x, x₁, x₂, …}]` for an inequality between vectors, otherwise
`Inequality[x, s₁, x₁, s₂, x₂, …]`, or ``Developer`VectorInequality`` if there is an inequality
between vectors. -/
def comparison (d : AMeta) (x : Ast) : List (Sym × Ast) → Ast
  | [] => x
  | (s, y) :: rest =>
    let operands := x :: y :: rest.map (·.2)
    if rest.all fun p => p.1 == s then flatCall s operands d
    else
      .callS (if ((s, y) :: rest).any fun p => isVector p.1 then .Developer_VectorInequality else .System_Inequality)
        (x :: ((s, y) :: rest).flatMap fun p => [.symbol p.1, p.2]) d

/-- The chain `ps` is cut into the parts `gs`: there is a cut in front of each operator that
clashes with one behind the previous cut, and there are no others. -/
structure Cut (ps : List (Sym × Ast)) (gs : List (List (Sym × Ast))) : Prop where
  all : gs.flatten = ps
  ne : ∀ g ∈ gs, g ≠ []
  whole : ∀ g ∈ gs, ∀ p ∈ g, ∀ q ∈ g, clash p.1 q.1 = false
  cuts : ∀ a g g' b, gs = a ++ g :: g' :: b → ∃ p ∈ g, ∃ q, g'.head? = some q ∧ clash p.1 q.1 = true

/-- An operator of a chain and the operand behind it, with the symbol and the expression they
stand for. -/
structure Link where
  op : Tok
  operand : Cst
  sym : Sym
  expr : Ast

end CodeParser.Spec
