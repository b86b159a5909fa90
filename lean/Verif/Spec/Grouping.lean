import Verif.Spec.Tree
/-!
# Specification: how a chain of operators is grouped

Used to state C31: the operator of a node is the loosest of the operators of the chain.
-/
namespace CodeParser.Spec
open CodeParser Cst

/-- `q` binds tighter than `p`, or they are the same and group to the left (even
precedences are left associative, odd ones right associative). -/
def TighterOrLeft (q p : Nat) : Prop := p < q ∨ (p = q ∧ q % 2 = 0)

/-- `q` binds tighter than `p`, or they are the same and group to the right. -/
def TighterOrRight (q p : Nat) : Prop := p < q ∨ (p = q ∧ q % 2 = 1)

/-- The operands of a chain: names, strings, numbers, bracketed groups and calls of names. -/
def Atom : Cst → Prop
  | .tok t => t.kind = .Symbol ∨ t.kind = .String ∨ t.kind = .Integer ∨ t.kind = .Real ∨ t.kind = .Rational
  | .node (.group _) _ => True
  | .call (.tok t :: _) false _ _ => t.kind = .Symbol
  | _ => False

/-- The precedence of an operator between two operands. -/
def chainPrec (k : TK) : Option Nat :=
  match k.infixParselet with
  | .binary p _ | .infix p _ => some p
  | .times => some Prec.STAR
  | .semi => some Prec.SEMI
  | .semiSemi => some Prec.SEMISEMI
  | .equal => some Prec.EQUAL
  | .colonEqual => some Prec.COLONEQUAL
  | _ => none

/-- The tree is an operator of precedence `p`. -/
def IsOp (p : Nat) (c : Cst) : Prop := ∃ t, c = .tok t ∧ chainPrec t.kind = some p

/-- The nodes of a chain: binary nodes, except those of `:` (whose precedence depends on the
context), `=.` and `>>`, and infix nodes, except those of `,` and `::`. -/
def chained : NodeKind → Bool
  | .binary op => !(op matches .Pattern | .Optional | .Unset | .Put | .PutAppend)
  | .infix op => !(op matches .CodeParser_Comma | .MessageName)
  | _ => false

/-- `OperandOf cs c`: `c` is an operand in the sequence `cs` of operands and operators. -/
def OperandOf (cs : List Cst) (c : Cst) : Prop := ∃ a b, proper cs = a ++ c :: b ∧ a.length % 2 = 0

/-- `OperatorOf cs c`: `c` is an operator in the sequence `cs` of operands and operators. -/
def OperatorOf (cs : List Cst) (c : Cst) : Prop := ∃ a b, proper cs = a ++ c :: b ∧ a.length % 2 = 1

/-- `Flat c`: `c` is made of atoms and operators of chains. -/
inductive Flat : Cst → Prop
  | atom {c} : Atom c → Flat c
  | node {k cs p} : chained k = true → (∀ c, OperandOf cs c → Flat c) → (∀ c, OperatorOf cs c → IsOp p c) →
      Flat (.node k cs)

/-- `Oper q c`: the chain `c` contains an operator of precedence `q`, outside of its atoms. -/
inductive Oper (q : Nat) : Cst → Prop
  | here {k cs c} : chained k = true → OperatorOf cs c → IsOp q c → Oper q (.node k cs)
  | deeper {k cs c} : chained k = true → OperandOf cs c → Oper q c → Oper q (.node k cs)

/-- `Bin c`: `c` is made of names, strings, numbers and binary operators. -/
inductive Bin : Cst → Prop
  | atom {t} : Atom (.tok t) → Bin (.tok t)
  | node {op l ts o us r} : chained (.binary op) = true → Tr ts → Tr us → (chainPrec o.kind).isSome = true → Bin l → Bin r →
      Bin (.node (.binary op) (l :: (tt ts ++ .tok o :: (tt us ++ [r]))))

mutual
/-- The tree without the texts and the positions of its tokens. -/
def skeleton : Cst → Cst
  | .tok t => .tok ⟨t.kind, [], [], .index 0, .index 0⟩
  | .node k cs => .node k (skeletons cs)
  | .call h m op b => .call (skeletons h) m op (skeletons b)
  | .callAgg h m op b => .callAgg (skeleton h) m op (skeletons b)
  | .box k cs => .box k (skeletons cs)
  | .code n => .code n
/-- The same for a sequence of trees. -/
def skeletons : List Cst → List Cst
  | [] => []
  | c :: cs => skeleton c :: skeletons cs
end

end CodeParser.Spec
