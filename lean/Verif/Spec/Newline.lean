import Verif.Model.Cst
/-!
# Specification: the tokens inside and outside of the brackets of a tree

Used to state C23.
-/
namespace CodeParser.Spec
open CodeParser Cst

mutual
/-- For each pair of brackets in a tree, the tokens from the opening to the closing one, both
included; the closing one can be missing. -/
def brackets : Cst → List (List Tok)
  | .tok _ => []
  | .node (.group _) cs => leavesL cs :: bracketsL cs
  | .node (.groupMissingCloser _) cs => leavesL cs :: bracketsL cs
  | .node (.groupMissingOpener _) cs => leavesL cs :: bracketsL cs
  | .node _ cs => bracketsL cs
  | .call h _ _ b => bracketsL h ++ (leavesL b :: bracketsL b)
  | .callAgg h _ _ b => brackets h ++ (leavesL b :: bracketsL b)
  | .box _ cs => bracketsL cs
  | .code _ => []
/-- The same for a sequence of trees. -/
def bracketsL : List Cst → List (List Tok)
  | [] => []
  | c :: cs => brackets c ++ bracketsL cs
end

mutual
/-- The tokens of a tree that stand outside of all brackets. -/
def outside : Cst → List Tok
  | .tok t => [t]
  | .node (.group _) _ => []
  | .node (.groupMissingCloser _) _ => []
  | .node (.groupMissingOpener _) _ => []
  | .node _ cs => outsideL cs
  | .call h _ _ _ => outsideL h
  | .callAgg h _ _ _ => outside h
  | .box _ cs => outsideL cs
  | .code _ => []
/-- The same for a sequence of trees. -/
def outsideL : List Cst → List Tok
  | [] => []
  | c :: cs => outside c ++ outsideL cs
end

/-- The operators followed by the name of a file. -/
def isFileOp : TK → Bool
  | .LessLess | .GreaterGreater | .GreaterGreaterGreater => true
  | _ => false

/-- In the sequence `ks` of tokens no newline is top-level, except behind `<<`, `>>` or `>>>`. -/
def NoToplevel (ks : List Tok) : Prop :=
  ∀ a t b, ks = a ++ t :: b → t.kind = .ToplevelNewline → ∃ t' ∈ a, isFileOp t'.kind = true

end CodeParser.Spec
