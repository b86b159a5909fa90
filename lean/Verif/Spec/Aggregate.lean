import Verif.Model.Cst
/-!
What it means to remove white space, newlines and comments from a tree.
-/
namespace CodeParser.Spec

/-- White space, newlines and comments. -/
def isGap : TK → Bool
  | .Whitespace | .InternalNewline | .ToplevelNewline | .Comment => true
  | _ => false

mutual
/-- `Stripped c d`: the tree `d` is `c` without its white space, newlines and comments; what
calls have in front of their bracket is then the head alone. -/
inductive Stripped : Cst → Cst → Prop
  | tok {t} : isGap t.kind = false → Stripped (.tok t) (.tok t)
  | node {k cs ds} : StrippedL cs ds → Stripped (.node k cs) (.node k ds)
  | call {h d m op b b'} : StrippedL h [d] → StrippedL b b' → Stripped (.call h m op b) (.callAgg d m op b')
/-- `StrippedL cs ds`: the same for sequences of trees. -/
inductive StrippedL : List Cst → List Cst → Prop
  | nil : StrippedL [] []
  | drop {t cs ds} : isGap t.kind = true → StrippedL cs ds → StrippedL (.tok t :: cs) ds
  | keep {c d cs ds} : Stripped c d → StrippedL cs ds → StrippedL (c :: cs) (d :: ds)
end

mutual
/-- There is a call in the tree. -/
def hasCall : Cst → Bool
  | .node _ cs => hasCallL cs
  | .call _ _ _ _ | .callAgg _ _ _ _ => true
  | _ => false
/-- There is a call in one of the trees. -/
def hasCallL : List Cst → Bool
  | [] => false
  | c :: cs => hasCall c || hasCallL cs
end

end CodeParser.Spec
