import Verif.Model.Ast
import Verif.Model.Cst
import Verif.Model.Util
/-!
C78: the positions in an abstract syntax tree.
-/
namespace CodeParser.Spec

/-- The position `s` lies inside of `t`. -/
def InsideOf (s t : ASrc) : Prop := t.1.le s.1 = true ∧ s.2.le t.2 = true

/-- The positions in the data of one node: its own and those of its issues. -/
def metaPositions (d : AMeta) : List ASrc := d.source.toList ++ d.issues.flatMap fun i => i.src :: i.more

mutual
/-- All positions in an abstract syntax tree. -/
def positions : Ast → List ASrc
  | .leaf _ _ d => metaPositions d
  | .error _ _ d => metaPositions d
  | .call h as d => metaPositions d ++ (positions h ++ positionsL as)
  | .callMissing h as d => metaPositions d ++ (positions h ++ positionsL as)
  | .syntaxError _ as d => metaPositions d ++ positionsL as
  | .abstractError _ as d => metaPositions d ++ positionsL as
  | .missingCloser _ as d => metaPositions d ++ positionsL as
  | .missingOpener _ as d => metaPositions d ++ positionsL as
  | .linearBang a b d => metaPositions d ++ (positions a ++ positions b)
/-- All positions in some abstract syntax trees. -/
def positionsL : List Ast → List ASrc
  | [] => []
  | a :: as => positions a ++ positionsL as
end

/-- A node with the data `d` and the positions `below` in its parts: if the node has a position,
all others lie inside of it; and what an issue is about comes before the other places it names. -/
def Encloses (d : AMeta) (below : List ASrc) : Prop :=
  (∀ t, d.source = some t → ∀ s ∈ metaPositions d ++ below, InsideOf s t) ∧
  ∀ i ∈ d.issues, ∀ m ∈ i.more, i.src.1.le m.1 = true ∧ i.src.2.le m.2 = true

mutual
/-- Positions are nested as the nodes are. -/
def Nested : Ast → Prop
  | .leaf _ _ d => Encloses d []
  | .error _ _ d => Encloses d []
  | .call h as d => Encloses d (positions h ++ positionsL as) ∧ Nested h ∧ NestedL as
  | .callMissing h as d => Encloses d (positions h ++ positionsL as) ∧ Nested h ∧ NestedL as
  | .syntaxError _ as d => Encloses d (positionsL as) ∧ NestedL as
  | .abstractError _ as d => Encloses d (positionsL as) ∧ NestedL as
  | .missingCloser _ as d => Encloses d (positionsL as) ∧ NestedL as
  | .missingOpener _ as d => Encloses d (positionsL as) ∧ NestedL as
  | .linearBang a b d => Encloses d (positions a ++ positions b) ∧ Nested a ∧ Nested b
/-- The same for several trees. -/
def NestedL : List Ast → Prop
  | [] => True
  | a :: as => Nested a ∧ NestedL as
end

/-- The position `s` goes from the beginning of a token of `c` to the end of one. -/
def OnTokens (ts : List Tok) (s : ASrc) : Prop :=
  ∃ t ∈ ts, ∃ t' ∈ ts, s = (t.start, t'.stop) ∧ t.start.le t'.stop = true

/-- An expression without the parentheses around it. -/
def unparen : Cst → Cst
  | .node (.group .CodeParser_GroupParen) [o, c, e] =>
    match c with
    | .node (.infix .CodeParser_Comma) ds => .node (.group .CodeParser_GroupParen) [o, .node (.infix .CodeParser_Comma) ds, e]
    | c => unparen c
  | c => c

/-- The position from the first to the last of some tokens. -/
def Hulls (ts : List Tok) (s : ASrc) : Prop := ∃ a b, ts.head? = some a ∧ ts.getLast? = some b ∧ s = (a.start, b.stop)

/-- `f'`, which gives a node without position. -/
def isDerivative : Cst → Bool
  | .node (.postfix .Derivative) _ => true
  | _ => false

/-- The abstract syntax tree `a` of the expression `c` has the position from the first to the last token of `c`,
without the parentheses around it; only `f'` gives a node without position. -/
def OwnPosition (c : Cst) (a : Ast) : Prop :=
  if isDerivative (unparen c) then a.data.source = none
  else ∃ s, a.data.source = some s ∧ Hulls (Cst.leaves (unparen c)) s

end CodeParser.Spec
