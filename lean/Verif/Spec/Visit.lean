import Verif.Model.Cst
/-!
Nodes of a tree and where they are.  A path is the list of child indices leading from the
root to a node.
-/
namespace CodeParser.Spec

/-- The children of a tree, those of a call being its head and then its body. -/
def kids : Cst → List Cst
  | .tok _ => []
  | .node _ cs => cs
  | .call h _ _ b => h ++ b
  | .callAgg h _ _ b => h :: b
  | .box _ cs => cs
  | .code _ => []

/-- The node at a path. -/
def nodeAt : List Nat → Cst → Option Cst
  | [], c => some c
  | i :: p, c => (kids c)[i]? >>= nodeAt p

mutual
/-- The tree with every token replaced. -/
def mapTok (g : Tok → Tok) : Cst → Cst
  | .tok t => .tok (g t)
  | .node k cs => .node k (mapTokL g cs)
  | .call h m op b => .call (mapTokL g h) m op (mapTokL g b)
  | .callAgg h m op b => .callAgg (mapTok g h) m op (mapTokL g b)
  | .box k cs => .box k (mapTokL g cs)
  | .code n => .code n
/-- The trees with every token replaced. -/
def mapTokL (g : Tok → Tok) : List Cst → List Cst
  | [] => []
  | c :: cs => mapTok g c :: mapTokL g cs
end

end CodeParser.Spec
