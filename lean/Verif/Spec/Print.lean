import Verif.Model.Print
import Verif.Spec.Link
import Verif.Spec.Token
/-!
Independent specification of printed trees (C75): texts whose end can be found.
-/
namespace CodeParser.Spec
open Wll

/-- Where a text of this kind ends can be seen from the text itself: it is a string with its quotes, a
comment, or has no double quotes. -/
inductive Delimited : TK → List UInt8 → Prop
  | string {body} : stringEnd body = some [] → Delimited .String (byte '"' :: body)
  | comment {body} : commentEnd 1 body = some [] → Delimited .Comment (byte '(' :: byte '*' :: body)
  | plain {k text} : k ≠ .Comment → (k = .String → text ≠ []) → byte '"' ∉ text → Delimited k text

mutual
/-- All texts of the tree are such. -/
def Legible : Tree → Prop
  | .leaf k t _ => Delimited k t
  | .node _ cs => Legibles cs
  | .call h _ _ b => Legibles h ∧ Legibles b
  | .callAgg h _ _ b => Legible h ∧ Legibles b
  | .box _ cs _ => Legibles cs
  | .code _ _ _ => True
/-- All texts of the trees are such. -/
def Legibles : List Tree → Prop
  | [] => True
  | c :: cs => Legible c ∧ Legibles cs
end

mutual
/-- The tree without the difference between the two kinds of newlines. -/
def newlines : Tree → Tree
  | .leaf k t s => .leaf (if k = .ToplevelNewline then .InternalNewline else k) t s
  | .node k cs => .node k (newlinesAll cs)
  | .call h m op b => .call (newlinesAll h) m op (newlinesAll b)
  | .callAgg h m op b => .callAgg (newlines h) m op (newlinesAll b)
  | .box kind cs s => .box kind (newlinesAll cs) s
  | .code a b s => .code a b s
/-- The trees without the difference between the two kinds of newlines. -/
def newlinesAll : List Tree → List Tree
  | [] => []
  | c :: cs => newlines c :: newlinesAll cs
end

end CodeParser.Spec
