import Mathlib.Data.List.Forall2
import Verif.Model.Cst
import Verif.Model.Ast
import Verif.Spec.Tree
/-!
C76: what may change when the same text is read with another way of counting positions.
-/
namespace CodeParser.Spec

/-- The same kind of token with the same text.  The text of a token that misses its end (a
string, a comment, …) is cut by error recovery, which counts lines and columns, so nothing is
said about it. -/
def SameToken (t t' : Tok) : Prop :=
  t.kind = t'.kind ∧ (unterminated t.kind = false → t.text = t'.text)

/-- The same tree up to positions.  Error recovery drops what follows in a group that misses
its closer, so nothing is said about the content of such groups. -/
inductive SameTree : Cst → Cst → Prop
  | tok {t t'} : SameToken t t' → SameTree (.tok t) (.tok t')
  | node {k cs cs'} : List.Forall₂ SameTree cs cs' → SameTree (.node k cs) (.node k cs')
  | missing {op cs cs'} : SameTree (.node (.groupMissingCloser op) cs) (.node (.groupMissingCloser op) cs')
  | call {hd hd' op b b'} : List.Forall₂ SameTree hd hd' → List.Forall₂ SameTree b b' →
      SameTree (.call hd false op b) (.call hd' false op b')
  | callMissing {hd hd' op b b'} : List.Forall₂ SameTree hd hd' →
      SameTree (.call hd true op b) (.call hd' true op b')

/-- A token without its position (and without the model's record of what follows it). -/
def bareTok (t : Tok) : Tok := ⟨t.kind, t.text, [], .index 1, .index 1⟩

mutual
/-- A tree without positions. -/
def bare : Cst → Cst
  | .tok t => .tok (bareTok t)
  | .node k cs => .node k (bares cs)
  | .call h m op b => .call (bares h) m op (bares b)
  | .callAgg h m op b => .callAgg (bare h) m op (bares b)
  | .box k cs => .box k (bares cs)
  | .code n => .code n
/-- Trees without positions. -/
def bares : List Cst → List Cst
  | [] => []
  | c :: cs => bare c :: bares cs
end

/-- The source of a node without its position: only whether it is known. -/
def bareMeta (d : AMeta) : AMeta :=
  ⟨d.source.map fun _ => (.index 1, .index 1),
   d.issues.map fun i => ⟨i.tag, i.sev, (.index 1, .index 1), i.more.map fun _ => (.index 1, .index 1)⟩⟩

mutual
/-- An abstract syntax tree without positions. -/
def bareA : Ast → Ast
  | .leaf k t d => .leaf k t (bareMeta d)
  | .error k t d => .error k t (bareMeta d)
  | .call h as d => .call (bareA h) (bareAs as) (bareMeta d)
  | .callMissing h as d => .callMissing (bareA h) (bareAs as) (bareMeta d)
  | .syntaxError k as d => .syntaxError k (bareAs as) (bareMeta d)
  | .abstractError k as d => .abstractError k (bareAs as) (bareMeta d)
  | .missingCloser k as d => .missingCloser k (bareAs as) (bareMeta d)
  | .missingOpener k as d => .missingOpener k (bareAs as) (bareMeta d)
  | .linearBang a b d => .linearBang (bareA a) (bareA b) (bareMeta d)
/-- Abstract syntax trees without positions. -/
def bareAs : List Ast → List Ast
  | [] => []
  | a :: as => bareA a :: bareAs as
end

end CodeParser.Spec
