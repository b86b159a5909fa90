import Mathlib.Data.List.Forall2
import Verif.Spec.Build
import Verif.Spec.Meaning
import Verif.Spec.Tree
/-!
C81: the names and strings of a text and those of its abstract syntax trees.
-/
namespace CodeParser.Spec
open Cst

/-- Names and strings, and the operands that stand for something left out. -/
def wordKind : TK → Bool
  | .Symbol | .String => true
  | .Fake_ImplicitNull | .Fake_ImplicitAll | .Error_PrefixImplicitNull | .Error_InfixImplicitNull => true
  | _ => false

/-- The words of a tree. -/
def wordsOf (c : Cst) : List Tok := (leaves c).filter fun t => wordKind t.kind

/-- The words of trees. -/
def wordsOfL (cs : List Cst) : List Tok := (leavesL cs).filter fun t => wordKind t.kind

/-- A word in an abstract syntax tree: its kind, its text and its position. -/
abbrev Leaf := TK × List UInt8 × ASrc

mutual
/-- The words in an abstract syntax tree that have a position, which means that they were written. -/
def wordsIn : Ast → List Leaf
  | .leaf k s d => if wordKind k then d.source.toList.map fun p => (k, s, p) else []
  | .error _ _ _ => []
  | .call h as _ => wordsIn h ++ wordsInL as
  | .callMissing h as _ => wordsIn h ++ wordsInL as
  | .syntaxError _ as _ => wordsInL as
  | .abstractError _ as _ => wordsInL as
  | .missingCloser _ as _ => wordsInL as
  | .missingOpener _ as _ => wordsInL as
  | .linearBang a b _ => wordsIn a ++ wordsIn b
/-- The words in some abstract syntax trees. -/
def wordsInL : List Ast → List Leaf
  | [] => []
  | a :: as => wordsIn a ++ wordsInL as
end

/-- The name of the symbol that is written `s`: `π` is written for `Pi`. -/
def nameText (s : List UInt8) : List UInt8 :=
  match constant s with
  | some n => utf8 n.toList
  | none => s

/-- The word `l` of an abstract syntax tree is the token `t`: it is at the same place and has the same text, up to what is
put between quotes. -/
def Stands (quote : List UInt8 → List UInt8) (l : Leaf) (t : Tok) : Prop :=
  l.2.2 = (t.start, t.stop) ∧
  match t.kind with
  | .Symbol => (l.1 = .Symbol ∧ l.2.1 = nameText t.text) ∨ (l.1 = .String ∧ l.2.1 = nameInQuotes quote t.text)
  | .String => l.1 = .String ∧ (l.2.1 = t.text ∨ l.2.1 = inQuotes quote t.text ∨ l.2.1 = nameInQuotes quote t.text)
  | .Fake_ImplicitAll => l.1 = .Symbol ∧ l.2.1 = utf8 "All".toList
  | .Fake_ImplicitNull => (l.1 = .Symbol ∧ l.2.1 = utf8 "Null".toList) ∨ (l.1 = .Fake_ImplicitNull ∧ l.2.1 = t.text)
  | _ => l.1 = .Symbol ∧ l.2.1 = utf8 "Null".toList

/-- Between parentheses there is more than one expression, which is a mistake, as in `(a ] b)`. -/
def crowded : Cst → Bool
  | .node (.group .CodeParser_GroupParen) cs => 3 < (proper cs).length
  | _ => false

/-- The words abstraction may leave out: the name of the symbol for commas; with the quirk `InfixBinaryAt`, the name of an
operator in front of `@`; and words between parentheses around more than one expression. -/
def LeftOut (quirk : Bool) (cs : List Cst) (t : Tok) : Prop :=
  (t.kind = .Symbol ∧ nameText t.text = utf8 "CodeParser`Comma".toList) ∨
  (quirk = true ∧ t.kind = .Symbol ∧ (∃ op : InfixOp, t.text = op.toSymbol.short) ∧
    ∃ ds, In (.node (.binary .CodeParser_BinaryAt) (.tok t :: ds)) cs) ∨
  ∃ n, In n cs ∧ crowded n = true ∧ t ∈ leaves n

/-- The words in the trees `as` are those of the trees `cs`, each once and in any order, without some that are left out. -/
def SameWords (quote : List UInt8 → List UInt8) (out : Tok → Prop) (cs : List Cst) (as : List Ast) : Prop :=
  ∃ kept lost ls, (kept ++ lost).Perm (wordsOfL cs) ∧ (∀ t ∈ lost, out t) ∧ ls.Perm (wordsInL as) ∧ List.Forall₂ (Stands quote) ls kept

end CodeParser.Spec
