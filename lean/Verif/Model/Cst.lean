import Verif.Model.Tokenizer
import Verif.Model.Gen.Operators
/-!
Concrete syntax trees.  Paths are relative to /repo/crates/wolfram-parser/src.
-/
namespace CodeParser

/-- `SyntaxErrorKind`, parse.rs:927-931. -/
inductive SyntaxErrorKind where
  | ExpectedSymbol | ExpectedSet | ExpectedTilde
deriving DecidableEq, Repr

/-- The node types that are an operator with children (`PrefixNode`, …,
`GroupMissingOpenerNode`) and `SyntaxErrorNode`, cst.rs:36-213, with their operator. -/
inductive NodeKind where
  | «prefix» (op : PrefixOp)
  | «infix» (op : InfixOp)
  | «postfix» (op : PostfixOp)
  | binary (op : BinaryOp)
  | ternary (op : TernaryOp)
  | prefixBinary (op : PrefixBinaryOp)
  | compound (op : CompoundOp)
  | group (op : GroupOp)
  | groupMissingCloser (op : GroupOp)
  | groupMissingOpener (op : GroupOp)
  | syntaxError (err : SyntaxErrorKind)
deriving DecidableEq, Repr

/-- `Cst`, cst.rs:36-70.  `call` is a `CallNode` whose head is `CallHead::Concrete`,
`callAgg` one whose head is `CallHead::Aggregate`; `missing` distinguishes
`CallBody::Group` from `CallBody::GroupMissingCloser`.  The kind of a box and the content
of a `CodeNode`, which text parsing never creates, are opaque numbers. -/
inductive Cst where
  | tok (t : Tok)
  | node (k : NodeKind) (children : List Cst)
  | call (head : List Cst) (missing : Bool) (op : CallOp) (body : List Cst)
  | callAgg (head : Cst) (missing : Bool) (op : CallOp) (body : List Cst)
  | box (kind : Nat) (children : List Cst)
  | code (content : Nat)
deriving Repr, Inhabited

namespace Cst

mutual
/-- The tokens of a tree from left to right (what `Cst::visit`, cst/visit.rs:55-91, hands
out as `Cst::Token`). -/
def leaves : Cst → List Tok
  | .tok t => [t]
  | .node _ cs => leavesL cs
  | .call h _ _ b => leavesL h ++ leavesL b
  | .callAgg h _ _ b => leaves h ++ leavesL b
  | .box _ cs => leavesL cs
  | .code _ => []
/-- The tokens of a sequence of trees from left to right. -/
def leavesL : List Cst → List Tok
  | [] => []
  | c :: cs => leaves c ++ leavesL cs
end

/-- `matches!(cst, Cst::Token(token) if token.tok.isTrivia())`, parse_cst.rs:681, 770. -/
def isTrivia : Cst → Bool
  | .tok t => t.kind.isTrivia
  | _ => false

/-- The start of `Cst::get_source`, cst.rs:439-461, 338-346; `none` is the panic on an empty
sequence (and boxes and code nodes, which carry their own). -/
def start : Cst → Option Loc
  | .tok t => some t.start
  | .node _ (c :: _) => start c
  | .call (c :: _) _ _ _ => start c
  | .callAgg h _ _ _ => start h
  | _ => none

mutual
/-- The end of `Cst::get_source`, cst.rs:439-461, 338-346. -/
def stop : Cst → Option Loc
  | .tok t => some t.stop
  | .node _ cs => stopL cs
  | .call _ _ _ b => stopL b
  | .callAgg _ _ _ b => stopL b
  | _ => none
/-- The end of the last tree of a sequence. -/
def stopL : List Cst → Option Loc
  | [] => none
  | [c] => stop c
  | _ :: c :: cs => stopL (c :: cs)
end

end Cst
end CodeParser
