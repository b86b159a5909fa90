import Verif.Model.Cst
/-!
Model of the first half of abstract_cst.rs: aggregation, which removes white space, newlines
and comments.  Line numbers refer to that file.
-/
namespace CodeParser

/-- The places where aggregation and abstraction can panic; line numbers refer to
abstract_cst.rs unless another file is named. -/
inductive APanic where
  /-- `next().unwrap()` on an aggregated call head without nodes, 92 -/
  | emptyHead
  /-- `CallHead::Aggregate` where `CallHead::Concrete` is expected, 96-98, or the reverse,
  abstract_call_node.rs:894-896 -/
  | callHead
  /-- `first` or `last` of an empty sequence, cst.rs:325-334; index out of range, `remove`,
  `pop().unwrap()`, 1768, 1781, 2280, 3324-3325, abstract_call_node.rs:91 -/
  | index
  /-- `assert!(start <= end)` in `Span::between`, tokenize/token.rs:93 -/
  | spanOrder
  /-- `expect_children` and the like with an unexpected number of children, 1416-1431, 1583, 1608 -/
  | children
  /-- `unhandled()`, 1562-1566, and other `todo!`s -/
  | unhandled
  /-- `as_str` of a token that is not valid UTF-8, tokenize/token.rs:43-46 -/
  | utf8
  /-- `panic!` in `abstractInfixInequality`, 2294, `inequalityOperatorToSymbol`, 2568,
  `vectorInequalityAffinity`, 2630 -/
  | inequality
  /-- `assert!` in `processInfixBinaryAtQuirk`, 2178 -/
  | quirk
  /-- `panic!("expected InfixNode after abstract Times")`, 1711 -/
  | times
  /-- `panic!` in `abstractInfixTilde`, 2686, 2731 -/
  | tilde
  /-- boxes and code nodes, which only come from boxes: not modelled -/
  | boxes
deriving DecidableEq, Repr

/-- Failure of parsing, aggregation or abstraction; `fuel` is the artificial failure of a
modelled recursion, which is proved never to happen. -/
inductive AErr where
  | panic (p : APanic)
  | fuel
deriving DecidableEq, Repr

/-- A computation that may panic. -/
abbrev A (α : Type) : Type := Except AErr α

/-- The kinds of tokens `aggregate_cst` removes, 54-63. -/
def aggregateDrops : TK → Bool
  | .Comment | .InternalNewline | .ToplevelNewline | .Boxes_MultiWhitespace | .Whitespace => true
  | _ => false

mutual
/-- `aggregate_cst`, 51-189.  (`Infix(Times)`, 72-86, is treated like the other operators.) -/
def aggregate : Cst → A (Option Cst)
  | .tok t => if aggregateDrops t.kind then .ok none else .ok (some (.tok t))
  | .node k cs =>
    match k with
    | .group .Token_Comment => .ok none
    | k =>
      match aggregateL cs with
      | .error e => .error e
      | .ok cs => .ok (some (.node k cs))
  | .call h m op b =>
    match aggregateL h with
    | .error e => .error e
    | .ok [] => .error (.panic .emptyHead)
    | .ok (c :: _) =>
      match aggregateL b with
      | .error e => .error e
      | .ok b => .ok (some (.callAgg c m op b))
  | .callAgg _ _ _ _ => .error (.panic .callHead)
  | .box k cs =>
    match aggregateL cs with
    | .error e => .error e
    | .ok cs => .ok (some (.box k cs))
  | .code n => .ok (some (.code n))
/-- `aggregate_cst_seq`, 41-49, with `aggregate_op`, 191-200. -/
def aggregateL : List Cst → A (List Cst)
  | [] => .ok []
  | c :: cs =>
    match aggregate c with
    | .error e => .error e
    | .ok o =>
      match aggregateL cs with
      | .error e => .error e
      | .ok cs => .ok (o.toList ++ cs)
end

end CodeParser
