import Verif.Model.Library
import Verif.Model.Abstract
/-!
`Abstract_LibraryLink`: /repo/crates/codeparser-wll/src/lib.rs:331-372.

Simplifications: abstraction is modelled for trees whose leaves have positions in texts, so the answer
for other trees (boxes, held code, leaves without a source) is left open; the arguments are a list, as in
`Model/Library.lean`.
-/
namespace CodeParser
namespace Wll

mutual
/-- A tree that was read from the link, as the tree abstraction takes it.  Both are
`Cst<TokenString, Source>` in the program.  Nothing is recorded of what follows a token. -/
def Tree.toCst : Tree → Option Cst
  | .leaf k t (.span a b) => some (.tok { kind := k, text := t, after := [], start := a, stop := b })
  | .leaf _ _ _ => none
  | .node k cs => (Tree.toCsts cs).map (.node k)
  | .call h m op b => do return .call (← Tree.toCsts h) m op (← Tree.toCsts b)
  | .callAgg h m op b => do return .callAgg (← Tree.toCst h) m op (← Tree.toCsts b)
  | .box .. => none
  | .code .. => none
/-- The same for trees. -/
def Tree.toCsts : List Tree → Option (List Cst)
  | [] => some []
  | c :: cs => do return (← Tree.toCst c) :: (← Tree.toCsts cs)
end

/-- What a call gives: something is written, a panic, or something the model does not cover. -/
inductive Reply where
  | answers (w : W)
  | panics
  | outside

/-- `abstract_cst(node, quirks)` and `node.put(link)`, 353-361.  `full` gives the words of the issues
abstraction finds, `debug` how a string is printed in a message. -/
def abstractTree (H : Host) (full : AIssue → Issue) (debug : List UInt8 → List UInt8) (q : Quirks) (t : Tree) : Reply :=
  match t.toCst with
  | none => .outside
  | some c =>
    match Abs.abstractCst { infixBinaryAt := q.infixBinaryAt, flattenTimes := q.flattenTimes, oldAtAtAt := q.oldAtAtAt, debug } c with
    | .error _ => .panics
    | .ok a => .answers (Ast.put H.compat full a)

/-- `Abstract_LibraryLink`, 331-372. -/
def abstractCall (H : Host) (full : AIssue → Issue) (debug : List UInt8 → List UInt8) : List Arg → Reply
  | [.expr e, .expr quirks, .expr kind] =>
    match quirksOf quirks with
    | .error _ => .panics
    | .ok q =>
      match containerKindOf kind with
      | .error _ => .panics
      | .ok kind =>
        match readTree H.f64 kind e with
        | .error _ => .panics
        | .ok t => abstractTree H full debug q t
  | _ => .panics

end Wll
end CodeParser
