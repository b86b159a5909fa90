import Verif.Model.Cst
/-!
Model of cst/visit.rs: visiting the nodes of a concrete syntax tree.  Line numbers refer to
that file.  A callback (`&mut dyn FnMut`) is a function of a state and a node; the state
stands for whatever the closure has captured.
-/
namespace CodeParser
namespace Cst

mutual
/-- `Cst::visit`, 55-91, with `CallHead::visit`, 268-273. -/
def visit (f : σ → Cst → σ) : σ → Cst → σ
  | s, .tok t => f s (.tok t)
  | s, .node k cs => visitL f (f s (.node k cs)) cs
  | s, .call h m op b => visitL f (visitL f (f s (.call h m op b)) h) b
  | s, .callAgg h m op b => visitL f (visit f (f s (.callAgg h m op b)) h) b
  | s, .box k cs => visitL f (f s (.box k cs)) cs
  | s, .code n => f s (.code n)
/-- `CstSeq::visit`, 18-24, and `OperatorNode::visit_children`, 235-239. -/
def visitL (f : σ → Cst → σ) : σ → List Cst → σ
  | s, [] => s
  | s, c :: cs => visitL f (visit f s c) cs
end

mutual
/-- `Cst::map_visit`, 152-227, with `CallHead::map_visit`, 283-297.  The callback may return
any tree and it is the children of that tree that are visited next, so that the recursion is
on a bound of the depth; `none` is that the bound does not suffice.  `Cst::visit_mut`, 94-149,
is the same function with the tree changed in place. -/
def mapVisit (f : σ → Cst → Cst × σ) : Nat → σ → Cst → Option (Cst × σ)
  | 0, _, _ => none
  | n + 1, s, c =>
    match f s c with
    | (.tok t, s) => some (.tok t, s)
    | (.node k cs, s) => do
      let (cs, s) ← mapVisitL f n s cs
      some (.node k cs, s)
    | (.call h m op b, s) => do
      let (h, s) ← mapVisitL f n s h
      let (b, s) ← mapVisitL f n s b
      some (.call h m op b, s)
    | (.callAgg h m op b, s) => do
      let (h, s) ← mapVisit f n s h
      let (b, s) ← mapVisitL f n s b
      some (.callAgg h m op b, s)
    | (.box k cs, s) => do
      let (cs, s) ← mapVisitL f n s cs
      some (.box k cs, s)
    | (.code n, s) => some (.code n, s)
/-- `CstSeq::map_visit`, 34-46, and `OperatorNode::map_visit`, 248-257. -/
def mapVisitL (f : σ → Cst → Cst × σ) : Nat → σ → List Cst → Option (List Cst × σ)
  | 0, _, _ => none
  | _ + 1, s, [] => some ([], s)
  | n + 1, s, c :: cs => do
    let (c, s) ← mapVisit f n s c
    let (cs, s) ← mapVisitL f n s cs
    some (c :: cs, s)
end

end Cst
end CodeParser
