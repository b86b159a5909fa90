import Verif.Model.Put
/-!
Model of fmt_as_expr.rs: trees printed as expressions.  Line numbers refer to that file.  A result
is the text in UTF-8, `none` is a panic.
-/
namespace CodeParser
namespace Wll

/-- `", "`. -/
def comma : List UInt8 := [44, 32]

/-- `Location`, 352-363. -/
def printLoc : Loc → List UInt8
  | .lineCol l c => 123 :: (decimal l ++ (comma ++ (decimal c ++ [125])))
  | .index i => decimal i

/-- `Span`, 334-350, with `Span::kind`, source.rs:799-816: only spans of lines and columns are
printed, other ones are left as `todo!`. -/
def printSpan : Loc → Loc → Option (List UInt8)
  | .lineCol l c, .lineCol l' c' => some (123 :: (printLoc (.lineCol l c) ++ (comma ++ (printLoc (.lineCol l' c') ++ [125]))))
  | _, _ => none

/-- `TokenSource`, 319-332: positions in boxes and unknown ones are left as `todo!`. -/
def printSource : Source → Option (List UInt8)
  | .span a b => printSpan a b
  | .box _ => none
  | .unknown => none

/-- `put_op`, 293-317, once its parts are printed; also 67-91 and 167-188. -/
def printNode (head op : Sym) (body src : List UInt8) : List UInt8 :=
  utf8 head.name ++ 91 :: (utf8 op.name ++ (comma ++ (body ++ (comma ++ (src ++ [93])))))

/-- `NodeSeq`, 29-45 and 47-65, once its elements are printed. -/
def printList (elems : List UInt8) : List UInt8 := utf8 Sym.System_List.name ++ 91 :: (elems ++ [93])

/-- The head of a token, 71-75. -/
def leafSym (k : TK) : Sym := if k.isError then .CodeParser_ErrorNode else .CodeParser_LeafNode

/-- `Token`, 67-91. -/
def printToken (k : TK) (t : List UInt8) (s : Source) : Option (List UInt8) :=
  if (fromUtf8 t).isSome then (printSource s).map (printNode (leafSym k) k.toSymbol (34 :: (t ++ [34]))) else none

/-- The source of a node, which may have been a panic. -/
def printSource' : Option Source → Option (List UInt8)
  | none => none
  | some s => printSource s

/-- `CallNode`, 122-141, once its parts are printed. -/
def printCall (head body src : List UInt8) : List UInt8 :=
  utf8 Sym.CodeParser_CallNode.name ++ 91 :: (head ++ (comma ++ (body ++ (comma ++ (src ++ [93])))))

mutual
/-- `Cst`, 94-120, with `CallNode`, 122-141, `CallHead`, 143-152, `CallBody`, 154-165,
`SyntaxErrorNode`, 167-188, and the nodes of operators, 193-317; boxes and code nodes are left as
`todo!`. -/
def Tree.print : Tree → Option (List UInt8)
  | .leaf k t s => printToken k t s
  | .node k cs => do
    let xs ← printAll cs
    let p ← printSource' (seqSource cs)
    some (printNode (headSym k) (opSym k) (printList xs) p)
  | .call h m op b => do
    let xs ← printAll h
    let ys ← printAll b
    let q ← printSource' (seqSource b)
    let p ← printSource' (Tree.source (.call h m op b))
    some (printCall (printList xs) (printNode (bodySym m) op.toSymbol (printList ys) q) p)
  | .callAgg h m op b => do
    let x ← Tree.print h
    let ys ← printAll b
    let q ← printSource' (seqSource b)
    let p ← printSource' (Tree.source (.callAgg h m op b))
    some (printCall x (printNode (bodySym m) op.toSymbol (printList ys) q) p)
  | .box _ _ _ => none
  | .code _ _ _ => none
/-- The elements of a sequence of nodes, 37-40: there is a comma behind each of them. -/
def printAll : List Tree → Option (List UInt8)
  | [] => some []
  | c :: cs => do
    let x ← Tree.print c
    let xs ← printAll cs
    some (x ++ (comma ++ xs))
end

/-- `NodeSeq<Cst>`, 29-45. -/
def printSeq (cs : List Tree) : Option (List UInt8) := (printAll cs).map printList

/-- `NodeSeq<Token>`, 47-65: a sequence of tokens is printed as if they were trees. -/
def printTokens (ts : List Tok) : Option (List UInt8) := printSeq (ts.map ofTok)

/-- `handle` of bin/main.rs, 103-151, for concrete syntax: what the command line tool prints.  It
prints trees also of bytes that are not UTF-8. -/
def printParse (cfg : Cfg) (conv : Conv) (first : FirstLine) (bs : List UInt8) : Option (List UInt8) :=
  match parseBytesCst cfg conv first bs with
  | .ok r => printSeq (ofCsts r.syntax')
  | .error _ => none

/-- `handle` of bin/main.rs, 103-151, for tokens: `unwrap` panics if the bytes are not UTF-8. -/
def printTokenize (cfg : Cfg) (conv : Conv) (first : FirstLine) (bs : List UInt8) : Option (List UInt8) :=
  match tokenizeBytes cfg conv first bs with
  | .ok (.ok ts) => printTokens ts
  | _ => none

end Wll
end CodeParser
