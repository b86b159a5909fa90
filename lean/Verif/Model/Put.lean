import Verif.Model.Link
/-!
Model of /repo/crates/codeparser-wll/src/convert_wstp.rs: what the library writes to a link.  Line
numbers refer to that file.
-/
namespace CodeParser
namespace Wll

/-- A writer.  Before each element of a sequence of nodes the library asks whether the user has
aborted the evaluation; the answers are the first argument, how often it has asked before the
second.  The result is what is written and how often it has asked then; `none` is a panic. -/
abbrev W := (Nat → Bool) → Nat → Option (List Item × Nat)

/-- Writing some items. -/
def W.put (is : List Item) : W := fun _ k => some (is, k)

/-- A panic. -/
def W.fail : W := fun _ _ => none

/-- Writing one thing, then another. -/
def W.seq (a b : W) : W := fun ab k =>
  match a ab k with
  | none => none
  | some (is, k) =>
    match b ab k with
    | none => none
    | some (js, k) => some (is ++ js, k)

infixr:65 " ;> " => W.seq

/-- Writing some things one after another. -/
def W.each : List W → W
  | [] => W.put []
  | w :: ws => w ;> W.each ws

/-- `put_function`. -/
def W.fn (head : Name) (args : Nat) : W := W.put (Wll.fn head args)

/-- `Symbol_put`, 1214-1216. -/
def W.sym (s : Sym) : W := W.put [.sym s.name]

/-- `put_symbol`. -/
def W.name (n : Name) : W := W.put [.sym n]

/-- `put_str` of a literal. -/
def W.lit (cs : List Char) : W := W.put [.str (utf8 cs)]

/-- `put_str`. -/
def W.str (t : List UInt8) : W := W.put [.str t]

/-- `put_i64`. -/
def W.nat (n : Nat) : W := W.put [.int n]

/-- `put_expr`. -/
def W.expr (e : Expr) : W := W.put e.items

/-! ### Sources -/

/-- `i64::try_from`, 1062-1063: panics if the number is too large. -/
def putIndex (n : Nat) : W := if n < 2 ^ 63 then W.nat n else W.fail

/-- `Location::put`, 979-994. -/
def putLoc (l : Loc) : W :=
  W.fn Sym.System_List.name 2 ;>
  match l with
  | .lineCol l c => W.nat l ;> W.nat c
  | .index i => W.nat 0 ;> W.nat i

/-- `put_span_rhs`, 1035-1053, with `Span::kind`, source.rs:799-816.  Simplification: `end - 1`
panics if the end is 0, as it does with overflow checks. -/
def putSpanRhs : Loc → Loc → W
  | .lineCol l c, .lineCol l' c' => W.fn Sym.System_List.name 2 ;> putLoc (.lineCol l c) ;> putLoc (.lineCol l' c')
  | .index i, .index j =>
    if j = 0 then W.fail else W.fn Sym.System_List.name 2 ;> W.nat i ;> W.nat (j - 1)
  | _, _ => W.fail

/-- `put_box_position`, 1055-1113. -/
def putBoxPos : BoxPos → W
  | .at ix => W.fn Sym.System_List.name ix.length ;> W.each (ix.map putIndex)
  | .spanning ix a b =>
    W.fn Sym.System_List.name (ix.length + 1) ;> W.each (ix.map putIndex) ;>
      W.fn Sym.System_Span.name 2 ;> putIndex a ;> putIndex b
  | .before ix => W.fn Sym.System_Before.name 1 ;> W.fn Sym.System_List.name ix.length ;> W.each (ix.map putIndex)
  | .after ix => W.fn Sym.System_After.name 1 ;> W.fn Sym.System_List.name ix.length ;> W.each (ix.map putIndex)

/-- `include_source`, 998-1014; `compat` is `compatibility_mode`, lib.rs. -/
def includeSource (compat : Bool) : Source → Bool
  | .unknown => false
  | .box (.spanning _ _ _) => !compat
  | _ => true

/-- `put_source_rhs`, 1016-1033. -/
def putSourceRhs : Source → W
  | .span a b => putSpanRhs a b
  | .box p => putBoxPos p
  | .unknown => W.fail

/-- `Span::put`, 1115-1124. -/
def putSpan (s : Loc × Loc) : W :=
  W.fn Sym.System_Association.name 1 ;> W.fn Sym.System_Rule.name 2 ;> W.sym .CodeParser_Source ;> putSpanRhs s.1 s.2

/-- `Source::put`, 1126-1141. -/
def putSource (compat : Bool) (s : Source) : W :=
  if includeSource compat s then
    W.fn Sym.System_Association.name 1 ;> W.fn Sym.System_Rule.name 2 ;> W.sym .CodeParser_Source ;> putSourceRhs s
  else W.fn Sym.System_Association.name 0

/-- `put_source_locations`, 1143-1150.  The order of the elements of a `HashSet` is that of the
list. -/
def putLocs (ls : List Loc) : W := W.fn Sym.System_List.name ls.length ;> W.each (ls.map putLoc)

/-! ### Trees -/

/-- `SyntaxErrorKind::to_symbol`, cst.rs:826-834. -/
def errorSym : SyntaxErrorKind → Sym
  | .ExpectedSymbol => .SyntaxError_ExpectedSymbol
  | .ExpectedSet => .SyntaxError_ExpectedSet
  | .ExpectedTilde => .SyntaxError_ExpectedTilde

/-- The head of a node, 571-600, 782-784. -/
def headSym : NodeKind → Sym
  | .infix _ => .CodeParser_InfixNode
  | .prefix _ => .CodeParser_PrefixNode
  | .postfix _ => .CodeParser_PostfixNode
  | .binary _ => .CodeParser_BinaryNode
  | .ternary _ => .CodeParser_TernaryNode
  | .prefixBinary _ => .CodeParser_PrefixBinaryNode
  | .compound _ => .CodeParser_CompoundNode
  | .group _ => .CodeParser_GroupNode
  | .groupMissingCloser _ => .CodeParser_GroupMissingCloserNode
  | .groupMissingOpener _ => .CodeParser_GroupMissingOpenerNode
  | .syntaxError _ => .CodeParser_SyntaxErrorNode

/-- The operator of a node, 683-735, 794-800. -/
def opSym : NodeKind → Sym
  | .infix op => op.toSymbol
  | .prefix op => op.toSymbol
  | .postfix op => op.toSymbol
  | .binary op => op.toSymbol
  | .ternary op => op.toSymbol
  | .prefixBinary op => op.toSymbol
  | .compound op => op.toSymbol
  | .group op => op.toSymbol
  | .groupMissingCloser op => op.toSymbol
  | .groupMissingOpener op => op.toSymbol
  | .syntaxError e => errorSym e

/-- The head of the body of a call, 763-773. -/
def bodySym (missing : Bool) : Sym :=
  if missing then .CodeParser_GroupMissingCloserNode else .CodeParser_GroupNode

/-- The text of a token, 551-555: a panic if it is not valid UTF-8. -/
def putText (t : List UInt8) : W := if (fromUtf8 t).isSome then W.str t else W.fail

/-- `Token::put`, 529-558. -/
def putToken (compat : Bool) (k : TK) (t : List UInt8) (s : Source) : W :=
  W.fn (if k.isError then Sym.CodeParser_ErrorNode.name else Sym.CodeParser_LeafNode.name) 3 ;>
    W.sym k.toSymbol ;> putText t ;> putSource compat s

/-- `BoxKind::put`, 642-651. -/
def boxName (kind : Name) : Name := cs! "System`" ++ kind

/-- One element of a sequence of nodes, 615-622. -/
def unlessAborted (w : W) : W := fun ab k =>
  if ab k then W.sym .System__Aborted ab (k + 1) else w ab (k + 1)

/-- `src.put` of a source that may have been a panic. -/
def putSource' (compat : Bool) : Option Source → W
  | none => W.fail
  | some s => putSource compat s

/-- `NodeSeq::put`, 607-624: the list, and then what writes its elements. -/
def W.list (n : Nat) (w : W) : W := W.fn Sym.System_List.name n ;> w

mutual
/-- `Cst::put`, 565-605, with `put_op`, 665-681, `CallNode::put`, 737-761, `CallBody::put`, 763-774,
`SyntaxErrorNode::put`, 776-792, `BoxNode::put`, 626-640, and `CodeNode::put`, 653-663. -/
def Tree.put (compat : Bool) : Tree → W
  | .leaf k t s => putToken compat k t s
  | .node k cs =>
    W.fn (headSym k).name 3 ;> W.sym (opSym k) ;> W.list cs.length (putAll compat cs) ;> putSource' compat (seqSource cs)
  | .call h m op b =>
    W.fn Sym.CodeParser_CallNode.name 3 ;> W.list h.length (putAll compat h) ;>
      (W.fn (bodySym m).name 3 ;> W.sym op.toSymbol ;> W.list b.length (putAll compat b) ;> putSource' compat (seqSource b)) ;>
      putSource' compat (Tree.source (.call h m op b))
  | .callAgg h m op b =>
    W.fn Sym.CodeParser_CallNode.name 3 ;> Tree.put compat h ;>
      (W.fn (bodySym m).name 3 ;> W.sym op.toSymbol ;> W.list b.length (putAll compat b) ;> putSource' compat (seqSource b)) ;>
      putSource' compat (Tree.source (.callAgg h m op b))
  | .box kind cs s =>
    W.fn Sym.CodeParser_BoxNode.name 3 ;> W.name (boxName kind) ;> W.list cs.length (putAll compat cs) ;> putSource compat s
  | .code a b s => W.fn Sym.CodeParser_CodeNode.name 3 ;> W.expr a ;> W.expr b ;> putSource compat s
/-- The elements of a sequence of nodes, 615-622. -/
def putAll (compat : Bool) : List Tree → W
  | [] => W.put []
  | c :: cs => unlessAborted (Tree.put compat c) ;> putAll compat cs
end

/-- `NodeSeq::put`, 607-624. -/
def putSeq (compat : Bool) (cs : List Tree) : W := W.list cs.length (putAll compat cs)

/-! ### Issues -/

/-- The kind of an action and its text, 911-975. -/
def ActionKind.parts : ActionKind → Sym × Option (List Char × List UInt8)
  | .replace t => (.CodeParser_ReplaceText, some (cs! "ReplacementText", t))
  | .insert t => (.CodeParser_InsertText, some (cs! "InsertionText", t))
  | .delete => (.CodeParser_DeleteText, none)

/-- `CodeAction::put`, 903-977. -/
def Action.put (a : Action) : W :=
  W.fn Sym.CodeParser_CodeAction.name 3 ;> W.str a.label ;> W.sym a.kind.parts.1 ;>
  match a.kind.parts.2 with
  | some (key, t) =>
    W.fn Sym.System_Association.name 2 ;> putSpan a.src ;> W.fn Sym.System_Rule.name 2 ;> W.lit key ;> W.str t
  | none => W.fn Sym.System_Association.name 1 ;> putSpan a.src

/-- Something that is only written if a list is not empty. -/
def unlessEmpty (l : List α) (w : W) : W := if l.isEmpty then W.put [] else w

/-- `!l.is_empty() as usize`, 837-839. -/
def count (l : List α) : Nat := if l.isEmpty then 0 else 1

/-- `Issue::put`, 813-901. -/
def Issue.put (compat : Bool) (i : Issue) : W :=
  W.fn i.make.name 4 ;> W.lit i.tag.text ;> W.str i.msg ;> W.lit i.sev.text ;>
  W.fn Sym.System_Association.name (2 + count i.actions + count i.descs + count i.sources) ;>
  putSource compat i.src ;>
  (W.fn Sym.System_Rule.name 2 ;> W.sym .System_ConfidenceLevel ;> W.put [.real i.val]) ;>
  unlessEmpty i.actions
    (W.fn Sym.System_Rule.name 2 ;> W.sym .CodeParser_CodeActions ;>
      W.fn Sym.System_List.name i.actions.length ;> W.each (i.actions.map Action.put)) ;>
  unlessEmpty i.descs
    (W.fn Sym.System_Rule.name 2 ;> W.lit (cs! "AdditionalDescriptions") ;>
      W.fn Sym.System_List.name i.descs.length ;> W.each (i.descs.map W.str)) ;>
  unlessEmpty i.sources
    (W.fn Sym.System_Rule.name 2 ;> W.lit (cs! "AdditionalSources") ;>
      W.fn Sym.System_List.name i.sources.length ;> W.each (i.sources.map putSourceRhs))

/-- `List::<Issue>::put`, 1239-1249. -/
def putIssues (compat : Bool) (is : List Issue) : W :=
  W.fn Sym.System_List.name is.length ;> W.each (is.map (Issue.put compat))

/-! ### Metadata and containers -/

/-- `is_some()`, 120-154. -/
def countO (o : Option α) : Nat := if o.isSome then 1 else 0

/-- Something that is only written if it is there. -/
def ifSome (o : Option α) (w : α → W) : W :=
  match o with
  | some a => w a
  | none => W.put []

/-- `Expr::number`, 198. -/
def Number.expr : Number → Expr
  | .int v => .int v
  | .real b => .real b

/-- `Metadata::put`, 99-226. -/
def Meta.put (compat : Bool) (m : Meta) : W :=
  let inc := includeSource compat m.source
  W.fn Sym.System_Association.name ((if inc then 1 else 0) + countO m.issues + countO m.confidence +
    countO m.actions + countO m.descs + countO m.fileName + countO m.tabs + countO m.newlines +
    countO m.simple + countO m.complex) ;>
  ifSome m.issues (fun is =>
    W.fn Sym.System_Rule.name 2 ;> W.name (cs! "CodeParser`SyntaxIssues") ;> putIssues compat is) ;>
  ifSome m.tabs (fun e => W.fn Sym.System_Rule.name 2 ;> W.lit (cs! "EmbeddedTabs") ;> W.expr e) ;>
  ifSome m.newlines (fun e => W.fn Sym.System_Rule.name 2 ;> W.lit (cs! "EmbeddedNewlines") ;> W.expr e) ;>
  ifSome m.simple (fun e => W.fn Sym.System_Rule.name 2 ;> W.lit (cs! "SimpleLineContinuations") ;> W.expr e) ;>
  ifSome m.complex (fun e => W.fn Sym.System_Rule.name 2 ;> W.lit (cs! "ComplexLineContinuations") ;> W.expr e) ;>
  (if inc then W.fn Sym.System_Rule.name 2 ;> W.sym .CodeParser_Source ;> putSourceRhs m.source else W.put []) ;>
  ifSome m.confidence (fun n => W.expr n.expr) ;>
  ifSome m.actions (fun as =>
    W.fn Sym.System_Rule.name 2 ;> W.sym .CodeParser_CodeActions ;>
      W.fn Sym.System_List.name as.length ;> W.each (as.map Action.put)) ;>
  ifSome m.descs (fun ds =>
    W.fn Sym.System_Rule.name 2 ;> W.lit (cs! "AdditionalDescriptions") ;>
      W.fn Sym.System_List.name ds.length ;> W.each (ds.map W.str)) ;>
  ifSome m.fileName (fun e => W.fn Sym.System_Rule.name 2 ;> W.lit (cs! "FileName") ;> W.expr e)

/-- `ContainerKind::put`, 59-72. -/
def ContainerKind.name : ContainerKind → Name
  | .string => cs! "System`String"
  | .file => cs! "System`File"
  | .byte => cs! "System`Byte"
  | .box => cs! "System`Box"
  | .cell => cs! "System`Cell"
  | .hold => cs! "System`Hold"

/-- `ContainerBody::put`, 74-97. -/
def Body.put (compat : Bool) : Body → W
  | .nodes ts => putSeq compat ts
  | .emptyInput => W.fn Sym.System_List.name 1 ;> W.fn Sym.System_Missing.name 1 ;> W.lit (cs! "EmptyInput")
  | .encoding u => W.fn Sym.System_List.name 1 ;> W.fn Sym.System_Missing.name 1 ;> W.lit u.missingReason

/-- `Container::put`, 43-57. -/
def Container.put (compat : Bool) (c : Container) : W :=
  W.fn Sym.CodeParser_ContainerNode.name 3 ;> W.name c.kind.name ;> c.body.put compat ;> c.data.put compat

/-! ### Abstract syntax trees -/

/-- `AbstractSyntaxError::put`, 509-515. -/
def AbstractError.name : AbstractError → Name
  | .CommaTopLevel => cs! "AbstractSyntaxError`CommaTopLevel"
  | .OpenParen => cs! "AbstractSyntaxError`OpenParen"
  | .OpenSquare => cs! "AbstractSyntaxError`OpenSquare"
  | .ColonColonOpenSquare => cs! "AbstractSyntaxError`ColonColonOpenSquare"
  | .LeftDoubleBracket => cs! "AbstractSyntaxError`LeftDoubleBracket"
  | .NonAssociativePatternTest => cs! "AbstractSyntaxError`NonAssociativePatternTest"
  | .LinearSyntaxBang => cs! "AbstractSyntaxError`LinearSyntaxBang"
  | .ExpectedTilde => cs! "AbstractSyntaxError`ExpectedTilde"

/-- The source of the metadata of an abstract syntax tree. -/
def ofASrc : Option ASrc → Source
  | none => .unknown
  | some (a, b) => .span a b

/-- `AstMetadata::put`, 228-257.  The argument `full` gives the parts of an issue that the model of
abstraction leaves out. -/
def AMeta.put (compat : Bool) (full : AIssue → Issue) (m : AMeta) : W :=
  let inc := includeSource compat (ofASrc m.source)
  W.fn Sym.System_Association.name ((if inc then 1 else 0) + count m.issues) ;>
  (if inc then
    W.fn Sym.System_Rule.name 2 ;> W.sym .CodeParser_Source ;> putSourceRhs (ofASrc m.source)
   else W.put []) ;>
  unlessEmpty m.issues
    (W.fn Sym.System_Rule.name 2 ;> W.name (cs! "CodeParser`AbstractSyntaxIssues") ;>
      putIssues compat (m.issues.map full))

mutual
/-- `Ast::put`, 263-507, of the trees that the model of abstraction has. -/
def Ast.put (compat : Bool) (full : AIssue → Issue) : Ast → W
  | .leaf k t d => W.fn Sym.CodeParser_LeafNode.name 3 ;> W.sym k.toSymbol ;> putText t ;> AMeta.put compat full d
  | .error k t d => W.fn Sym.CodeParser_ErrorNode.name 3 ;> W.sym k.toSymbol ;> putText t ;> AMeta.put compat full d
  | .call h as d =>
    W.fn Sym.CodeParser_CallNode.name 3 ;> Ast.put compat full h ;> W.fn Sym.System_List.name as.length ;>
      putAsts compat full as ;> AMeta.put compat full d
  | .callMissing h as d =>
    W.fn Sym.CodeParser_CallMissingCloserNode.name 3 ;> Ast.put compat full h ;>
      W.fn Sym.System_List.name as.length ;> putAsts compat full as ;> AMeta.put compat full d
  | .syntaxError k as d =>
    W.fn Sym.CodeParser_SyntaxErrorNode.name 3 ;> W.sym (errorSym k) ;> W.fn Sym.System_List.name as.length ;>
      putAsts compat full as ;> AMeta.put compat full d
  | .abstractError k as d =>
    W.fn Sym.CodeParser_AbstractSyntaxErrorNode.name 3 ;> W.name (AbstractError.name k) ;>
      W.fn Sym.System_List.name as.length ;> putAsts compat full as ;> AMeta.put compat full d
  | .missingCloser k as d =>
    W.fn Sym.CodeParser_GroupMissingCloserNode.name 3 ;> W.sym k.toSymbol ;> W.fn Sym.System_List.name as.length ;>
      putAsts compat full as ;> AMeta.put compat full d
  | .missingOpener k as d =>
    W.fn Sym.CodeParser_GroupMissingOpenerNode.name 3 ;> W.sym k.toSymbol ;> W.fn Sym.System_List.name as.length ;>
      putAsts compat full as ;> AMeta.put compat full d
  | .linearBang a b d =>
    W.fn Sym.CodeParser_PrefixNode.name 3 ;> W.sym (PrefixOp.toSymbol .CodeParser_PrefixLinearSyntaxBang) ;>
      W.fn Sym.System_List.name 2 ;> (Ast.put compat full a ;> Ast.put compat full b) ;> AMeta.put compat full d
/-- The arguments of a node, 300-302. -/
def putAsts (compat : Bool) (full : AIssue → Issue) : List Ast → W
  | [] => W.put []
  | a :: as => Ast.put compat full a ;> putAsts compat full as
end

/-- `NodeSeq<Ast>::put`, 607-624. -/
def putAstSeq (compat : Bool) (full : AIssue → Issue) (as : List Ast) : W :=
  W.fn Sym.System_List.name as.length ;> W.each (as.map fun a => unlessAborted (Ast.put compat full a))

/-- `NodeSeq<Token>::put`, 607-624, 529-558. -/
def putTokens (compat : Bool) (ts : List Tok) : W :=
  W.fn Sym.System_List.name ts.length ;>
    W.each (ts.map fun t => unlessAborted (putToken compat t.kind t.text (.span t.start t.stop)))

/-! ### Results -/

/-- What a `ParseResult`, lib.rs:262-276, has besides the trees. -/
structure Extra where
  unsafeEncoding : Option Unsafe
  fatal : List Issue
  nonFatal : List Issue
  simple : List Loc
  complex : List Loc
  newlines : List Loc
  tabs : List Loc

/-- `ParseResult::put`, 1156-1205, with `UnsafeCharacterEncoding::put`, 802-807, and
`TrackedSourceLocations::to_nodes`, tokenize/tokenizer.rs:430-444; `trees` writes the trees. -/
def putResult (compat : Bool) (trees : W) (r : Extra) : W :=
  W.fn Sym.System_List.name 6 ;>
  (match r.unsafeEncoding with
    | none => trees
    | some u => W.fn Sym.System_List.name 1 ;> W.fn Sym.System_Missing.name 1 ;> W.lit u.missingReason) ;>
  putIssues compat (if r.fatal.isEmpty then r.nonFatal else r.fatal) ;>
  putLocs r.simple ;> putLocs r.complex ;> putLocs r.newlines ;> putLocs r.tabs

end Wll
end CodeParser
