import Verif.Model.Ast
import Verif.Model.Recover
/-!
What travels over a WSTP link, and the values the library writes to it and reads from it.
`lib.rs`, `convert_wstp.rs` and `from_expr.rs` are those of /repo/crates/codeparser-wll/src; other
paths are relative to /repo/crates/wolfram-parser/src.  Everything is in the namespace `Wll`.
-/
namespace CodeParser
namespace Wll

/-- A literal as the list of its characters. -/
syntax "cs!" str : term
macro_rules
  | `(cs! $s) => do
    let elems := (s.getString.toList.map fun c => Lean.Syntax.mkCharLit c).toArray
    `(([$elems,*] : List Char))

/-- The full name of a symbol. -/
abbrev Name := List Char

/-- The name of a symbol without its context: `Symbol::symbol_name` of the crate wolfram-expr. -/
abbrev Name.short (n : Name) : List Char := afterTick n

/-- `Expr` of the crate wolfram-expr.  The text of a string is given by its UTF-8 bytes, a real
number by its bits. -/
inductive Expr where
  | sym (name : Name)
  | str (text : List UInt8)
  | int (value : Int)
  | real (bits : Nat)
  | normal (head : Expr) (args : List Expr)
deriving Repr, Inhabited

/-- What a single call of `put_function`, `put_symbol`, `put_str`, `put_i64` or `put_f64` of the
crate wstp adds to a link.  `put_function(head, n)` is the announcement of `n` arguments and then
the symbol `head`. -/
inductive Item where
  | func (args : Nat)
  | sym (name : Name)
  | str (text : List UInt8)
  | int (value : Int)
  | real (bits : Nat)
deriving DecidableEq, Repr

/-- `Link::put_function`. -/
def fn (head : Name) (args : Nat) : List Item := [.func args, .sym head]

mutual
/-- `Link::put_expr`. -/
def Expr.items : Expr → List Item
  | .sym n => [.sym n]
  | .str t => [.str t]
  | .int v => [.int v]
  | .real b => [.real b]
  | .normal h as => .func as.length :: (h.items ++ Expr.itemsL as)
/-- Some expressions, one after another. -/
def Expr.itemsL : List Expr → List Item
  | [] => []
  | e :: es => e.items ++ Expr.itemsL es
end

/-- `assume_link_print_full_symbols_resolver`, lib.rs:1153-1163: a name without a context is that of
a symbol of the context `` System` ``.  Simplification: that the name is well-formed is not
checked. -/
def resolve (n : Name) : Name := if n.contains '`' then n else cs! "System`" ++ n

mutual
/-- `Link::get_expr_with_resolver` of the crate wstp, as `get_expr`, lib.rs:1143-1145, calls it: the
next expression on the link, and what comes after it; `none` if there is none.  The first argument
is the fuel. -/
def getExpr : Nat → List Item → Option (Expr × List Item)
  | 0, _ => none
  | _ + 1, [] => none
  | _ + 1, .sym n :: r => some (.sym (resolve n), r)
  | _ + 1, .str t :: r => some (.str t, r)
  | _ + 1, .int v :: r => some (.int v, r)
  | _ + 1, .real b :: r => some (.real b, r)
  | f + 1, .func n :: r =>
    match getExpr f r with
    | none => none
    | some (h, r) =>
      match getExprs f n r with
      | none => none
      | some (as, r) => some (.normal h as, r)
/-- As many expressions as the second argument says. -/
def getExprs : Nat → Nat → List Item → Option (List Expr × List Item)
  | _, 0, r => some ([], r)
  | 0, _ + 1, _ => none
  | f + 1, n + 1, r =>
    match getExpr f r with
    | none => none
    | some (e, r) =>
      match getExprs f n r with
      | none => none
      | some (es, r) => some (e :: es, r)
end

/-- Reading one expression, with as much fuel as there are items. -/
def get (is : List Item) : Option (Expr × List Item) := getExpr is.length is

/-! ### Sources -/

/-- `BoxPosition`, source.rs:481-497. -/
inductive BoxPos where
  | at (index : List Nat)
  | spanning (index : List Nat) (first last : Nat)
  | before (index : List Nat)
  | after (index : List Nat)
deriving DecidableEq, Repr

/-- `Source`, source.rs:376-393. -/
inductive Source where
  | span (first last : Loc)
  | box (pos : BoxPos)
  | unknown
deriving DecidableEq, Repr

/-- `most_slice`, utils.rs:620-626: all but the last element; `none` if there is none. -/
def most : List Nat → Option (List Nat)
  | [] => none
  | l => some l.dropLast

/-- `split_last`: the last element and those in front of it. -/
def splitLast (l : List Nat) : Option (Nat × List Nat) :=
  match l.getLast? with
  | none => none
  | some a => some (a, l.dropLast)

/-- The result of `BoxPosition::between`: a panic, or perhaps a position. -/
abbrev Between := Option (Option BoxPos)

/-- The first half of `BoxPosition::between`, source.rs:972-1008: making the positions equally
long. -/
def normalizeEnd (a b : BoxPos) : BoxPos :=
  match a, b with
  | .at s, .at e =>
    if e.length = s.length + 2 then
      let e' := e.take (e.length - 2)
      if (most s).isSome && decide (most s = most e') then .at e' else .at e
    else b
  | _, _ => b

/-- The last part of `BoxPosition::between`, source.rs:1077-1096, if both positions end with an
index. -/
def combine (common : List Nat) (s e : Nat) : Between :=
  if s = 1 then
    match most common with
    | some p => some (some (.at p))
    | none => none
  else if s = 2 then some (some (.spanning common 2 e))
  else none

/-- `BoxPosition::between`, source.rs:948-1097; the outer `none` is the panic of `todo`. -/
def boxBetween (a b : BoxPos) : Between :=
  if a = b then some (some a)
  else
    let flat (s e : List Nat) : Between :=
      match splitLast s, splitLast e with
      | some (sl, sm), some (el, em) => if sm = em then combine sm sl el else none
      | none, none => some (some (.at []))
      | _, _ => some none
    match a, normalizeEnd a b with
    | .at s, .at e => flat s e
    | .at s, .after e => flat s e
    | .before s, .at e => flat s e
    | .before s, .after e => flat s e
    | .at s, .spanning e f _ =>
      match splitLast s with
      | none => some none
      | some (sl, sm) =>
        if sm = e then
          if sl = 1 && f = 2 then
            match most sm with
            | some p => some (some (.at p))
            | none => none
          else none
        else some none
    | _, _ => none

/-- `TokenSource::between` for `Source`, tokenize/token.rs:67-83, with `Span::between`,
tokenize/token.rs:93-97, `PartialOrd for Span`, source.rs:1183-1187, and `Span::new`,
source.rs:728-732; `none` is a panic. -/
def Source.between : Source → Source → Option Source
  | .unknown, _ => some .unknown
  | _, .unknown => some .unknown
  | .span a _, .span c d => if Loc.le a c && Loc.le a d then some (.span a d) else none
  | .box a, .box b => (boxBetween a b).map fun | some p => .box p | none => .unknown
  | _, _ => none

/-! ### Trees -/

/-- `Cst<TokenString, Source>`, cst.rs:36-70: trees with general sources.  `call` is a `CallNode`
whose head is `CallHead::Concrete`, `callAgg` one whose head is `CallHead::Aggregate`; `missing`
distinguishes `CallBody::Group` from `CallBody::GroupMissingCloser`.  The kind of a box (`BoxKind`,
cst.rs) is given by its name without context.  Simplification: `BoxKind::Other` with a symbol of
another context than `` System` `` is left out, and so is the difference between `BoxKind::Other`
of a known name and that name's own variant. -/
inductive Tree where
  | leaf (kind : TK) (text : List UInt8) (src : Source)
  | node (k : NodeKind) (children : List Tree)
  | call (head : List Tree) (missing : Bool) (op : CallOp) (body : List Tree)
  | callAgg (head : Tree) (missing : Bool) (op : CallOp) (body : List Tree)
  | box (kind : Name) (children : List Tree) (src : Source)
  | code (first second : Expr) (src : Source)
deriving Repr, Inhabited

mutual
/-- `Cst::get_source`, cst.rs:439-461, with `CallNode::get_source`, 737-748, and
`CstSeq::get_source`, 338-346; `none` is a panic. -/
def Tree.source : Tree → Option Source
  | .leaf _ _ s => some s
  | .node _ cs => seqSource cs
  | .call h _ _ b =>
    match firstSource h, seqSource b with
    | some s, some t => s.between t
    | _, _ => none
  | .callAgg h _ _ b =>
    match h.source, seqSource b with
    | some s, some t => s.between t
    | _, _ => none
  | .box _ _ s => some s
  | .code _ _ s => some s
/-- `CstSeq::get_source`, cst.rs:338-346. -/
def seqSource : List Tree → Option Source
  | [] => none
  | c :: cs =>
    match c.source, lastSource c.source cs with
    | some s, some t => s.between t
    | _, _ => none
/-- The source of `NodeSeq::first`, cst.rs:326-329. -/
def firstSource : List Tree → Option Source
  | [] => none
  | c :: _ => c.source
/-- The source of `NodeSeq::last`, cst.rs:331-334, of a sequence, or the first argument if the
sequence is empty. -/
def lastSource : Option Source → List Tree → Option Source
  | s, [] => s
  | _, c :: cs => lastSource c.source cs
end

/-- `Cst<TokenStr, Span>` as a tree with general sources (`S::into_general`, tokenize/token.rs:57,
87-89).  Boxes and code nodes, which parsing does not give, become empty boxes. -/
def ofTok (t : Tok) : Tree := .leaf t.kind t.text (.span t.start t.stop)

mutual
/-- A tree that parsing gives, as a tree with general sources. -/
def ofCst : Cst → Tree
  | .tok t => ofTok t
  | .node k cs => .node k (ofCsts cs)
  | .call h m op b => .call (ofCsts h) m op (ofCsts b)
  | .callAgg h m op b => .callAgg (ofCst h) m op (ofCsts b)
  | .box _ cs => .box (cs! "RowBox") (ofCsts cs) .unknown
  | .code _ => .code (.int 0) (.int 0) .unknown
/-- Some trees that parsing gives. -/
def ofCsts : List Cst → List Tree
  | [] => []
  | c :: cs => ofCst c :: ofCsts cs
end

/-! ### Issues -/

/-- `IssueTag`, issue.rs:25-50. -/
inductive IssueTag where
  | Ambiguous | UnhandledCharacter | UnexpectedCharacter | UnexpectedCarriageReturn
  | UnexpectedSpaceCharacter | UnexpectedNewlineCharacter | UnexpectedDot | UnexpectedSign
  | UnexpectedImplicitTimes | UnexpectedLetterlikeCharacter | UnrecognizedLongName
  | UndocumentedSlotSyntax | NonASCIICharacter | IncompleteUTF8Sequence | StraySurrogate | BOM
  | SyntaxUndocumentedMessageName | PrefixNotNot | StrangeCall | StrangeCallSlotSequence
deriving DecidableEq, Repr

/-- `IssueTag::as_str`, issue.rs:80-112. -/
def IssueTag.text : IssueTag → List Char
  | .Ambiguous => cs! "Ambiguous"
  | .UnhandledCharacter => cs! "UnhandledCharacter"
  | .UnexpectedCharacter => cs! "UnexpectedCharacter"
  | .UnexpectedCarriageReturn => cs! "UnexpectedCarriageReturn"
  | .UnexpectedSpaceCharacter => cs! "UnexpectedSpaceCharacter"
  | .UnexpectedNewlineCharacter => cs! "UnexpectedNewlineCharacter"
  | .UnexpectedDot => cs! "UnexpectedDot"
  | .UnexpectedSign => cs! "UnexpectedSign"
  | .UnexpectedImplicitTimes => cs! "UnexpectedImplicitTimes"
  | .UnexpectedLetterlikeCharacter => cs! "UnexpectedLetterlikeCharacter"
  | .UnrecognizedLongName => cs! "UnrecognizedLongName"
  | .UndocumentedSlotSyntax => cs! "UndocumentedSlotSyntax"
  | .NonASCIICharacter => cs! "NonASCIICharacter"
  | .IncompleteUTF8Sequence => cs! "IncompleteUTF8Sequence"
  | .StraySurrogate => cs! "StraySurrogate"
  | .BOM => cs! "BOM"
  | .SyntaxUndocumentedMessageName => cs! "SyntaxUndocumentedMessageName"
  | .PrefixNotNot => cs! "PrefixNotNot"
  | .StrangeCall => cs! "StrangeCall"
  | .StrangeCallSlotSequence => cs! "StrangeCallSlotSequence"

/-- The arms of `IssueTag::from_str`, issue.rs:115-151. -/
def IssueTag.arms : List (List Char × IssueTag) := [
  (cs! "Ambiguous", .Ambiguous),
  (cs! "UnhandledCharacter", .UnhandledCharacter),
  (cs! "UnexpectedCharacter", .UnexpectedCharacter),
  (cs! "UnexpectedCarriageReturn", .UnexpectedCarriageReturn),
  (cs! "UnexpectedSpaceCharacter", .UnexpectedSpaceCharacter),
  (cs! "UnexpectedNewlineCharacter", .UnexpectedNewlineCharacter),
  (cs! "UnexpectedDot", .UnexpectedDot),
  (cs! "UnexpectedSign", .UnexpectedSign),
  (cs! "UnexpectedImplicitTimes", .UnexpectedImplicitTimes),
  (cs! "UnexpectedLetterlikeCharacter", .UnexpectedLetterlikeCharacter),
  (cs! "UnrecognizedLongName", .UnrecognizedLongName),
  (cs! "UndocumentedSlotSyntax", .UndocumentedSlotSyntax),
  (cs! "NonASCIICharacter", .NonASCIICharacter),
  (cs! "IncompleteUTF8Sequence", .IncompleteUTF8Sequence),
  (cs! "StraySurrogate", .StraySurrogate),
  (cs! "BOM", .BOM),
  (cs! "SyntaxUndocumentedMessageName", .SyntaxUndocumentedMessageName),
  (cs! "PrefixNotNot", .PrefixNotNot),
  (cs! "StrangeCall", .StrangeCall),
  (cs! "StrangeCallSlotSequence", .StrangeCallSlotSequence)]

/-- `IssueTag::from_str`, issue.rs:115-151. -/
def IssueTag.ofText (s : List UInt8) : Option IssueTag :=
  (IssueTag.arms.find? fun p => utf8 p.1 == s).map (·.2)

end Wll

/-- `Severity::as_str`, issue.rs:155-164. -/
def Severity.text : Severity → List Char
  | .formatting => cs! "Formatting"
  | .remark => cs! "Remark"
  | .warning => cs! "Warning"
  | .error => cs! "Error"
  | .fatal => cs! "Fatal"

/-- The arms of `Severity::from_str`, issue.rs:167-178. -/
def Severity.arms : List (List Char × Severity) := [
  (cs! "Formatting", .formatting),
  (cs! "Remark", .remark),
  (cs! "Warning", .warning),
  (cs! "Error", .error),
  (cs! "Fatal", .fatal)]

/-- `Severity::from_str`, issue.rs:167-178. -/
def Severity.ofText (s : List UInt8) : Option Severity :=
  (Severity.arms.find? fun p => utf8 p.1 == s).map (·.2)

/-- `UnsafeCharacterEncoding::as_str`, tokenize/tokenizer.rs:77-86. -/
def Unsafe.text : Unsafe → List Char
  | .incompleteUTF8Sequence => cs! "IncompleteUTF8Sequence"
  | .straySurrogate => cs! "StraySurrogate"
  | .bom => cs! "BOM"

/-- The arms of `UnsafeCharacterEncoding::from_str`, tokenize/tokenizer.rs:89-100. -/
def Unsafe.arms : List (List Char × Unsafe) := [
  (cs! "IncompleteUTF8Sequence", .incompleteUTF8Sequence),
  (cs! "StraySurrogate", .straySurrogate),
  (cs! "BOM", .bom)]

/-- The start of `UnsafeCharacterEncoding::missing_reason`. -/
def Unsafe.reason : List Char := cs! "UnsafeCharacterEncoding_"

/-- `UnsafeCharacterEncoding::missing_reason`, tokenize/tokenizer.rs:115-119. -/
def Unsafe.missingReason (u : Unsafe) : List Char := Unsafe.reason ++ u.text

/-- `trim_start_matches("UnsafeCharacterEncoding_")`; the first argument is the fuel. -/
def Unsafe.trim : Nat → List UInt8 → List UInt8
  | 0, s => s
  | n + 1, s => if s.take 24 = utf8 Unsafe.reason then Unsafe.trim n (s.drop 24) else s

/-- `UnsafeCharacterEncoding::from_missing_reason`, tokenize/tokenizer.rs:103-112. -/
def Unsafe.ofMissingReason (s : List UInt8) : Option Unsafe :=
  if s.take 24 = utf8 Unsafe.reason then
    (Unsafe.arms.find? fun p => utf8 p.1 == Unsafe.trim s.length s).map (·.2)
  else none

namespace Wll

/-- `CodeActionKind`, issue.rs:69-74. -/
inductive ActionKind where
  | replace (text : List UInt8)
  | insert (text : List UInt8)
  | delete
deriving DecidableEq, Repr

/-- `CodeAction`, issue.rs:62-67.  A text is given by its UTF-8 bytes. -/
structure Action where
  label : List UInt8
  kind : ActionKind
  src : Loc × Loc
deriving DecidableEq, Repr

/-- `Issue`, issue.rs:12-23; `make` is `make_sym`, `val` the bits of `val`. -/
structure Issue where
  make : Sym
  tag : IssueTag
  msg : List UInt8
  sev : Severity
  src : Source
  val : Nat
  actions : List Action
  descs : List (List UInt8)
  sources : List Source
deriving DecidableEq, Repr

/-- `Number` of the crate wolfram-expr. -/
inductive Number where
  | int (value : Int)
  | real (bits : Nat)
deriving DecidableEq, Repr

/-- `Metadata`, lib.rs:184-196. -/
structure Meta where
  source : Source
  issues : Option (List Issue) := none
  confidence : Option Number := none
  actions : Option (List Action) := none
  descs : Option (List (List UInt8)) := none
  fileName : Option Expr := none
  tabs : Option Expr := none
  newlines : Option Expr := none
  simple : Option Expr := none
  complex : Option Expr := none
deriving Repr

/-- `ContainerKind`, lib.rs:159-167. -/
inductive ContainerKind where
  | string | file | byte | box | cell | hold
deriving DecidableEq, Repr

/-- `ContainerBody<Cst>` and `ContainerMissingReason`, lib.rs:169-177. -/
inductive Body where
  | nodes (ts : List Tree)
  | emptyInput
  | encoding (u : Unsafe)
deriving Repr

/-- `Container<Cst>`, lib.rs:152-156. -/
structure Container where
  kind : ContainerKind
  body : Body
  data : Meta
deriving Repr

end Wll
end CodeParser
