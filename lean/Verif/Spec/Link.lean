import Verif.Model.Put
/-!
What the library is meant to send for a tree, an issue, a container and a parse result, as Wolfram
Language expressions; `none` where it cannot send anything.
-/
namespace CodeParser.Spec.Link
open CodeParser Wll

/-- `{…}`. -/
def list (es : List Expr) : Expr := .normal (.sym (cs! "System`List")) es

/-- `a -> b`. -/
def rule (a b : Expr) : Expr := .normal (.sym (cs! "System`Rule")) [a, b]

/-- `<|…|>`. -/
def assoc (es : List Expr) : Expr := .normal (.sym (cs! "System`Association")) es

/-- A symbol. -/
def symbol (s : Sym) : Expr := .sym s.name

/-- A string. -/
def text (cs : List Char) : Expr := .str (utf8 cs)

/-- A number. -/
def nat (n : Nat) : Expr := .int n

/-- `head[a, b, c]`. -/
def node (head : Sym) (a b c : Expr) : Expr := .normal (symbol head) [a, b, c]

/-- The expressions of a list, if each element has one. -/
def all (f : α → Option Expr) : List α → Option (List Expr)
  | [] => some []
  | a :: as => do return (← f a) :: (← all f as)

/-! ### Sources -/

/-- `{line, column}`; a character index stands alone as `{0, index}`. -/
def locExpr : Loc → Expr
  | .lineCol l c => list [nat l, nat c]
  | .index i => list [nat 0, nat i]

/-- `{{line, column}, {line, column}}` or `{first, last}`, where `last` is the last character and not
the one behind it. -/
def spanExpr : Loc → Loc → Option Expr
  | .lineCol l c, .lineCol l' c' => some (list [list [nat l, nat c], list [nat l', nat c']])
  | .index i, .index (j + 1) => some (list [nat i, nat j])
  | _, _ => none

/-- An index of a box position, which must fit a machine integer. -/
def indexExpr (n : Nat) : Option Expr := if n < 2 ^ 63 then some (nat n) else none

/-- A box position. -/
def posExpr : BoxPos → Option Expr
  | .at ix => do return list (← all indexExpr ix)
  | .spanning ix a b => do
    return list ((← all indexExpr ix) ++ [.normal (.sym (cs! "System`Span")) [← indexExpr a, ← indexExpr b]])
  | .before ix => do return .normal (.sym (cs! "System`Before")) [list (← all indexExpr ix)]
  | .after ix => do return .normal (.sym (cs! "System`After")) [list (← all indexExpr ix)]

/-- A source. -/
def sourceExpr : Source → Option Expr
  | .span a b => spanExpr a b
  | .box p => posExpr p
  | .unknown => none

/-- Is a source not mentioned?  An unknown source is not, and box positions that are a range are not
in compatibility mode. -/
def omitted (compat : Bool) : Source → Bool
  | .unknown => true
  | .box (.spanning _ _ _) => compat
  | _ => false

/-- The rule `Source -> …`, or nothing. -/
def sourceRule (compat : Bool) (s : Source) : Option (List Expr) :=
  if omitted compat s then some []
  else do return [rule (.sym (cs! "CodeParser`Source")) (← sourceExpr s)]

/-- `<|Source -> …|>`. -/
def dataExpr (compat : Bool) (s : Source) : Option Expr := do return assoc (← sourceRule compat s)

/-! ### Trees -/

/-- The head of a node. -/
def nodeHead : NodeKind → Sym
  | .prefix _ => .CodeParser_PrefixNode
  | .infix _ => .CodeParser_InfixNode
  | .postfix _ => .CodeParser_PostfixNode
  | .binary _ => .CodeParser_BinaryNode
  | .ternary _ => .CodeParser_TernaryNode
  | .prefixBinary _ => .CodeParser_PrefixBinaryNode
  | .compound _ => .CodeParser_CompoundNode
  | .group _ => .CodeParser_GroupNode
  | .groupMissingCloser _ => .CodeParser_GroupMissingCloserNode
  | .groupMissingOpener _ => .CodeParser_GroupMissingOpenerNode
  | .syntaxError _ => .CodeParser_SyntaxErrorNode

/-- The operator of a node. -/
def nodeOp : NodeKind → Sym
  | .prefix op => op.toSymbol
  | .infix op => op.toSymbol
  | .postfix op => op.toSymbol
  | .binary op => op.toSymbol
  | .ternary op => op.toSymbol
  | .prefixBinary op => op.toSymbol
  | .compound op => op.toSymbol
  | .group op => op.toSymbol
  | .groupMissingCloser op => op.toSymbol
  | .groupMissingOpener op => op.toSymbol
  | .syntaxError .ExpectedSymbol => .SyntaxError_ExpectedSymbol
  | .syntaxError .ExpectedSet => .SyntaxError_ExpectedSet
  | .syntaxError .ExpectedTilde => .SyntaxError_ExpectedTilde

/-- The text of a token, if it is a text. -/
def textExpr (t : List UInt8) : Option Expr := if (fromUtf8 t).isSome then some (.str t) else none

/-- `LeafNode[kind, "text", <|Source -> …|>]`, or `ErrorNode[…]`. -/
def tokenExpr (compat : Bool) (k : TK) (t : List UInt8) (s : Source) : Option Expr := do
  return node (if k.isError then .CodeParser_ErrorNode else .CodeParser_LeafNode)
    (symbol k.toSymbol) (← textExpr t) (← dataExpr compat s)

/-- The body of a call: `GroupNode[op, {…}, <|…|>]` or `GroupMissingCloserNode[…]`. -/
def bodyExpr (missing : Bool) (op : CallOp) (children data : Expr) : Expr :=
  node (if missing then .CodeParser_GroupMissingCloserNode else .CodeParser_GroupNode) (symbol op.toSymbol) children data

mutual
/-- The expression of a tree.  A node that is not a token, a box or code has the source from its
first token to its last. -/
def treeExpr (compat : Bool) : Tree → Option Expr
  | .leaf k t s => tokenExpr compat k t s
  | .node k cs => do
    return node (nodeHead k) (symbol (nodeOp k)) (list (← treesExpr compat cs)) (← dataExpr compat (← seqSource cs))
  | .call h m op b => do
    return node .CodeParser_CallNode (list (← treesExpr compat h))
      (bodyExpr m op (list (← treesExpr compat b)) (← dataExpr compat (← seqSource b)))
      (← dataExpr compat (← (Tree.call h m op b).source))
  | .callAgg h m op b => do
    return node .CodeParser_CallNode (← treeExpr compat h)
      (bodyExpr m op (list (← treesExpr compat b)) (← dataExpr compat (← seqSource b)))
      (← dataExpr compat (← (Tree.callAgg h m op b).source))
  | .box kind cs s => do
    return node .CodeParser_BoxNode (.sym (cs! "System`" ++ kind)) (list (← treesExpr compat cs)) (← dataExpr compat s)
  | .code a b s => do return node .CodeParser_CodeNode a b (← dataExpr compat s)
/-- The expressions of some trees. -/
def treesExpr (compat : Bool) : List Tree → Option (List Expr)
  | [] => some []
  | c :: cs => do return (← treeExpr compat c) :: (← treesExpr compat cs)
end

/-! ### Issues -/

/-- `CodeAction["label", command, <|Source -> …, …|>]`.  The source is sent as an association of its
own, which the Wolfram Language joins with the one it is in. -/
def actionExpr (a : Action) : Option Expr := do
  let src := assoc [rule (.sym (cs! "CodeParser`Source")) (← spanExpr a.src.1 a.src.2)]
  match a.kind with
  | .replace t =>
    return node .CodeParser_CodeAction (.str a.label) (.sym (cs! "CodeParser`ReplaceText"))
      (assoc [src, rule (text (cs! "ReplacementText")) (.str t)])
  | .insert t =>
    return node .CodeParser_CodeAction (.str a.label) (.sym (cs! "CodeParser`InsertText"))
      (assoc [src, rule (text (cs! "InsertionText")) (.str t)])
  | .delete =>
    return node .CodeParser_CodeAction (.str a.label) (.sym (cs! "CodeParser`DeleteText")) (assoc [src])

/-- A rule for a list, unless it is empty. -/
def listRule (key : Expr) (es : List Expr) : List Expr := if es.isEmpty then [] else [rule key (list es)]

/-- `SyntaxIssue["tag", "message", "severity", <|Source -> …, ConfidenceLevel -> …, …|>]`, or another
head. -/
def issueExpr (compat : Bool) (i : Wll.Issue) : Option Expr := do
  return .normal (symbol i.make) [text i.tag.text, .str i.msg, text i.sev.text,
    assoc ([← dataExpr compat i.src, rule (.sym (cs! "System`ConfidenceLevel")) (.real i.val)] ++
      listRule (.sym (cs! "CodeParser`CodeActions")) (← all actionExpr i.actions) ++
      listRule (text (cs! "AdditionalDescriptions")) (i.descs.map .str) ++
      listRule (text (cs! "AdditionalSources")) (← all sourceExpr i.sources))]

/-- `{issue, …}`. -/
def issuesExpr (compat : Bool) (is : List Wll.Issue) : Option Expr := do return list (← all (issueExpr compat) is)

/-! ### Containers -/

/-- A rule, if there is something. -/
def optRule (key : Expr) : Option Expr → List Expr
  | none => []
  | some e => [rule key e]

/-- What an optional value stands for. -/
def optExpr (f : α → Option Expr) : Option α → Option (Option Expr)
  | none => some none
  | some a => do return some (← f a)

/-- `<|SyntaxIssues -> …, …|>`.  A confidence level, which containers do not have, is sent without its
name. -/
def metaExpr (compat : Bool) (m : Meta) : Option Expr := do
  return assoc (optRule (.sym (cs! "CodeParser`SyntaxIssues")) (← optExpr (issuesExpr compat) m.issues) ++
    optRule (text (cs! "EmbeddedTabs")) m.tabs ++
    optRule (text (cs! "EmbeddedNewlines")) m.newlines ++
    optRule (text (cs! "SimpleLineContinuations")) m.simple ++
    optRule (text (cs! "ComplexLineContinuations")) m.complex ++
    (← sourceRule compat m.source) ++
    (m.confidence.map Number.expr).toList ++
    optRule (.sym (cs! "CodeParser`CodeActions")) (← optExpr (fun as => do return list (← all actionExpr as)) m.actions) ++
    optRule (text (cs! "AdditionalDescriptions")) (m.descs.map fun ds => list (ds.map .str)) ++
    optRule (text (cs! "FileName")) m.fileName)

/-- `{Missing["reason"]}`. -/
def missingExpr (reason : List Char) : Expr := list [.normal (.sym (cs! "System`Missing")) [text reason]]

/-- The body of a container. -/
def containerBody (compat : Bool) : Body → Option Expr
  | .nodes ts => do return list (← treesExpr compat ts)
  | .emptyInput => some (missingExpr (cs! "EmptyInput"))
  | .encoding u => some (missingExpr (cs! "UnsafeCharacterEncoding_" ++ u.text))

/-- The symbol of a kind of containers. -/
def kindName : ContainerKind → Name
  | .string => cs! "System`String"
  | .file => cs! "System`File"
  | .byte => cs! "System`Byte"
  | .box => cs! "System`Box"
  | .cell => cs! "System`Cell"
  | .hold => cs! "System`Hold"

/-- `ContainerNode[kind, {…}, <|…|>]`. -/
def containerExpr (compat : Bool) (c : Container) : Option Expr := do
  return node .CodeParser_ContainerNode (.sym (kindName c.kind)) (← containerBody compat c.body) (← metaExpr compat c.data)

/-! ### Results -/

/-- The trees, or the reason that there are none. -/
def firstPart (trees : Option Expr) : Option Unsafe → Option Expr
  | none => trees
  | some u => some (missingExpr (cs! "UnsafeCharacterEncoding_" ++ u.text))

/-- `{trees, issues, simple line continuations, complex line continuations, newlines in strings and
comments, tabs in strings and comments}`.  Instead of the trees there is the reason if the text is
not valid UTF-8, and there are only the fatal issues if there are any. -/
def resultExpr (compat : Bool) (trees : Option Expr) (r : Extra) : Option Expr := do
  return list [
    ← firstPart trees r.unsafeEncoding,
    ← issuesExpr compat (if r.fatal = [] then r.nonFatal else r.fatal),
    list (r.simple.map locExpr), list (r.complex.map locExpr), list (r.newlines.map locExpr),
    list (r.tabs.map locExpr)]

/-! ### Abstract syntax -/

/-- The symbol of an error that abstraction finds. -/
def abstractName : AbstractError → Name
  | .CommaTopLevel => cs! "AbstractSyntaxError`CommaTopLevel"
  | .OpenParen => cs! "AbstractSyntaxError`OpenParen"
  | .OpenSquare => cs! "AbstractSyntaxError`OpenSquare"
  | .ColonColonOpenSquare => cs! "AbstractSyntaxError`ColonColonOpenSquare"
  | .LeftDoubleBracket => cs! "AbstractSyntaxError`LeftDoubleBracket"
  | .NonAssociativePatternTest => cs! "AbstractSyntaxError`NonAssociativePatternTest"
  | .LinearSyntaxBang => cs! "AbstractSyntaxError`LinearSyntaxBang"
  | .ExpectedTilde => cs! "AbstractSyntaxError`ExpectedTilde"

/-- `Source -> …`, if there is a source. -/
def astSource : Option ASrc → Option (List Expr)
  | none => some []
  | some s => do return [rule (.sym (cs! "CodeParser`Source")) (← spanExpr s.1 s.2)]

/-- `<|Source -> …, AbstractSyntaxIssues -> {…}|>`, each part only if there is one. -/
def astData (compat : Bool) (full : AIssue → Wll.Issue) (d : AMeta) : Option Expr := do
  return assoc ((← astSource d.source) ++
    listRule (.sym (cs! "CodeParser`AbstractSyntaxIssues")) (← all (fun i => issueExpr compat (full i)) d.issues))

mutual
/-- The expression of an abstract syntax tree. -/
def astExpr (compat : Bool) (full : AIssue → Wll.Issue) : Ast → Option Expr
  | .leaf k t d => do return node .CodeParser_LeafNode (symbol k.toSymbol) (← textExpr t) (← astData compat full d)
  | .error k t d => do return node .CodeParser_ErrorNode (symbol k.toSymbol) (← textExpr t) (← astData compat full d)
  | .call h as d => do
    return node .CodeParser_CallNode (← astExpr compat full h) (list (← astsExpr compat full as)) (← astData compat full d)
  | .callMissing h as d => do
    return node .CodeParser_CallMissingCloserNode (← astExpr compat full h) (list (← astsExpr compat full as))
      (← astData compat full d)
  | .syntaxError k as d => do
    return node .CodeParser_SyntaxErrorNode (symbol (nodeOp (.syntaxError k))) (list (← astsExpr compat full as))
      (← astData compat full d)
  | .abstractError k as d => do
    return node .CodeParser_AbstractSyntaxErrorNode (.sym (abstractName k)) (list (← astsExpr compat full as))
      (← astData compat full d)
  | .missingCloser k as d => do
    return node .CodeParser_GroupMissingCloserNode (symbol k.toSymbol) (list (← astsExpr compat full as))
      (← astData compat full d)
  | .missingOpener k as d => do
    return node .CodeParser_GroupMissingOpenerNode (symbol k.toSymbol) (list (← astsExpr compat full as))
      (← astData compat full d)
  | .linearBang a b d => do
    return node .CodeParser_PrefixNode (.sym (cs! "CodeParser`PrefixLinearSyntaxBang"))
      (list [← astExpr compat full a, ← astExpr compat full b]) (← astData compat full d)
/-- The expressions of some abstract syntax trees. -/
def astsExpr (compat : Bool) (full : AIssue → Wll.Issue) : List Ast → Option (List Expr)
  | [] => some []
  | a :: as => do return (← astExpr compat full a) :: (← astsExpr compat full as)
end

/-! ### Aborts -/

mutual
/-- The second expression is the first one, but some elements of lists in it are `$Aborted`. -/
inductive Cut : Expr → Expr → Prop
  | refl (e : Expr) : Cut e e
  | normal {h h' : Expr} {as as' : List Expr} : Cut h h' → CutL as as' → Cut (.normal h as) (.normal h' as')
  | list {as as' : List Expr} : CutList as as' → Cut (list as) (list as')
/-- The same for the elements of an expression. -/
inductive CutL : List Expr → List Expr → Prop
  | nil : CutL [] []
  | cons {e e' : Expr} {es es' : List Expr} : Cut e e' → CutL es es' → CutL (e :: es) (e' :: es')
/-- The elements of a list, of which some are `$Aborted`. -/
inductive CutList : List Expr → List Expr → Prop
  | nil : CutList [] []
  | cons {e e' : Expr} {es es' : List Expr} : Cut e e' → CutList es es' → CutList (e :: es) (e' :: es')
  | aborted {e : Expr} {es es' : List Expr} :
      CutList es es' → CutList (e :: es) (.sym (cs! "System`$Aborted") :: es')
end

/-- The user never aborts. -/
def NeverAborts (ab : Nat → Bool) : Prop := ∀ k, ab k = false

/-- What a writer sends is one complete expression: `e`, or what aborts make of it.  Where there is
no expression the writer panics (or the user has aborted it before). -/
def Sends (w : W) : Option Expr → Prop
  | some e => ∀ ab k, ∃ is k' e', w ab k = some (is, k') ∧ get is = some (e', []) ∧ Cut e e' ∧
      (NeverAborts ab → e' = e)
  | none => ∀ ab k, NeverAborts ab → w ab k = none

/-! ### What arrives again -/

/-- The kind a token has when it is read back: the two kinds of newlines have the same symbol. -/
def backKind (k : TK) : TK := if k = .ToplevelNewline then .InternalNewline else k

/-- The source a node has when it is read back. -/
def backSource (compat : Bool) (s : Source) : Source := if omitted compat s then .unknown else s

mutual
/-- The tree that is read back. -/
def back (compat : Bool) : Tree → Tree
  | .leaf k t s => .leaf (backKind k) t (backSource compat s)
  | .node k cs => .node k (backs compat cs)
  | .call h m op b => .call (backs compat h) m op (backs compat b)
  | .callAgg h m op b => .callAgg (back compat h) m op (backs compat b)
  | .box kind cs s => .box kind (backs compat cs) (backSource compat s)
  | .code a b s => .code a b (backSource compat s)
/-- The trees that are read back. -/
def backs (compat : Bool) : List Tree → List Tree
  | [] => []
  | c :: cs => back compat c :: backs compat cs
end

/-- Is it a container of text? -/
def isText : ContainerKind → Bool
  | .box | .cell => false
  | _ => true

/-- A source that fits a kind of containers: positions in text are those of text and fit the machine,
and positions in boxes are those of boxes, which are only read back in compatibility mode. -/
def Fits (compat : Bool) (kind : ContainerKind) : Source → Prop
  | .unknown => True
  | .box _ => isText kind = false ∧ compat = true
  | .span (.lineCol l c) (.lineCol l' c') => isText kind = true ∧ 1 ≤ l ∧ 1 ≤ c ∧ 1 ≤ l' ∧ 1 ≤ c' ∧
      l < 2 ^ 32 ∧ c < 2 ^ 32 ∧ l' < 2 ^ 32 ∧ c' < 2 ^ 32 ∧ (l < l' ∨ l = l' ∧ c ≤ c')
  | .span (.index i) (.index j) => isText kind = true ∧ i < 2 ^ 32 ∧ j < 2 ^ 32
  | .span _ _ => False

mutual
/-- All symbols of an expression have a context, as symbols have. -/
def Full : Expr → Prop
  | .sym n => '`' ∈ n
  | .normal h as => Full h ∧ FullL as
  | _ => True
/-- The same for some expressions. -/
def FullL : List Expr → Prop
  | [] => True
  | e :: es => Full e ∧ FullL es
end

mutual
/-- The symbols of a tree have contexts.  Only code nodes contain expressions. -/
def Named : Tree → Prop
  | .leaf _ _ _ => True
  | .node _ cs => Nameds cs
  | .call h _ _ b => Nameds h ∧ Nameds b
  | .callAgg h _ _ b => Named h ∧ Nameds b
  | .box _ cs _ => Nameds cs
  | .code a b _ => Full a ∧ Full b
/-- The same for some trees. -/
def Nameds : List Tree → Prop
  | [] => True
  | c :: cs => Named c ∧ Nameds cs
end

/-- The same for the data of a container. -/
def NamedMeta (m : Meta) : Prop :=
  (∀ e, m.tabs = some e → Full e) ∧ (∀ e, m.newlines = some e → Full e) ∧ (∀ e, m.simple = some e → Full e) ∧
  (∀ e, m.complex = some e → Full e) ∧ (∀ e, m.fileName = some e → Full e)

/-- The same for a container. -/
def NamedContainer (c : Container) : Prop :=
  (match c.body with | .nodes ts => Nameds ts | _ => True) ∧ NamedMeta c.data

mutual
/-- A tree whose sources fit and whose boxes have names that end with `Box`. -/
def Proper (compat : Bool) (kind : ContainerKind) : Tree → Prop
  | .leaf _ _ s => Fits compat kind s
  | .node _ cs => Propers compat kind cs
  | .call h _ _ b => Propers compat kind h ∧ Propers compat kind b
  | .callAgg h _ _ b => Proper compat kind h ∧ Propers compat kind b
  | .box n cs s => (∃ m, n = m ++ cs! "Box") ∧ '`' ∉ n ∧ Propers compat kind cs ∧ Fits compat kind s
  | .code _ _ s => Fits compat kind s
/-- The same for some trees. -/
def Propers (compat : Bool) (kind : ContainerKind) : List Tree → Prop
  | [] => True
  | c :: cs => Proper compat kind c ∧ Propers compat kind cs
end

/-! ### What the Wolfram Language makes of it -/

/-- The elements that an element of an association stands for. -/
def splice : Expr → List Expr
  | .normal (.sym n) as => if n = cs! "System`Association" then as else [.normal (.sym n) as]
  | e => [e]

mutual
/-- An expression after its evaluation in the Wolfram Language, as far as it matters here:
associations in associations are joined, `<|<|a -> 1|>, b -> 2|>` is `<|a -> 1, b -> 2|>`. -/
def flat : Expr → Expr
  | .normal (.sym n) as =>
    .normal (.sym n) (if n = cs! "System`Association" then (flatL as).flatMap splice else flatL as)
  | .normal h as => .normal (flat h) (flatL as)
  | e => e
/-- The same for some expressions. -/
def flatL : List Expr → List Expr
  | [] => []
  | e :: es => flat e :: flatL es
end

mutual
/-- A tree with the expressions of its code nodes evaluated. -/
def flatTree : Tree → Tree
  | .leaf k t s => .leaf k t s
  | .node k cs => .node k (flatTrees cs)
  | .call h m op b => .call (flatTrees h) m op (flatTrees b)
  | .callAgg h m op b => .callAgg (flatTree h) m op (flatTrees b)
  | .box n cs s => .box n (flatTrees cs) s
  | .code a b s => .code (flat a) (flat b) s
/-- The same for some trees. -/
def flatTrees : List Tree → List Tree
  | [] => []
  | c :: cs => flatTree c :: flatTrees cs
end

/-- An action whose position fits. -/
def FitsAction (compat : Bool) (kind : ContainerKind) (a : Action) : Prop := Fits compat kind (.span a.src.1 a.src.2)

/-- An issue that can be read back: of one of the three kinds that parsing gives, with positions
that fit, and without additional sources. -/
def FitsIssue (compat : Bool) (kind : ContainerKind) (i : Wll.Issue) : Prop :=
  (i.make = .CodeParser_SyntaxIssue ∨ i.make = .CodeParser_EncodingIssue ∨ i.make = .CodeParser_FormatIssue) ∧
  Fits compat kind i.src ∧ (∀ a ∈ i.actions, FitsAction compat kind a) ∧ i.sources = []

/-- The data of a container that can be read back. -/
def FitsMeta (compat : Bool) (kind : ContainerKind) (m : Meta) : Prop :=
  Fits compat kind m.source ∧ (∀ is, m.issues = some is → ∀ i ∈ is, FitsIssue compat kind i) ∧
  (∀ as, m.actions = some as → ∀ a ∈ as, FitsAction compat kind a) ∧ m.confidence = none

/-- A container that can be read back. -/
def FitsContainer (compat : Bool) (c : Container) : Prop :=
  (match c.body with | .nodes ts => Propers compat c.kind ts | _ => True) ∧ FitsMeta compat c.kind c.data

/-- The issue that is read back. -/
def backIssue (compat : Bool) (i : Wll.Issue) : Wll.Issue := { i with src := backSource compat i.src }

/-- The data that are read back. -/
def backMeta (compat : Bool) (m : Meta) : Meta :=
  { m with
    source := backSource compat m.source
    issues := m.issues.map fun is => is.map (backIssue compat)
    fileName := m.fileName.map flat
    tabs := m.tabs.map flat
    newlines := m.newlines.map flat
    simple := m.simple.map flat
    complex := m.complex.map flat }

/-- The container that is read back. -/
def backContainer (compat : Bool) (c : Container) : Container :=
  { kind := c.kind
    body := match c.body with
      | .nodes ts => .nodes (backs compat (flatTrees ts))
      | b => b
    data := backMeta compat c.data }

end CodeParser.Spec.Link
