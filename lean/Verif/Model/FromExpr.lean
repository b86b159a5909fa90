import Verif.Model.Put
/-!
Model of /repo/crates/codeparser-wll/src/from_expr.rs: how the library reads trees from the
expressions it gets.  Line numbers refer to that file.
-/
namespace CodeParser
namespace Wll

/-- How reading fails: with an `Err`, with a panic, or (in the model only) for lack of fuel. -/
inductive RErr where
  | err | panic | fuel
deriving DecidableEq, Repr

/-- `Result<T, String>`, or a panic.  The text of an `Err` is left out. -/
abbrev R (α : Type) := Except RErr α

/-- An `Err`. -/
def bad : R α := .error .err

/-- A panic. -/
def die : R α := .error .panic

/-- `.expect(..)`. -/
def expect : R α → R α
  | .error .err => die
  | r => r

/-- `if let Ok(x) = first { return x }` and then `second`. -/
def orElse (a : R α) (b : R α) : R α :=
  match a with
  | .error .err => b
  | r => r

/-- `.map(f).collect::<Result<Vec<_>, _>>()`. -/
def mapR (f : α → R β) : List α → R (List β)
  | [] => .ok []
  | a :: as =>
    match f a with
    | .error e => .error e
    | .ok b =>
      match mapR f as with
      | .error e => .error e
      | .ok bs => .ok (b :: bs)

/-- `try_normal_with_head`, 1394-1409. -/
def withHead (e : Expr) (s : Sym) : R (List Expr) :=
  match e with
  | .normal (.sym n) as => if n = s.name then .ok as else bad
  | _ => bad

/-- `try_normal_with_head` and then `if elements.len() != 3 { todo!() }`. -/
def three (e : Expr) (s : Sym) : R (Expr × Expr × Expr) :=
  match withHead e s with
  | .error x => .error x
  | .ok [a, b, c] => .ok (a, b, c)
  | .ok _ => die

/-- `List::<T>::from_expr`, 1306-1317, and `NodeSeq::from_expr`, 197-208. -/
def listOf (f : Expr → R α) (e : Expr) : R (List α) :=
  match withHead e .System_List with
  | .error x => .error x
  | .ok es => mapR f es

/-- `try_as_str` of an element of `List::<String>`, 1325-1328. -/
def strOf : Expr → R (List UInt8)
  | .str t => .ok t
  | _ => bad

/-- An element of `List::<usize>`, 1341-1358.  Simplification: a `usize` has 64 bits, so it has room
for every `i64` that is not negative. -/
def usizeOf : Expr → R Nat
  | .int (.ofNat n) => .ok n
  | _ => bad

/-- `Rule::from_expr`, 1370-1383. -/
def ruleOf (e : Expr) : R (Expr × Expr) :=
  match withHead e .System_Rule with
  | .error x => .error x
  | .ok [a, b] => .ok (a, b)
  | .ok _ => die

/-- `Association::from_expr`, 1280-1291. -/
def assocOf (e : Expr) : R (List (Expr × Expr)) :=
  match withHead e .System_Association with
  | .error x => .error x
  | .ok es => mapR ruleOf es

/-! ### Sources -/

/-- `get_source_pos`, 855-871. -/
def posOf : Expr → R Nat
  | .int (.ofNat n) => if n < 2 ^ 32 then .ok n else bad
  | _ => bad

/-- `span_from_raw_values`, 890-924, with `Span::line_column`, source.rs:716-726, and
`Span::from_character_span`, source.rs:743-748. -/
def spanOf (a b c d : Nat) : R Source :=
  if a ≠ 0 && b ≠ 0 && c ≠ 0 && d ≠ 0 then
    if Loc.le (.lineCol a b) (.lineCol c d) then .ok (.span (.lineCol a b) (.lineCol c d)) else die
  else if a = 0 && b ≠ 0 && c = 0 && d ≠ 0 then .ok (.span (.index b) (.index d))
  else bad

/-- The end of `Source::from_expr`, 834-887, for the two elements of the list.  Simplification:
`end_index + 1` panics if it does not fit, as it does with overflow checks. -/
def textSource (a b : Expr) : R Source :=
  match posOf a with
  | .ok i => do
    let j ← posOf b
    if j + 1 < 2 ^ 32 then .ok (.span (.index i) (.index (j + 1))) else die
  | .error _ => do
    let s ← withHead a .System_List
    let e ← withHead b .System_List
    match s, e with
    | [s1, s2], [e1, e2] => do
      let s1 ← posOf s1
      let s2 ← posOf s2
      let e1 ← posOf e1
      let e2 ← posOf e2
      spanOf s1 s2 e1 e2
    | _, _ => die

/-- `try_normal_with_head_and_len::<1>`, 1426-1444. -/
def headAndOne (e : Expr) (s : Sym) : R (Option Expr) :=
  match withHead e s with
  | .error _ => .ok none
  | .ok [a] => .ok (some a)
  | .ok _ => bad

/-- `Source::from_expr`, 777-888; `kind` is the kind of the container that the tree is in. -/
def sourceOf (kind : ContainerKind) (e : Expr) : R Source := do
  match ← headAndOne e .System_After with
  | some l => return .box (.after (← listOf usizeOf l))
  | none =>
    match ← headAndOne e .System_Before with
    | some l => return .box (.before (← listOf usizeOf l))
    | none => do
      let es ← withHead e .System_List
      match kind with
      | .cell | .box => return .box (.at (← listOf usizeOf e))
      | .string | .byte | .file | .hold =>
        match es with
        | [a, b] => textSource a b
        | _ => bad

/-! ### Metadata and issues -/

/-- The fields of `Metadata::from_expr` before they are looked into, 686-695. -/
structure RawMeta where
  source : Option Expr := none
  issues : Option Expr := none
  confidence : Option Expr := none
  actions : Option Expr := none
  descs : Option Expr := none
  fileName : Option Expr := none
  tabs : Option Expr := none
  newlines : Option Expr := none
  simple : Option Expr := none
  complex : Option Expr := none

/-- One rule of the metadata, 697-725. -/
def RawMeta.add (m : RawMeta) (lhs rhs : Expr) : R RawMeta :=
  match lhs with
  | .sym n =>
    if n = cs! "CodeParser`Source" then .ok { m with source := some rhs }
    else if n = cs! "CodeParser`SyntaxIssues" then .ok { m with issues := some rhs }
    else if n = cs! "System`ConfidenceLevel" then .ok { m with confidence := some rhs }
    else if n = cs! "CodeParser`CodeActions" then .ok { m with actions := some rhs }
    else die
  | .str t =>
    if t = utf8 (cs! "EmbeddedTabs") then .ok { m with tabs := some rhs }
    else if t = utf8 (cs! "EmbeddedNewlines") then .ok { m with newlines := some rhs }
    else if t = utf8 (cs! "ComplexLineContinuations") then .ok { m with complex := some rhs }
    else if t = utf8 (cs! "SimpleLineContinuations") then .ok { m with simple := some rhs }
    else if t = utf8 (cs! "InsertionText") then .ok m
    else if t = utf8 (cs! "ReplacementText") then .ok m
    else if t = utf8 (cs! "FileName") then .ok { m with fileName := some rhs }
    else if t = utf8 (cs! "AdditionalDescriptions") then .ok { m with descs := some rhs }
    else die
  | _ => die

/-- The rules of the metadata, 697-725. -/
def RawMeta.addAll (m : RawMeta) : List (Expr × Expr) → R RawMeta
  | [] => .ok m
  | (l, r) :: rules =>
    match m.add l r with
    | .error e => .error e
    | .ok m => m.addAll rules

/-- `match o { Some(x) => Some(f(x)?), None => None }`, 732-759. -/
def optR (f : α → R β) : Option α → R (Option β)
  | none => .ok none
  | some a =>
    match f a with
    | .error e => .error e
    | .ok b => .ok (some b)

/-- `try_as_number().expect(..)`, 741. -/
def numberOf : Expr → R Number
  | .int v => .ok (.int v)
  | .real b => .ok (.real b)
  | _ => die

/-- The heads of `Issue::from_expr`, 1091-1100. -/
def issueHead (n : Name) : R Sym :=
  match [Sym.CodeParser_SyntaxIssue, .CodeParser_EncodingIssue, .CodeParser_FormatIssue].find? (fun s => s.name == n) with
  | some s => .ok s
  | none => die

/-- `Association::lookup`, 1293-1302, of a string, and `try_as_str` of what it gives, 1188-1207. -/
def lookupText (rules : List (Expr × Expr)) (key : List Char) : R (List UInt8) :=
  match rules.find? (fun p => match p.1 with | .str t => t == utf8 key | _ => false) with
  | some (_, .str t) => .ok t
  | _ => die

/-- The kind of an action, 1182-1211. -/
def actionKindOf (n : Name) (rules : List (Expr × Expr)) : R ActionKind :=
  if n = cs! "CodeParser`ReplaceText" then do return .replace (← lookupText rules (cs! "ReplacementText"))
  else if n = cs! "CodeParser`InsertText" then do return .insert (← lookupText rules (cs! "InsertionText"))
  else if n = cs! "CodeParser`DeleteText" then return .delete
  else die

/-- What `Option::expect` makes of an `Option`. -/
def someOr (o : Option α) : R α :=
  match o with
  | some a => .ok a
  | none => die

mutual
/-- `Metadata::from_expr`, 682-775.  `f64` is the conversion of an `i64` to an `f64`; the fuel is the
last but one argument. -/
def metaOf (f64 : Int → Nat) (kind : ContainerKind) : Nat → Expr → R Meta
  | 0, _ => .error .fuel
  | f + 1, e => do
    let rules ← assocOf e
    let raw ← RawMeta.addAll {} rules
    let source ← (match raw.source with | some s => sourceOf kind s | none => .ok .unknown)
    let issues ← optR (listOf (issueOf f64 kind f)) raw.issues
    let confidence ← optR numberOf raw.confidence
    let actions ← optR (listOf (actionOf f64 kind f)) raw.actions
    let descs ← optR (listOf strOf) raw.descs
    return { source, issues, confidence, actions, descs, fileName := raw.fileName, tabs := raw.tabs,
             newlines := raw.newlines, simple := raw.simple, complex := raw.complex }
/-- `Issue::from_expr`, 1081-1166. -/
def issueOf (f64 : Int → Nat) (kind : ContainerKind) : Nat → Expr → R Issue
  | 0, _ => .error .fuel
  | f + 1, e =>
    match e with
    | .normal (.sym n) es => do
      let make ← issueHead n
      match es with
      | [.str tag, .str msg, .str sev, data] => do
        let m ← expect (metaOf f64 kind f data)
        if m.issues.isSome || m.fileName.isSome || m.tabs.isSome || m.newlines.isSome || m.simple.isSome ||
            m.complex.isSome then die
        else do
          let tag ← someOr (IssueTag.ofText tag)
          let sev ← someOr (Severity.ofText sev)
          let val ← (match m.confidence with
            | some (.int v) => .ok (f64 v)
            | some (.real b) => .ok b
            | none => die)
          return { make, tag, msg, sev, src := m.source, val, actions := m.actions.getD [],
                   descs := m.descs.getD [], sources := [] }
      | _ => die
    | .normal _ _ => die
    | _ => bad
/-- `CodeAction::from_expr`, 1168-1226. -/
def actionOf (f64 : Int → Nat) (kind : ContainerKind) : Nat → Expr → R Action
  | 0, _ => .error .fuel
  | f + 1, e => do
    let (a, b, c) ← three e .CodeParser_CodeAction
    match a, b with
    | .str label, .sym n => do
      let rules ← expect (assocOf c)
      let k ← actionKindOf n rules
      let m ← expect (metaOf f64 kind f c)
      match m.source with
      | .span x y => return ⟨label, k, (x, y)⟩
      | _ => die
    | _, _ => die
end

/-! ### Trees -/

/-- `try_from_symbol` of an operator enumeration, parse/operators.rs: the first arm whose symbol has
that name. -/
def armOf (arms : List (Sym × α)) (n : Name) : Option α := (arms.find? fun p => p.1.name == n).map (·.2)

/-- `from_expr` of an operator, 936-1060. -/
def opOf (arms : List (Sym × α)) : Expr → R α
  | .sym n =>
    match armOf arms n with
    | some op => .ok op
    | none => bad
  | _ => die

/-- `TokenKind::from_expr`, 1062-1079, with `TokenKind::from_symbol`, tokenize/token_kind.rs:279-293:
the first kind, in declaration order, whose symbol has that name. -/
def kindOf : Expr → R TK
  | .sym n =>
    match TK.all.find? (fun k => k.toSymbol.name == n) with
    | some k => .ok k
    | none => bad
  | _ => die

/-- The kind of a `SyntaxErrorNode`, 625-641, with `SyntaxErrorKind::from_str`, cst.rs:837-846. -/
def errorOf : Expr → R SyntaxErrorKind
  | .sym n =>
    if n = cs! "SyntaxError`ExpectedSymbol" then .ok .ExpectedSymbol
    else if n = cs! "SyntaxError`ExpectedSet" then .ok .ExpectedSet
    else if n = cs! "SyntaxError`ExpectedTilde" then .ok .ExpectedTilde
    else die
  | _ => die

/-- `ends_with("Box")`. -/
def endsBox (n : Name) : Bool := n.drop (n.length - 3) == cs! "Box"

/-- `BoxKind::from_expr`, 524-535, with `BoxKind::from_symbol`, cst.rs:895-911. -/
def boxKindOf : Expr → R Name
  | .sym n => if n = cs! "System`" ++ Name.short n && endsBox (Name.short n) then .ok (Name.short n) else die
  | _ => die

/-- `LeafNode::from_expr`, 287-320, and the token made of it, 212-221. -/
def leafOf (data : Expr → R Meta) (e : Expr) : R Tree :=
  match e with
  | .normal (.sym n) es =>
    if n = Sym.CodeParser_LeafNode.name || n = Sym.CodeParser_ErrorNode.name then
      match es with
      | [a, b, c] => do
        let k ← kindOf a
        let t ← strOf b
        let m ← data c
        return .leaf k t m.source
      | _ => die
    else bad
  | _ => bad

/-- The node types that are an operator with children, 359-501, 553-614: `lazy` is `?`, otherwise a
failure of the operator and the children is a panic; `lazyData` is the same for the metadata. -/
def nodeOf (data : Expr → R Meta) (tree : Expr → R Tree) (s : Sym) (op : Expr → R α)
    (lazy lazyData : Bool) (e : Expr) : R (α × List Tree) := do
  let (a, b, c) ← three e s
  let o ← (if lazy then op a else expect (op a))
  let cs ← (if lazy then listOf tree b else expect (listOf tree b))
  let _ ← (if lazyData then data c else expect (data c))
  return (o, cs)

/-- `CallNode::from_expr`, 322-357. -/
def callOf (data : Expr → R Meta) (tree : Expr → R Tree) (e : Expr) : R Tree := do
  let (a, b, c) ← three e .CodeParser_CallNode
  let body : R (Bool × CallOp × List Tree) :=
    match nodeOf data tree .CodeParser_GroupNode (opOf CallOp.arms) false true b with
    | .ok (op, cs) => .ok (false, op, cs)
    | .error .err =>
      match nodeOf data tree .CodeParser_GroupMissingCloserNode (opOf CallOp.arms) true true b with
      | .ok (op, cs) => .ok (true, op, cs)
      | .error .err => die
      | .error x => .error x
    | .error x => .error x
  match withHead a .System_List with
  | .ok _ => do
    let head ← expect (listOf tree a)
    let (m, op, cs) ← body
    let _ ← data c
    return .call head m op cs
  | .error _ => do
    let head ← tree a
    let (m, op, cs) ← body
    let _ ← data c
    return .callAgg head m op cs

/-- `BoxNode::from_expr`, 503-522. -/
def boxOf (data : Expr → R Meta) (tree : Expr → R Tree) (e : Expr) : R Tree := do
  let (a, b, c) ← three e .CodeParser_BoxNode
  let k ← expect (boxKindOf a)
  let cs ← expect (listOf tree b)
  let m ← data c
  return .box k cs m.source

/-- `CodeNode::from_expr`, 537-551. -/
def codeOf (data : Expr → R Meta) (e : Expr) : R Tree := do
  let (a, b, c) ← three e .CodeParser_CodeNode
  let m ← data c
  return .code a b m.source

/-- The kind of a node put in front of its children. -/
def asNode (k : α → NodeKind) (r : R (α × List Tree)) : R Tree :=
  match r with
  | .error x => .error x
  | .ok (a, cs) => .ok (.node (k a) cs)

/-- `Cst::from_expr`, 210-285.  The fuel is the last but one argument.  Left out is
`compare_declared_and_computed_src!`, 80-103, which does something only if the environment variable
for debugging is set, and the `debug_assert!`, 652. -/
def treeOf (f64 : Int → Nat) (kind : ContainerKind) : Nat → Expr → R Tree
  | 0, _ => .error .fuel
  | f + 1, e =>
    let data := metaOf f64 kind f
    let tree := treeOf f64 kind f
    orElse (leafOf data e) <|
    orElse (callOf data tree e) <|
    orElse (asNode .compound (nodeOf data tree .CodeParser_CompoundNode (opOf CompoundOp.arms) true true e)) <|
    orElse (asNode .prefix (nodeOf data tree .CodeParser_PrefixNode (opOf PrefixOp.arms) true true e)) <|
    orElse (asNode .infix (nodeOf data tree .CodeParser_InfixNode (opOf InfixOp.arms) false false e)) <|
    orElse (asNode .prefixBinary
      (nodeOf data tree .CodeParser_PrefixBinaryNode (opOf PrefixBinaryOp.arms) true true e)) <|
    orElse (asNode .binary (nodeOf data tree .CodeParser_BinaryNode (opOf BinaryOp.arms) false true e)) <|
    orElse (asNode .ternary (nodeOf data tree .CodeParser_TernaryNode (opOf TernaryOp.arms) true true e)) <|
    orElse (asNode .postfix (nodeOf data tree .CodeParser_PostfixNode (opOf PostfixOp.arms) true true e)) <|
    orElse (asNode .group (nodeOf data tree .CodeParser_GroupNode (opOf GroupOp.arms) false true e)) <|
    orElse (boxOf data tree e) <|
    orElse (asNode .groupMissingCloser
      (nodeOf data tree .CodeParser_GroupMissingCloserNode (opOf GroupOp.arms) true true e)) <|
    orElse (asNode .groupMissingOpener
      (nodeOf data tree .CodeParser_GroupMissingOpenerNode (opOf GroupOp.arms) true true e)) <|
    orElse (asNode .syntaxError (nodeOf data tree .CodeParser_SyntaxErrorNode errorOf true true e)) <|
    codeOf data e

mutual
/-- The number of nodes of an expression. -/
def Expr.size : Expr → Nat
  | .normal h as => 1 + h.size + Expr.sizeL as
  | _ => 1
/-- The number of nodes of some expressions. -/
def Expr.sizeL : List Expr → Nat
  | [] => 0
  | e :: es => e.size + Expr.sizeL es
end

/-- `Cst::from_expr`, 210-285, with as much fuel as the expression has nodes. -/
def readTree (f64 : Int → Nat) (kind : ContainerKind) (e : Expr) : R Tree := treeOf f64 kind e.size e

/-! ### Containers -/

/-- `ContainerKind::from_expr`, 137-156. -/
def containerKindOf : Expr → R ContainerKind
  | .sym n =>
    if n = cs! "System`String" then .ok .string
    else if n = cs! "System`File" then .ok .file
    else if n = cs! "System`Byte" then .ok .byte
    else if n = cs! "System`Box" then .ok .box
    else if n = cs! "System`Cell" then .ok .cell
    else if n = cs! "System`Hold" then .ok .hold
    else bad
  | _ => die

/-- `ContainerBody::from_expr`, 158-195. -/
def bodyOf (tree : Expr → R Tree) (e : Expr) : R Body :=
  let nodes : R Body := do return .nodes (← listOf tree e)
  match withHead e .System_List with
  | .ok [a] =>
    match withHead a .System_Missing with
    | .ok [.str r] =>
      if r = utf8 (cs! "EmptyInput") then .ok .emptyInput
      else
        match Unsafe.ofMissingReason r with
        | some u => .ok (.encoding u)
        | none => bad
    | .ok _ => bad
    | .error _ => nodes
  | _ => nodes

/-- `Container::from_expr`, 105-135. -/
def containerOf (f64 : Int → Nat) (e : Expr) : R Container := do
  let (a, b, c) ← three e .CodeParser_ContainerNode
  let kind ← containerKindOf a
  let body ← expect (bodyOf (readTree f64 kind) b)
  let data ← metaOf f64 kind c.size c
  return { kind, body, data }

end Wll
end CodeParser
