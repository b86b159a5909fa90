import Verif.Model.Aggregate
import Verif.Model.Ast
import Verif.Model.Recover
/-!
Model of the second half of abstract_cst.rs and of abstract_cst/abstract_call_node.rs:
abstraction, which makes abstract from aggregated concrete syntax trees.  Line numbers refer to
abstract_cst.rs unless another file is named.  `debug_assert!`s are not modelled.
-/
namespace CodeParser.Abs

/-- `QuirkSettings`, quirks.rs:10-53, which the code keeps in a thread-local variable, and
`format!("{s:?}")` of the Rust standard library, which is left open. -/
structure AEnv where
  infixBinaryAt : Bool
  flattenTimes : Bool
  oldAtAtAt : Bool
  debug : List UInt8 → List UInt8

/-- `QuirkSettings::const_default`, quirks.rs:99-105.  `debug` is as for texts without characters
that need to be escaped. -/
def AEnv.default : AEnv := ⟨true, false, false, fun s => 34 :: (s ++ [34])⟩

/-- A panic. -/
def fail (p : APanic) : A α := .error (.panic p)

/-- `Iterator::map` with a function that may panic, and `collect`. -/
def mapA (f : α → A β) : List α → A (List β)
  | [] => .ok []
  | a :: as =>
    match f a with
    | .error e => .error e
    | .ok b =>
      match mapA f as with
      | .error e => .error e
      | .ok bs => .ok (b :: bs)

/-- `TokenInput::as_str`, tokenize/token.rs:43-46. -/
def asStr (t : List UInt8) : A (List UInt8) := if (fromUtf8 t).isSome then .ok t else fail .utf8

/-- `Span::between`, tokenize/token.rs:92-96, with `PartialOrd for Span`, source.rs:1183-1187, and
`Span::new`, source.rs:728-732. -/
def between (a b : ASrc) : A ASrc :=
  if Loc.le a.1 b.1 && Loc.le a.1 b.2 then .ok (a.1, b.2) else fail .spanOrder

mutual
/-- `Cst::get_source`, cst.rs:439-461. -/
def getSource : Cst → A ASrc
  | .tok t => .ok (t.start, t.stop)
  | .node _ cs => do
    let a ← firstSource cs
    let b ← lastSource cs
    between a b
  | .call h _ _ cs => do
    let s ← firstSource h
    let a ← firstSource cs
    let b ← lastSource cs
    let t ← between a b
    between s t
  | .callAgg h _ _ cs => do
    let s ← getSource h
    let a ← firstSource cs
    let b ← lastSource cs
    let t ← between a b
    between s t
  | .box _ _ | .code _ => fail .boxes
/-- `NodeSeq::first`, cst.rs:326-329, and its source. -/
def firstSource : List Cst → A ASrc
  | [] => fail .index
  | c :: _ => getSource c
/-- `NodeSeq::last`, cst.rs:331-334, and its source. -/
def lastSource : List Cst → A ASrc
  | [] => fail .index
  | [c] => getSource c
  | _ :: c :: cs => lastSource (c :: cs)
end

/-- `CstSeq::get_source`, cst.rs:338-346. -/
def seqSource (cs : List Cst) : A ASrc := do
  let a ← firstSource cs
  let b ← lastSource cs
  between a b

/-! ### Texts -/

/-- `escapeString_of_abstractSymbolString`, 1434-1444. -/
def escapeSymbol (env : AEnv) (s : List UInt8) : List UInt8 :=
  if s.head? = some 34 then s
  else if s.take 2 = [92, 91] then 34 :: (s ++ [34])
  else env.debug s

/-- `escapeString_of_abstractFileString`, 1447-1455. -/
def escapeFile (env : AEnv) (s : List UInt8) : List UInt8 :=
  if s.head? = some 34 then s else env.debug s

/-- `s.matches(pat).count()`: the number of occurrences that do not overlap; `skip` bytes belong
to the last one found. -/
def countMatches (pat : List UInt8) : Nat → List UInt8 → Nat
  | _, [] => 0
  | skip + 1, _ :: s => countMatches pat skip s
  | 0, b :: s => if pat.isPrefixOf (b :: s) then countMatches pat (pat.length - 1) s + 1 else countMatches pat 0 s

/-- The number of `%` in a `%%…` token, 1306-1314. -/
def percents (s : List UInt8) : Nat :=
  countMatches (utf8 ['%']) 0 s + countMatches (utf8 ['\\','.','2','5']) 0 s
    + countMatches (utf8 ['\\',':','0','0','2','5']) 0 s + countMatches (utf8 ['\\','|','0','0','0','0','2','5']) 0 s
    + countMatches (utf8 ['\\','0','4','5']) 0 s
    + countMatches (utf8 ['\\','[','R','a','w','P','e','r','c','e','n','t',']']) 0 s

/-- The symbols with other names, 1360-1392. -/
def renamed : List (List Char × Sym) := [
  ([Char.ofNat 0x03c0], .System_Pi), (['\\','[','P','i',']'], .System_Pi),
  (['\\',':','0','3','c','0'], .System_Pi), (['\\','|','0','0','0','3','c','0'], .System_Pi),
  ([Char.ofNat 0x00b0], .System_Degree), (['\\','[','D','e','g','r','e','e',']'], .System_Degree),
  (['\\',':','0','0','b','0'], .System_Degree), (['\\','.','b','0'], .System_Degree),
  (['\\','2','6','0'], .System_Degree), (['\\','|','0','0','0','0','b','0'], .System_Degree),
  ([Char.ofNat 0x221e], .System_Infinity), (['\\','[','I','n','f','i','n','i','t','y',']'], .System_Infinity),
  (['\\',':','2','2','1','e'], .System_Infinity), (['\\','|','0','0','2','2','1','e'], .System_Infinity),
  ([Char.ofNat 0xf74d], .System_E), (['\\','[','E','x','p','o','n','e','n','t','i','a','l','E',']'], .System_E),
  (['\\',':','f','7','4','d'], .System_E), (['\\','|','0','0','f','7','4','d'], .System_E),
  ([Char.ofNat 0xf74e], .System_I), (['\\','[','I','m','a','g','i','n','a','r','y','I',']'], .System_I),
  (['\\',':','f','7','4','e'], .System_I), (['\\','|','0','0','f','7','4','e'], .System_I),
  ([Char.ofNat 0xf74f], .System_I), (['\\','[','I','m','a','g','i','n','a','r','y','J',']'], .System_I),
  (['\\',':','f','7','4','f'], .System_I), (['\\','|','0','0','f','7','4','f'], .System_I)]

/-- `abstract_replace_token`, 1293-1410.  (The overflow of `i64::try_from`, 1316-1317, is not
modelled.) -/
def tokenAst (t : Tok) : A Ast :=
  let data := AMeta.of (t.start, t.stop)
  match t.kind with
  | .PercentPercent => do
    let s ← asStr t.text
    .ok (.callS .System_Out [.neg (percents s)] data)
  | .Under => .ok (.callS .System_Blank [] data)
  | .UnderUnder => .ok (.callS .System_BlankSequence [] data)
  | .UnderUnderUnder => .ok (.callS .System_BlankNullSequence [] data)
  | .UnderDot => .ok (.callS .System_Optional [.callS .System_Blank [] data] data)
  | .Hash => .ok (.callS .System_Slot [.nat 1] data)
  | .HashHash => .ok (.callS .System_SlotSequence [.nat 1] data)
  | .Percent => .ok (.callS .System_Out [] data)
  | .Fake_ImplicitOne => .ok (.nat 1 data)
  | .Fake_ImplicitAll => .ok (.symbol .System_All data)
  | .Error_PrefixImplicitNull | .Error_InfixImplicitNull => .ok (.symbol .System_Null data)
  | kind =>
    if kind.isError then .ok (.error kind t.text data)
    else if kind = .Symbol then do
      let s ← asStr t.text
      match renamed.find? fun r => utf8 r.1 = s with
      | some r => .ok (.symbol r.2 data)
      | none => .ok (.leaf kind t.text data)
    else .ok (.leaf kind t.text data)

/-! ### Children -/

/-- `expect_children`, 1416-1431, for two children. -/
def expect2 : List Cst → A (Cst × Cst)
  | [a, b] => .ok (a, b)
  | _ => fail .children

/-- `expect_children`, 1416-1431, for three children. -/
def expect3 : List Cst → A (Cst × Cst × Cst)
  | [a, b, c] => .ok (a, b, c)
  | _ => fail .children

/-- `expect_children`, 1416-1431, for five children. -/
def expect5 : List Cst → A (Cst × Cst × Cst × Cst × Cst)
  | [a, b, c, d, e] => .ok (a, b, c, d, e)
  | _ => fail .children

/-- `part_span_even_children`, 3286-3304. -/
def evens : List α → List α
  | [] => []
  | [a] => [a]
  | a :: _ :: as => a :: evens as

/-- `part_span_drop_first_and_last`, 3321-3327. -/
def dropEnds : List Cst → A (List Cst)
  | _ :: c :: cs => .ok (c :: cs).dropLast
  | _ => fail .index

/-- `children[1..].chunks(2)`, each of which must have two elements, 1934-1940, 2283-2288. -/
def pairs : List Cst → A (List (Cst × Cst))
  | [] => .ok []
  | [_] => fail .children
  | a :: b :: cs => do
    let ps ← pairs cs
    .ok ((a, b) :: ps)

/-- The tree is a token of this kind. -/
def isTok (k : TK) : Cst → Bool
  | .tok t => t.kind = k
  | _ => false

/-- The tree is a node of this kind. -/
def isNode (k : NodeKind) : Cst → Bool
  | .node k' _ => k' = k
  | _ => false

/-! ### Negation -/

/-- `parenthesizedIntegerOrRealQ`, 1572-1597. -/
def numberQ : Cst → A Bool
  | .tok t => .ok (t.kind = .Integer || t.kind = .Real)
  | .node k [_, c, _] => if k = .group .CodeParser_GroupParen then numberQ c else .ok false
  | .node k _ => if k = .group .CodeParser_GroupParen then fail .children else .ok false
  | _ => .ok false

/-- `possiblyNegatedZeroQ`, 1623-1657. -/
def zeroQ : Cst → A Bool
  | .tok t =>
    if t.kind = .Integer then do
      let s ← asStr t.text
      .ok (s = [48])
    else .ok false
  | .node k [_, c, _] =>
    if k = .group .CodeParser_GroupParen then zeroQ c
    else if k = .prefix .Minus then fail .children
    else .ok false
  | .node k [_, c] =>
    if k = .group .CodeParser_GroupParen then fail .children
    else if k = .prefix .Minus then zeroQ c
    else .ok false
  | .node k _ =>
    if k = .group .CodeParser_GroupParen then fail .children
    else if k = .prefix .Minus then fail .children
    else .ok false
  | _ => .ok false

/-- `Negated`, 1669-1675. -/
inductive Negated where
  | zero
  | integer (text : List UInt8)
  | real (text : List UInt8)
  | times (cs : List Cst)
deriving Repr

/-- `negate`, 1734-1818, with `extractParenthesizedIntegerOrRealQ`, 1599-1619. -/
def negate : Cst → A Negated
  | .tok t =>
    if t.kind = .Integer then do
      let s ← asStr t.text
      .ok (if s = [48] then .zero else .integer t.text)
    else if t.kind = .Real then .ok (.real t.text)
    else .ok (.times [.tok t])
  | .node k [o, c, e] =>
    if k = .group .CodeParser_GroupParen then do
      if ← zeroQ c then negate c
      else if ← numberQ c then negate c
      else .ok (.times [.node k [o, c, e]])
    else if k = .prefix .Minus then do
      if ← zeroQ c then negate c
      else .ok (.times [.node k [o, c, e]])
    else if k = .infix .Times then .ok (.times [o, c, e])
    else .ok (.times [.node k [o, c, e]])
  | .node k (o :: c :: cs) =>
    if k = .group .CodeParser_GroupParen then do
      if ← zeroQ c then negate c
      else fail .children
    else if k = .prefix .Minus then do
      if ← zeroQ c then negate c
      else .ok (.times [.node k (o :: c :: cs)])
    else if k = .infix .Times then .ok (.times (o :: c :: cs))
    else .ok (.times [.node k (o :: c :: cs)])
  | .node k cs =>
    if k = .group .CodeParser_GroupParen then fail .index
    else if k = .prefix .Minus then fail .index
    else if k = .infix .Times then .ok (.times cs)
    else .ok (.times [.node k cs])
  | c => .ok (.times [c])

/-- `Operand`, 1660-1667. -/
inductive AOperand where
  | cst (c : Cst)
  /-- `Reciprocate`, 1829 -/
  | recip (c : Cst) (data : ASrc)
  | negOne
  | neg (g : Negated) (data : ASrc)
deriving Repr

mutual
/-- `flatten_times_cst`, 2009-2087; `q` is the quirk. -/
def flat (q : Bool) (data : ASrc) : Cst → A (List AOperand)
  | .node k cs =>
    if k = .prefix .Minus then flatMinus q data (.node k cs) cs
    else if k = .infix .Times then flatEvens q data cs
    else if k = .binary .Divide then flatDivide q data (.node k cs) cs
    else .ok [.cst (.node k cs)]
  | c => .ok [.cst c]
/-- `flattenTimes`, 1994-2003, of the children at even positions. -/
def flatEvens (q : Bool) (data : ASrc) : List Cst → A (List AOperand)
  | [] => .ok []
  | [c] => flat q data c
  | c :: _ :: cs => do
    let a ← flat q data c
    let b ← flatEvens q data cs
    .ok (a ++ b)
/-- The arm for `-a`, 2022-2058, of `flatten_times_cst` of `node`. -/
def flatMinus (q : Bool) (data : ASrc) (node : Cst) : List Cst → A (List AOperand)
  | [_, c] => do
    -- the token cases, 2030-2035, agree with `numberQ`
    if ← numberQ c then do
      let g ← negate c
      .ok [.neg g data]
    else if q then do
      let a ← flat q data c
      .ok (.negOne :: a)
    else .ok [.cst node]
  | _ => fail .children
/-- The arm for `a/b`, 2071-2085, of `flatten_times_cst` of `node`. -/
def flatDivide (q : Bool) (data : ASrc) (node : Cst) : List Cst → A (List AOperand)
  | [l, _, r] =>
    if q then do
      let a ← flat q data l
      .ok (a ++ [.recip r data])
    else .ok [.cst node]
  | _ => if q then fail .children else .ok [.cst node]
end

/-- `flattenTimes`, 1994-2003. -/
def flatL (q : Bool) (data : ASrc) : List Cst → A (List AOperand)
  | [] => .ok []
  | c :: cs => do
    let a ← flat q data c
    let b ← flatL q data cs
    .ok (a ++ b)

/-- `flattenPrefixPlus`, 1904-1916, and the operand `abstractPrefixPlus`, 1967-1985, ends with. -/
def flattenPlus : Cst → A Cst
  | .node k [o, c] => if k = .prefix .Plus then flattenPlus c else .ok (.node k [o, c])
  | .node k cs => if k = .prefix .Plus then fail .children else .ok (.node k cs)
  | c => .ok c

/-- `derivativeOrderAndAbstractedBody`, 1847-1866, without abstracting the body. -/
def derivativeBody : Cst → A (Nat × Cst)
  | .node k [r, o] =>
    if k = .postfix .Derivative then do
      let (n, b) ← derivativeBody r
      .ok (n + 1, b)
    else .ok (0, .node k [r, o])
  | .node k cs => if k = .postfix .Derivative then fail .children else .ok (0, .node k cs)
  | c => .ok (0, c)

/-- `processInfixBinaryAtQuirk`, 2146-2205. -/
def binaryAt (env : AEnv) (name : List UInt8) (c : Cst) : A Cst :=
  if !env.infixBinaryAt then .ok c
  else
    match c with
    | .node k cs =>
      if k = .binary .CodeParser_BinaryAt then do
        let (l, m, r) ← expect3 cs
        match l with
        | .tok t =>
          if t.kind = .Symbol then do
            let s ← asStr t.text
            if s = name then
              if isTok .At m then .ok r else fail .quirk
            else .ok c
          else .ok c
        | _ => .ok c
      else .ok c
    | _ => .ok c

/-! ### Calls -/

/-- The heads `f` that give no issue in `f[…]`, abstract_call_node.rs:331-340, 357-361, and that
give none in `f[[…]]`, 125-153 there.  (Not: strings, which are fine in `f[…]` only.) -/
def fineHead : Cst → Bool
  | .tok t =>
    match t.kind with
    | .Symbol | .Hash | .Under | .UnderUnder | .UnderUnderUnder | .Percent | .PercentPercent => true
    | _ => false
  | .callAgg .. => true
  | .node (.compound op) _ => op != .SlotSequence && op != .CodeParser_PatternOptionalDefault
  | .node (.group op) _ => op == .CodeParser_GroupParen || op == .List || op == .Association
  | _ => false

/-- The heads `##` and `##n`, abstract_call_node.rs:112-113, 301. -/
def slotsHead : Cst → Bool
  | .tok t => t.kind = .HashHash
  | .node (.compound op) _ => op == .SlotSequence
  | _ => false

/-- The issue for `head[…]`, abstract_call_node.rs:300-535. -/
def callIssue (h : Cst) : Option (AIssueTag × Severity) :=
  if slotsHead h then some (.StrangeCallSlotSequence, .error)
  else if fineHead h then none
  else
    match h with
    | .tok t => if t.kind = .String then none else some (.StrangeCall, .error)
    | .node k _ =>
      match k with
      | .binary .PatternTest => none
      | .infix .CompoundExpression => some (.StrangeCall, .warning)
      | .group _ => some (.StrangeCall, .warning)
      | .postfix .Function | .postfix .Derivative => none
      | _ => some (.StrangeCall, .error)
    | _ => some (.StrangeCall, .error)

/-- The issue for `head[[…]]`, abstract_call_node.rs:109-265 and 612-766. -/
def partIssue (h : Cst) : Option (AIssueTag × Severity) :=
  if slotsHead h then some (.StrangeCallSlotSequence, .error)
  else if fineHead h then none
  else
    match h with
    | .tok t => if t.kind = .LinearSyntaxBlob then some (.StrangeCall, .remark) else some (.StrangeCall, .error)
    | .node k _ =>
      match k with
      | .prefix .CodeParser_PrefixLinearSyntaxBang => some (.StrangeCall, .remark)
      | .infix .CompoundExpression => some (.StrangeCall, .remark)
      | .group _ => some (.StrangeCall, .warning)
      | .postfix .Transpose => none
      | _ => some (.StrangeCall, .error)
    | _ => some (.StrangeCall, .error)

/-- Data with an issue at the first and last of the children `cs`. -/
def issueAt (i : Option (AIssueTag × Severity)) (cs : List Cst) (data : ASrc) : A AMeta :=
  match i with
  | none => .ok (.of data)
  | some (tag, sev) => do
    let a ← firstSource cs
    let b ← lastSource cs
    .ok ⟨some data, [⟨tag, sev, a, [b]⟩]⟩

/-- `selectChildren`, 2841-2872. -/
def selectChildren : Ast → List Ast
  | .call h args d =>
    match h with
    | .leaf k s _ => if k = .Symbol ∧ s = Sym.CodeParser_Comma.text then args else [.call h args d]
    | _ => [.call h args d]
  | a => [a]

/-- What has still to be abstracted: a tree, or a negated one (`Negated::into_ast`). -/
inductive Req where
  | cst (c : Cst)
  | neg (g : Negated) (data : ASrc)

section
variable (env : AEnv) (rec : Req → A Ast)

/-- `abstract_`, in the code below. -/
abbrev recC (rec : Req → A Ast) (c : Cst) : A Ast := rec (.cst c)

/-- `Reciprocate::into_ast`, 1832-1841. -/
def recipAst (c : Cst) (data : ASrc) : A Ast := do
  let a ← rec (.cst c)
  .ok (.callS .System_Power [a, .neg 1] (.of data))

/-- The arguments of a product, 2104-2113, 2130-2138; `f` is what happens to a tree before it is
abstracted. -/
def operandAst (f : Cst → A Cst) : AOperand → A Ast
  | .cst c => do
    let c ← f c
    rec (.cst c)
  | .recip c d => recipAst rec c d
  | .negOne => .ok (.neg 1)
  | .neg g d => rec (.neg g d)

/-- `abstractTimes_InfixNode`, 2090-2116. -/
def timesAst (cs : List Cst) (data : ASrc) : A Ast := do
  let os ← flatL env.flattenTimes data cs
  let args ← mapA (operandAst rec (binaryAt env Sym.System_Times.short)) os
  .ok (.callS .System_Times args (.of data))

/-- `abstractTimes_BinaryNode_Divide`, 2119-2143. -/
def divideAst (l r : Cst) (data : ASrc) : A Ast := do
  let os ← flat env.flattenTimes data l
  let args ← mapA (operandAst rec .ok) os
  let a ← recipAst rec r data
  .ok (.callS .System_Times (args ++ [a]) (.of data))

/-- `Negated::into_ast`, 1677-1725.  (`timesAst` always gives a call, so that the panic in 1711
does not occur.) -/
def negatedAst (g : Negated) (data : ASrc) : A Ast :=
  match g with
  | .zero => .ok (.leaf .Integer [48] (.of data))
  | .integer t => do
    let s ← asStr t
    .ok (.leaf .Integer (45 :: s) (.of data))
  | .real t => do
    let s ← asStr t
    .ok (.leaf .Real (45 :: s) (.of data))
  | .times cs => do
    match ← timesAst env rec (evens cs) data with
    | .call h args d => .ok (.call h (.neg 1 :: args) d)
    | _ => fail .times

/-- `processPlusPair`, 1870-1899. -/
def plusPair : Cst × Cst → A AOperand
  | (.tok o, rand) =>
    if o.kind = .Plus ∨ o.kind = .LongName_ImplicitPlus then .ok (.cst rand)
    else if o.kind = .Minus ∨ o.kind = .LongName_Minus then do
      let s ← getSource rand
      let data ← between (o.start, o.stop) s
      let g ← negate rand
      .ok (.neg g data)
    else fail .unhandled
  | _ => fail .unhandled

/-- `abstractPlus`, 1926-1958. -/
def plusAst (cs : List Cst) (data : ASrc) : A Ast :=
  match cs with
  | [] => fail .index
  | c :: cs => do
    let ps ← pairs cs
    let f := operandAst rec fun c => do
      let c ← binaryAt env Sym.System_Plus.short c
      flattenPlus c
    let a ← f (.cst c)
    let args ← mapA (fun p => do
      let o ← plusPair p
      f o) ps
    .ok (.callS .System_Plus (a :: args) (.of data))

/-- The arguments of an operator with the `InfixBinaryAt` quirk, 758-766, 817-826. -/
def quirkAst (name : List UInt8) (c : Cst) : A Ast := do
  let c ← binaryAt env name c
  rec (.cst c)

/-- `abstractMessageName`, 2217-2269. -/
def messageAst (cs : List Cst) (data : ASrc) : A Ast :=
  match cs with
  | [] => fail .index
  | l :: rest => do
    let issues := if rest.length > 2 then [AIssue.mk .SyntaxUndocumentedMessageName .error data []] else []
    let a ← rec (.cst l)
    let args ← mapA (fun c =>
      match c with
      | .tok t =>
        if t.kind = .String then do
          let s ← asStr t.text
          .ok (.string (escapeSymbol env s) (.of (t.start, t.stop)))
        else rec (.cst c)
      | c => rec (.cst c)) rest
    .ok (.callS .System_MessageName (a :: args) ⟨some data, issues⟩)

/-- `simplifyInfixInequality`, 2349-2509. -/
def simplify (first : Ast) (rest : List (Sym × Ast)) (affinity : Option Bool) (data : ASrc) : Ast :=
  let rands := first :: rest.map (·.2)
  match simplifyRators.find? fun s => rest.all fun r => r.1 == s.1 with
  | some (s, false) => .callS s rands (.of data)
  | some (s, true) => .callS s [.callS .System_List rands .none] (.of data)
  | none =>
    let args := first :: rest.flatMap fun r => [.symbol r.1, r.2]
    match affinity with
    | some true => .callS .Developer_VectorInequality args (.of data)
    | _ => .callS .System_Inequality args (.of data)

/-- The loop of `abstractInfixInequality`, 2306-2343. -/
def inequalityLoop (data : ASrc) : List (Tok × Cst) → Ast → List (Sym × Ast) → Option Bool → A Ast
  | [], first, rest, affinity => .ok (simplify first rest affinity data)
  | (o, c) :: ps, first, rest, affinity =>
    match inequalityOperatorToSymbol o.kind with
    | none => fail .inequality
    | some s => do
      let a ← rec (.cst c)
      match vectorInequalityAffinity s with
      | none => fail .inequality
      | some none => inequalityLoop data ps first (rest ++ [(s, a)]) affinity
      | some (some b) =>
        if affinity = some !b then inequalityLoop data ps (simplify first rest affinity data) [(s, a)] (some b)
        else inequalityLoop data ps first (rest ++ [(s, a)]) (some b)

/-- The operators of a chain of inequalities must be tokens, 2290-2295. -/
def withTok (p : Cst × Cst) : A (Tok × Cst) :=
  match p.1 with
  | .tok t => .ok (t, p.2)
  | _ => fail .inequality

/-- `abstractInfixInequality`, 2275-2347. -/
def inequalityAst (cs : List Cst) (data : ASrc) : A Ast :=
  match cs with
  | [] => fail .index
  | c :: cs => do
    let first ← rec (.cst c)
    let ps ← pairs cs
    let ps ← mapA withTok ps
    inequalityLoop rec data ps first [] none

/-- `abstractInfixTildeLeftAlreadyAbstracted`, 2692-2733. -/
def tildeRest (data : AMeta) : Ast → List Cst → A Ast
  | _, [] => fail .tilde
  | a, [m] => do
    let m ← rec (.cst m)
    .ok (.abstractError .ExpectedTilde [a, m] data)
  | a, [m, r] => do
    let m ← rec (.cst m)
    let r ← rec (.cst r)
    .ok (.call m [a, r] data)
  | a, m :: r :: rest => do
    let m ← rec (.cst m)
    let r ← rec (.cst r)
    tildeRest data (.call m [a, r] .none) rest

/-- `abstractInfixTilde`, 2642-2690. -/
def tildeAst (data : AMeta) : List Cst → A Ast
  | [l, m] => do
    let l ← rec (.cst l)
    let m ← rec (.cst m)
    .ok (.abstractError .ExpectedTilde [l, m] data)
  | [l, m, r] => do
    let l ← rec (.cst l)
    tildeRest rec data l [m, r]
  | l :: m :: r :: rest => do
    let l ← rec (.cst l)
    let a ← tildeRest rec .none l [m, r]
    tildeRest rec data a rest
  | _ => fail .tilde

/-- The children of a group with the commas removed, 2756-2760, 2801-2805, 2829-2833. -/
def groupArgs (cs : List Cst) : A (List Ast) := do
  let as ← mapA (recC rec) cs
  .ok (as.flatMap selectChildren)

/-- `abstractGroupNode`, 2741-2783: source and arguments. -/
def groupAst (cs : List Cst) : A (ASrc × List Ast) := do
  let data ← seqSource cs
  let cs ← dropEnds cs
  let as ← groupArgs rec cs
  .ok (data, as)

/-- `abstractGroupNode_GroupMissingCloserNode`, 2785-2809: source and arguments. -/
def missingAst (cs : List Cst) : A (ASrc × List Ast) := do
  let data ← seqSource cs
  match cs with
  | [] => fail .index
  | _ :: cs => do
    let as ← groupArgs rec cs
    .ok (data, as)

/-- The naked groups `[…]`, `::[…]` and `\[LeftDoubleBracket]…`, 950-1090. -/
def nakedAst (err : AbstractError) (cs : List Cst) (data : ASrc) : A Ast :=
  match cs with
  | [_, c, _] =>
    match c with
    | .node (.infix .CodeParser_Comma) ds => do
      let as ← mapA (recC rec) (evens ds)
      .ok (.abstractError err as (.of data))
    | c => do
      let a ← rec (.cst c)
      .ok (.abstractError err [a] (.of data))
  | [_, _] => .ok (.abstractError err [] (.of data))
  | _ => fail .unhandled

/-- Parentheses, 895-940. -/
def parenAst (cs : List Cst) (data : ASrc) : A Ast :=
  match cs with
  | [_, c, _] =>
    match c with
    | .node (.infix .CodeParser_Comma) ds => do
      let as ← mapA (recC rec) (evens ds)
      .ok (.abstractError .OpenParen as (.of data))
    | c => rec (.cst c)
  | cs => do
    let cs ← dropEnds cs
    let as ← mapA (recC rec) cs
    .ok (.abstractError .OpenParen as (.of data))

/-- Compound nodes, 285-421. -/
def compoundAst (op : CompoundOp) (cs : List Cst) (data : ASrc) : A Ast := do
  match op with
  | .Blank | .BlankSequence | .BlankNullSequence =>
    let (_, c) ← expect2 cs
    let a ← rec (.cst c)
    .ok (.callS op.toSymbol [a] (.of data))
  | .CodeParser_PatternBlank | .CodeParser_PatternBlankSequence | .CodeParser_PatternBlankNullSequence =>
    let (c, d) ← expect2 cs
    let a ← rec (.cst c)
    let b ← rec (.cst d)
    .ok (.callS .System_Pattern [a, b] (.of data))
  | .CodeParser_PatternOptionalDefault =>
    let (c, d) ← expect2 cs
    match d with
    | .tok t =>
      if t.kind = .UnderDot then
        let a ← rec (.cst c)
        .ok (.callS .System_Optional
          [.callS .System_Pattern [a, .callS .System_Blank [] (.of (t.start, t.stop))] (.of data)] (.of data))
      else fail .unhandled
    | _ => fail .unhandled
  | .Slot =>
    let (_, d) ← expect2 cs
    match d with
    | .tok t =>
      if t.kind = .Integer then
        let a ← tokenAst t
        .ok (.callS .System_Slot [a] (.of data))
      else if t.kind = .Symbol ∨ t.kind = .String then
        let s ← asStr t.text
        .ok (.callS .System_Slot [.string (escapeSymbol env s) (.of (t.start, t.stop))] (.of data))
      else fail .unhandled
    | _ => fail .unhandled
  | .SlotSequence | .Out =>
    let (_, d) ← expect2 cs
    if isTok .Integer d then
      let a ← rec (.cst d)
      .ok (.callS op.toSymbol [a] (.of data))
    else fail .unhandled

/-- A file name, 490-512, 623-638. -/
def fileAst (c : Cst) : A Ast :=
  match c with
  | .tok t =>
    if t.kind = .String then do
      let s ← asStr t.text
      .ok (.string (escapeFile env s) (.of (t.start, t.stop)))
    else fail .unhandled
  | _ => fail .unhandled

/-- Prefix nodes, 426-515, with `abstractNot2`, 2876-2912. -/
def prefixAst (op : PrefixOp) (cs : List Cst) (data : ASrc) : A Ast := do
  match op with
  | .Minus =>
    let (_, c) ← expect2 cs
    let g ← negate c
    rec (.neg g data)
  | .Plus =>
    let (_, c) ← expect2 cs
    let c ← flattenPlus c
    let a ← rec (.cst c)
    .ok (.callS .System_Plus [a] (.of data))
  | .CodeParser_PrefixNot2 =>
    let (t, c) ← expect2 cs
    let s ← getSource t
    let a ← rec (.cst c)
    .ok (.callS .System_Not [.callS .System_Not [a] .none] ⟨some data, [⟨.PrefixNotNot, .warning, s, []⟩]⟩)
  | .CodeParser_PrefixLinearSyntaxBang =>
    match cs with
    | [o, c] =>
      if isTok .LinearSyntaxBlob c then
        let a ← rec (.cst o)
        let b ← rec (.cst c)
        .ok (.linearBang a b (.of data))
      else
        let a ← rec (.cst c)
        .ok (.abstractError .LinearSyntaxBang [a] (.of data))
    | _ => fail .unhandled
  | .Get =>
    let (_, c) ← expect2 cs
    let a ← fileAst env c
    .ok (.callS .System_Get [a] (.of data))
  | op =>
    let (_, c) ← expect2 cs
    let a ← rec (.cst c)
    .ok (.callS op.toSymbol [a] (.of data))

/-- Postfix nodes, 520-576. -/
def postfixAst (op : PostfixOp) (cs : List Cst) (data : ASrc) : A Ast := do
  let (c, o) ← expect2 cs
  match op with
  | .HermitianConjugate =>
    let a ← rec (.cst c)
    .ok (.callS .System_ConjugateTranspose [a] (.of data))
  | .Derivative =>
    match o with
    | .tok t =>
      if t.kind = .SingleQuote then
        let (n, b) ← derivativeBody c
        let a ← rec (.cst b)
        .ok (.call (.callS .System_Derivative [.nat (n + 1)] .none) [a] .none)
      else if t.kind = .Boxes_MultiSingleQuote then
        let s ← asStr t.text
        let a ← rec (.cst c)
        .ok (.call (.callS .System_Derivative [.nat s.length] .none) [a] .none)
      else fail .unhandled
    | _ => fail .unhandled
  | op =>
    let a ← rec (.cst c)
    .ok (.callS op.toSymbol [a] (.of data))

/-- Binary nodes, 581-697. -/
def binaryAst (op : BinaryOp) (cs : List Cst) (data : ASrc) : A Ast := do
  let (l, m, r) ← expect3 cs
  match op with
  | .Divide => divideAst env rec l r data
  | .CodeParser_BinaryAt =>
    let a ← rec (.cst l)
    let b ← rec (.cst r)
    .ok (.call a [b] (.of data))
  | .MapApply =>
    let a ← rec (.cst l)
    let b ← rec (.cst r)
    if env.oldAtAtAt then .ok (.callS .System_Apply [a, b, .callS .System_List [.nat 1] .none] (.of data))
    else .ok (.callS .System_MapApply [a, b] (.of data))
  | .CodeParser_BinarySlashSlash =>
    let b ← rec (.cst r)
    let a ← rec (.cst l)
    .ok (.call b [a] (.of data))
  | .Put | .PutAppend =>
    -- the name of the file is looked at before the left operand is abstracted
    let b ← fileAst env r
    let a ← rec (.cst l)
    .ok (.callS op.toSymbol [a, b] (.of data))
  | .Unset =>
    if isTok .Equal m && isTok .Dot r then
      let a ← rec (.cst l)
      .ok (.callS .System_Unset [a] (.of data))
    else fail .unhandled
  | op =>
    let a ← rec (.cst l)
    let b ← rec (.cst r)
    if op = .PatternTest ∧ isNode (.binary .PatternTest) l then
      .ok (.abstractError .NonAssociativePatternTest [a, b] (.of data))
    else .ok (.callS op.toSymbol [a, b] (.of data))

/-- Infix nodes, 702-837. -/
def infixAst (op : InfixOp) (cs : List Cst) (data : ASrc) : A Ast :=
  match op with
  | .CodeParser_InfixInequality => inequalityAst rec cs data
  | .Plus => plusAst env rec cs data
  | .Times => timesAst env rec (evens cs) data
  | .Divisible => do
    let as ← mapA (quirkAst env rec Sym.System_Divisible.short) (evens cs).reverse
    .ok (.callS .System_Divisible as (.of data))
  | .CompoundExpression => do
    let as ← mapA (fun c =>
      match c with
      | .tok t =>
        if t.kind = .Fake_ImplicitNull then .ok (.symbol .System_Null (.of (t.start, t.stop)))
        else rec (.cst c)
      | c => rec (.cst c)) (evens cs)
    .ok (.callS .System_CompoundExpression as (.of data))
  | .MessageName => messageAst env rec (evens cs) data
  | .CodeParser_InfixTilde => tildeAst rec (.of data) (evens cs)
  | op =>
    if cs.length % 2 = 1 then do
      let as ←
        if op = .SameQ ∨ op = .UnsameQ then mapA (recC rec) (evens cs)
        else mapA (quirkAst env rec op.toSymbol.short) (evens cs)
      .ok (.callS op.toSymbol as (.of data))
    else fail .unhandled

/-- `Ast::into_children_and_source`, ast.rs:132-170. -/
def childrenSource : Ast → A (List Ast × Option ASrc)
  | .call _ as d | .callMissing _ as d | .syntaxError _ as d | .abstractError _ as d => .ok (as, d.source)
  | .linearBang a b d => .ok ([a, b], d.source)
  | _ => fail .unhandled

/-- Ternary nodes, 842-934. -/
def ternaryAst (op : TernaryOp) (cs : List Cst) (data : ASrc) : A Ast := do
  let (l, _, m, o, r) ← expect5 cs
  match op with
  | .CodeParser_TernaryTilde =>
    if isNode (.infix .CodeParser_Comma) m then
      let b ← rec (.cst m)
      let (as, s) ← childrenSource b
      let a ← rec (.cst l)
      let c ← rec (.cst r)
      .ok (.call (.abstractError .CommaTopLevel as ⟨s, []⟩) [a, c] (.of data))
    else
      let b ← rec (.cst m)
      let a ← rec (.cst l)
      let c ← rec (.cst r)
      .ok (.call b [a, c] (.of data))
  | .TagUnset =>
    if isTok .Equal o && isTok .Dot r then
      let a ← rec (.cst l)
      let b ← rec (.cst m)
      .ok (.callS .System_TagUnset [a, b] (.of data))
    else fail .unhandled
  | .CodeParser_TernaryOptionalPattern =>
    let a ← rec (.cst l)
    let b ← rec (.cst m)
    let c ← rec (.cst r)
    .ok (.callS .System_Optional [.callS .System_Pattern [a, b] .none, c] (.of data))
  | .TagSet | .TagSetDelayed | .Span =>
    let a ← rec (.cst l)
    let b ← rec (.cst m)
    let c ← rec (.cst r)
    .ok (.callS op.toSymbol [a, b, c] (.of data))

/-- `PrefixBinary` nodes, 1146-1186. -/
def prefixBinaryAst (op : PrefixBinaryOp) (cs : List Cst) (data : ASrc) : A Ast := do
  let (_, c, d) ← expect3 cs
  match d with
  | .node (.prefix .DifferentialD) ds | .node (.prefix .CapitalDifferentialD) ds =>
    let (_, v) ← expect2 ds
    let a ← rec (.cst c)
    let b ← rec (.cst v)
    .ok (.callS op.toSymbol [a, b] (.of data))
  | d =>
    let a ← rec (.cst c)
    let b ← rec (.cst d)
    .ok (.callS op.toSymbol [a, b] (.of data))

/-- Group nodes, 944-1120. -/
def groupNodeAst (op : GroupOp) (cs : List Cst) (data : ASrc) : A Ast :=
  match op with
  | .CodeParser_GroupParen => parenAst rec cs data
  | .CodeParser_GroupSquare => nakedAst rec .OpenSquare cs data
  | .CodeParser_GroupTypeSpecifier => nakedAst rec .ColonColonOpenSquare cs data
  | .CodeParser_GroupDoubleBracket => nakedAst rec .LeftDoubleBracket cs data
  | op => do
    let (data, as) ← groupAst rec cs
    .ok (.call (.symbol op.toSymbol) as (.of data))

/-- Syntax error nodes, 1209-1258. -/
def syntaxErrorAst (err : SyntaxErrorKind) (cs : List Cst) (data : ASrc) : A Ast :=
  match cs with
  | [l, _, r] => do
    let a ← rec (.cst l)
    let b ← rec (.cst r)
    .ok (.syntaxError err [a, b] (.of data))
  | _ => fail .unhandled

/-- `abstract_call_node`, abstract_call_node.rs:43-872. -/
def callAst (h : Cst) (missing : Bool) (op : CallOp) (cs : List Cst) (data : ASrc) : A Ast := do
  match missing, op with
  | false, .CodeParser_GroupSquare =>
    match cs[1]? with
    | none => fail .index
    | some c =>
      match c with
      | .node (.group .CodeParser_GroupSquare) ds =>
        let _ ← expect3 cs
        let data ← issueAt (partIssue h) cs data
        let a ← rec (.cst h)
        let (_, as) ← groupAst rec ds
        .ok (.callS .System_Part (a :: as) data)
      | _ =>
        let data ← issueAt (callIssue h) cs data
        let a ← rec (.cst h)
        let (_, as) ← groupAst rec cs
        .ok (.call a as data)
  | false, .CodeParser_GroupTypeSpecifier =>
    let data ←
      if isTok .String h then .ok (.of data)
      else do
        let s ← getSource h
        .ok (AMeta.mk (some data) [⟨.StrangeCall, .error, s, []⟩])
    let a ← rec (.cst h)
    let (_, as) ← groupAst rec cs
    .ok (.call (.callS .System_TypeSpecifier [a] .none) as data)
  | false, .CodeParser_GroupDoubleBracket =>
    let data ← issueAt (partIssue h) cs data
    let a ← rec (.cst h)
    let (_, as) ← groupAst rec cs
    .ok (.callS .System_Part (a :: as) data)
  | true, .CodeParser_GroupSquare =>
    let a ← rec (.cst h)
    let (_, as) ← missingAst rec cs
    .ok (.callMissing a as (.of data))
  | true, .CodeParser_GroupTypeSpecifier =>
    let a ← rec (.cst h)
    let (_, as) ← missingAst rec cs
    .ok (.callMissing (.callS .System_TypeSpecifier [a] .none) as (.of data))
  | true, .CodeParser_GroupDoubleBracket =>
    let a ← rec (.cst h)
    let (_, as) ← missingAst rec cs
    .ok (.callMissing (.symbol .System_Part) (a :: as) (.of data))

/-- `abstract_`, 275-1291, of an operator node. -/
def nodeAst (k : NodeKind) (cs : List Cst) (data : ASrc) : A Ast :=
  match k with
  | .prefix op => prefixAst env rec op cs data
  | .infix op => infixAst env rec op cs data
  | .postfix op => postfixAst rec op cs data
  | .binary op => binaryAst env rec op cs data
  | .ternary op => ternaryAst rec op cs data
  | .prefixBinary op => prefixBinaryAst rec op cs data
  | .compound op => compoundAst env rec op cs data
  | .group op => groupNodeAst rec op cs data
  | .groupMissingCloser op => do
    let (data, as) ← missingAst rec cs
    .ok (.missingCloser op as (.of data))
  -- `abstractGroupNode_GroupMissingOpenerNode`, 2811-2838
  | .groupMissingOpener op => do
    let as ← groupArgs rec cs.dropLast
    .ok (.missingOpener op as (.of data))
  | .syntaxError err => syntaxErrorAst rec err cs data

/-- `abstract_`, 275-1291, and `Negated::into_ast`, 1677-1725; `rec` is what they call for the
parts. -/
def step (r : Req) : A Ast :=
  match r with
  | .neg g data => negatedAst env rec g data
  | .cst c => do
    let data ← getSource c
    match c with
    | .tok t => tokenAst t
    | .node k cs => nodeAst env rec k cs data
    | .call .. => fail .callHead
    | .callAgg h m op cs => callAst rec h m op cs data
    | .box .. | .code .. => fail .boxes

end

/-- The recursion of `step`, with a bound. -/
def run (env : AEnv) : Nat → Req → A Ast
  | 0, _ => .error .fuel
  | n + 1, r => step env (run env n) r

mutual
/-- The number of nodes and tokens of a tree. -/
def csize : Cst → Nat
  | .tok _ => 1
  | .node _ cs => csizeL cs + 1
  | .call h _ _ b => csizeL h + csizeL b + 1
  | .callAgg h _ _ b => csize h + csizeL b + 1
  | .box _ cs => csizeL cs + 1
  | .code _ => 1
/-- The number of nodes and tokens of trees. -/
def csizeL : List Cst → Nat
  | [] => 0
  | c :: cs => csize c + csizeL cs
end

/-- A bound for the recursion. -/
def Req.meas : Req → Nat
  | .cst c => 2 * csize c
  | .neg (.times cs) _ => 2 * csizeL cs + 1
  | .neg _ _ => 1

/-- `abstract_`, 275-1291, and `Negated::into_ast`, 1677-1725. -/
def abstractR (env : AEnv) (r : Req) : A Ast := run env (r.meas + 1) r

/-- `abstract_cst`, 253-262. -/
def abstractCst (env : AEnv) (c : Cst) : A Ast := abstractR env (.cst c)

/-- How parsing to abstract syntax can fail. -/
inductive PErr where
  | parse (e : Err)
  | tree (e : AErr)
  /-- `expect_single_item`, lib.rs:781 -/
  | notSingle
deriving DecidableEq, Repr

/-- `parse_bytes_ast_seq`, lib.rs:588-616. -/
def parseBytesAsts (cfg : Cfg) (env : AEnv) (conv : Conv) (first : FirstLine) (bs : List UInt8) :
    Except PErr (List Ast × Option Unsafe) :=
  match parseBytesCst cfg conv first bs with
  | .error e => .error (.parse e)
  | .ok r =>
    match aggregateL r.syntax' with
    | .error e => .error (.tree e)
    | .ok cs =>
      match mapA (abstractCst env) cs with
      | .error e => .error (.tree e)
      | .ok as => .ok (as, r.unsafeEncoding)

/-- `parse_bytes_ast`, lib.rs:566-575. -/
def parseBytesAst (cfg : Cfg) (env : AEnv) (conv : Conv) (first : FirstLine) (bs : List UInt8) :
    Except PErr (Ast × Option Unsafe) :=
  match parseBytesAsts cfg env conv first bs with
  | .error e => .error e
  | .ok ([a], u) => .ok (a, u)
  | .ok _ => .error .notSingle

end CodeParser.Abs
