import Mathlib.Data.List.Forall2
import Verif.Spec.Spots
/-!
C80: how abstract syntax is put together from the abstract syntax of the parts: message names, files, integrals, patterns,
calls with their issues, and all that is wrong in a text.

`G c a` is read as "the abstract syntax of the concrete tree `c` is `a`".
-/
namespace CodeParser.Spec
open Cst

/-- The symbol with this name. -/
def named (s : String) : Ast := .leaf .Symbol (utf8 s.toList) AMeta.none

/-- Every other tree, beginning with the first: the operands of a chain of operators. -/
def operands : List Cst → List Cst
  | [] => []
  | [x] => [x]
  | x :: _ :: xs => x :: operands xs

/-- What an argument of a bracket stands for: commas separate several arguments. -/
def elements : Ast → List Ast
  | .call (.leaf k s m) as d => if k = .Symbol ∧ s = utf8 "CodeParser`Comma".toList then as else [.call (.leaf k s m) as d]
  | a => [a]

/-- The text of a string for the written text `s`: what is not between quotes is put between them. -/
def inQuotes (quote : List UInt8 → List UInt8) (s : List UInt8) : List UInt8 :=
  if s.head? = some 34 then s else quote s

/-- The same for names; long names keep their backslash. -/
def nameInQuotes (quote : List UInt8 → List UInt8) (s : List UInt8) : List UInt8 :=
  if s.head? = some 34 then s else if s.take 2 = [92, 91] then 34 :: (s ++ [34]) else quote s

/-- A string at the place of the token `t`. -/
def stringAt (s : List UInt8) (t : Tok) : Ast := .leaf .String s ⟨some (t.start, t.stop), []⟩

/-- What stands behind `::`. -/
def Tag (G : Cst → Ast → Prop) (quote : List UInt8 → List UInt8) : Cst → Ast → Prop
  | .tok t, a => if t.kind = .String then a = stringAt (nameInQuotes quote t.text) t else G (.tok t) a
  | c, a => G c a

/-- `a ~ f ~ b ~ g ~ c` is `g[f[a, b], c]`; if there is no operand behind the last function, it is an error. -/
def tildes (d : AMeta) : Ast → List Ast → Option Ast
  | _, [] => none
  | a, [f] => some (.abstractError .ExpectedTilde [a, f] d)
  | a, [f, b] => some (.call f [a, b] d)
  | a, f :: b :: more => tildes d (.call f [a, b] AMeta.none) more

/-- The kinds of tokens that are fine in front of brackets. -/
def callable : TK → Bool
  | .Symbol | .Hash | .Under | .UnderUnder | .UnderUnderUnder | .Percent | .PercentPercent => true
  | _ => false

/-- What is wrong with `h` in `h[…]`. -/
def strangeCall : Cst → Option (AIssueTag × Severity)
  | .tok t =>
    if t.kind = .HashHash then some (.StrangeCallSlotSequence, .error)
    else if callable t.kind || t.kind == .String then none else some (.StrangeCall, .error)
  | .node (.compound .SlotSequence) _ => some (.StrangeCallSlotSequence, .error)
  | .node (.compound .CodeParser_PatternOptionalDefault) _ => some (.StrangeCall, .error)
  | .node (.compound _) _ => none
  | .node (.group .CodeParser_GroupParen) _ => none
  | .node (.group .List) _ => none
  | .node (.group .Association) _ => none
  | .node (.group _) _ => some (.StrangeCall, .warning)
  | .node (.infix .CompoundExpression) _ => some (.StrangeCall, .warning)
  | .node (.binary .PatternTest) _ => none
  | .node (.postfix .Function) _ => none
  | .node (.postfix .Derivative) _ => none
  | .callAgg .. => none
  | _ => some (.StrangeCall, .error)

/-- What is wrong with `h` in `h[[…]]`. -/
def strangePart : Cst → Option (AIssueTag × Severity)
  | .tok t =>
    if t.kind = .HashHash then some (.StrangeCallSlotSequence, .error)
    else if callable t.kind then none
    else if t.kind = .LinearSyntaxBlob then some (.StrangeCall, .remark) else some (.StrangeCall, .error)
  | .node (.compound .SlotSequence) _ => some (.StrangeCallSlotSequence, .error)
  | .node (.compound .CodeParser_PatternOptionalDefault) _ => some (.StrangeCall, .error)
  | .node (.compound _) _ => none
  | .node (.group .CodeParser_GroupParen) _ => none
  | .node (.group .List) _ => none
  | .node (.group .Association) _ => none
  | .node (.group _) _ => some (.StrangeCall, .warning)
  | .node (.infix .CompoundExpression) _ => some (.StrangeCall, .remark)
  | .node (.prefix .CodeParser_PrefixLinearSyntaxBang) _ => some (.StrangeCall, .remark)
  | .node (.postfix .Transpose) _ => none
  | .callAgg .. => none
  | _ => some (.StrangeCall, .error)

/-- The data of a call between the brackets `cs`: the issue is at the opening bracket and names the closing one. -/
def CallData (i : Option (AIssueTag × Severity)) (cs : List Cst) (d : ASrc) (m : AMeta) : Prop :=
  match i with
  | none => m = ⟨some d, []⟩
  | some (tag, sev) => ∃ o e s s', cs.head? = some o ∧ cs.getLast? = some e ∧ Hulls (leaves o) s ∧ Hulls (leaves e) s' ∧
      m = ⟨some d, [⟨tag, sev, s, [s']⟩]⟩

/-- What naked brackets are reported as. -/
def nakedError : GroupOp → Option AbstractError
  | .CodeParser_GroupSquare => some .OpenSquare
  | .CodeParser_GroupTypeSpecifier => some .ColonColonOpenSquare
  | .CodeParser_GroupDoubleBracket => some .LeftDoubleBracket
  | .CodeParser_GroupParen => some .OpenParen
  | _ => none

/-- Trees joined by commas. -/
def isCommas : Cst → Bool
  | .node (.infix .CodeParser_Comma) _ => true
  | _ => false

/-- `a?b`. -/
def isPatternTest : Cst → Bool
  | .node (.binary .PatternTest) _ => true
  | _ => false

/-- What `∫ x ⅆ v` is about: `v`. -/
def differential : Cst → Option (List Cst)
  | .node (.prefix .DifferentialD) ds => some ds
  | .node (.prefix .CapitalDifferentialD) ds => some ds
  | _ => none

/-- The arguments of an expression and its position. -/
def arguments : Ast → Option (List Ast × Option ASrc)
  | .call _ as m | .callMissing _ as m | .syntaxError _ as m | .abstractError _ as m => some (as, m.source)
  | .linearBang a b m => some ([a, b], m.source)
  | _ => none

/-- A double square bracket, as the only thing in a square bracket. -/
def innerSquare : List Cst → Option (List Cst)
  | [_, .node (.group .CodeParser_GroupSquare) ds, _] => some ds
  | _ => none

/-- How the abstract syntax of a concrete tree, whose position is `d`, is put together. -/
inductive Built (G : Cst → Ast → Prop) (quote : List UInt8 → List UInt8) (d : ASrc) : Cst → Ast → Prop
  /-- `a::b::c`; more than three parts are undocumented. -/
  | message {cs l rest a as} (hs : operands cs = l :: rest) (hl : G l a) (hr : List.Forall₂ (Tag G quote) rest as) :
    Built G quote d (.node (.infix .MessageName) cs)
      (.call (named "MessageName") (a :: as)
        ⟨some d, if rest.length > 2 then [⟨.SyntaxUndocumentedMessageName, .error, d, []⟩] else []⟩)
  /-- `<< file` -/
  | get {o t} (ht : t.kind = .String) :
    Built G quote d (.node (.prefix .Get) [o, .tok t]) (.call (named "Get") [stringAt (inQuotes quote t.text) t] (.of d))
  /-- `x >> file` -/
  | put {l o t a} (ht : t.kind = .String) (hl : G l a) :
    Built G quote d (.node (.binary .Put) [l, o, .tok t]) (.call (named "Put") [a, stringAt (inQuotes quote t.text) t] (.of d))
  /-- `x >>> file` -/
  | putAppend {l o t a} (ht : t.kind = .String) (hl : G l a) :
    Built G quote d (.node (.binary .PutAppend) [l, o, .tok t]) (.call (named "PutAppend") [a, stringAt (inQuotes quote t.text) t] (.of d))
  /-- `#name` and `#"name"` -/
  | slotName {o t} (ht : t.kind = .Symbol ∨ t.kind = .String) :
    Built G quote d (.node (.compound .Slot) [o, .tok t]) (.call (named "Slot") [stringAt (nameInQuotes quote t.text) t] (.of d))
  /-- `∫ x ⅆ v` -/
  | integral {op o x y ds i v a b} (hy : differential y = some ds) (hd : ds = [i, v]) (hx : G x a) (hv : G v b) :
    Built G quote d (.node (.prefixBinary op) [o, x, y]) (.call (.leaf .Symbol op.toSymbol.text .none) [a, b] (.of d))
  /-- `∫ x y`, without differential -/
  | integralOf {op o x y a b} (hy : differential y = none) (hx : G x a) (hv : G y b) :
    Built G quote d (.node (.prefixBinary op) [o, x, y]) (.call (.leaf .Symbol op.toSymbol.text .none) [a, b] (.of d))
  /-- `!! x` is `Not[Not[x]]`, with a warning at the operator. -/
  | notNot {o x a s} (ho : Hulls (leaves o) s) (hx : G x a) :
    Built G quote d (.node (.prefix .CodeParser_PrefixNot2) [o, x])
      (.call (named "Not") [.call (named "Not") [a] .none] ⟨some d, [⟨.PrefixNotNot, .warning, s, []⟩]⟩)
  /-- `\! \(…\)` -/
  | bang {o t a b} (ht : t.kind = .LinearSyntaxBlob) (ho : G o a) (hx : G (.tok t) b) :
    Built G quote d (.node (.prefix .CodeParser_PrefixLinearSyntaxBang) [o, .tok t]) (.linearBang a b (.of d))
  /-- `\! x`, for other `x` -/
  | bangOther {o x a} (ht : ∀ t, x = .tok t → t.kind ≠ .LinearSyntaxBlob) (hx : G x a) :
    Built G quote d (.node (.prefix .CodeParser_PrefixLinearSyntaxBang) [o, x]) (.abstractError .LinearSyntaxBang [a] (.of d))
  /-- `a?b` -/
  | test {l o r a b} (hn : isPatternTest l = false) (hl : G l a) (hr : G r b) :
    Built G quote d (.node (.binary .PatternTest) [l, o, r]) (.call (named "PatternTest") [a, b] (.of d))
  /-- `a?b?c` is an error. -/
  | testTest {l o r a b} (hn : isPatternTest l = true) (hl : G l a) (hr : G r b) :
    Built G quote d (.node (.binary .PatternTest) [l, o, r]) (.abstractError .NonAssociativePatternTest [a, b] (.of d))
  /-- `a ~ f ~ b ~ g ~ c` -/
  | tilde {cs l rest a as e} (hs : operands cs = l :: rest) (hl : G l a) (hr : List.Forall₂ G rest as) (he : tildes (.of d) a as = some e) :
    Built G quote d (.node (.infix .CodeParser_InfixTilde) cs) e
  /-- `a ~ f ~ b` -/
  | tilde3 {l o m o' r a f b} (hm : isCommas m = false) (hl : G l a) (hf : G m f) (hr : G r b) :
    Built G quote d (.node (.ternary .CodeParser_TernaryTilde) [l, o, m, o', r]) (.call f [a, b] (.of d))
  /-- `a ~ f, g ~ b` is an error. -/
  | tildeCommas {l o m o' r a f b as s} (hm : isCommas m = true) (hl : G l a) (hf : G m f) (hs : arguments f = some (as, s)) (hr : G r b) :
    Built G quote d (.node (.ternary .CodeParser_TernaryTilde) [l, o, m, o', r]) (.call (.abstractError .CommaTopLevel as ⟨s, []⟩) [a, b] (.of d))
  /-- Text that is not an expression; what is in the middle is left out. -/
  | wrong {err l o r a b} (hl : G l a) (hr : G r b) : Built G quote d (.node (.syntaxError err) [l, o, r]) (.syntaxError err [a, b] (.of d))
  /-- An opening bracket without closing bracket -/
  | unclosed {op o cs as} (hc : List.Forall₂ G cs as) :
    Built G quote d (.node (.groupMissingCloser op) (o :: cs)) (.missingCloser op (as.flatMap elements) (.of d))
  /-- A closing bracket without opening bracket -/
  | unopened {op e cs as} (hc : List.Forall₂ G cs as) :
    Built G quote d (.node (.groupMissingOpener op) (cs ++ [e])) (.missingOpener op (as.flatMap elements) (.of d))
  /-- Brackets without anything in front of them, with one thing in them -/
  | naked {op err o x e a} (hn : nakedError op = some err) (hp : op ≠ .CodeParser_GroupParen) (hc : isCommas x = false) (hx : G x a) :
    Built G quote d (.node (.group op) [o, x, e]) (.abstractError err [a] (.of d))
  /-- `[a, b]` and `(a, b)` -/
  | nakedCommas {op err o ds e as} (hn : nakedError op = some err) (hx : List.Forall₂ G (operands ds) as) :
    Built G quote d (.node (.group op) [o, .node (.infix .CodeParser_Comma) ds, e]) (.abstractError err as (.of d))
  /-- `[]` and `()` -/
  | nakedNothing {op err o e} (hn : nakedError op = some err) : Built G quote d (.node (.group op) [o, e]) (.abstractError err [] (.of d))
  /-- `(a)` is `a`. -/
  | paren {o x e a} (hc : isCommas x = false) (hx : G x a) : Built G quote d (.node (.group .CodeParser_GroupParen) [o, x, e]) a
  /-- `{a, b}` and the like -/
  | group {op o cs e as} (hn : nakedError op = none) (hc : List.Forall₂ G cs as) :
    Built G quote d (.node (.group op) (o :: (cs ++ [e]))) (.call (.leaf .Symbol op.toSymbol.text .none) (as.flatMap elements) (.of d))
  /-- `f[a, b]` -/
  | call {h o cs e a as m} (hi : innerSquare (o :: (cs ++ [e])) = none) (hh : G h a) (hc : List.Forall₂ G cs as)
    (hm : CallData (strangeCall h) (o :: (cs ++ [e])) d m) :
    Built G quote d (.callAgg h false .CodeParser_GroupSquare (o :: (cs ++ [e]))) (.call a (as.flatMap elements) m)
  /-- `f[[a, b]]` -/
  | part {h cs o ds e a as m} (hi : innerSquare cs = some (o :: (ds ++ [e]))) (hh : G h a) (hc : List.Forall₂ G ds as)
    (hm : CallData (strangePart h) cs d m) :
    Built G quote d (.callAgg h false .CodeParser_GroupSquare cs) (.call (named "Part") (a :: as.flatMap elements) m)
  /-- `f〚a, b〛` -/
  | partLong {h o cs e a as m} (hh : G h a) (hc : List.Forall₂ G cs as) (hm : CallData (strangePart h) (o :: (cs ++ [e])) d m) :
    Built G quote d (.callAgg h false .CodeParser_GroupDoubleBracket (o :: (cs ++ [e]))) (.call (named "Part") (a :: as.flatMap elements) m)
  /-- `"f"::[a, b]` -/
  | type {t o cs e a as} (ht : t.kind = .String) (hh : G (.tok t) a) (hc : List.Forall₂ G cs as) :
    Built G quote d (.callAgg (.tok t) false .CodeParser_GroupTypeSpecifier (o :: (cs ++ [e])))
      (.call (.call (named "TypeSpecifier") [a] .none) (as.flatMap elements) (.of d))
  /-- `f::[a, b]`, for other `f`, with an issue at `f` -/
  | typeOther {h o cs e a as s} (ht : ∀ t, h = .tok t → t.kind ≠ .String) (hs : Hulls (leaves h) s) (hh : G h a) (hc : List.Forall₂ G cs as) :
    Built G quote d (.callAgg h false .CodeParser_GroupTypeSpecifier (o :: (cs ++ [e])))
      (.call (.call (named "TypeSpecifier") [a] .none) (as.flatMap elements) ⟨some d, [⟨.StrangeCall, .error, s, []⟩]⟩)
  /-- `f[a, b` -/
  | callUnclosed {h o cs a as} (hh : G h a) (hc : List.Forall₂ G cs as) :
    Built G quote d (.callAgg h true .CodeParser_GroupSquare (o :: cs)) (.callMissing a (as.flatMap elements) (.of d))
  /-- `f〚a, b` -/
  | partUnclosed {h o cs a as} (hh : G h a) (hc : List.Forall₂ G cs as) :
    Built G quote d (.callAgg h true .CodeParser_GroupDoubleBracket (o :: cs)) (.callMissing (named "Part") (a :: as.flatMap elements) (.of d))
  /-- `f::[a, b` -/
  | typeUnclosed {h o cs a as} (hh : G h a) (hc : List.Forall₂ G cs as) :
    Built G quote d (.callAgg h true .CodeParser_GroupTypeSpecifier (o :: cs))
      (.callMissing (.call (named "TypeSpecifier") [a] .none) (as.flatMap elements) (.of d))

/-- The trees these rules are about. -/
def inBuilt : Cst → Bool
  | .node (.infix .MessageName) _ | .node (.infix .CodeParser_InfixTilde) _ => true
  | .node (.prefix .Get) _ | .node (.prefix .CodeParser_PrefixNot2) _ | .node (.prefix .CodeParser_PrefixLinearSyntaxBang) _ => true
  | .node (.binary .Put) _ | .node (.binary .PutAppend) _ | .node (.binary .PatternTest) _ => true
  | .node (.compound .Slot) [_, .tok t] => t.kind = .Symbol ∨ t.kind = .String
  | .node (.ternary .CodeParser_TernaryTilde) _ => true
  | .node (.prefixBinary _) _ | .node (.syntaxError _) _ | .node (.groupMissingCloser _) _ | .node (.groupMissingOpener _) _ => true
  | .node (.group op) cs => op != .CodeParser_GroupParen || cs.length ≤ 3
  | .callAgg .. => true
  | _ => false

end CodeParser.Spec
