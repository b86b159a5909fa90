import Verif.Spec.Link
import Verif.Model.Library
import Verif.Model.Abstract
/-!
Calls of the functions of the library: what the arguments stand for, which calls are in order, and
what the answers are.
-/
namespace CodeParser.Spec.Library
open CodeParser Wll Spec.Link

/-! ### Arguments -/

/-- The number of a way to count positions. -/
def convNumber : Conv → Int
  | .lineColumn => 0
  | .characterIndex => 1

/-- The number of a way to treat the first line. -/
def firstNumber : FirstLine → Int
  | .notScript => 0
  | .check => 1
  | .script => 2

/-- The number of a way to read a single token. -/
def modeNumber : Stringify → Int
  | .normal => 0
  | .tag => 1
  | .file => 2

/-- The number of an encoding mode: 0 for text, 1 for text in boxes. -/
def encodingNumber (normal : Bool) : Int := if normal then 0 else 1

/-- An argument that is an integer. -/
def int (v : Int) : Arg := .expr (.int v)

/-- The names of the quirks. -/
def quirkNames : List (List Char) := [cs! "InfixBinaryAt", cs! "FlattenTimes", cs! "OldAtAtAt"]

/-- An argument that gives quirks: an association from names of quirks to anything. -/
inductive QuirkArg : Arg → Prop
  | intro (rules : List (List Char × Expr)) (h : ∀ r ∈ rules, r.1 ∈ quirkNames) :
    QuirkArg (.expr (assoc (rules.map fun r => rule (text r.1) r.2)))

/-- The last value given for a name. -/
def lastValue (name : List Char) : List (List Char × Expr) → Option Expr
  | [] => none
  | (n, v) :: rules => (lastValue name rules).or (if n = name then some v else none)

/-- What a value says: `True` or `False`; anything else leaves the default. -/
def setting (default : Bool) : Option Expr → Bool
  | some (.sym n) => if n = cs! "System`True" then true else if n = cs! "System`False" then false else default
  | _ => default

/-- The settings of abstraction that rules give. -/
def settingsOf (rules : List (List Char × Expr)) (debug : List UInt8 → List UInt8) : Abs.AEnv where
  infixBinaryAt := setting true (lastValue (cs! "InfixBinaryAt") rules)
  flattenTimes := setting false (lastValue (cs! "FlattenTimes") rules)
  oldAtAtAt := setting false (lastValue (cs! "OldAtAtAt") rules)
  debug := debug

/-- The settings of a call. -/
structure Settings where
  conv : Conv
  tab : Nat
  first : FirstLine
  normal : Bool

/-- The session the parser runs for some settings: looking for issues and tracking locations is on. -/
def Settings.env (H : Host) (s : Settings) (pos : 0 < s.tab) : Chk.Env :=
  { cfg := { tabWidth := s.tab, pos, uniAlnum := H.uniAlnum }, check := true, oob := true, normal := s.normal, dist := H.dist }

/-- The arguments for the settings, in the order in which they are given. -/
def Settings.args (s : Settings) : List Arg := [int (convNumber s.conv), int s.tab, int (firstNumber s.first)]

/-- The calls that are in order.  A session is a number, which is not looked at. -/
inductive InOrder : Fn → List Arg → Prop
  | create : InOrder .createParserSession []
  | roundTrip (e : Expr) : InOrder .roundTripTest [.expr e]
  | parseBytes (session : Nat) (bs : List UInt8) (s : Settings) (ht : s.tab < 2 ^ 32) {q : Arg} (hq : QuirkArg q) :
    InOrder .concreteParseBytes ([int session, .bytes bs] ++ s.args ++ [q])
  | parseFile (session : Nat) (path : List UInt8) (s : Settings) (ht : s.tab < 2 ^ 32) {q : Arg} (hq : QuirkArg q) :
    InOrder .concreteParseFile ([int session, .expr (.str path)] ++ s.args ++ [q])
  | tokenizeBytes (session : Nat) (bs : List UInt8) (s : Settings) (ht : s.tab < 2 ^ 32) {q : Arg} (hq : QuirkArg q) :
    InOrder .tokenizeBytes ([int session, .bytes bs] ++ s.args ++ [q])
  | tokenizeFile (session : Nat) (path : List UInt8) (s : Settings) (ht : s.tab < 2 ^ 32) {q : Arg} (hq : QuirkArg q) :
    InOrder .tokenizeFile ([int session, .expr (.str path)] ++ s.args ++ [q])
  | parseLeaf (session : Nat) (bs : List UInt8) (mode : Stringify) (s : Settings) (ht : s.tab < 2 ^ 32) {q : Arg}
      (hq : QuirkArg q) :
    InOrder .concreteParseLeaf
      ([int session, .bytes bs, int (modeNumber mode)] ++ s.args ++ [int (encodingNumber s.normal), q])
  | safeString (session : Nat) (bs : List UInt8) : InOrder .safeString [int session, .bytes bs]
  | tokenIsEmpty (k : TK) : InOrder .tokenIsEmpty [.expr (symbol k.toSymbol)]

/-- The call panics. -/
def Panics (w : W) : Prop := ∀ ab k, w ab k = none

/-! ### Answers -/

/-- The name of a tag. -/
def tagText : Chk.Tag → List Char
  | .unexpectedCarriageReturn => cs! "UnexpectedCarriageReturn"
  | .unexpectedCharacter => cs! "UnexpectedCharacter"
  | .unexpectedNewlineCharacter => cs! "UnexpectedNewlineCharacter"
  | .unexpectedSpaceCharacter => cs! "UnexpectedSpaceCharacter"
  | .unexpectedLetterlikeCharacter => cs! "UnexpectedLetterlikeCharacter"
  | .nonASCIICharacter => cs! "NonASCIICharacter"
  | .incompleteUTF8Sequence => cs! "IncompleteUTF8Sequence"
  | .straySurrogate => cs! "StraySurrogate"
  | .bom => cs! "BOM"
  | .unhandledCharacter => cs! "UnhandledCharacter"
  | .unrecognizedLongName => cs! "UnrecognizedLongName"
  | .undocumentedSlotSyntax => cs! "UndocumentedSlotSyntax"
  | .ambiguous => cs! "Ambiguous"
  | .unexpectedSign => cs! "UnexpectedSign"
  | .unexpectedImplicitTimes => cs! "UnexpectedImplicitTimes"
  | .unexpectedDot => cs! "UnexpectedDot"

/-- The head of an issue. -/
def makerName : Chk.Maker → Name
  | .syn => cs! "CodeParser`SyntaxIssue"
  | .enc => cs! "CodeParser`EncodingIssue"
  | .fmt => cs! "CodeParser`FormatIssue"

/-- The name of a severity. -/
def severityText : Severity → List Char
  | .formatting => cs! "Formatting"
  | .remark => cs! "Remark"
  | .warning => cs! "Warning"
  | .error => cs! "Error"
  | .fatal => cs! "Fatal"

/-- `Source -> …`. -/
def spanRule (s : Span) : Option Expr := do
  return rule (.sym (cs! "CodeParser`Source")) (← spanExpr s.start s.stop)

/-- `CodeAction["label", command, <|…|>]`. -/
def fixExpr (H : Host) (a : Chk.Action) : Option Expr := do
  let src := assoc [← spanRule a.span]
  match a with
  | .replace _ t =>
    return node .CodeParser_CodeAction (.str (H.label a)) (.sym (cs! "CodeParser`ReplaceText"))
      (assoc [src, rule (text (cs! "ReplacementText")) (.str t)])
  | .insert _ t =>
    return node .CodeParser_CodeAction (.str (H.label a)) (.sym (cs! "CodeParser`InsertText"))
      (assoc [src, rule (text (cs! "InsertionText")) (.str t)])
  | .delete _ =>
    return node .CodeParser_CodeAction (.str (H.label a)) (.sym (cs! "CodeParser`DeleteText")) (assoc [src])

/-- `SyntaxIssue["tag", "message", "severity", <|Source -> …, ConfidenceLevel -> …, …|>]`, or another
head. -/
def reportExpr (H : Host) (r : Chk.Report) : Option Expr := do
  return .normal (.sym (makerName r.maker)) [text (tagText r.tag), .str (H.message r), text (severityText r.sev),
    assoc ([assoc [← spanRule r.span], rule (.sym (cs! "System`ConfidenceLevel")) (.real (H.level r.conf))] ++
      listRule (.sym (cs! "CodeParser`CodeActions")) (← all (fixExpr H) r.actions) ++
      listRule (text (cs! "AdditionalDescriptions")) ((H.descs r).map .str))]

/-- `Missing["UnsafeCharacterEncoding_…"]`. -/
def unsafeExpr (u : Unsafe) : Expr :=
  .normal (.sym (cs! "System`Missing")) [text (cs! "UnsafeCharacterEncoding_" ++ u.text)]

/-- The trees, or the reason why there are none. -/
def treesPart (trees : Option Expr) : Option Unsafe → Option Expr
  | none => trees
  | some u => some (list [unsafeExpr u])

/-- `{trees, issues, simple line continuations, complex line continuations, newlines in strings and
comments, tabs in strings and comments}`, where `trees` are replaced by the reason if the text is not
valid, and the issues are the fatal ones if there are any. -/
def answerExpr (H : Host) (trees : Option Expr) (r : Chk.Par.Result) : Option Expr := do
  let first ← treesPart trees r.unsafeEncoding
  let issues ← all (reportExpr H) (if r.fatal = [] then r.nonFatal else r.fatal)
  return list [first, list issues, list (r.simpleContinuations.map locExpr), list (r.complexContinuations.map locExpr),
    list (r.embeddedNewlines.map locExpr), list (r.embeddedTabs.map locExpr)]

/-- The first token of a text (after a first line that is left out), read in the given way. -/
def firstToken (E : Chk.Env) (first : FirstLine) : Stringify → Chk.M Tok
  | .normal => do Chk.handleFirstLine E first; Chk.nextToken E Pol.top
  | .tag => do Chk.handleFirstLine E first; Chk.nextTokenTag E
  | .file => do Chk.handleFirstLine E first; Chk.nextTokenFile E

/-- An issue of abstraction as it is sent: the words are free, but it has the places of the issue and no
code actions. -/
def Places (i : AIssue) (w : Wll.Issue) : Prop :=
  w.src = .span i.src.1 i.src.2 ∧ w.actions = [] ∧ w.sources = i.more.map fun s => .span s.1 s.2

end CodeParser.Spec.Library
