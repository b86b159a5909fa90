import Verif.Model.FromExpr
import Verif.Model.CheckParser
import Verif.Model.SafeString
/-!
The functions of the library: /repo/crates/codeparser-wll/src/lib.rs, whose line numbers are given.
Other paths are relative to /repo/crates, `lib.rs` of wolfram-parser is
wolfram-parser/src/lib.rs.

Simplifications: the arguments of a call are a list (that they arrive in `List[…]`, and byte arrays in
`ByteArray[…]`, is not modelled); an integer argument is an integer on the link, not a number that
WSTP would convert; a panic is `none` (the export macro turns it into a `Failure`).
`Abstract_LibraryLink` is in `Model/AbstractCall.lean`.
-/
namespace CodeParser
namespace Wll

/-- An argument: an expression, or a byte array. -/
inductive Arg where
  | expr (e : Expr)
  | bytes (bs : List UInt8)

/-- What the library takes from elsewhere: `compatibility_mode`, 1104-1116; `char::is_alphanumeric` and
`edit_distance`; the words of an issue, which the model of issues leaves out (the message, the
descriptions and the label of an action), and the number for a confidence in hundredths; the file with
some name, if `validatePath` allows to read it and it can be read; an integer as a number. -/
structure Host where
  compat : Bool
  uniAlnum : Nat → Bool
  dist : List UInt8 → List Char → Nat
  message : Chk.Report → List UInt8
  descs : Chk.Report → List (List UInt8)
  label : Chk.Action → List UInt8
  level : Nat → Nat
  file : List UInt8 → Option (List UInt8)
  f64 : Int → Nat

/-! ### Arguments -/

/-- `get_i64`, `get_i32`. -/
def Arg.int : Arg → Option Int
  | .expr (.int v) => some v
  | _ => none

/-- `get_expr`, 1142-1144.  A byte array is not read in this way. -/
def Arg.get : Arg → Option Expr
  | .expr e => some e
  | .bytes _ => none

/-- `read_session_from_link`, 180-194: any `i64` that is not negative will do, it is not used. -/
def Arg.session (a : Arg) : Option Unit := do
  let v ← a.int
  if 0 ≤ v ∧ v.toNat < 2 ^ 63 then some () else none

/-- `read_input_bytes`, 240-262. -/
def Arg.input : Arg → Option (List UInt8)
  | .bytes bs => some bs
  | .expr _ => none

/-- `get_string`. -/
def Arg.path : Arg → Option (List UInt8)
  | .expr (.str t) => some t
  | _ => none

/-- `TryFrom<i32> for SourceConvention`, wolfram-parser/src/lib.rs:755-766. -/
def convOf (v : Int) : Option Conv :=
  if v = 0 then some .lineColumn else if v = 1 then some .characterIndex else none

/-- `TryFrom<i32> for FirstLineBehavior`, wolfram-parser/src/lib.rs:713-725. -/
def firstOf (v : Int) : Option FirstLine :=
  if v = 0 then some .notScript else if v = 1 then some .check else if v = 2 then some .script else none

/-- `TryFrom<i32> for EncodingMode`, wolfram-parser/src/lib.rs:727-738; `true` is
`EncodingMode::Normal`. -/
def encodingOf (v : Int) : Option Bool := if v = 0 then some true else if v = 1 then some false else none

/-- `StringifyMode`, wolfram-parser/src/lib.rs. -/
inductive Stringify where
  | normal | tag | file
deriving DecidableEq, Repr

/-- `TryFrom<i32> for StringifyMode`, wolfram-parser/src/lib.rs:740-752. -/
def stringifyOf (v : Int) : Option Stringify :=
  if v = 0 then some .normal else if v = 1 then some .tag else if v = 2 then some .file else none

/-- `Expr::try_as_bool` of the crate wolfram-expr. -/
def boolOf : Expr → Option Bool
  | .sym n => if n = cs! "System`True" then some true else if n = cs! "System`False" then some false else none
  | _ => none

/-- `QuirkSettings`, wolfram-parser/src/quirks.rs:10-51. -/
structure Quirks where
  infixBinaryAt : Bool
  flattenTimes : Bool
  oldAtAtAt : Bool
deriving DecidableEq, Repr

/-- The loop of `QuirkSettings::from_expr`, codeparser-wll/src/from_expr.rs:1237-1247: the last value of each
of the three keys. -/
def quirkRules : List (Expr × Expr) → Option Expr × Option Expr × Option Expr →
    R (Option Expr × Option Expr × Option Expr)
  | [], q => .ok q
  | (.str k, v) :: rs, (a, b, c) =>
    if k = utf8 (cs! "InfixBinaryAt") then quirkRules rs (some v, b, c)
    else if k = utf8 (cs! "FlattenTimes") then quirkRules rs (a, some v, c)
    else if k = utf8 (cs! "OldAtAtAt") then quirkRules rs (a, b, some v)
    else die
  | _ :: _, _ => die

/-- `QuirkSettings::from_expr`, codeparser-wll/src/from_expr.rs:1229-1272. -/
def quirksOf (e : Expr) : R Quirks := do
  let (a, b, c) ← quirkRules (← assocOf e) (none, none, none)
  return ⟨(a.bind boolOf).getD true, (b.bind boolOf).getD false, (c.bind boolOf).getD false⟩

/-- `ParseOptions`, wolfram-parser/src/lib.rs:282-290, without the two options that are always on. -/
structure Options where
  conv : Conv
  tab : Nat
  pos : 0 < tab
  first : FirstLine
  normal : Bool
  quirks : Quirks

/-- `read_parse_options_from_link`, 196-238.  Simplification: a tab width of zero, with which the program
panics at the first tabulator, is refused. -/
def optionsOf (conv tab first quirks : Arg) (normal : Option Bool) : Option Options := do
  let conv ← convOf (← conv.int)
  let tab ← tab.int
  let first ← firstOf (← first.int)
  let normal ← normal
  let quirks ← (quirksOf (← quirks.get)).toOption
  if h : 0 < tab.toNat ∧ tab.toNat < 2 ^ 32 then return { conv, tab := tab.toNat, pos := h.1, first, normal, quirks }
  else none

/-- The options as the parser takes them: `ParseOptions::make`, wolfram-parser/src/lib.rs:306-325. -/
def Options.env (H : Host) (o : Options) : Chk.Env :=
  { cfg := ⟨o.tab, o.pos, H.uniAlnum⟩, check := true, oob := true, normal := o.normal, dist := H.dist }

/-! ### Results -/

/-- The functions that make issues, wolfram-parser/src/issue.rs:369-431. -/
def makerSym : Chk.Maker → Sym
  | .syn => .CodeParser_SyntaxIssue
  | .enc => .CodeParser_EncodingIssue
  | .fmt => .CodeParser_FormatIssue

/-- The tags the reader and the parser use, wolfram-parser/src/issue.rs:25-50. -/
def tagOf : Chk.Tag → IssueTag
  | .unexpectedCarriageReturn => .UnexpectedCarriageReturn
  | .unexpectedCharacter => .UnexpectedCharacter
  | .unexpectedNewlineCharacter => .UnexpectedNewlineCharacter
  | .unexpectedSpaceCharacter => .UnexpectedSpaceCharacter
  | .unexpectedLetterlikeCharacter => .UnexpectedLetterlikeCharacter
  | .nonASCIICharacter => .NonASCIICharacter
  | .incompleteUTF8Sequence => .IncompleteUTF8Sequence
  | .straySurrogate => .StraySurrogate
  | .bom => .BOM
  | .unhandledCharacter => .UnhandledCharacter
  | .unrecognizedLongName => .UnrecognizedLongName
  | .undocumentedSlotSyntax => .UndocumentedSlotSyntax
  | .ambiguous => .Ambiguous
  | .unexpectedSign => .UnexpectedSign
  | .unexpectedImplicitTimes => .UnexpectedImplicitTimes
  | .unexpectedDot => .UnexpectedDot

/-- A `CodeAction`, wolfram-parser/src/issue.rs:61-86. -/
def actionOfReport (H : Host) (a : Chk.Action) : Action where
  label := H.label a
  kind := match a with
    | .replace _ t => .replace t
    | .insert _ t => .insert t
    | .delete _ => .delete
  src := (a.span.start, a.span.stop)

/-- An `Issue`, wolfram-parser/src/issue.rs:12-23.  The parser gives no additional sources. -/
def issueOfReport (H : Host) (r : Chk.Report) : Issue where
  make := makerSym r.maker
  tag := tagOf r.tag
  msg := H.message r
  sev := r.sev
  src := .span r.span.start r.span.stop
  val := H.level r.conf
  actions := r.actions.map (actionOfReport H)
  descs := H.descs r
  sources := []

/-- What a result has besides its trees. -/
def extraOf (H : Host) (r : Chk.Par.Result) : Extra where
  unsafeEncoding := r.unsafeEncoding
  fatal := r.fatal.map (issueOfReport H)
  nonFatal := r.nonFatal.map (issueOfReport H)
  simple := r.simpleContinuations
  complex := r.complexContinuations
  newlines := r.embeddedNewlines
  tabs := r.embeddedTabs

/-- A panic, or some writing. -/
def orPanic : Option W → W
  | some w => w
  | none => W.fail

/-- `parse_bytes_cst_seq(..).put(link)`, 476, 566. -/
def parseAnswer (H : Host) (o : Options) (bs : List UInt8) : Option W :=
  match Chk.Par.parseBytesCst (o.env H) o.conv o.first bs with
  | .error _ => none
  | .ok r => some (putResult H.compat (putSeq H.compat (ofCsts r.syntax')) (extraOf H r))

/-- `UnsafeCharacterEncoding::put`, codeparser-wll/src/convert_wstp.rs:802-807. -/
def putUnsafe (u : Unsafe) : W := W.fn Sym.System_Missing.name 1 ;> W.lit u.missingReason

/-- `match tokenize_bytes(..) { … }`, 661-668, 756-763. -/
def tokensAnswer (H : Host) (o : Options) (bs : List UInt8) : Option W :=
  match Chk.Par.tokenizeBytesWith (Chk.Par.isStatement (o.env H)) (o.env H) o.conv o.first bs with
  | .error _ => none
  | .ok (.ok ts) => some (putTokens H.compat ts)
  | .ok (.error u) => some (W.fn Sym.System_List.name 1 ;> putUnsafe u)

/-- `parse_to_token`, wolfram-parser/src/lib.rs:623-651. -/
def parseToToken (E : Chk.Env) (conv : Conv) (first : FirstLine) (mode : Stringify) (bs : List UInt8) :
    Except Chk.Fail (Tok × Chk.Par.Result) :=
  match (do
      Chk.handleFirstLine E first
      match mode with
      | .normal => Chk.nextToken E Pol.top
      | .tag => Chk.nextTokenTag E
      | .file => Chk.nextTokenFile E : Chk.M Tok) (St.init conv bs) with
  | .error e => .error e
  | .ok (t, s, es) => .ok (t, Chk.Par.resultOf [] s.flag es)

/-- `parse_to_token(..).put(link)`, 867. -/
def leafAnswer (H : Host) (o : Options) (mode : Stringify) (bs : List UInt8) : Option W :=
  match parseToToken (o.env H) o.conv o.first mode bs with
  | .error _ => none
  | .ok (t, r) => some (putResult H.compat (putTokens H.compat [t]) (extraOf H r))

/-- `match safe_string(..) { … }`, 939-942.  The issues that are found on the way are dropped. -/
def safeAnswer (H : Host) (bs : List UInt8) : Option W :=
  match safeString ⟨4, by decide, H.uniAlnum⟩ .lineColumn bs with
  | none => none
  | some (.ok t) => some (W.str t)
  | some (.error u) => some (putUnsafe u)

/-! ### The functions -/

/-- The functions that are exported, as far as they are modelled. -/
inductive Fn where
  | createParserSession | destroyParserSession | roundTripTest | concreteParseBytes | concreteParseFile
  | tokenizeBytes | tokenizeFile | concreteParseLeaf | safeString | tokenIsEmpty
deriving DecidableEq, Repr

/-- `CreateParserSession_LibraryLink`, 133-157: the session is a null pointer, 56-58. -/
def createSession : List Arg → Option W
  | [] => some (W.nat 0)
  | _ => none

/-- `DestroyParserSession_LibraryLink`, 266-288: after the head of the list the next thing on the link
has to be a function (`get_type`), 276-278, and then an integer, 280. -/
def destroySession : List Arg → Option W
  | [a] => do
    match a with
    | .expr (.normal _ _) | .bytes _ => pure ()
    | _ => none
    a.session
    return W.sym .System_Null
  | _ => none

/-- `RoundTripTest_LibraryLink`, 300-326. -/
def roundTrip (H : Host) : List Arg → Option W
  | [a] => do
    let e ← a.get
    match e with
    | .normal (.sym n) _ =>
      if n = cs! "System`Failure" then return W.expr e
      else return (← (containerOf H.f64 e).toOption).put H.compat
    | _ => return (← (containerOf H.f64 e).toOption).put H.compat
  | _ => none

/-- `ConcreteParseBytes_LibraryLink`, 459-477. -/
def parseBytes (H : Host) : List Arg → Option W
  | [s, b, conv, tab, first, quirks] => do
    s.session
    let bs ← b.input
    let o ← optionsOf conv tab first quirks (some true)
    parseAnswer H o bs
  | _ => none

/-- `ConcreteParseFile_LibraryLink`, 543-567. -/
def parseFile (H : Host) : List Arg → Option W
  | [s, p, conv, tab, first, quirks] => do
    s.session
    let path ← p.path
    let o ← optionsOf conv tab first quirks (some true)
    let bs ← H.file path
    parseAnswer H o bs
  | _ => none

/-- `TokenizeBytes_LibraryLink`, 640-669. -/
def tokenizeBytesFn (H : Host) : List Arg → Option W
  | [s, b, conv, tab, first, quirks] => do
    s.session
    let bs ← b.input
    let o ← optionsOf conv tab first quirks (some true)
    tokensAnswer H o bs
  | _ => none

/-- `TokenizeFile_LibraryLink`, 731-764. -/
def tokenizeFileFn (H : Host) : List Arg → Option W
  | [s, p, conv, tab, first, quirks] => do
    s.session
    let path ← p.path
    let o ← optionsOf conv tab first quirks (some true)
    let bs ← H.file path
    tokensAnswer H o bs
  | _ => none

/-- `ConcreteParseLeaf_LibraryLink`, 844-868. -/
def parseLeaf (H : Host) : List Arg → Option W
  | [s, b, mode, conv, tab, first, enc, quirks] => do
    s.session
    let bs ← b.input
    let mode ← mode.int
    let o ← optionsOf conv tab first quirks (← enc.int.map encodingOf)
    leafAnswer H o (← stringifyOf mode) bs
  | _ => none

/-- `SafeString_LibraryLink`, 922-943. -/
def safeStringFn (H : Host) : List Arg → Option W
  | [s, b] => do
    s.session
    safeAnswer H (← b.input)
  | _ => none

/-- `TokenIsEmpty_LibraryLink`, 950-967. -/
def tokenIsEmpty : List Arg → Option W
  | [a] => do
    let k ← (kindOf (← a.get)).toOption
    return W.expr (.sym (if k.isEmpty then cs! "System`True" else cs! "System`False"))
  | _ => none

/-- A call of a function of the library. -/
def serve (H : Host) (f : Fn) (args : List Arg) : W :=
  orPanic <| match f with
  | .createParserSession => createSession args
  | .destroyParserSession => destroySession args
  | .roundTripTest => roundTrip H args
  | .concreteParseBytes => parseBytes H args
  | .concreteParseFile => parseFile H args
  | .tokenizeBytes => tokenizeBytesFn H args
  | .tokenizeFile => tokenizeFileFn H args
  | .concreteParseLeaf => parseLeaf H args
  | .safeString => safeStringFn H args
  | .tokenIsEmpty => tokenIsEmpty args

end Wll
end CodeParser
