import Verif.Model.Cst
import Verif.Model.Issues
import Verif.Model.Gen.Symbols
/-!
Abstract syntax trees: model of ast.rs.  Line numbers refer to that file.
-/
namespace CodeParser

/-- A source span, as pair of start and end (`Span`, source.rs:403-407). -/
abbrev ASrc : Type := Loc × Loc

/-- `AbstractSyntaxError`, 102-112. -/
inductive AbstractError where
  | CommaTopLevel | OpenParen | OpenSquare | ColonColonOpenSquare | LeftDoubleBracket
  | NonAssociativePatternTest | LinearSyntaxBang | ExpectedTilde
deriving DecidableEq, Repr

/-- The `IssueTag`s (issue.rs) abstraction uses. -/
inductive AIssueTag where
  | PrefixNotNot | SyntaxUndocumentedMessageName | StrangeCall | StrangeCallSlotSequence
deriving DecidableEq, Repr

/-- `Issue`, issue.rs:12-23, as far as abstraction creates them.  Simplification: the message,
the confidence and the additional descriptions, which are constants, are left out. -/
structure AIssue where
  tag : AIssueTag
  sev : Severity
  src : ASrc
  more : List ASrc
deriving DecidableEq, Repr

/-- `AstMetadata`, 94-98.  A source is `none` if it is unknown; box positions only come from
boxes and are not modelled. -/
structure AMeta where
  source : Option ASrc
  issues : List AIssue
deriving DecidableEq, Repr

/-- `AstMetadata::from_src`, 330-337, and `From<S>`, 370-377. -/
def AMeta.of (s : ASrc) : AMeta := ⟨some s, []⟩

/-- `AstMetadata::empty`, 340-345. -/
def AMeta.none : AMeta := ⟨Option.none, []⟩

/-- `Ast`, 15-91.  Left out are `Box`, `Code`, `Group` and `TagBox_GroupParen`, which only come
from boxes. -/
inductive Ast where
  | leaf (kind : TK) (text : List UInt8) (data : AMeta)
  | error (kind : TK) (text : List UInt8) (data : AMeta)
  | call (head : Ast) (args : List Ast) (data : AMeta)
  | callMissing (head : Ast) (args : List Ast) (data : AMeta)
  | syntaxError (kind : SyntaxErrorKind) (args : List Ast) (data : AMeta)
  | abstractError (kind : AbstractError) (args : List Ast) (data : AMeta)
  | missingCloser (kind : GroupOp) (args : List Ast) (data : AMeta)
  | missingOpener (kind : GroupOp) (args : List Ast) (data : AMeta)
  | linearBang (rator rand : Ast) (data : AMeta)
deriving Repr

/-- The bytes of a text. -/
def utf8 (cs : List Char) : List UInt8 := cs.flatMap String.utf8EncodeChar

/-- `Symbol::symbol_name` of crate wolfram-expr: the part behind the last backquote. -/
def afterTick : List Char → List Char
  | [] => []
  | c :: cs => if cs.contains '`' then afterTick cs else if c = '`' then cs else c :: cs

/-- `symbol_name` of a symbol. -/
def Sym.short (s : Sym) : List UInt8 := utf8 (afterTick s.name)

/-- The text of a symbol in `Ast::symbol_with_data`, 204-230: the name, with its context unless
that is `` System` ``. -/
def Sym.text (s : Sym) : List UInt8 :=
  let n := s.name
  if n = ['S','y','s','t','e','m','`'] ++ afterTick n then utf8 (afterTick n) else utf8 n

/-- The decimal digits of a number, as `to_string` gives them. -/
def decimal (n : Nat) : List UInt8 := utf8 (Nat.toDigits 10 n)

namespace Ast

/-- `Ast::metadata`, 181-197. -/
def data : Ast → AMeta
  | .leaf _ _ d | .error _ _ d | .call _ _ d | .callMissing _ _ d | .syntaxError _ _ d
  | .abstractError _ _ d | .missingCloser _ _ d | .missingOpener _ _ d | .linearBang _ _ d => d

/-- `Ast::symbol`, 200-202, and `Ast::symbol_with_data`, 204-230. -/
def symbol (s : Sym) (d : AMeta := AMeta.none) : Ast := .leaf .Symbol s.text d

/-- `Ast::i64`, 232-234, and `Ast::i64_with_data`, 236-245, of a number that is not negative,
and `Ast::usize`, 247-253. -/
def nat (n : Nat) (d : AMeta := AMeta.none) : Ast := .leaf .Integer (decimal n) d

/-- `Ast::i64`, 232-234, of `-n`. -/
def neg (n : Nat) : Ast := .leaf .Integer (if n = 0 then decimal 0 else 45 :: decimal n) AMeta.none

/-- `Ast::string`, 255-261. -/
def string (t : List UInt8) (d : AMeta) : Ast := .leaf .String t d

/-- `Ast::call`, 263-273. -/
def callS (s : Sym) (args : List Ast) (d : AMeta) : Ast := .call (symbol s) args d

end Ast
end CodeParser
