import Verif.Spec.Number
import Verif.Spec.CharTokens
/-!
Independent specification of the tokens of a text: it is cut into white space, operators, names,
numbers, strings, comments and characters that stand for themselves.
-/
namespace CodeParser.Spec

/-- `LexesTo bs ks`: the text `bs` is the concatenation of the lexemes `ks`, given by kind and
text, none of which the text that follows it could continue.  Names, strings and operators of one character can
be written with any characters, encoded in UTF-8 or escaped, also behind line continuations; numbers and
operators of several characters, with ASCII characters only. -/
inductive LexesTo : List UInt8 → List (TK × List UInt8) → Prop
  | nil : LexesTo [] []
  | space {r ks} : LexesTo r ks → LexesTo (byte ' ' :: r) ((.Whitespace, [byte ' ']) :: ks)
  | tab {r ks} : LexesTo r ks → LexesTo (byte '\t' :: r) ((.Whitespace, [byte '\t']) :: ks)
  | newline {r ks} : LexesTo r ks → LexesTo (byte '\n' :: r) ((.ToplevelNewline, [byte '\n']) :: ks)
  | operator {c tail k r ks} : Longest c (bytes tail ++ r) tail k → ¬ (c = '(' ∧ Starts '*' (bytes tail ++ r)) →
      ¬ (c = '.' ∧ startsWithDigit (bytes tail ++ r)) → Clear (bytes tail ++ r) →
      (∀ x q, bytes tail ++ r = byte x :: q → x ∈ opInner → Clear q) → LexesTo r ks →
      LexesTo (byte c :: bytes tail ++ r) ((k, byte c :: bytes tail) :: ks)
  | percent {n r ks} : ¬ Starts '%' r → Clear r → LexesTo r ks →
      LexesTo (List.replicate (n + 1) (byte '%') ++ r)
        ((if n = 0 then .Percent else .PercentPercent, List.replicate (n + 1) (byte '%')) :: ks)
  | name {name r ks} : Name name → endsName r → LexesTo r ks → LexesTo (bytes name ++ r) ((.Symbol, bytes name) :: ks)
  | number {l : Literal} {r ks} : l.Valid → l.Ends r → LexesTo r ks → LexesTo (bytes l.text ++ r) ((l.kind, bytes l.text) :: ks)
  | quoted {body r ks} : byte '"' ∉ body → byte '\\' ∉ body → LexesTo r ks →
      LexesTo (byte '"' :: body ++ byte '"' :: r) ((.String, byte '"' :: body ++ [byte '"']) :: ks)
  | comment {body r ks} : commentEnd 1 (body ++ r) = some r → LexesTo r ks →
      LexesTo (byte '(' :: byte '*' :: body ++ r) ((.Comment, byte '(' :: byte '*' :: body) :: ks)
  | lone {text r c k ks} : NextChar (text ++ r) c r → Lone c.point k → k ≠ .EndOfFile → LexesTo r ks →
      LexesTo (text ++ r) ((k, text) :: ks)
  | word {text r ks} : NameAt (text ++ r) .Symbol r → LexesTo r ks → LexesTo (text ++ r) ((.Symbol, text) :: ks)
  | string {text c q r ks} : NextChar (text ++ r) c q → c.point = ch '"' → QuoteEnd q .String r → LexesTo r ks →
      LexesTo (text ++ r) ((.String, text) :: ks)
  | blob {text c q r ks} : NextChar (text ++ r) c q → c.point = .char 0xf7c9 → BlobEnd 0 q .LinearSyntaxBlob r → LexesTo r ks →
      LexesTo (text ++ r) ((.LinearSyntaxBlob, text) :: ks)
  | malformed {text c q r ks} : NextChar (text ++ r) c q → c.point = ch '\\' → MalformedEnd q r → LexesTo r ks →
      LexesTo (text ++ r) ((.Error_UnhandledCharacter, text) :: ks)

end CodeParser.Spec
