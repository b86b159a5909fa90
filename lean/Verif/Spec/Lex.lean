import Verif.Spec.Token
/-!
Independent specification of the lexical grammar for ASCII text written without escapes:
operators, names, numbers.
-/
namespace CodeParser.Spec

/-- The operators and punctuation that start with a character: what follows that character,
and the kind of token. -/
def operators : Char → List (List Char × TK)
  | ',' => [([], .Comma)]
  | '[' => [([], .OpenSquare)]
  | ']' => [([], .CloseSquare)]
  | '{' => [([], .OpenCurly)]
  | '}' => [([], .CloseCurly)]
  | '(' => [([], .OpenParen)]
  | ')' => [([], .CloseParen)]
  | '\'' => [([], .SingleQuote)]
  | ':' => [([], .Colon), ([':'], .ColonColon), ([':', '['], .ColonColonOpenSquare), (['='], .ColonEqual),
      (['>'], .ColonGreater)]
  | '.' => [([], .Dot), (['.'], .DotDot), (['.', '.'], .DotDotDot)]
  | '=' => [([], .Equal), (['='], .EqualEqual), (['=', '='], .EqualEqualEqual), (['!', '='], .EqualBangEqual)]
  | '_' => [([], .Under), (['_'], .UnderUnder), (['_', '_'], .UnderUnderUnder), (['.'], .UnderDot)]
  | '<' => [([], .Less), (['|'], .LessBar), (['<'], .LessLess), (['>'], .LessGreater), (['='], .LessEqual),
      (['-', '>'], .LessMinusGreater)]
  | '>' => [([], .Greater), (['>'], .GreaterGreater), (['>', '>'], .GreaterGreaterGreater), (['='], .GreaterEqual)]
  | '-' => [([], .Minus), (['>'], .MinusGreater), (['-'], .MinusMinus), (['='], .MinusEqual)]
  | '|' => [([], .Bar), (['>'], .BarGreater), (['|'], .BarBar), (['-', '>'], .BarMinusGreater)]
  | ';' => [([], .Semi), ([';'], .SemiSemi)]
  | '#' => [([], .Hash), (['#'], .HashHash)]
  | '&' => [([], .Amp), (['&'], .AmpAmp)]
  | '~' => [([], .Tilde), (['~'], .TildeTilde)]
  | '?' => [([], .Question), (['?'], .QuestionQuestion)]
  | '!' => [([], .Bang), (['='], .BangEqual), (['!'], .BangBang)]
  | '/' => [([], .Slash), (['@'], .SlashAt), ([';'], .SlashSemi), (['.'], .SlashDot), (['/'], .SlashSlash),
      (['/', '.'], .SlashSlashDot), (['/', '@'], .SlashSlashAt), (['/', '='], .SlashSlashEqual),
      ([':'], .SlashColon), (['='], .SlashEqual), (['*'], .SlashStar)]
  | '@' => [([], .At), (['@'], .AtAt), (['@', '@'], .AtAtAt), (['*'], .AtStar)]
  | '+' => [([], .Plus), (['+'], .PlusPlus), (['='], .PlusEqual)]
  | '*' => [([], .Star), (['='], .StarEqual), (['*'], .StarStar), ([')'], .Error_UnexpectedCommentCloser)]
  | '^' => [([], .Caret), (['='], .CaretEqual), ([':', '='], .CaretColonEqual), ([':'], .Error_ExpectedEqual)]
  | _ => []

/-- The byte of a decimal digit. -/
def isDigitByte (b : UInt8) : Bool := 48 ≤ b.toNat && b.toNat ≤ 57

/-- The text starts with a decimal digit. -/
def startsWithDigit (r : List UInt8) : Prop := ∃ b q, r = b :: q ∧ isDigitByte b = true

/-- The operator made of `c` and `tail` is written at the beginning of `c` followed by `r`.  A dot
behind a slash that is followed by a digit belongs to a number, not to the operator `/.`. -/
def Written (c : Char) (tail : List Char) (r : List UInt8) : Prop :=
  ∃ q, r = bytes tail ++ q ∧ ¬ (c = '/' ∧ tail = ['.'] ∧ startsWithDigit q)

/-- Of the operators written at the beginning of `c` followed by `r`, the one made of `c` and
`tail`, of kind `k`, is the longest. -/
structure Longest (c : Char) (r : List UInt8) (tail : List Char) (k : TK) : Prop where
  known : (tail, k) ∈ operators c
  written : Written c tail r
  longest : ∀ tail' k', (tail', k') ∈ operators c → Written c tail' r → tail'.length ≤ tail.length

/-- The characters that another one can follow in an operator of more than two characters, or that have
to be looked behind. -/
def opInner : List Char := [':', '=', '!', '_', '-', '>', '@', '.', '/']

/-- The number of percent signs at the beginning of a text. -/
def percents : List UInt8 → Nat
  | [] => 0
  | b :: r => if b = byte '%' then percents r + 1 else 0

end CodeParser.Spec

namespace CodeParser.Spec

/-- ASCII letters and the dollar sign, which a segment of a name can start with. -/
def isNameStart (n : Nat) : Bool := (65 ≤ n && n ≤ 90) || (97 ≤ n && n ≤ 122) || n == 36

/-- ASCII letters, digits and the dollar sign, which a segment of a name is made of. -/
def isNameChar (n : Nat) : Bool := isNameStart n || (48 ≤ n && n ≤ 57)

/-- A segment of a name: a letter or dollar sign followed by letters, digits and dollar signs. -/
def Segment (cs : List Char) : Prop := ∃ c q, cs = c :: q ∧ isNameStart c.toNat = true ∧
  ∀ x ∈ q, isNameChar x.toNat = true

/-- The text of segments, each behind a backquote. -/
def contexts (segs : List (List Char)) : List Char := segs.flatMap fun s => '`' :: s

/-- `Name cs`: a name, possibly with contexts and possibly starting with a backquote. -/
inductive Name : List Char → Prop
  | plain {seg segs} : Segment seg → (∀ s ∈ segs, Segment s) → Name (seg ++ contexts segs)
  | relative {segs} : segs ≠ [] → (∀ s ∈ segs, Segment s) → Name (contexts segs)

/-- The text can not continue a name: it is empty or starts with an ASCII character that is
no letter, digit, dollar sign, backquote or backslash, and no control character (which count
as letters, except for white space and the bell). -/
def endsName (r : List UInt8) : Prop := ∀ b q, r = b :: q → b.toNat < 128 ∧
  isNameChar b.toNat = false ∧ b ≠ byte '`' ∧ b ≠ byte '\\' ∧ (32 ≤ b.toNat ∨ (7 ≤ b.toNat ∧ b.toNat ≤ 13 ∧ b.toNat ≠ 8))

end CodeParser.Spec
