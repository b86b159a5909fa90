import Verif.Spec.Chars
import Verif.Spec.Lex
/-!
# Specification: tokens made of characters that can be written in several ways

Used to state C57–C61.  The characters are those of `NextChar`: encoded in UTF-8 or escaped, with any
line continuations in front of them.
-/
namespace CodeParser.Spec

/-- The tokens of linear syntax, which is written with a backslash: `\!`, `\)`, `\@`, … and their code
points. -/
def linearSyntax : List (CP × TK) :=
  [(.char 0xf7c0, .LinearSyntax_CloseParen), (.char 0xf7c1, .LinearSyntax_Bang), (.char 0xf7c2, .LinearSyntax_At),
   (.char 0xf7c5, .LinearSyntax_Percent), (.char 0xf7c6, .LinearSyntax_Caret), (.char 0xf7c7, .LinearSyntax_Amp),
   (.char 0xf7c8, .LinearSyntax_Star), (.char 0xf7ca, .LinearSyntax_Under), (.char 0xf7cb, .LinearSyntax_Plus),
   (.char 0xf7cc, .LinearSyntax_Slash), (.char 0xf7cd, .LinearSyntax_BackTick),
   (.linearSyntaxSpace, .LinearSyntax_Space)]

/-- Characters that are written with a backslash in strings, and mean nothing outside of them. -/
def stringMeta : List CP :=
  [.metaOpen, .metaClose, .metaBackslash, .metaDoubleQuote, .metaBackspace, .metaFormFeed, .metaLineFeed,
   .metaCarriageReturn, .metaTab]

/-- ASCII characters that are a token by themselves. -/
def single : List (Char × TK) :=
  [(',', .Comma), ('[', .OpenSquare), (']', .CloseSquare), ('{', .OpenCurly), ('}', .CloseCurly), (')', .CloseParen),
   ('\'', .SingleQuote)]

/-- `Lone p k`: the character `p` is a token of kind `k` by itself.  An operator that is written as one
character outside of ASCII has the kind named after the long name of the character. -/
inductive Lone : CP → TK → Prop
  | operator {n : Nat} {name : List Char} {k} : n ∈ mbPunctuationTable → (name, CP.char n) ∈ longNameTable →
      k.name = "LongName_".toList ++ name → Lone (.char n) k
  | linear {p k} : (p, k) ∈ linearSyntax → Lone p k
  | white {n} : n ∈ [0x20, 0x09, 0x0b, 0x0c, 0xf3a2] ∨ n ∈ mbWhitespaceTable → Lone (.char n) .Whitespace
  | newline {p} : p ∈ [.char 0x0a, .char 0x0d] ∨ p ∈ mbNewlineTable → Lone p .ToplevelNewline
  | single {x k} : (x, k) ∈ single → Lone (ch x) k
  | unhandled {n} : n ∈ [0x07, 0x7f] ∨ n ∈ mbUninterpretableTable → Lone (.char n) .Error_UnhandledCharacter
  | stringMeta {p} : p ∈ stringMeta → Lone p .Error_UnhandledCharacter
  | eof : Lone .eof .EndOfFile

/-- Letters: the letters of ASCII, the dollar sign, control characters other than white space, bell and
delete, and every character outside of ASCII that is no operator, white space or line break, no
character of linear syntax, and not one of those that can not be interpreted. -/
def Letter : CP → Prop
  | .char n => if n < 0x80 then isNameStart n = true ∨ n ≤ 6 ∨ n = 8 ∨ 0x0e ≤ n ∧ n ≤ 0x1f
      else n ∉ mbPunctuationTable ∧ n ≠ 0xf3a2 ∧ n ∉ mbWhitespaceTable ∧ .char n ∉ mbNewlineTable ∧
        n ∉ mbUninterpretableTable ∧ n ≠ 0xf7c9 ∧ ∀ e ∈ linearSyntax, CP.char n ≠ e.1
  | _ => False

/-- Decimal digits. -/
def Digit : CP → Prop
  | .char n => 0x30 ≤ n ∧ n ≤ 0x39
  | _ => False

/-- `WordEnd bs c r`: the text `bs` starts with letters and digits; behind them, at `r`, is the
character `c`, which is neither. -/
inductive WordEnd : List UInt8 → WLC → List UInt8 → Prop
  | stop {bs c r} : NextChar bs c r → ¬ Letter c.point → ¬ Digit c.point → WordEnd bs c bs
  | char {bs x q c r} : NextChar bs x q → Letter x.point ∨ Digit x.point → WordEnd q c r → WordEnd bs c r

/-- `NameEnd bs k r`: what continues a name is the text `bs` up to `r`; `k` is the kind of the whole. -/
inductive NameEnd : List UInt8 → TK → List UInt8 → Prop
  | stop {bs c r} : WordEnd bs c r → c.point ≠ ch '`' → NameEnd bs .Symbol r
  | context {bs c r q d q' k r'} : WordEnd bs c r → c.point = ch '`' → NextChar r c q → NextChar q d q' →
      Letter d.point → NameEnd q' k r' → NameEnd bs k r'
  | bad {bs c r q d q'} : WordEnd bs c r → c.point = ch '`' → NextChar r c q → NextChar q d q' →
      ¬ Letter d.point → NameEnd bs .Error_ExpectedLetterlike q

/-- `NameAt bs k r`: at `bs` is a name, with or without contexts; `r` follows it.  Where no letter is
behind a backquote, it is an error. -/
inductive NameAt : List UInt8 → TK → List UInt8 → Prop
  | letter {bs c q k r} : NextChar bs c q → Letter c.point → NameEnd q k r → NameAt bs k r
  | context {bs c q d q' k r} : NextChar bs c q → c.point = ch '`' → NextChar q d q' → Letter d.point →
      NameEnd q' k r → NameAt bs k r
  | bad {bs c q d q'} : NextChar bs c q → c.point = ch '`' → NextChar q d q' → ¬ Letter d.point →
      NameAt bs .Error_ExpectedLetterlike q

/-- `QuoteEnd bs k r`: the text `bs`, inside of a string, reaches up to `r`, behind the closing quote, or
where the text ends. -/
inductive QuoteEnd : List UInt8 → TK → List UInt8 → Prop
  | close {bs c r} : NextChar bs c r → c.point = ch '"' → QuoteEnd bs .String r
  | eof {bs c r} : NextChar bs c r → c.point = .eof → QuoteEnd bs .Error_UnterminatedString r
  | other {bs c q k r} : NextChar bs c q → c.point ≠ ch '"' → c.point ≠ .eof → QuoteEnd q k r → QuoteEnd bs k r

/-- `TagAt bs k r`: what is written at `bs`, behind `::`, is a tag; `r` follows it.  A tag is a string or
a word, together with a backquote that follows it; anything else than a word or string is an error, and nothing
of it belongs to the tag. -/
inductive TagAt : List UInt8 → TK → List UInt8 → Prop
  | word {bs c q d r} : NextChar bs c q → Letter c.point → WordEnd q d r → d.point ≠ ch '`' → TagAt bs .String r
  | backquote {bs c q d r r'} : NextChar bs c q → Letter c.point → WordEnd q d r → d.point = ch '`' →
      NextChar r d r' → TagAt bs .String r'
  | string {bs c q k r} : NextChar bs c q → c.point = ch '"' → QuoteEnd q k r → TagAt bs k r
  | none {bs c q} : NextChar bs c q → ¬ Letter c.point → c.point ≠ ch '"' → TagAt bs .Error_ExpectedTag bs

/-- `BlobEnd d bs k r`: inside of `d + 1` open `\(`, the text `bs` reaches up to `r`, where all of them
are closed, or where the text ends. -/
inductive BlobEnd : Nat → List UInt8 → TK → List UInt8 → Prop
  | close {bs c r} : NextChar bs c r → c.point = .char 0xf7c0 → BlobEnd 0 bs .LinearSyntaxBlob r
  | eof {d bs c r} : NextChar bs c r → c.point = .eof → BlobEnd d bs .Error_UnterminatedLinearSyntaxBlob r
  | up {d bs c q k r} : NextChar bs c q → c.point = .char 0xf7c9 → BlobEnd (d + 1) q k r → BlobEnd d bs k r
  | down {d bs c q k r} : NextChar bs c q → c.point = .char 0xf7c0 → BlobEnd d q k r → BlobEnd (d + 1) bs k r
  | other {d bs c q k r} : NextChar bs c q → c.point ≠ .char 0xf7c9 → c.point ≠ .char 0xf7c0 → c.point ≠ .eof →
      BlobEnd d q k r → BlobEnd d bs k r

/-! ### Names of files -/

/-- `SourceAt bs p r`: the text `bs` starts with the character `p`, encoded in UTF-8, and `r` follows it;
a backslash is a character like any other. -/
inductive SourceAt : List UInt8 → CP → List UInt8 → Prop
  | eof : SourceAt [] .eof []
  | plain {c : Char} {r} : c.toNat ≠ 0xfeff → (c = '\r' → r.head? ≠ some 10) →
      SourceAt (String.utf8EncodeChar c ++ r) (ch c) r
  | crlf {r} : SourceAt (13 :: 10 :: r) .crlf r

/-- The characters of the name of a file that is not quoted. -/
def FileChar (p : CP) : Prop := ∃ c : Char, p = ch c ∧
  ('a' ≤ c ∧ c ≤ 'z' ∨ 'A' ≤ c ∧ c ≤ 'Z' ∨ '0' ≤ c ∧ c ≤ '9' ∨ c ∈ "`/.\\!-_:*~?".toList)

/-- Line breaks in ASCII. -/
def LineBreak (p : CP) : Prop := p = ch '\n' ∨ p = ch '\r' ∨ p = .crlf

/-- Characters that can not be in the brackets of the name of a file: white space, line breaks and the end
of the text. -/
def FileBreak (p : CP) : Prop := White p ∨ LineBreak p ∨ p = .eof ∨ p = .char 0xf3a2 ∨ p ∈ mbNewlineTable ∨
  ∃ n ∈ mbWhitespaceTable, p = .char n

/-- `BracketsEnd d bs ok r`: inside of `d + 1` open brackets, the text `bs` reaches up to `r`, where all
of them are closed (`ok`), or where white space is in the way. -/
inductive BracketsEnd : Nat → List UInt8 → Bool → List UInt8 → Prop
  | close {bs r} : SourceAt bs (ch ']') r → BracketsEnd 0 bs true r
  | broken {d bs p r} : SourceAt bs p r → FileBreak p → BracketsEnd d bs false bs
  | up {d bs q ok r} : SourceAt bs (ch '[') q → BracketsEnd (d + 1) q ok r → BracketsEnd d bs ok r
  | down {d bs q ok r} : SourceAt bs (ch ']') q → BracketsEnd d q ok r → BracketsEnd (d + 1) bs ok r
  | other {d bs p q ok r} : SourceAt bs p q → p ≠ ch '[' → p ≠ ch ']' → ¬ FileBreak p → BracketsEnd d q ok r →
      BracketsEnd d bs ok r

/-- `FileEnd bs ok r`: what continues the name of a file is the text `bs` up to `r`. -/
inductive FileEnd : List UInt8 → Bool → List UInt8 → Prop
  | stop {bs p q} : SourceAt bs p q → ¬ FileChar p → p ≠ ch '[' → FileEnd bs true bs
  | char {bs p q ok r} : SourceAt bs p q → FileChar p → FileEnd q ok r → FileEnd bs ok r
  | brackets {bs q q' ok r} : SourceAt bs (ch '[') q → BracketsEnd 0 q true q' → FileEnd q' ok r → FileEnd bs ok r
  | broken {bs q r} : SourceAt bs (ch '[') q → BracketsEnd 0 q false r → FileEnd bs false r

/-- The kind of the name of a file. -/
def fileKind (ok : Bool) : TK := if ok then .String else .Error_UnterminatedFileString

/-- `FileAt bs k r`: what is written at `bs`, where the name of a file is expected, is a token of kind `k`;
`r` follows it. -/
inductive FileAt : List UInt8 → TK → List UInt8 → Prop
  | name {bs p q ok r} : SourceAt bs p q → FileChar p ∨ p = ch '$' → FileEnd q ok r → FileAt bs (fileKind ok) r
  | brackets {bs q q' ok r} : SourceAt bs (ch '[') q → BracketsEnd 0 q true q' → FileEnd q' ok r →
      FileAt bs (fileKind ok) r
  | broken {bs q r} : SourceAt bs (ch '[') q → BracketsEnd 0 q false r → FileAt bs .Error_UnterminatedFileString r
  | string {bs q k r} : SourceAt bs (ch '"') q → QuoteEnd q k r → FileAt bs k r
  | newline {bs p r} : SourceAt bs p r → LineBreak p → FileAt bs .ToplevelNewline r
  | white {bs p r} : SourceAt bs p r → p = ch ' ' ∨ p = ch '\t' → FileAt bs .Whitespace r
  | none {bs p r} : SourceAt bs p r → ¬ FileChar p → p ≠ ch '$' → p ≠ ch '[' → p ≠ ch '"' → ¬ LineBreak p →
      p ≠ ch ' ' → p ≠ ch '\t' → FileAt bs .Error_ExpectedFile bs

/-! ### Backslashes that start no escape -/

/-- Hexadecimal digits. -/
def Hex (p : CP) : Prop := ∃ c : Char, p = ch c ∧ ('0' ≤ c ∧ c ≤ '9' ∨ 'a' ≤ c ∧ c ≤ 'f' ∨ 'A' ≤ c ∧ c ≤ 'F')

/-- Octal digits. -/
def Octal (p : CP) : Prop := ∃ c : Char, p = ch c ∧ '0' ≤ c ∧ c ≤ '7'

/-- Upper case letters of ASCII. -/
def Upper (p : CP) : Prop := ∃ c : Char, p = ch c ∧ 'A' ≤ c ∧ c ≤ 'Z'

/-- Letters and digits of ASCII. -/
def Alnum (p : CP) : Prop := ∃ c : Char, p = ch c ∧ ('0' ≤ c ∧ c ≤ '9' ∨ 'a' ≤ c ∧ c ≤ 'z' ∨ 'A' ≤ c ∧ c ≤ 'Z')

/-- `DigitsEnd dig n bs r`: the text `bs` up to `r` is fewer than `n` digits, or `n` digits and one
more character. -/
inductive DigitsEnd (dig : CP → Prop) : Nat → List UInt8 → List UInt8 → Prop
  | all {bs c r} : NextChar bs c r → DigitsEnd dig 0 bs r
  | stop {n bs c r} : NextChar bs c r → ¬ dig c.point → DigitsEnd dig (n + 1) bs bs
  | digit {n bs c q r} : NextChar bs c q → dig c.point → DigitsEnd dig n q r → DigitsEnd dig (n + 1) bs r

/-- `BracketedEnd bs r`: the text `bs` up to `r` is letters and digits, together with a closing bracket
that follows them. -/
inductive BracketedEnd : List UInt8 → List UInt8 → Prop
  | close {bs c r} : NextChar bs c r → c.point = ch ']' → BracketedEnd bs r
  | stop {bs c r} : NextChar bs c r → ¬ Alnum c.point → c.point ≠ ch ']' → BracketedEnd bs bs
  | char {bs c q r} : NextChar bs c q → Alnum c.point → BracketedEnd q r → BracketedEnd bs r

/-- `MalformedEnd bs r`: behind a backslash that starts no escape, the text `bs` up to `r` is what looks
like the rest of an escape, or else one character. -/
inductive MalformedEnd : List UInt8 → List UInt8 → Prop
  | name {bs c q d q' r} : NextChar bs c q → c.point = ch '[' → NextChar q d q' → Upper d.point →
      BracketedEnd q' r → MalformedEnd bs r
  | bracket {bs c q d r} : NextChar bs c q → c.point = ch '[' → NextChar q d r → ¬ Upper d.point → MalformedEnd bs r
  | hex4 {bs c q r} : NextChar bs c q → c.point = ch ':' → DigitsEnd Hex 4 q r → MalformedEnd bs r
  | hex2 {bs c q r} : NextChar bs c q → c.point = ch '.' → DigitsEnd Hex 2 q r → MalformedEnd bs r
  | hex6 {bs c q r} : NextChar bs c q → c.point = ch '|' → DigitsEnd Hex 6 q r → MalformedEnd bs r
  | octal {bs c q r} : NextChar bs c q → Octal c.point → DigitsEnd Octal 3 q r → MalformedEnd bs r
  | other {bs c r} : NextChar bs c r → c.point ≠ ch '[' → c.point ≠ ch ':' → c.point ≠ ch '.' → c.point ≠ ch '|' →
      ¬ Octal c.point → MalformedEnd bs r

end CodeParser.Spec
