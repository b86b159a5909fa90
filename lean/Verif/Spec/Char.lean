import Verif.Model.Char
/-!
Independent specification of escape sequences: what a text following a backslash
stands for, written as a grammar on bytes.
-/
namespace CodeParser.Spec

/-- The value of a hexadecimal digit. -/
def hexDigit (b : UInt8) : Option Nat :=
  if 48 ≤ b.toNat ∧ b.toNat ≤ 57 then some (b.toNat - 48)
  else if 65 ≤ b.toNat ∧ b.toNat ≤ 70 then some (b.toNat - 55)
  else if 97 ≤ b.toNat ∧ b.toNat ≤ 102 then some (b.toNat - 87)
  else none

/-- The value of an octal digit. -/
def octDigit (b : UInt8) : Option Nat :=
  if 48 ≤ b.toNat ∧ b.toNat ≤ 55 then some (b.toNat - 48) else none

/-- `Numeral digit base ds v`: the digits `ds` spell the number `v`. -/
inductive Numeral (digit : UInt8 → Option Nat) (base : Nat) : List UInt8 → Nat → Prop
  | nil : Numeral digit base [] 0
  | snoc {ds v b d} : Numeral digit base ds v → digit b = some d →
      Numeral digit base (ds ++ [b]) (v * base + d)

/-- Unicode scalar values. -/
def IsScalar (n : Nat) : Prop := n < 0xd800 ∨ (0xdfff < n ∧ n < 0x110000)

/-- Unicode surrogates. -/
def IsSurrogate (n : Nat) : Prop := 0xd800 ≤ n ∧ n ≤ 0xdfff

/-- The character denoted by a scalar value written numerically: the double quote
and the backslash are the "string meta" characters. -/
def canon (n : Nat) : CP :=
  if n = 34 then .metaDoubleQuote else if n = 92 then .metaBackslash else .char n

/-- The escapes made of one ASCII character other than the line terminators. -/
def singleEscapes : List (Char × CP) :=
  [('"', .metaDoubleQuote), ('<', .metaOpen), ('>', .metaClose), ('\\', .metaBackslash),
   ('b', .metaBackspace), ('f', .metaFormFeed), ('n', .metaLineFeed),
   ('r', .metaCarriageReturn), ('t', .metaTab),
   (')', .char 0xf7c0), ('!', .char 0xf7c1), ('@', .char 0xf7c2), ('%', .char 0xf7c5),
   ('^', .char 0xf7c6), ('&', .char 0xf7c7), ('*', .char 0xf7c8), ('(', .char 0xf7c9),
   ('_', .char 0xf7ca), ('+', .char 0xf7cb), ('/', .char 0xf7cc), ('`', .char 0xf7cd),
   (' ', .linearSyntaxSpace)]

/-- The byte of an ASCII character. -/
def byte (c : Char) : UInt8 := UInt8.ofNat c.toNat

/-- The bytes of an ASCII text. -/
def bytes (cs : List Char) : List UInt8 := cs.map byte

/-- `Escapes r p e rest`: the text `r` behind a backslash starts with an escape for
the character `p`, written in the style `e`, and `rest` is what follows it. -/
inductive Escapes : List UInt8 → CP → Escape → List UInt8 → Prop
  | single {c p rest} : (c, p) ∈ singleEscapes → Escapes (byte c :: rest) p .single rest
  | lineFeed {rest} : Escapes (10 :: rest) .contLF .single rest
  | carriageReturn {rest} : rest.head? ≠ some 10 → Escapes (13 :: rest) .contCR .single rest
  | crlf {rest} : Escapes (13 :: 10 :: rest) .contCRLF .single rest
  | hex2 {ds v rest} : ds.length = 2 → Numeral hexDigit 16 ds v →
      Escapes (byte '.' :: (ds ++ rest)) (canon v) .hex2 rest
  | hex4 {ds v rest} : ds.length = 4 → Numeral hexDigit 16 ds v → IsScalar v →
      Escapes (byte ':' :: (ds ++ rest)) (canon v) .hex4 rest
  | hex6 {ds v rest} : ds.length = 6 → Numeral hexDigit 16 ds v → IsScalar v →
      Escapes (byte '|' :: (ds ++ rest)) (canon v) .hex6 rest
  | octal {ds v rest} : ds.length = 3 → Numeral octDigit 8 ds v →
      Escapes (ds ++ rest) (canon v) .octal rest
  | raw {name p rest} : (name, p) ∈ longNameTable → name ∈ rawSet →
      Escapes (byte '[' :: (bytes name ++ byte ']' :: rest)) p .raw rest
  | longName {name p rest} : (name, p) ∈ longNameTable → name ∉ rawSet →
      Escapes (byte '[' :: (bytes name ++ byte ']' :: rest)) p .longName rest

/-- The text `r` behind a backslash spells a surrogate. -/
inductive SurrogateEscape : List UInt8 → Prop
  | hex4 {ds v rest} : ds.length = 4 → Numeral hexDigit 16 ds v → IsSurrogate v →
      SurrogateEscape (byte ':' :: (ds ++ rest))
  | hex6 {ds v rest} : ds.length = 6 → Numeral hexDigit 16 ds v → IsSurrogate v →
      SurrogateEscape (byte '|' :: (ds ++ rest))

/-- Somewhere in the text there is a backslash followed by the numeric escape of a
surrogate. -/
def HasSurrogateEscape (bs : List UInt8) : Prop :=
  ∃ pre r, bs = pre ++ byte '\\' :: r ∧ SurrogateEscape r

end CodeParser.Spec
