import Verif.Spec.Lex
import Verif.Spec.Chars
/-!
Independent specification of number literals: their parts, how they are written, what they are.
-/
namespace CodeParser.Spec

/-- A decimal digit. -/
def isDec (c : Char) : Bool := 48 ≤ c.toNat && c.toNat ≤ 57

/-- A letter or a decimal digit. -/
def isAlnum (c : Char) : Bool := isDec c || (65 ≤ c.toNat && c.toNat ≤ 90) || (97 ≤ c.toNat && c.toNat ≤ 122)

/-- The value of a digit; letters count from ten. -/
def digit (c : Char) : Nat :=
  if isDec c then c.toNat - 48 else if c.toNat ≤ 90 then c.toNat - 65 + 10 else c.toNat - 97 + 10

/-- The value of a sequence of decimal digits. -/
def decimalValue (ds : List Char) : Nat := ds.foldl (fun n c => 10 * n + digit c) 0

/-- Digits, possibly with a radix point and digits behind it. -/
structure Digits where
  int : List Char
  frac : Option (List Char) := none

/-- How digits are written. -/
def Digits.text (d : Digits) : List Char := d.int ++ (match d.frac with | none => [] | some f => '.' :: f)

/-- All digits. -/
def Digits.all (d : Digits) : List Char := d.int ++ d.frac.getD []

/-- There is a digit, and all of them satisfy `p`. -/
def Digits.Ok (p : Char → Bool) (d : Digits) : Prop := d.all ≠ [] ∧ ∀ c ∈ d.all, p c = true

inductive Sign where
  | plus
  | minus

def signText : Option Sign → List Char
  | none => []
  | some .plus => ['+']
  | some .minus => ['-']

/-- The precision of a number: a lone backquote, or one backquote (a precision) or two (an
accuracy) with a number. -/
inductive Precision where
  | machine
  | given (accuracy : Bool) (sign : Option Sign) (value : Digits)

def precisionText : Option Precision → List Char
  | none => []
  | some .machine => ['`']
  | some (.given false s v) => '`' :: (signText s ++ v.text)
  | some (.given true s v) => '`' :: '`' :: (signText s ++ v.text)

/-- The exponent behind `*^`. -/
structure Exponent where
  sign : Option Sign := none
  digits : List Char

def exponentText : Option Exponent → List Char
  | none => []
  | some e => '*' :: '^' :: (signText e.sign ++ e.digits)

/-- A number literal. -/
structure Literal where
  base : Option (List Char) := none
  mantissa : Digits
  precision : Option Precision := none
  exponent : Option Exponent := none

def baseText : Option (List Char) → List Char
  | none => []
  | some b => b ++ ['^', '^']

/-- How a number is written. -/
def Literal.text (l : Literal) : List Char :=
  baseText l.base ++ (l.mantissa.text ++ (precisionText l.precision ++ exponentText l.exponent))

/-- Letters are digits of the mantissa: there is a base, and it is neither zero nor of three or
more digits, leading zeros apart. -/
def Literal.letters (l : Literal) : Bool :=
  match l.base with
  | none => false
  | some b => decide (1 ≤ decimalValue b ∧ decimalValue b ≤ 99)

/-- The digits are where they have to be. -/
structure Literal.Valid (l : Literal) : Prop where
  base : ∀ b, l.base = some b → b ≠ [] ∧ ∀ c ∈ b, isDec c = true
  mantissa : l.mantissa.Ok (fun c => isDec c || (l.letters && isAlnum c))
  precision : ∀ a s v, l.precision = some (.given a s v) → v.Ok isDec
  exponent : ∀ e, l.exponent = some e → e.digits ≠ [] ∧ ∀ c ∈ e.digits, isDec c = true

/-- A base is given that does not exist, or a digit is too large for the base. -/
def Literal.badDigits (l : Literal) : Prop :=
  ∃ b, l.base = some b ∧ (decimalValue b < 2 ∨ 36 < decimalValue b ∨ ∃ c ∈ l.mantissa.all, decimalValue b ≤ digit c)

/-- It is written with a radix point or a precision. -/
def Literal.isReal (l : Literal) : Prop := l.mantissa.frac.isSome = true ∨ l.precision.isSome = true

/-- It has a negative exponent, other than minus zero. -/
def Literal.isRational (l : Literal) : Prop :=
  ∃ e, l.exponent = some e ∧ e.sign = some .minus ∧ ∃ c ∈ e.digits, c ≠ '0'

open Classical in
/-- The kind of the token. -/
noncomputable def Literal.kind (l : Literal) : TK :=
  if l.badDigits then .Error_Number
  else if l.isReal then .Real
  else if l.isRational then .Rational
  else .Integer

/-- The number ends with a backquote. -/
def Literal.endsWithQuote (l : Literal) : Prop := (∃ p, l.precision = some p ∧ precisionText (some p) = ['`']) ∧ l.exponent = none

/-- The text starts with the character. -/
def Starts (c : Char) (r : List UInt8) : Prop := ∃ q, r = byte c :: q

/-- The text `r` can not continue the number. -/
structure Literal.Ends (l : Literal) (r : List UInt8) : Prop where
  escape : Clear r
  digit : ∀ c, isDec c = true → ¬ Starts c r
  letter : ∀ c, l.base ≠ none → isAlnum c = true → ¬ Starts c r
  dot : ¬ Starts '.' r
  quote : ¬ Starts '`' r
  star : ∀ q, r = byte '*' :: q → ¬ Starts '^' q ∧ Clear q
  caret : ∀ q, r = byte '^' :: q → ¬ Starts '^' q ∧ Clear q
  sign : l.endsWithQuote → ¬ Starts '+' r ∧ ¬ Starts '-' r

end CodeParser.Spec
