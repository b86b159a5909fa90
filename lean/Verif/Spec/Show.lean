import Verif.Spec.Char
/-!
# Specification: the character a displayed character stands for

Used to state C56.
-/
namespace CodeParser.Spec

/-- The Unicode scalar value that a character of a Wolfram Language text stands for; inside strings
`\t` stands for a tab, `\"` for a double quote and so on. -/
def value : CP → Option Nat
  | .char n => some n
  | .metaDoubleQuote => some 0x22
  | .metaBackslash => some 0x5c
  | .metaBackspace => some 0x08
  | .metaTab => some 0x09
  | .metaLineFeed => some 0x0a
  | .metaFormFeed => some 0x0c
  | .metaCarriageReturn => some 0x0d
  | _ => none

/-- The same character, or the same character of a string. -/
def Same (p q : CP) : Prop := p = q ∨ ∃ n, value p = some n ∧ value q = some n

/-- A backslash in front of the end of a line. -/
def IsContinuation (p : CP) : Prop := p = .contLF ∨ p = .contCR ∨ p = .contCRLF

/-- The text has only printable ASCII characters. -/
def Printable (text : List UInt8) : Prop := ∀ b ∈ text, 0x20 ≤ b.toNat ∧ b.toNat ≤ 0x7e

end CodeParser.Spec
