import Verif.Spec.Char
import Verif.Spec.Show
/-!
# Specification: texts of characters, however they are written

Used to state C57–C61.  A character of a text is a Unicode character encoded in UTF-8 or an escape; a
backslash in front of the end of a line, together with the white space at the beginning of the next
line, is skipped.
-/
namespace CodeParser.Spec

/-- `CharAt bs c r`: the text `bs` starts with the character `c`, and `r` follows it. -/
inductive CharAt : List UInt8 → WLC → List UInt8 → Prop
  | eof : CharAt [] ⟨.eof, .none⟩ []
  | plain {c : Char} {r} : c ≠ '\\' → c.toNat ≠ 0xfeff → (c = '\r' → r.head? ≠ some 10) →
      CharAt (String.utf8EncodeChar c ++ r) ⟨.char c.toNat, .none⟩ r
  | crlf {r} : CharAt (13 :: 10 :: r) ⟨.crlf, .none⟩ r
  | escape {q p e r} : Escapes q p e r → CharAt (byte '\\' :: q) ⟨p, e⟩ r
  | malformed {q} : (∀ p e r, ¬ Escapes q p e r) → ¬ SurrogateEscape q →
      CharAt (byte '\\' :: q) ⟨.char 0x5c, .none⟩ q

/-- Blanks, tabs, vertical tabs and form feeds. -/
def White (p : CP) : Prop := p = .char 0x20 ∨ p = .char 0x09 ∨ p = .char 0x0b ∨ p = .char 0x0c

/-- `Behind bs c r`: behind a line continuation, `c` is the first character of `bs` that is no white
space and no line continuation, and `r` follows it. -/
inductive Behind : List UInt8 → WLC → List UInt8 → Prop
  | here {bs c r} : CharAt bs c r → ¬ White c.point → ¬ IsContinuation c.point → Behind bs c r
  | white {bs w r1 c r} : CharAt bs w r1 → White w.point → Behind r1 c r → Behind bs c r
  | again {bs k r1 c r} : CharAt bs k r1 → IsContinuation k.point → Behind r1 c r → Behind bs c r

/-- `NextChar bs c r`: the next character of the text `bs`, not counting line continuations, is `c`,
and `r` follows it. -/
inductive NextChar : List UInt8 → WLC → List UInt8 → Prop
  | here {bs c r} : CharAt bs c r → ¬ IsContinuation c.point → NextChar bs c r
  | behind {bs k r1 c r} : CharAt bs k r1 → IsContinuation k.point → Behind r1 c r → NextChar bs c r

/-- What is written at the beginning of the text is not an escaped ASCII character: there is no backslash,
or what it starts is a character outside of ASCII, possibly behind line continuations. -/
def Clear (r : List UInt8) : Prop :=
  r.head? ≠ some (byte '\\') ∨ ∃ c q, NextChar r c q ∧ ∀ n, c.point = .char n → 0x80 ≤ n

end CodeParser.Spec
