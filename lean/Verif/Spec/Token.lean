import Verif.Model.Tokenizer
import Verif.Spec.Reader
import Verif.Spec.Char
/-!
Independent specification of what a sequence of tokens should look like.
-/
namespace CodeParser.Spec

/-- The source characters that count as white space. -/
def isBlank : CP → Prop
  | .char n => n = 32 ∨ n = 9 ∨ n = 11 ∨ n = 12
  | _ => False

/-- `BlanksTo r r'`: `r` starts with a stretch of white space, written directly or with
escapes, and `r'` is what follows it. -/
inductive BlanksTo : List UInt8 → List UInt8 → Prop
  | nil {r} : BlanksTo r r
  | direct {b : UInt8} {r r'} : isBlank (.char b.toNat) → BlanksTo r r' → BlanksTo (b :: r) r'
  | escaped {q p e r r'} : Escapes q p e r → isBlank p → BlanksTo r r' → BlanksTo (byte '\\' :: q) r'

/-- `Continues r r'`: `r` starts with line continuations, each made of a backslash, a line
terminator and white space, and `r'` is what follows them. -/
inductive Continues : List UInt8 → List UInt8 → Prop
  | nil {r} : Continues r r
  | cons {q r r1 r'} : q ∈ [[10], [13], [13, 10]] → BlanksTo r r1 → Continues r1 r' →
      Continues (byte '\\' :: (q ++ r)) r'

/-- Reading the text `text`, followed by `after`, source character by source character
from location `start` ends exactly behind it, at location `stop`. -/
def Moves (cfg : Cfg) (text after : List UInt8) (start stop : Loc) : Prop :=
  ∃ n, let r := readN cfg n ⟨text ++ after, start, false, none⟩
    (r.1.map Prod.snd).flatten = text ∧ (∀ p ∈ r.1, p.1 ≠ .eof) ∧ r.2.rest = after ∧ r.2.loc = stop

end CodeParser.Spec

namespace CodeParser.Spec

/-- What follows the comment whose body starts with the given text, `d` comments being
open: comments are opened by `(*` and closed by `*)`. -/
def commentEnd : Nat → List UInt8 → Option (List UInt8)
  | _, [] => none
  | _, [_] => none
  | d, a :: b :: r =>
    if a = byte '(' ∧ b = byte '*' then commentEnd (d + 1) r
    else if a = byte '*' ∧ b = byte ')' then if d = 1 then some r else commentEnd (d - 1) r
    else commentEnd d (b :: r)

/-- What follows the string whose body starts with the given text: it is closed by the
first double quote not preceded by a backslash that is itself not escaped. -/
def stringEnd : List UInt8 → Option (List UInt8)
  | [] => none
  | [a] => if a = byte '"' then some [] else none
  | a :: b :: r =>
    if a = byte '"' then some (b :: r)
    else if a = byte '\\' ∧ (b = byte '"' ∨ b = byte '\\') then stringEnd r
    else stringEnd (b :: r)

end CodeParser.Spec
