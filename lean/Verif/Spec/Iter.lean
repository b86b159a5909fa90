import Verif.Model.Monad
import Verif.Spec.Reader
import Verif.Spec.Char
/-!
# Specification of iterators

Used to state C74.
-/
namespace CodeParser.Spec

/-- `Iterates next s as t`: iterating from the state `s` on gives the items `as`, then the end, and leaves
the iterator in the state `t`. -/
inductive Iterates {α : Type} (next : M (Option α)) : St → List α → St → Prop
  | done {s t} : next s = .ok (none, t) → Iterates next s [] t
  | item {s a t as u} : next s = .ok (some a, t) → Iterates next t as u → Iterates next s (a :: as) u

/-- The iterator has ended: if it is called `n` more times, it gives nothing. -/
def Ended {α : Type} (next : M (Option α)) : Nat → St → Prop
  | 0, _ => True
  | n + 1, s => ∃ t, next s = .ok (none, t) ∧ Ended next n t

/-- `Wolfram bs cs`: the text consists of the Wolfram characters `cs`: the characters of the text (CR LF is
one), escapes, and backslashes that start no escape. -/
inductive Wolfram : List UInt8 → List WLC → Prop
  | nil : Wolfram [] []
  | plain {c : Char} {rest cs} : c ≠ '\\' → c ≠ BOM → (c = '\r' → rest.head? ≠ some 10) → Wolfram rest cs →
      Wolfram (String.utf8EncodeChar c ++ rest) (⟨.char c.toNat, .none⟩ :: cs)
  | crlf {rest cs} : Wolfram rest cs → Wolfram (13 :: 10 :: rest) (⟨.crlf, .none⟩ :: cs)
  | escape {r p e rest cs} : Escapes r p e rest → Wolfram rest cs → Wolfram (byte '\\' :: r) (⟨p, e⟩ :: cs)
  | backslash {r cs} : (∀ p e rest, ¬ Escapes r p e rest) → ¬ SurrogateEscape r → Wolfram r cs →
      Wolfram (byte '\\' :: r) (⟨.char 92, .none⟩ :: cs)

end CodeParser.Spec
