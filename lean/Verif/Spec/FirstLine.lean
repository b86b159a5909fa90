import Verif.Model.Tokenizer
/-!
Independent specification of what is skipped at the beginning of a script.
-/
namespace CodeParser.Spec

/-- The number of tokens up to and including the first top-level newline. -/
def throughNewline : List TK → Nat
  | [] => 0
  | k :: ks => if k = .ToplevelNewline then 1 else throughNewline ks + 1

/-- The number of tokens skipped at the beginning of an input whose tokens have the given
kinds.  In the second case a lone `#` is lost although there is no `#!` (see
`C24_violated`). -/
def skipped (first : FirstLine) (ks : List TK) : Nat :=
  if first = .notScript then 0
  else match ks with
    | .Hash :: .Bang :: ks => throughNewline ks + 2
    | .Hash :: _ => 1
    | _ => 0

end CodeParser.Spec
