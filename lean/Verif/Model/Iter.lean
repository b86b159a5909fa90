import Verif.Model.Tokenizer
/-!
# The iterators of `iter.rs`

Each `next` is a step of the reader that may end the iteration.  The readers are created by
`Reader::new` (`St.init`) and `Tokenizer::new` (which skips the first line, `handleFirstLine`).
-/
namespace CodeParser

/-- `Iterator::next` of `SourceChars`, iter.rs:122-137. -/
def sourceCharsNext (cfg : Cfg) : M (Option CP) := do
  let c ← src cfg
  if c ≠ .eof then pure (some c) else pure none

/-- `Iterator::next` of `WolframChars`, iter.rs:139-153. -/
def wolframCharsNext (cfg : Cfg) : M (Option WLC) := do
  let c ← nextWL cfg
  if c.point ≠ .eof then pure (some c) else pure none

/-- `Iterator::next` of `Tokens`, iter.rs:155-169, with `Tokenizer::next_token`,
tokenize/tokenizer.rs:346-349. -/
def tokensNext (cfg : Cfg) : M (Option Tok) := do
  let t ← nextToken cfg Pol.top
  if t.kind ≠ .EndOfFile then pure (some t) else pure none

end CodeParser
