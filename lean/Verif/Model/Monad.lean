import Verif.Model.Reader
/-!
The computation type of the model above the byte level: functions of the reader
state that may fail.  A panic of the program (failed `assert!`, `unwrap`, index
out of range, `todo!`, `panic!`) is the error `Err.panic site`.
-/
namespace CodeParser

/-- The places where the modelled code can panic. -/
inductive Site where
  /-- `CodePoint::from_u32(..).unwrap()` on a surrogate,
  read/character_decoder.rs:644, 850, 969. -/
  | surrogate
  /-- `assert!(session.input[mark.offset] == ..)`, read/character_decoder.rs:243, 569, 672, 772, 881. -/
  | escapeStart
  /-- slice index out of range -/
  | index
  /-- `assert!(..)` in tokenize/tokenizer.rs -/
  | tokenizerAssert
  /-- `todo!()` in tokenize/tokenizer.rs:4771 -/
  | tokenizerTodo
  /-- `panic!("Need to add operator")`, generated/long_names_registration.rs -/
  | longNameOperator
  /-- `Span::new` with a start behind its end, source.rs -/
  | span
  /-- `assert!(..)` in parse.rs, parse/parselet.rs and cst.rs -/
  | parserAssert
  /-- `context_stack.pop().unwrap()` or `top_context` without a context, parse.rs:1254-1546 -/
  | parserContext
  /-- the node stack of the builder is too short, parse_cst.rs:62-106, 195-203, 683, 772 -/
  | parserStack
  /-- `panic!` in `parse_infix`, `getPrecedence` or `GroupOpenerToCloser` of a parselet that
  must not be used, parse/parselet.rs:642, 817, 824, 872, integral_parselet.rs:128,
  token_kind.rs:999 -/
  | parselet
  /-- `reduce_call` on something that is not a group, parse_cst.rs:546-568 -/
  | callBody
  /-- `panic!("Fix at call site")`, parse_cst.rs:742 -/
  | colon
  /-- `from_utf8(..).expect(..)`, parse.rs:1484-1486 -/
  | utf8
  /-- a panic while rewriting an unterminated token or group, error.rs -/
  | recovery
  /-- `tokenize_bytes(..).expect(..)` in `tokenize`, lib.rs:380-381 -/
  | encoding
deriving DecidableEq, Repr

/-- Failure of a modelled computation: a panic of the program, or the artificial
"out of fuel" of a modelled loop, which is proved never to happen. -/
inductive Err where
  | panic (site : Site)
  | fuel
deriving DecidableEq, Repr

/-- A computation over the reader. -/
def M (α : Type) : Type := St → Except Err (α × St)

namespace M

/-- Return a value without touching the reader. -/
def pure {α} (a : α) : M α := fun s => .ok (a, s)

/-- Sequential composition; an error ends the computation. -/
def bind {α β} (m : M α) (f : α → M β) : M β := fun s =>
  match m s with
  | .ok (a, s') => f a s'
  | .error e => .error e

instance : Monad M where
  pure := pure
  bind := bind

/-- A panic. -/
def panic {α} (site : Site) : M α := fun _ => .error (.panic site)

/-- `Reader::mark`, read.rs:211-217. -/
def mark : M St := fun s => .ok (s, s)

/-- `Reader::seek`, read.rs:221-234. -/
def seek (m : St) : M Unit := fun s => .ok ((), s.seek m)

/-- The unbounded loop `loop { body }`, iterated at most `n` times: the body gets
the loop variables and either yields new ones (`inl`) or breaks with a result
(`inr`). -/
def loopN {α β} (body : β → M (β ⊕ α)) : Nat → β → M α
  | 0, _ => fun _ => .error .fuel
  | n + 1, b => fun s =>
    match body b s with
    | .ok (.inl b', s') => loopN body n b' s'
    | .ok (.inr a, s') => .ok (a, s')
    | .error e => .error e

/-- A loop with enough fuel for every loop that consumes input. -/
def loop {α β} (body : β → M (β ⊕ α)) (b : β) : M α := fun s =>
  loopN body (s.rest.length + 2) b s

end M

/-- `session.next_source_char(policy)`, read.rs:161-166. -/
def src (cfg : Cfg) : M CP := fun s => .ok (nextSource cfg s)

/-- `session.peek_source_char(policy)`, read.rs:148-159. -/
def peekSrc (cfg : Cfg) : M CP := fun s => .ok (peekSource cfg s)

/-- `hexStartBuf[i]` on a buffer slice. -/
def byteAt (buf : List UInt8) (i : Nat) : M UInt8 :=
  match buf[i]? with
  | some b => pure b
  | none => M.panic .index

end CodeParser
