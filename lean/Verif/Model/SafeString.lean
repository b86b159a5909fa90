import Verif.Model.Reader
namespace CodeParser

deriving instance DecidableEq for Except

/-- The loop of `safe_string`, lib.rs:663-669: read source characters until end
of file.  The loop of the code is unbounded; `fuel` bounds the model's
(`Props.Reader.C03_drain` shows `length + 1` reads always reach the end). -/
def drain (cfg : Cfg) : Nat → St → Option St
  | 0, _ => none
  | fuel + 1, s =>
    let (c, s) := nextSource cfg s
    if c = .eof then some s else drain cfg fuel s

/-- `safe_string`, lib.rs:654-689, for `first_line_behavior = NotScript`.
`none` would be non-termination.  On success the code converts the input with
`std::str::from_utf8(..).expect(..)`; the model returns the input bytes, and the
theorem `C02_safeString_ok` says they are well-formed UTF-8, so the `expect`
never fires. -/
def safeString (cfg : Cfg) (conv : Conv) (input : List UInt8) : Option (Except Unsafe (List UInt8)) :=
  match drain cfg (input.length + 1) (St.init conv input) with
  | none => none
  | some s =>
    match s.flag with
    | none => some (.ok input)
    | some f => some (.error f)

end CodeParser
