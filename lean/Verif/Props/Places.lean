import Verif.Proofs.Place5
import Verif.Proofs.Place9
import Verif.Props.Tokenize
/-!
C76: how positions are counted does not influence what is read.
-/
namespace CodeParser.Props
open CodeParser Spec Cst Place

section
variable {cfg cfg' : Cfg} {conv conv' : Conv} {first : FirstLine} {bs : List UInt8}

/-- C76 for `tokenize_bytes`: with another tab width and another convention for positions the
tokens are the same, except for their positions and the extent of tokens without end; and the
encoding error is the same. -/
theorem C76_tokens (hu : cfg.uniAlnum = cfg'.uniAlnum) {r r' : Except Unsafe (List Tok)}
    (h : tokenizeBytes cfg conv first bs = .ok r) (h' : tokenizeBytes cfg' conv' first bs = .ok r') :
    (∃ e, r = .error e ∧ r' = .error e) ∨
      ∃ ts ts', r = .ok ts ∧ r' = .ok ts' ∧ List.Forall₂ SameToken ts ts' :=
  tokenize_same hu h h'

/-- C76 for `parse_bytes_cst_seq`: with another tab width and another convention for positions
the trees are the same, except for positions, the extent of tokens without end and the content
of groups without closer; and the reported encoding error is the same. -/
theorem C76_trees (hu : cfg.uniAlnum = cfg'.uniAlnum) {r r' : ParseResult}
    (h : parseBytesCst cfg conv first bs = .ok r) (h' : parseBytesCst cfg' conv' first bs = .ok r') :
    List.Forall₂ SameTree r.syntax' r'.syntax' ∧ r.unsafeEncoding = r'.unsafeEncoding :=
  parse_same hu h h'

/-- C76 for texts without unterminated parts: without their positions the trees are equal. -/
theorem C76_equal (hu : cfg.uniAlnum = cfg'.uniAlnum) {r r' : ParseResult}
    (h : parseBytesCst cfg conv first bs = .ok r) (h' : parseBytesCst cfg' conv' first bs = .ok r')
    (hc : completeL r.syntax' = true) (ht : ∀ t ∈ leavesL r.syntax', unterminated t.kind = false) :
    bares r.syntax' = bares r'.syntax' :=
  bares_eq _ (parse_same hu h h').1 hc ht

/-- C76 for `parse_bytes_ast_seq`: for texts without unterminated parts the abstract syntax trees
are equal without their positions. -/
theorem C76_asts (hu : cfg.uniAlnum = cfg'.uniAlnum) {env : Abs.AEnv} {r : ParseResult}
    {as as' : List Ast} {u u' : Option Unsafe}
    (h : Abs.parseBytesAsts cfg env conv first bs = .ok (as, u)) (h' : Abs.parseBytesAsts cfg' env conv' first bs = .ok (as', u'))
    (hr : parseBytesCst cfg conv first bs = .ok r)
    (hc : completeL r.syntax' = true) (ht : ∀ t ∈ leavesL r.syntax', unterminated t.kind = false) :
    bareAs as = bareAs as' ∧ u = u' := by
  obtain ⟨s, cs, h1, h2, h3, h4⟩ := asts_inv h
  obtain ⟨s', cs', h1', h2', h3', h4'⟩ := asts_inv h'
  rw [hr] at h1
  cases h1
  exact ⟨abstract_same (C76_equal hu hr h1' hc ht) h2 h2' h3 h3', h4.trans ((C76_trees hu hr h1').2.trans h4'.symm)⟩

/-- C76 for aborts: before unterminated tokens are cut, tokenizing aborts with one way of
counting positions if and only if it does with the other, and at the same place. -/
theorem C76_aborts (hu : cfg.uniAlnum = cfg'.uniAlnum) {e : Err} (h : tokens cfg conv first bs = .error e) :
    tokens cfg' conv' first bs = .error e := by
  have key : Same (List.Forall₂ SameTok) (tokens cfg conv first bs) (tokens cfg' conv' first bs) := by
    rw [wide_eq hu]; exact tokens_same
  have he := ((C25_tokens_partial cfg conv first bs).1 e h).1
  rw [h] at key
  rcases h' : tokens cfg' conv' first bs with e' | p <;> rw [h'] at key
  · have he' := ((C25_tokens_partial cfg' conv' first bs).1 e' h').1
    rw [he, he']
  · have : e = .panic .span := key
    rw [he] at this; cases this
end

/-- Tab width 8. -/
def wide8 : Cfg := ⟨8, by decide, fun _ => false⟩

/-- Whether two ways of counting give trees with the same tokens at different places. -/
def agree (conv' : Conv) (bs : List UInt8) : Bool :=
  match parseBytesCst Cfg.default .lineColumn .notScript bs, parseBytesCst wide8 conv' .notScript bs with
  | .ok r, .ok r' =>
    completeL r.syntax' && (leavesL r.syntax').all (fun t => !unterminated t.kind) &&
      decide ((leavesL r.syntax').map (fun t => (t.kind, t.text)) = (leavesL r'.syntax').map (fun t => (t.kind, t.text))) &&
      decide ((leavesL r.syntax').map Tok.start ≠ (leavesL r'.syntax').map Tok.start)
  | _, _ => false

example : agree .lineColumn (encode "f[x_]\t:= {\t\"a\tb\", x^2\t};\n\ta.b".toList) = true := by decide +kernel
example : agree .characterIndex (encode "f[x_]\t:= {\t\"a\tb\", x^2\t};\n\ta.b".toList) = true := by decide +kernel

/-- Whether both ways of counting give `n` abstract syntax trees. -/
def bothAbstract (conv' : Conv) (bs : List UInt8) (n : Nat) : Bool :=
  match Abs.parseBytesAsts Cfg.default Abs.AEnv.default .lineColumn .notScript bs,
    Abs.parseBytesAsts wide8 Abs.AEnv.default conv' .notScript bs with
  | .ok (as, _), .ok (as', _) => decide (as.length = n ∧ as'.length = n)
  | _, _ => false

example : bothAbstract .characterIndex (encode "f[x_]\t:= {\t\"a\tb\", x^2\t};\n\ta.b".toList) 2 = true := by decide +kernel

/-- The exceptions in C76 are real: where the group `f[⏎⏎a⏎b = 1⏎` without closer ends depends
on the convention. -/
theorem C76_violated : ∃ (bs : List UInt8) (r r' : ParseResult),
    parseBytesCst Cfg.default .lineColumn .notScript bs = .ok r ∧
    parseBytesCst Cfg.default .characterIndex .notScript bs = .ok r' ∧
    (leavesL r.syntax').map Tok.text ≠ (leavesL r'.syntax').map Tok.text := by
  have h : (match parseBytesCst Cfg.default .lineColumn .notScript (encode "f[\n\na\nb = 1\n".toList),
      parseBytesCst Cfg.default .characterIndex .notScript (encode "f[\n\na\nb = 1\n".toList) with
    | .ok r, .ok r' => decide ((leavesL r.syntax').map Tok.text ≠ (leavesL r'.syntax').map Tok.text)
    | _, _ => false) = true := by decide +kernel
  generalize h1 : parseBytesCst Cfg.default .lineColumn .notScript (encode "f[\n\na\nb = 1\n".toList) = p at h
  generalize h2 : parseBytesCst Cfg.default .characterIndex .notScript (encode "f[\n\na\nb = 1\n".toList) = p' at h
  cases p with
  | error e => cases h
  | ok r =>
    cases p' with
    | error e => cases h
    | ok r' => exact ⟨_, r, r', h1, h2, of_decide_eq_true h⟩

end CodeParser.Props
