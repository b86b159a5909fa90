import Verif.Proofs.Place6
import Verif.Proofs.Place9
import Verif.Props.Places
/-!
C77: what comes before does not influence what is read.
-/
namespace CodeParser.Props
open CodeParser Spec Cst Place

section
variable {cfg cfg' : Cfg} {conv conv' : Conv} {pre suf : List UInt8}

/-- C77 for `tokenize_bytes`: when the first tokens of a text are the text `pre`, then
tokenizing what follows `pre` gives the other tokens, up to positions and the extent of tokens
without end. -/
theorem C77_tokens (hu : cfg.uniAlnum = cfg'.uniAlnum) {ds es : List Tok}
    (h : tokenizeBytes cfg conv .notScript (pre ++ suf) = .ok (.ok (ds ++ es)))
    (hp : ds.flatMap Tok.text = pre) (ht : ∀ t ∈ ds, unterminated t.kind = false) {r' : Except Unsafe (List Tok)}
    (h' : tokenizeBytes cfg' conv' .notScript suf = .ok r') :
    ∃ es', r' = .ok es' ∧ List.Forall₂ SameToken es es' :=
  tokenize_rest hu h hp ht h'

/-- C77 for `parse_bytes_cst_seq`: when the first trees of a text are the text `pre`, and no
encoding error is reported, then parsing what follows `pre` gives the other trees, up to
positions, the extent of tokens without end and the content of groups without closer. -/
theorem C77_trees (hu : cfg.uniAlnum = cfg'.uniAlnum) {r r' : ParseResult} {ds es : List Cst}
    (h : parseBytesCst cfg conv .notScript (pre ++ suf) = .ok r) (he : r.unsafeEncoding = none)
    (hs : r.syntax' = ds ++ es) (hp : (leavesL ds).flatMap Tok.text = pre)
    (hc : completeL ds = true) (ht : ∀ t ∈ leavesL ds, unterminated t.kind = false)
    (h' : parseBytesCst cfg' conv' .notScript suf = .ok r') :
    List.Forall₂ SameTree es r'.syntax' ∧ r'.unsafeEncoding = none :=
  parse_rest hu h he hs hp hc ht h'

/-- C77 for texts without unterminated parts: without their positions the trees are equal. -/
theorem C77_equal (hu : cfg.uniAlnum = cfg'.uniAlnum) {r r' : ParseResult} {ds es : List Cst}
    (h : parseBytesCst cfg conv .notScript (pre ++ suf) = .ok r) (he : r.unsafeEncoding = none)
    (hs : r.syntax' = ds ++ es) (hp : (leavesL ds).flatMap Tok.text = pre)
    (hc : completeL r.syntax' = true) (ht : ∀ t ∈ leavesL r.syntax', unterminated t.kind = false)
    (h' : parseBytesCst cfg' conv' .notScript suf = .ok r') :
    bares es = bares r'.syntax' := by
  rw [hs, completeL_append, Bool.and_eq_true] at hc
  rw [hs, leavesL_append] at ht
  exact bares_eq _ (parse_rest hu h he hs hp hc.1 (fun t h => ht t (List.mem_append_left _ h)) h').1 hc.2
    (fun t h => ht t (List.mem_append_right _ h))

/-- C77 for `parse_bytes_ast_seq`: for texts without unterminated parts the abstract syntax trees
of what follows `pre` are, without their positions, the last ones of the whole text. -/
theorem C77_asts (hu : cfg.uniAlnum = cfg'.uniAlnum) {env : Abs.AEnv} {r : ParseResult} {ds es : List Cst}
    {as as' : List Ast} {u' : Option Unsafe}
    (h : Abs.parseBytesAsts cfg env conv .notScript (pre ++ suf) = .ok (as, none))
    (hr : parseBytesCst cfg conv .notScript (pre ++ suf) = .ok r)
    (hs : r.syntax' = ds ++ es) (hp : (leavesL ds).flatMap Tok.text = pre)
    (hc : completeL r.syntax' = true) (ht : ∀ t ∈ leavesL r.syntax', unterminated t.kind = false)
    (h' : Abs.parseBytesAsts cfg' env conv' .notScript suf = .ok (as', u')) :
    bareAs (as.drop (as.length - as'.length)) = bareAs as' ∧ u' = none := by
  obtain ⟨s, cs, h1, h2, h3, h4⟩ := asts_inv h
  obtain ⟨s', cs', h1', h2', h3', h4'⟩ := asts_inv h'
  rw [hr] at h1
  cases h1
  have hb := C77_equal hu hr h4.symm hs hp hc ht h1'
  have hn : s'.unsafeEncoding = none := by
    have hc' := hc
    have ht' := ht
    rw [hs, completeL_append, Bool.and_eq_true] at hc'
    rw [hs, leavesL_append] at ht'
    exact (C77_trees hu hr h4.symm hs hp hc'.1 (fun t h => ht' t (List.mem_append_left _ h)) h1').2
  rw [hs] at h2
  obtain ⟨us, vs, g1, g2, rfl⟩ := aggregateL_append h2
  obtain ⟨xs, ys, f1, f2, f3⟩ := mapA_append h3
  simp only at f3
  subst f3
  have key := abstract_same hb g2 h2' f2 h3'
  have hl : ys.length = as'.length := List.Forall₂.length_eq (TwinAs.of key)
  refine ⟨?_, h4'.trans hn⟩
  rw [← hl, List.length_append, Nat.add_sub_cancel, List.drop_left]
  exact key
end

/-- Whether the trees of `pre ++ suf` after those with the text `pre` are as those of `suf`
alone, up to kinds and texts of leaves, and there is something on both sides. -/
def resumes (pre suf : List UInt8) : Bool :=
  match parseBytesCst Cfg.default .lineColumn .notScript (pre ++ suf), parseBytesCst wide8 .characterIndex .notScript suf with
  | .ok r, .ok r' =>
    let ds := r.syntax'.take (r.syntax'.length - r'.syntax'.length)
    let es := r.syntax'.drop (r.syntax'.length - r'.syntax'.length)
    decide (r.unsafeEncoding = none) && completeL r.syntax' && (leavesL r.syntax').all (fun t => !unterminated t.kind) &&
      decide ((leavesL ds).flatMap Tok.text = pre) && decide (ds ≠ [] ∧ es ≠ []) &&
      decide ((leavesL es).map (fun t => (t.kind, t.text)) = (leavesL r'.syntax').map (fun t => (t.kind, t.text)))
  | _, _ => false

example : resumes (encode "f[x_] := x^2;\n".toList) (encode "g[\"a\", {1, 2}]\n h.i".toList) = true := by decide +kernel

/-- Whether `pre ++ suf` has `n` abstract syntax trees and no encoding error, and `suf` has `m`. -/
def resumesAsts (pre suf : List UInt8) (n m : Nat) : Bool :=
  match Abs.parseBytesAsts Cfg.default Abs.AEnv.default .lineColumn .notScript (pre ++ suf),
    Abs.parseBytesAsts wide8 Abs.AEnv.default .characterIndex .notScript suf with
  | .ok (as, none), .ok (as', _) => decide (as.length = n ∧ as'.length = m)
  | _, _ => false

example : resumesAsts (encode "f[x_] := x^2;\n".toList) (encode "g[\"a\", {1, 2}]\n h.i".toList) 3 2 = true := by decide +kernel

end CodeParser.Props
