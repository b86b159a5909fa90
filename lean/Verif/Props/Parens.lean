import Verif.Proofs.Parens
import Verif.Props.FullForm
/-!
# C87: parentheses group
-/
namespace CodeParser.Props
open CodeParser Spec Abs Mean

/-- C87: operators that have their operands in parentheses are applied to these operands, whatever their
precedences: the abstract syntax denotes the expression that is written. -/
theorem C87_parens (cfg : Cfg) (env : AEnv) (conv : Conv) (e : Expr) (t : List UInt8) (input : List Char) (h : Notated e t)
    (ht : encode input = t) (hq : env.flattenTimes = false) (hd : QuotesNames env.debug) :
    ∃ a u, parseBytesAsts cfg env conv .notScript (encode input) = .ok ([a], u) ∧ erase a = e := by
  obtain ⟨f, ks, g⟩ := Full.notated h
  have hl : LexesTo (encode input) ks := by
    have := g.lexes (r := []) (kr := []) (fun b q h => by cases h) .nil
    simpa [ht] using this
  have hp : Program [f] ks := by
    have := Program.last (w := []) (w' := []) Full.blank0 (g.writes false) g.grouped Full.blank0
    simpa using this
  obtain ⟨as, u, h1, h2⟩ := C50_meaning_partial cfg env conv input _ _ hl hp hq hd
    (fun f' hf => by obtain rfl := List.mem_singleton.mp hf; exact g.meaningful _)
  rw [List.map_singleton, g.expr] at h2
  obtain ⟨a, rfl, h3⟩ := List.map_eq_singleton_iff.mp h2
  exact ⟨a, u, h1, h3⟩

/-- What is written like this is a text. -/
theorem C87_text (e : Expr) (t : List UInt8) (h : Notated e t) : ∃ input, encode input = t := by
  obtain ⟨f, ks, g⟩ := Full.notated h
  exact g.chars

/-- It is unambiguous: no text is two different expressions. -/
theorem C87_unambiguous (e e' : Expr) (t : List UInt8) (h : Notated e t) (h' : Notated e' t) : e = e' := by
  obtain ⟨input, hi⟩ := C87_text e t h
  obtain ⟨a, u, h1, h2⟩ := C87_parens Cfg.default AEnv.default .lineColumn e t input h hi rfl (fun _ _ => rfl)
  obtain ⟨a', u', h1', h2'⟩ := C87_parens Cfg.default AEnv.default .lineColumn e' t input h' hi rfl (fun _ _ => rfl)
  rw [h1] at h1'
  cases h1'
  rw [← h2, ← h2']

/-- C87 for several expressions: when they are written one per line, with either end of line, they are read in
their order.  No line but the first may begin with a sign. -/
theorem C87_lines (cfg : Cfg) (env : AEnv) (conv : Conv) (crlf : Bool) (xs : List (Expr × List UInt8)) (input : List Char)
    (h : ∀ x ∈ xs, Notated x.1 x.2) (hm : ∀ x ∈ xs.tail, signed x.2 = false)
    (ht : encode input = notatedLines crlf xs) (hq : env.flattenTimes = false) (hd : QuotesNames env.debug) :
    ∃ as u, parseBytesAsts cfg env conv .notScript (encode input) = .ok (as, u) ∧ as.map erase = xs.map Prod.fst := by
  obtain ⟨fs, ks, h1, h2, h3, h4, -, -⟩ := Full.notated_lines (crlf := crlf) h hm
  obtain ⟨as, u, h5, h6⟩ := C50_meaning_partial cfg env conv input _ _ (ht ▸ h1) h2 hq hd (h3 _)
  exact ⟨as, u, h5, h6.trans (h4 _)⟩

/-- With a minus sign, the next line can belong to the line before. -/
theorem C87_minus_line : denotes "(a)+(b)\n-(c)\n".toList
    [.call (word "Plus") [word "a", word "b", opposite (word "c")]] = true := by decide +kernel

/-- It belongs to it only if that line is such a sequence. -/
example : denotes "(a)->(b)\n-(c)\n".toList [.call (word "Rule") [word "a", word "b"], opposite (word "c")] = true := by decide +kernel

/-! ### Cases -/

theorem notated_letter (c : Char) (h : isNameStart c.toNat = true) : Notated (.leaf .Symbol (bytes [c])) (bytes [c]) :=
  .plain (e := .leaf .Symbol (bytes [c])) (.inl (.name (letter_name c h))) rfl

/-- `((a)->(b))^((!((c)&))==(a))`: rules bind looser than powers, and comparisons, too. -/
example : ∃ a u, parseBytesAsts Cfg.default AEnv.default .lineColumn .notScript (encode "((a)->(b))^((!((c)&))==(a))".toList) = .ok ([a], u) ∧
    erase a = .call (word "Power") [.call (word "Rule") [word "a", word "b"],
      .call (word "Equal") [.call (word "Not") [.call (word "Function") [word "c"]], word "a"]] :=
  C87_parens _ _ _ _ _ _
    (.between (s := "^") (by decide) (.between (s := "->") (by decide) (notated_letter 'a' (by decide)) (notated_letter 'b' (by decide)))
      (.between (s := "==") (by decide) (.before (s := "!") (by decide) (.behind (s := "&") (by decide) (notated_letter 'c' (by decide))))
        (notated_letter 'a' (by decide))))
    (by decide +kernel) rfl (fun _ _ => rfl)

/-- More parentheses: `((((a))+(b)))`. -/
example : Notated (.call (word "Plus") [word "a", word "b"]) (bytes "((((a))+(b)))".toList) :=
  .inside (.inside (.between (s := "+") (by decide) (.inside (notated_letter 'a' (by decide))) (notated_letter 'b' (by decide))))

/-- Signs: `((a)-(2))/(-((a)-(b)))`. -/
example : Notated (.call (word "Times") [.call (word "Plus") [word "a", .leaf .Integer (bytes ['-', '2'])],
      .call (word "Power") [opposite (.call (word "Plus") [word "a", opposite (word "b")]), minusOne]])
    (bytes "((a)-(2))/(-((a)-(b)))".toList) := by
  obtain ⟨h1, h2, h3⟩ := digit_valid '2' (by decide)
  have hn := PlainAtom.number h1 h3
  rw [h2] at hn
  exact .divide (.minus (notated_letter 'a' (by decide)) (.plain (e := .leaf .Integer (bytes ['2'])) (.inl hn) rfl))
    (.negative (.minus (notated_letter 'a' (by decide)) (notated_letter 'b' (by decide))))

/-- Applied to one argument: `(f)@((x)//(g))` is `f[g[x]]`. -/
example : Notated (.call (word "f") [.call (word "g") [word "x"]]) (bytes "(f)@((x)//(g))".toList) :=
  .apply (by decide +kernel) (notated_letter 'f' (by decide)) (.applyBehind (by decide +kernel) (notated_letter 'x' (by decide)) (notated_letter 'g' (by decide)))

/-- Two lines: `(a)+(b)` and `!(c)`. -/
example : ∃ as u, parseBytesAsts Cfg.default AEnv.default .lineColumn .notScript (encode "(a)+(b)\n!(c)\n".toList) = .ok (as, u) ∧
    as.map erase = [.call (word "Plus") [word "a", word "b"], .call (word "Not") [word "c"]] :=
  C87_lines _ _ _ false [(.call (word "Plus") [word "a", word "b"], bytes "(a)+(b)".toList), (.call (word "Not") [word "c"], bytes "!(c)".toList)] _
    (by
      intro x hx
      rcases List.mem_cons.mp hx with rfl | hx
      · exact .between (s := "+") (by decide) (notated_letter 'a' (by decide)) (notated_letter 'b' (by decide))
      · cases List.mem_singleton.mp hx
        exact .before (s := "!") (by decide) (notated_letter 'c' (by decide)))
    (by intro x hx; cases List.mem_singleton.mp hx; decide) (by decide +kernel) rfl (fun _ _ => rfl)

/-- In full: `(a)/:((a)~(f)~(b)):=((+(a));(!!((a);;(b))))`. -/
example : Notated (.call (word "TagSetDelayed") [word "a", .call (word "f") [word "a", word "b"],
      .call (word "CompoundExpression") [.call (word "Plus") [word "a"], .call (word "Not") [.call (word "Not") [.call (word "Span") [word "a", word "b"]]]]])
    (bytes "(a)/:((a)~(f)~(b)):=((+(a));(!!((a);;(b))))".toList) :=
  .tagSetDelayed (notated_letter 'a' (by decide))
    (.infix (by decide +kernel) (notated_letter 'a' (by decide)) (notated_letter 'f' (by decide)) (notated_letter 'b' (by decide)))
    (.steps (.positive (notated_letter 'a' (by decide))) (.notNot (.span (notated_letter 'a' (by decide)) (notated_letter 'b' (by decide)))))

/-- Without a value: `((a)=(b));`. -/
example : Notated (.call (word "CompoundExpression") [.call (word "Set") [word "a", word "b"], word "Null"]) (bytes "((a)=(b));".toList) :=
  .stop (.between (s := "=") (by decide) (notated_letter 'a' (by decide)) (notated_letter 'b' (by decide)))

/-- In calls and lists: `f[(a)+(b), {a, (b)!}]`. -/
example : Notated (.call (word "f") [.call (word "Plus") [word "a", word "b"], .call (word "List") [word "a", .call (word "Factorial") [word "b"]]])
    (bytes "f[(a)+(b), {a, (b)!}]".toList) :=
  .call (h := .leaf .Symbol (bytes ['f'])) (.inl (.name (letter_name 'f' (by decide)))) (.name (letter_name 'f' (by decide))) (by decide +kernel)
    (.more (.between (s := "+") (by decide) (notated_letter 'a' (by decide)) (notated_letter 'b' (by decide)))
      (.one (.list (.more (notated_letter 'a' (by decide)) (.one (.behind (s := "!") (by decide) (notated_letter 'b' (by decide))))))))

/-- Without the parentheses, it is another expression: `a->b^c`. -/
example : denotes "a->b^c".toList [.call (word "Rule") [word "a", .call (word "Power") [word "b", word "c"]]] = true := by decide +kernel

end CodeParser.Props
