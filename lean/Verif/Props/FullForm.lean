import Verif.Proofs.FullForm4
import Verif.Props.Meaning
/-!
# C85: an expression in full form is read back
# C86: white space and comments do not matter
-/
namespace CodeParser.Props
open CodeParser Spec Abs Mean

/-- C85: every expression made of names, numbers, strings and calls, written in full form, is read
back: there is one piece of abstract syntax, and it denotes this expression. -/
theorem C85_full_form (cfg : Cfg) (env : AEnv) (conv : Conv) (e : Expr) (input : List Char) (he : e.Writable)
    (ht : encode input = e.text) (hq : env.flattenTimes = false) (hd : QuotesNames env.debug) :
    ∃ a u, parseBytesAsts cfg env conv .notScript (encode input) = .ok ([a], u) ∧ erase a = e := by
  have hl : LexesTo (encode input) (Full.lex e) := by
    have := Full.cuts e he (r := []) (ks := []) (fun b q h => by cases h) .nil
    simpa [ht] using this
  have hp : Program [Full.form e] (Full.lex e) := by
    have := Program.last (w := []) (w' := []) Full.blank0 (Full.writes e he false) (Full.grouped e he) Full.blank0
    simpa using this
  obtain ⟨as, u, h1, h2⟩ := C50_meaning_partial cfg env conv input _ _ hl hp hq hd
    (fun f hf => by obtain rfl := List.mem_singleton.mp hf; exact Full.meaningful _ e he)
  rw [List.map_singleton, Full.expr _ e he] at h2
  obtain ⟨a, rfl, h3⟩ := List.map_eq_singleton_iff.mp h2
  exact ⟨a, u, h1, h3⟩

/-- C85 for several expressions: when they are written one per line, with either end of line, they are read back in their order. -/
theorem C85_lines (cfg : Cfg) (env : AEnv) (conv : Conv) (crlf : Bool) (es : List Expr) (input : List Char)
    (he : ∀ e ∈ es, e.Writable) (ht : encode input = Expr.lines crlf es) (hq : env.flattenTimes = false) (hd : QuotesNames env.debug) :
    ∃ as u, parseBytesAsts cfg env conv .notScript (encode input) = .ok (as, u) ∧ as.map erase = es := by
  obtain ⟨as, u, h1, h2⟩ := C50_meaning_partial cfg env conv input _ _ (ht ▸ Full.cuts_lines he) (Full.program_lines he) hq hd
    (fun f hf => by
      obtain ⟨e, h, rfl⟩ := List.mem_map.mp hf
      exact Full.meaningful _ e (he e h))
  refine ⟨as, u, h1, h2.trans ?_⟩
  rw [List.map_map]
  conv_rhs => rw [← List.map_id es]
  exact List.map_congr_left fun e h => Full.expr _ e (he e h)

/-- Every such expression can be written: its full form is a text. -/
theorem C85_text (e : Expr) (he : e.Writable) : ∃ input, encode input = e.text := Full.chars e he

/-- Full form is unambiguous: expressions with the same full form are the same. -/
theorem C85_unambiguous (e e' : Expr) (he : e.Writable) (he' : e'.Writable) (h : e.text = e'.text) : e = e' := by
  obtain ⟨input, hi⟩ := C85_text e he
  obtain ⟨a, u, h1, h2⟩ := C85_full_form Cfg.default AEnv.default .lineColumn e input he hi rfl (fun _ _ => rfl)
  obtain ⟨a', u', h1', h2'⟩ := C85_full_form Cfg.default AEnv.default .lineColumn e' input he' (hi.trans h) rfl (fun _ _ => rfl)
  rw [h1] at h1'
  cases h1'
  rw [← h2, ← h2']

/-- Operators are only a notation: an expression written with operators, and the same expression in full
form, have abstract syntax that differs in nothing but positions. -/
theorem C85_notation (cfg : Cfg) (env : AEnv) (conv : Conv) (input full : List Char) (ks : List Lexeme) (f : Spec.Form)
    (hlex : LexesTo (encode input) ks) (hp : Program [f] ks) (hm : f.Meaningful ⟨env.infixBinaryAt, env.oldAtAtAt⟩)
    (hw : (f.expr ⟨env.infixBinaryAt, env.oldAtAtAt⟩ .value).Writable)
    (hf : encode full = (f.expr ⟨env.infixBinaryAt, env.oldAtAtAt⟩ .value).text)
    (hq : env.flattenTimes = false) (hd : QuotesNames env.debug) :
    ∃ a a' u u', parseBytesAsts cfg env conv .notScript (encode input) = .ok ([a], u) ∧
      parseBytesAsts cfg env conv .notScript (encode full) = .ok ([a'], u') ∧ erase a = erase a' := by
  obtain ⟨as, u, h1, h2⟩ := C50_meaning_partial cfg env conv input ks [f] hlex hp hq hd
    (fun g hg => by obtain rfl := List.mem_singleton.mp hg; exact hm)
  obtain ⟨a, rfl, h3⟩ := List.map_eq_singleton_iff.mp h2
  obtain ⟨a', u', h4, h5⟩ := C85_full_form cfg env conv _ full hw hf hq hd
  exact ⟨a, a', u, u', h1, h4, h3.trans h5.symm⟩

/-- What `Writable` leaves out is not read back: a lone argument that is a call of the symbol the
code has for commas is taken for its arguments. -/
theorem C85_comma : denotes "f[CodeParser`Comma[x, y]]".toList [.call (word "f") [word "x", word "y"]] = true := by decide +kernel

/-- C86: white space, line breaks and comments anywhere between the parts of an expression in full form,
and around it, do not matter: the abstract syntax denotes the same expression. -/
theorem C86_layout (cfg : Cfg) (env : AEnv) (conv : Conv) (e : Expr) (before t after : List UInt8) (input : List Char)
    (h : Spelled false e t) (hb : Gap true before) (ha : Gap true after) (ht : encode input = before ++ (t ++ after))
    (hq : env.flattenTimes = false) (hd : QuotesNames env.debug) :
    ∃ a u, parseBytesAsts cfg env conv .notScript (encode input) = .ok ([a], u) ∧ erase a = e := by
  obtain ⟨he, ks, h1, h2⟩ := Full.spelled h
  obtain ⟨kb, b1, b2⟩ := Full.gap_lexes hb
  obtain ⟨ka, a1, a2⟩ := Full.gap_lexes ha
  have hl : LexesTo (encode input) (kb ++ (ks ++ ka)) := by
    have := b2 (h2 (Full.gap_follows ha (r := []) (fun b q h => by cases h)) (a2 .nil))
    simpa [ht] using this
  obtain ⟨as, u, h3, h4⟩ := C50_meaning_partial cfg env conv input _ _ hl (Program.last b1 h1 (Full.grouped e he) a1) hq hd
    (fun f hf => by obtain rfl := List.mem_singleton.mp hf; exact Full.meaningful _ e he)
  rw [List.map_singleton, Full.expr _ e he] at h4
  obtain ⟨a, rfl, h5⟩ := List.map_eq_singleton_iff.mp h4
  exact ⟨a, u, h3, h5⟩

/-- The full form of C85 is one of these layouts. -/
theorem C86_plain (e : Expr) (he : e.Writable) : Spelled false e e.text := Full.spells false e he

/-! ### Cases -/

theorem letter_name (c : Char) (h : isNameStart c.toNat = true) : Name [c] := by
  have := Name.plain (seg := [c]) (segs := []) ⟨c, [], rfl, h, by simp⟩ (by simp)
  simpa [contexts] using this

theorem digit_valid (c : Char) (h : isDec c = true) : ({ mantissa := ⟨[c], none⟩ } : Literal).Valid ∧
    ({ mantissa := ⟨[c], none⟩ } : Literal).kind = .Integer ∧ ¬ ({ mantissa := ⟨[c], none⟩ } : Literal).badDigits := by
  have hb : ¬ ({ mantissa := ⟨[c], none⟩ } : Literal).badDigits := by rintro ⟨b, hb, -⟩; cases hb
  refine ⟨⟨fun b h => (by cases h), ⟨by simp [Digits.all], fun x hx => ?_⟩, fun _ _ _ h => (by cases h), fun _ h => (by cases h)⟩, ?_, hb⟩
  · have : x = c := by simpa [Digits.all] using hx
    subst this; show (isDec x || _) = true; rw [h]; rfl
  · unfold Literal.kind
    rw [if_neg hb, if_neg (by rintro (h | h) <;> cases h), if_neg (by rintro ⟨b, hb, -⟩; cases hb)]

/-- `f[x, "a\"π"][-2, g[]]` -/
def fullExpr : Expr :=
  .call (.call (.leaf .Symbol (bytes ['f'])) [.leaf .Symbol (bytes ['x']), .leaf .String (encode (quoted "a\"π".toList))])
    [.leaf .Integer (byte '-' :: bytes ['2']), .call (.leaf .Symbol (bytes ['g'])) []]

theorem full_writable : fullExpr.Writable := by
  obtain ⟨h1, h2, -⟩ := digit_valid '2' (by decide)
  have hf := PlainAtom.name (letter_name 'f' (by decide))
  have hn := Negative.mk h1 (.inl h2) (by decide)
  rw [h2] at hn
  exact ⟨⟨.inl hf, hf, ⟨.inl (.name (letter_name 'x' (by decide))), .inl (.string (by decide)), trivial⟩, fun a h => by cases h⟩,
    trivial, ⟨.inr hn, ⟨.inl (.name (letter_name 'g' (by decide))), .name (letter_name 'g' (by decide)), trivial, fun a h => by cases h⟩, trivial⟩,
    fun a h => by cases h⟩

example : encode "f[x, \"a\\\"π\"][-2, g[]]".toList = fullExpr.text := by decide +kernel

/-- It is read back. -/
example : ∃ a u, parseBytesAsts Cfg.default AEnv.default .lineColumn .notScript (encode "f[x, \"a\\\"π\"][-2, g[]]".toList) = .ok ([a], u) ∧
    erase a = fullExpr :=
  C85_full_form _ _ _ _ _ full_writable (by decide +kernel) rfl (fun _ _ => rfl)

/-- On two lines. -/
example : ∃ as u, parseBytesAsts Cfg.default AEnv.default .lineColumn .notScript
      (encode "f[x, \"a\\\"π\"][-2, g[]]\nf[x, \"a\\\"π\"][-2, g[]]\n".toList) = .ok (as, u) ∧ as.map erase = [fullExpr, fullExpr] :=
  C85_lines _ _ _ false _ _ (by simp [full_writable]) (by decide +kernel) rfl (fun _ _ => rfl)

/-- `a+b` and `Plus[a, b]`. -/
example : ∃ a a' u u', parseBytesAsts Cfg.default AEnv.default .lineColumn .notScript (encode "a+b".toList) = .ok ([a], u) ∧
    parseBytesAsts Cfg.default AEnv.default .lineColumn .notScript (encode "Plus[a, b]".toList) = .ok ([a'], u') ∧ erase a = erase a' := by
  have hn : PlainAtom .Symbol (bytes "Plus".toList) := by
    refine .name ?_
    have := Name.plain (seg := "Plus".toList) (segs := []) ⟨'P', "lus".toList, rfl, by decide, by decide⟩ (by simp)
    simpa [contexts] using this
  exact C85_notation Cfg.default AEnv.default .lineColumn "a+b".toList "Plus[a, b]".toList _
    (.chain .Plus Prec.INFIX_PLUS (Written.letter 'a') (.last (Written.op '+' .Plus) (Written.letter 'b')))
    (show LexesTo (bytes "a+b".toList) _ from Syn.scan_text (by decide +kernel)) (Syn.program_one (by decide +kernel) (by decide +kernel))
    ⟨trivial, trivial⟩
    ⟨.inl hn, hn, ⟨.inl (.name (letter_name 'a' (by decide))), .inl (.name (letter_name 'b' (by decide))), trivial⟩, fun a h => by cases h⟩
    (by decide +kernel) rfl (fun _ _ => rfl)

/-- A name with letters of other alphabets: ``é`ß2[]``. -/
example : ∃ a u, parseBytesAsts Cfg.default AEnv.default .lineColumn .notScript (encode "é`ß2[]".toList) = .ok ([a], u) ∧
    erase a = .call (.leaf .Symbol (encode "é`ß2".toList)) [] := by
  have hn : PlainAtom .Symbol (encode "é`ß2".toList) := by
    refine .word (.plain (seg := ['é']) (segs := [['ß', '2']]) ⟨'é', [], rfl, ?_, by simp⟩ ?_) (by decide) (by decide +kernel)
    · exact (letter_iff (c := ⟨ch 'é', .none⟩)).mp (by decide +kernel)
    · intro s hs
      obtain rfl := List.mem_singleton.mp hs
      refine ⟨'ß', ['2'], rfl, (letter_iff (c := ⟨ch 'ß', .none⟩)).mp (by decide +kernel), ?_⟩
      intro x hx
      obtain rfl := List.mem_singleton.mp hx
      exact .inr (by simp [Digit])
  exact C85_full_form _ _ _ _ _ ⟨.inl hn, hn, trivial, fun a h => by cases h⟩ (by decide +kernel) rfl (fun _ _ => rfl)

/-- `f (*(*c*)*)[ x ,` and, on the next line, tab, `1]` is `f[x, 1]`. -/
example : ∃ a u, parseBytesAsts Cfg.default AEnv.default .lineColumn .notScript (encode "\n f (*(*c*)*)[ x ,\r\n\t1] ".toList) = .ok ([a], u) ∧
    erase a = .call (.leaf .Symbol (bytes ['f'])) [.leaf .Symbol (bytes ['x']), .leaf .Integer (bytes ['1'])] := by
  obtain ⟨h1, h2, h3⟩ := digit_valid '1' (by decide)
  have hf := PlainAtom.name (letter_name 'f' (by decide))
  have h1 := PlainAtom.number h1 h3
  rw [h2] at h1
  refine C86_layout _ _ _ _ [byte '\n', byte ' '] _ [byte ' '] _ (.call (w := bytes " (*(*c*)*)".toList) (.leaf (.inl hf)) hf
    (.space (.comment (body := bytes "(*c*)*)".toList) (w := []) (by decide +kernel) .none))
    (.more (.space .none) (.leaf (.inl (.name (letter_name 'x' (by decide))))) (.space .none)
      (.one (.newline (crlf := true) rfl (.tab .none)) (.leaf (.inl h1)) .none)) (fun a h => by cases h))
    (.newline (crlf := false) rfl (.space .none)) (.space .none) (by decide +kernel) rfl (fun _ _ => rfl)

/-- A head that is a number with a minus sign is not read back: `-2[x]` is `Times[-1, 2[x]]`. -/
example : denotes "-2[x]".toList [opposite (.call (number 2) [word "x"])] = true := by decide +kernel

/-- Nor is `-0`, which is `0`. -/
example : denotes "f[-0]".toList [.call (word "f") [number 0]] = true := by decide +kernel

end CodeParser.Props
