import Verif.Proofs.Syntax7
import Verif.Props.Parser
/-!
# C48, C49: written expressions are parsed as the trees they stand for
-/
namespace CodeParser.Props
open CodeParser Spec Syn

/-- C48: a text in which expressions are written, parenthesised where their precedences require
it, is parsed, and the trees are those of the expressions: every operator with the operands, every
bracket with the contents, in the order they are written, whatever blanks and comments are between
them. -/
theorem C48_parses (cfg : Cfg) (conv : Conv) (bs : List UInt8) (ks : List Lexeme) (fs : List Form)
    (hlex : LexesTo bs ks) (hp : Program fs ks) :
    ∃ r, parseBytesCst cfg conv .notScript bs = .ok r ∧ plains r.syntax' = fs.map Form.cst := by
  have hat : Syn.At (St.init conv bs) ks := ⟨rfl, hlex⟩
  have key := program_parses (env := ⟨cfg, recoverGroup cfg bs⟩) hp (n := bs.length + 1) (cs := []) hat
  have hterm := C27_terminates cfg conv .notScript bs
  have hdo : doParse ⟨cfg, recoverGroup cfg bs⟩ conv .notScript bs =
      parseLoopN ⟨cfg, recoverGroup cfg bs⟩ (bs.length + 1) [] ⟨St.init conv bs, [], [], []⟩ := rfl
  unfold parseBytesCst at hterm ⊢
  rw [hdo] at hterm ⊢
  unfold wpP at key
  cases h : parseLoopN ⟨cfg, recoverGroup cfg bs⟩ (bs.length + 1) [] ⟨St.init conv bs, [], [], []⟩ with
  | error e =>
    rw [h] at key hterm
    exact absurd (congrArg Except.error (show e = .fuel from key)) hterm
  | ok q =>
    obtain ⟨cs, s⟩ := q
    rw [h] at key
    have key : plains cs = fs.map Form.cst := by simpa [plains] using key
    simp only
    split
    · exact ⟨_, rfl, key⟩
    · rw [fixes_whole cs (by rw [key]; exact program_whole hp)]
      exact ⟨_, rfl, key⟩

/-- C48: the lexemes of a text say which expressions are written in it: two readings of the same
lexemes stand for the same trees. -/
theorem C48_unambiguous (bs : List UInt8) (ks : List Lexeme) (fs fs' : List Form)
    (hlex : LexesTo bs ks) (h : Program fs ks) (h' : Program fs' ks) :
    fs.map Form.cst = fs'.map Form.cst := by
  obtain ⟨r, h1, h2⟩ := C48_parses Cfg.default .lineColumn bs ks fs hlex h
  obtain ⟨r', h3, h4⟩ := C48_parses Cfg.default .lineColumn bs ks fs' hlex h'
  rw [h1] at h3
  cases h3
  rw [← h2, ← h4]

/-! ### An example -/

namespace Written

/-- A name of one letter. -/
def letter (c : Char) : Form := .atom (.Symbol, [byte c])

def op (c : Char) (k : TK) : Lexeme := (k, [byte c])

/-- `a=-b+c d^f[x,{y}]` -/
def exampleForm : Form :=
  .binary (letter 'a') ⟨op '=' .Equal, _, _, rfl⟩
    (.chain .Plus Prec.INFIX_PLUS (.prefix ⟨op '-' .Minus, _, _, rfl⟩ (letter 'b'))
      (.last (op '+' .Plus)
        (.chain .Times Prec.STAR (letter 'c')
          (.last implicitTimes
            (.binary (letter 'd') ⟨op '^' .Caret, _, _, rfl⟩
              (.call (letter 'f') ⟨op '[' .OpenSquare, op ']' .CloseSquare, _, rfl, ⟨rfl, rfl⟩⟩
                (.many (letter 'x') (.last (op ',' .Comma)
                  (.group ⟨op '{' .OpenCurly, op '}' .CloseCurly, _, rfl, ⟨rfl, rfl⟩⟩ (.one (letter 'y')))))))))))

def exampleText : List UInt8 := bytes "a=-b+c d^f[x,{y}]\nz".toList

def sp : Lexeme := (.Whitespace, [byte ' '])

def name (c : Char) : Lexeme := (.Symbol, [byte c])

def exampleLexemes : List Lexeme :=
  [name 'a', op '=' .Equal, op '-' .Minus, name 'b', op '+' .Plus, name 'c', sp, name 'd', op '^' .Caret, name 'f', op '[' .OpenSquare,
    name 'x', op ',' .Comma, op '{' .OpenCurly, name 'y', op '}' .CloseCurly, op ']' .CloseSquare, (.ToplevelNewline, [byte '\n']), name 'z']

theorem example_lexes : LexesTo exampleText exampleLexemes := scan_text (by decide +kernel)

theorem example_program : Program [exampleForm, letter 'z'] exampleLexemes := by
  have nb : ∀ g, Blank g [] := fun g _ h => by cases h
  have h := Program.cons (w := []) (w' := []) (nl := [byte '\n']) (fs := [letter 'z']) (rest := [name 'z']) (nb _)
    (written_iff (f := exampleForm) (by decide +kernel)) (grouped_iff (by decide +kernel)) (nb _) ?_
    (.last (w := []) (w' := []) (nb _) (.atom rfl) trivial (nb _))
  · have e : exampleLexemes = [] ++ (lexemes exampleForm ++ ([] ++ (.ToplevelNewline, [byte '\n']) :: [name 'z'])) := by decide +kernel
    rw [e]; exact h
  · exact fun e he => ends_iff (f := exampleForm) (by decide +kernel) e he

/-- A text of one expression is parsed as its tree. -/
theorem parses_one {f : Form} {s : List Char} (h1 : written f = true) (h2 : grouped f = true)
    (h3 : scan s.length s = some (lexemes f)) :
    ∃ r, parseBytesCst Cfg.default .lineColumn .notScript (bytes s) = .ok r ∧ plains r.syntax' = [f.cst] :=
  C48_parses _ _ _ _ _ (scan_text h3) (program_one h1 h2)

def amp : Postfix := ⟨op '&' .Amp, _, _, rfl⟩

def square : CallBracket := ⟨op '[' .OpenSquare, op ']' .CloseSquare, _, rfl, ⟨rfl, rfl⟩⟩

def colonEqual : Binary := ⟨(.ColonEqual, bytes ":=".toList), _, _, rfl⟩

/-- `f[x_,y_h]:=#1&;g` -/
def patternsForm : Form :=
  .semi (.binary (.call (letter 'f') square
      (.many (.compound (.named (name 'x') (op '_' .Under) _ rfl rfl))
        (.last (op ',' .Comma) (.compound (.typed (name 'y') (op '_' .Under) (name 'h') _ _ rfl rfl rfl rfl)))))
    colonEqual (.postfix (.compound (.slot (op '#' .Hash) (op '1' .Integer) _ rfl rfl ⟨['1'], rfl, by decide⟩)) amp))
    (.last (op ';' .Semi) (letter 'g'))

example : ∃ r, parseBytesCst Cfg.default .lineColumn .notScript (bytes "f[x_,y_h]:=#1&;g".toList) = .ok r ∧
    plains r.syntax' = [patternsForm.cst] := parses_one (by decide +kernel) (by decide +kernel) (by decide +kernel)

/-- `a; ;b`: the operand between the semicolons is missing. -/
example : ∃ r, parseBytesCst Cfg.default .lineColumn .notScript (bytes "a; ;b".toList) = .ok r ∧
    plains r.syntax' = [.node (.infix .CompoundExpression)
      [leaf (name 'a'), leaf (op ';' .Semi), leaf implicitNull, leaf (op ';' .Semi), leaf (name 'b')]] := by
  have nb : ∀ g, Blank g [] := fun g _ h => by cases h
  have hsp : Blank false [sp] := fun x hx => by simp at hx; subst hx; rfl
  refine C48_parses _ _ _ [name 'a', op ';' .Semi, sp, op ';' .Semi, name 'b']
    [.semi (letter 'a') (.skip (op ';' .Semi) (.last (op ';' .Semi) (letter 'b')))] (scan_text (by decide +kernel)) ?_
  have h : Writes false (.semi (letter 'a') (.skip (op ';' .Semi) (.last (op ';' .Semi) (letter 'b'))))
      [name 'a', op ';' .Semi, sp, op ';' .Semi, name 'b'] :=
    .semi (.atom rfl) (.skip (w := []) rfl (nb _) (.last (w := [sp]) (w' := []) rfl hsp (nb _) (.atom rfl)))
  exact .last (w := []) (w' := []) (nb _) h (grouped_iff (by decide +kernel)) (nb _)

/-- `a~f~b;x=.;y/:z=%;` -/
def stepsForm : Form :=
  .semi (.ternary (letter 'a') ⟨op '~' .Tilde, op '~' .Tilde, _, _, _, rfl⟩ (letter 'f') (letter 'b'))
    (.more (op ';' .Semi) (.unset (letter 'x') (op '=' .Equal) (op '.' .Dot))
      (.more (op ';' .Semi) (.ternary (letter 'y') ⟨(.SlashColon, bytes "/:".toList), op '=' .Equal, _, _, _, rfl⟩ (letter 'z') (.atom (op '#' .Hash)))
        (.stop (op ';' .Semi))))

example : ∃ r, parseBytesCst Cfg.default .lineColumn .notScript (bytes "a~f~b;x=.;y/:z=#;".toList) = .ok r ∧
    plains r.syntax' = [stepsForm.cst] := parses_one (by decide +kernel) (by decide +kernel) (by decide +kernel)

def colon : Lexeme := op ':' .Colon

/-- `{x:a|b,y_:0,z:_:d=e}`: a name in front of `:` is the name of the pattern, a pattern in front of
it has a default value. -/
def colonsForm : Form :=
  .group ⟨op '{' .OpenCurly, op '}' .CloseCurly, _, rfl, ⟨rfl, rfl⟩⟩
    (.many (.pattern (name 'x') colon (.chain .Alternatives Prec.BAR (letter 'a') (.last (op '|' .Bar) (letter 'b'))))
      (.more (op ',' .Comma) (.optional (.compound (.named (name 'y') (op '_' .Under) _ rfl rfl)) colon (.atom (op '0' .Integer)))
        (.last (op ',' .Comma) (.binary (.optional (.pattern (name 'z') colon (.atom (op '_' .Under))) colon (letter 'd'))
          ⟨op '=' .Equal, _, _, rfl⟩ (letter 'e')))))

example : ∃ r, parseBytesCst Cfg.default .lineColumn .notScript (bytes "{x:a|b,y_:0,z:_:d=e}".toList) = .ok r ∧
    plains r.syntax' = [colonsForm.cst] := parses_one (by decide +kernel) (by decide +kernel) (by decide +kernel)

def semiSemi : Lexeme := (.SemiSemi, bytes ";;".toList)

/-- `{a;;b+c;;d,;;x=y,f[[z;;]]}`: a `;;` with a step, one with nothing in front of it, and one with
nothing behind it. -/
def spansForm : Form :=
  .group ⟨op '{' .OpenCurly, op '}' .CloseCurly, _, rfl, ⟨rfl, rfl⟩⟩
    (.many (.span (letter 'a') semiSemi
        (.step (.chain .Plus Prec.INFIX_PLUS (letter 'b') (.last (op '+' .Plus) (letter 'c'))) semiSemi (letter 'd')))
      (.more (op ',' .Comma) (.binary (.spanFrom semiSemi (.to (letter 'x'))) ⟨op '=' .Equal, _, _, rfl⟩ (letter 'y'))
        (.last (op ',' .Comma) (.call (letter 'f') square
          (.one (.group ⟨op '[' .OpenSquare, op ']' .CloseSquare, _, rfl, ⟨rfl, rfl⟩⟩ (.one (.span (letter 'z') semiSemi .all))))))))

example : ∃ r, parseBytesCst Cfg.default .lineColumn .notScript (bytes "{a;;b+c;;d,;;x=y,f[[z;;]]}".toList) = .ok r ∧
    plains r.syntax' = [spansForm.cst] := parses_one (by decide +kernel) (by decide +kernel) (by decide +kernel)

/-- `f[a,,b,]` and `{,c}`: expressions are missing between the commas. -/
example : (∃ r, parseBytesCst Cfg.default .lineColumn .notScript (bytes "f[a,,b,]".toList) = .ok r ∧
      plains r.syntax' = [.call [leaf (name 'f')] false .CodeParser_GroupSquare [leaf (op '[' .OpenSquare), .node (.infix .CodeParser_Comma)
        [leaf (name 'a'), leaf (op ',' .Comma), leaf missing, leaf (op ',' .Comma), leaf (name 'b'), leaf (op ',' .Comma), leaf missing],
        leaf (op ']' .CloseSquare)]]) ∧
    ∃ r, parseBytesCst Cfg.default .lineColumn .notScript (bytes "{,c}".toList) = .ok r ∧
      plains r.syntax' = [.node (.group .List) [leaf (op '{' .OpenCurly), .node (.infix .CodeParser_Comma)
        [leaf missingFirst, leaf (op ',' .Comma), leaf (name 'c')], leaf (op '}' .CloseCurly)]] := by
  refine ⟨parses_one (f := .call (letter 'f') square (.gaps (letter 'a') (.skip (op ',' .Comma)
      (.more (op ',' .Comma) (letter 'b') (.stop (op ',' .Comma)))))) (by decide +kernel) (by decide +kernel) (by decide +kernel),
    parses_one (f := .group ⟨op '{' .OpenCurly, op '}' .CloseCurly, _, rfl, ⟨rfl, rfl⟩⟩ (.gap (.last (op ',' .Comma) (letter 'c'))))
      (by decide +kernel) (by decide +kernel) (by decide +kernel)⟩

/-- `a\[Rule]b`: an operator written as an escape. -/
example : ∃ r, parseBytesCst Cfg.default .lineColumn .notScript (bytes "a\\[Rule]b".toList) = .ok r ∧
    plains r.syntax' = [.node (.binary .Rule) [leaf (name 'a'), leaf (.LongName_Rule, bytes "\\[Rule]".toList), leaf (name 'b')]] := by
  refine C48_parses _ _ _ _ [.binary (letter 'a') ⟨(.LongName_Rule, bytes "\\[Rule]".toList), _, _, rfl⟩ (letter 'b')] ?_
    (program_one (by decide +kernel) (by decide +kernel))
  have h := scan_text (s := ['b']) (by decide +kernel : _ = some [name 'b'])
  refine .word (text := bytes "a".toList) (r := bytes "\\[Rule]b".toList) ?_ ?_
  · exact .letter (nextChar_run (c := ⟨ch 'a', .none⟩) (r := bytes "\\[Rule]b".toList) (by decide +kernel) rfl)
      ((letter_iff (c := ⟨ch 'a', .none⟩)).mp (by decide +kernel))
      (.stop (.stop (nextChar_run (c := ⟨.char 0xf522, .longName⟩) (r := bytes "b".toList) (by decide +kernel) rfl)
        (fun h => absurd ((letter_iff (c := ⟨.char 0xf522, .none⟩)).mpr h) (by decide +kernel)) (fun h => absurd h.2 (by decide))) (by decide))
  exact .lone (text := bytes "\\[Rule]".toList) (c := ⟨.char 0xf522, .longName⟩) (nextChar_run (by decide +kernel) rfl)
    (.operator (name := "Rule".toList) (by decide +kernel) (by decide +kernel) (by decide +kernel)) (by decide) h

end Written

open Written

/-! ### C49: line breaks -/

/-- C49, except for lines that end with a sequence (of sums, products, …): a line break behind an
expression ends it, whatever the next line begins with. -/
theorem C49_lines_partial (cfg : Cfg) (conv : Conv) (bs nl : List UInt8) (ks rest : List Lexeme) (f : Form) (fs : List Form)
    (hf : Writes false f ks) (hg : f.Grouped) (hend : ∀ p op, .operand p (some op) ∉ f.right) (hfs : Program fs rest)
    (hlex : LexesTo bs (ks ++ (.ToplevelNewline, nl) :: rest)) :
    ∃ r, parseBytesCst cfg conv .notScript bs = .ok r ∧ plains r.syntax' = f.cst :: fs.map Form.cst := by
  refine C48_parses cfg conv bs _ (f :: fs) hlex ?_
  have nb : ∀ g, Blank g [] := fun g _ h => by cases h
  refine Program.cons (w := []) (w' := []) (nl := nl) (nb _) hf hg (nb _) (fun e he => ?_) hfs
  cases e with
  | operand p a => intro op hop; subst hop; exact absurd he (hend p op)
  | semi | span | spanOpen => trivial

/-- `a` and `-c`, on two lines, are two expressions. -/
example : ∃ r, parseBytesCst Cfg.default .lineColumn .notScript (bytes "a\n-c".toList) = .ok r ∧
    plains r.syntax' = [(letter 'a').cst, (Form.prefix ⟨op '-' .Minus, _, _, rfl⟩ (letter 'c')).cst] := by
  have nb : ∀ g, Blank g [] := fun g _ h => by cases h
  refine C49_lines_partial _ _ _ [byte '\n'] [name 'a'] [op '-' .Minus, name 'c'] (letter 'a') [.prefix ⟨op '-' .Minus, _, _, rfl⟩ (letter 'c')]
    (.atom rfl) trivial (by intro p op he; cases he) ?_ (scan_text (by decide +kernel))
  exact .last (w := []) (w' := []) (nb _) (.prefix (w := []) (nb _) (.atom rfl)) (grouped_iff (by decide +kernel)) (nb _)

/-- C49 fails as stated: `a+b` and `-c`, on two lines, are one expression, although each of the
lines is an expression. -/
theorem C49_violated : ∃ (bs bs' : List UInt8) (ks ks' : List Lexeme) (f f' : Form) (r : ParseResult),
    LexesTo bs ks ∧ Program [f] ks ∧ LexesTo bs' ks' ∧ Program [f'] ks' ∧
    parseBytesCst Cfg.default .lineColumn .notScript (bs ++ byte '\n' :: bs') = .ok r ∧ (plains r.syntax').length = 1 := by
  have nb : ∀ g, Blank g [] := fun g _ h => by cases h
  obtain ⟨r, h1, h2⟩ := of_parses (first := .notScript) (bs := bytes "a+b\n-c".toList)
    (p := fun r => decide ((plains r.syntax').length = 1)) (by decide +kernel)
  refine ⟨bytes "a+b".toList, bytes "-c".toList, [name 'a', op '+' .Plus, name 'b'], [op '-' .Minus, name 'c'],
    .chain .Plus Prec.INFIX_PLUS (letter 'a') (.last (op '+' .Plus) (letter 'b')), .prefix ⟨op '-' .Minus, _, _, rfl⟩ (letter 'c'), r,
    scan_text (by decide +kernel), ?_, scan_text (by decide +kernel), ?_, h1, of_decide_eq_true h2⟩
  · exact program_one (f := .chain .Plus Prec.INFIX_PLUS (letter 'a') (.last (op '+' .Plus) (letter 'b'))) (by decide +kernel) (by decide +kernel)
  · exact .last (w := []) (w' := []) (nb _) (.prefix (w := []) (nb _) (.atom rfl)) (grouped_iff (by decide +kernel)) (nb _)

end CodeParser.Props
