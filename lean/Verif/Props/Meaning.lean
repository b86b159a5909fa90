import Verif.Proofs.Meaning7
import Verif.Props.Syntax
/-!
# C50: the abstract syntax of a written expression is its meaning
-/
namespace CodeParser.Props
open CodeParser Spec Abs Mean Cst

/-- C50, except for the expressions `Meaningful` leaves out and with the setting `flattenTimes`
off: the abstract syntax of a text in which expressions are written denotes these expressions, in
full form: every operator is a call of its symbol, with the operands in their order, and there are
no other rearrangements than those of `Form.expr`. -/
theorem C50_meaning_partial (cfg : Cfg) (env : AEnv) (conv : Conv) (input : List Char) (ks : List Lexeme) (fs : List Spec.Form)
    (hlex : LexesTo (encode input) ks) (hp : Program fs ks)
    (hq : env.flattenTimes = false) (hd : QuotesNames env.debug) (hm : ∀ f ∈ fs, f.Meaningful ⟨env.infixBinaryAt, env.oldAtAtAt⟩) :
    ∃ as u, parseBytesAsts cfg env conv .notScript (encode input) = .ok (as, u) ∧
      as.map erase = fs.map (Form.expr ⟨env.infixBinaryAt, env.oldAtAtAt⟩ .value) := by
  obtain ⟨r, h1, h2⟩ := C48_parses cfg conv (encode input) ks fs hlex hp
  have hform := form h1
  have hfine := program_fine hp hm
  rw [← h2] at hfine
  have hsub : ∀ n, In n r.syntax' → n.isTrivia = true ∨ fine ⟨env.infixBinaryAt, env.oldAtAtAt⟩ (plain n) = true := by
    rintro n ⟨c, hc, hs⟩
    exact fine_sub hs (fines_mem hfine hc)
  have hkind : ∀ t ∈ leavesL r.syntax', fineKind t.kind = true := by
    intro t ht
    obtain ⟨c, hc, ht⟩ := mem_leavesL_iff.mp ht
    rcases hsub (.tok t) ⟨c, hc, leaf_sub (hform c hc) ht⟩ with h | h
    · exact trivia_fine _ h
    · exact h
  obtain ⟨as, h3, -⟩ := C37_correct_partial (env := env) h1
    (by
      rintro c hc (⟨t, ht, he⟩ | he)
      · have := hkind t (mem_leavesL_iff.mpr ⟨c, hc, ht⟩)
        rw [fineKind, he] at this
        cases this
      · rcases fines_mem hfine hc with h | h
        · cases c with
          | tok => simp [complete] at he
          | _ => cases h
        · rw [fine_complete c h] at he; cases he)
    (by
      intro n hn he
      rcases hsub n hn with h | h
      · cases n with
        | tok => exact he
        | _ => cases h
      · unfold EmptyParens at he
        split at he
        · next cs =>
          rw [plain, fine, Bool.and_eq_true, Bool.and_eq_true, plains_length, he] at h
          cases h.1.1
        · exact he)
    (by
      intro hat n hn he
      rcases hsub n hn with h | h
      · cases n with
        | tok => exact he
        | _ => cases h
      · unfold InvisiblyApplied at he
        split at he
        · next cs =>
          obtain ⟨s, t, x, e1, e2, e3⟩ := he
          rw [plain, fine, Bool.and_eq_true, Bool.and_eq_true, plains_proper, e1] at h
          have := h.1.2
          simp only [fineAt, List.map_cons, List.map_nil, plain, leaf, Bool.not_eq_true', decide_eq_false_iff_not] at this
          exact this ⟨hat, e2, e3⟩
        · exact he)
  refine ⟨as, r.unsafeEncoding, h3, ?_⟩
  obtain ⟨ds, h4, h5, -⟩ := C36_aggregate h1
  unfold parseBytesAsts at h3
  rw [h1] at h3
  simp only [h4] at h3
  cases hma : mapA (abstractCst env) ds with
  | error e => rw [hma] at h3; cases h3
  | ok bs =>
    rw [hma] at h3
    cases h3
    have hare : Are (fs.map Form.cst) ds := ⟨r.syntax', hform, h5, h2⟩
    exact mapA_forall₂ (fun f d a hs ha => hs.value a ⟨_, ha⟩) (program_sound hq hd hp (lexes_names hlex) hm (are_reps hare)) hma

/-! ### Examples -/

open Written Syn

/-- `a=-b+c d^f[x,{y}]` is `Set[a, Plus[Times[-1, b], Times[c, Power[d, f[x, List[y]]]]]]`. -/
example : ∃ as u, parseBytesAsts Cfg.default AEnv.default .lineColumn .notScript (encode "a=-b+c d^f[x,{y}]\nz".toList) = .ok (as, u) ∧
    as.map erase =
      [.call (word "Set") [word "a", .call (word "Plus") [.call (word "Times") [minusOne, word "b"],
        .call (word "Times") [word "c", .call (word "Power") [word "d", .call (word "f") [word "x", .call (word "List") [word "y"]]]]]],
      word "z"] := by
  obtain ⟨as, u, h1, h2⟩ := C50_meaning_partial Cfg.default AEnv.default .lineColumn "a=-b+c d^f[x,{y}]\nz".toList exampleLexemes
    [exampleForm, letter 'z'] example_lexes example_program rfl (fun _ _ => rfl) (by
      intro f hf
      simp only [List.mem_cons, List.not_mem_nil, or_false] at hf
      rcases hf with rfl | rfl
      · simp [exampleForm, letter, op, Form.Meaningful, Body.Meaningful, Tail.Meaningful, Body.double, Form.isAt, Tail.Each, isComma, Form.expr, Role.of, atomExpr]
        rfl
      · trivial)
  exact ⟨as, u, h1, h2.trans rfl⟩

theorem means_one {s : List Char} {f : Spec.Form} (hs : scan s.length s = some (lexemes f)) (h1 : written f = true) (h2 : grouped f = true)
    (hb : encode s = bytes s) (hm : f.Meaningful ⟨true, false⟩) :
    ∃ as u, parseBytesAsts Cfg.default AEnv.default .lineColumn .notScript (encode s) = .ok (as, u) ∧
      as.map erase = [f.expr ⟨true, false⟩ .value] :=
  C50_meaning_partial Cfg.default AEnv.default .lineColumn s (lexemes f) [f] (hb ▸ scan_text hs) (program_one h1 h2) rfl (fun _ _ => rfl)
    (fun g hg => by obtain rfl := List.mem_singleton.mp hg; exact hm)

/-- `f[x_,y_h]:=#1&;g` -/
example : ∃ as u, parseBytesAsts Cfg.default AEnv.default .lineColumn .notScript (encode "f[x_,y_h]:=#1&;g".toList) = .ok (as, u) ∧
    as.map erase = [.call (word "CompoundExpression") [.call (word "SetDelayed")
      [.call (word "f") [.call (word "Pattern") [word "x", .call (word "Blank") []],
          .call (word "Pattern") [word "y", .call (word "Blank") [word "h"]]],
        .call (word "Function") [.call (word "Slot") [.leaf .Integer (bytes "1".toList)]]], word "g"]] := by
  obtain ⟨as, u, h1, h2⟩ := means_one (s := "f[x_,y_h]:=#1&;g".toList) (f := patternsForm) (by decide +kernel) (by decide +kernel)
    (by decide +kernel) (by decide +kernel) (by
      simp [patternsForm, letter, Form.Meaningful, Body.Meaningful, Tail.Meaningful, Semis.Meaningful, Body.double, Form.isAt, Tail.Each,
        colonEqual, amp, Compound.Meaningful])
  exact ⟨as, u, h1, h2.trans rfl⟩

/-- `a~f~b;x=.;y/:z=#;` -/
example : ∃ as u, parseBytesAsts Cfg.default AEnv.default .lineColumn .notScript (encode "a~f~b;x=.;y/:z=#;".toList) = .ok (as, u) ∧
    as.map erase = [.call (word "CompoundExpression") [.call (word "f") [word "a", word "b"], .call (word "Unset") [word "x"],
      .call (word "TagSet") [word "y", word "z", .call (word "Slot") [number 1]], word "Null"]] := by
  obtain ⟨as, u, h1, h2⟩ := means_one (s := "a~f~b;x=.;y/:z=#;".toList) (f := stepsForm) (by decide +kernel) (by decide +kernel)
    (by decide +kernel) (by decide +kernel) (by
      simp [stepsForm, letter, Form.Meaningful, Semis.Meaningful])
  exact ⟨as, u, h1, h2.trans rfl⟩

/-- `{a;;b+c;;d,;;x=y,f[[z;;]]}` -/
example : ∃ as u, parseBytesAsts Cfg.default AEnv.default .lineColumn .notScript (encode "{a;;b+c;;d,;;x=y,f[[z;;]]}".toList) = .ok (as, u) ∧
    as.map erase = [.call (word "List") [.call (word "Span") [word "a", .call (word "Plus") [word "b", word "c"], word "d"],
      .call (word "Set") [.call (word "Span") [number 1, word "x"], word "y"],
      .call (word "Part") [word "f", .call (word "Span") [word "z", word "All"]]]] := by
  obtain ⟨as, u, h1, h2⟩ := means_one (s := "{a;;b+c;;d,;;x=y,f[[z;;]]}".toList) (f := spansForm) (by decide +kernel) (by decide +kernel)
    (by decide +kernel) (by decide +kernel) (by
      simp [spansForm, letter, Form.Meaningful, Body.Meaningful, Body.InnerMeaningful, Reach.Meaningful, Tail.Meaningful, Body.double, Form.isAt,
        Tail.Each, isComma, square]
      exact ⟨(fun h => by cases h), rfl⟩)
  exact ⟨as, u, h1, h2.trans rfl⟩

mutual
/-- The expressions are equal. -/
def same : Expr → Expr → Bool
  | .leaf k t, .leaf k' t' => k == k' && t == t'
  | .call h as, .call h' as' => same h h' && sames as as'
  | .error, .error => true
  | _, _ => false
def sames : List Expr → List Expr → Bool
  | [], [] => true
  | a :: as, b :: bs => same a b && sames as bs
  | _, _ => false
end

mutual
theorem of_same : ∀ {a b : Expr}, same a b = true → a = b
  | .leaf k t, b, h => by
    cases b <;> simp [same] at h
    rw [h.1, h.2]
  | .call f as, b, h => by
    cases b <;> simp [same] at h
    rw [of_same h.1, of_sames h.2]
  | .error, b, h => by cases b <;> simp [same] at h; rfl
theorem of_sames : ∀ {as bs : List Expr}, sames as bs = true → as = bs
  | [], bs, h => by cases bs <;> simp [sames] at h; rfl
  | a :: as, bs, h => by
    cases bs <;> simp [sames] at h
    rw [of_same h.1, of_sames h.2]
end

/-- The text denotes these expressions, with the default settings. -/
def denotes (input : List Char) (es : List Expr) : Bool :=
  match parseBytesAsts Cfg.default AEnv.default .lineColumn .notScript (encode input) with
  | .ok (as, _) => sames (as.map erase) es
  | .error _ => false

theorem of_denotes {input : List Char} {es : List Expr} (h : denotes input es = true) :
    ∃ as u, parseBytesAsts Cfg.default AEnv.default .lineColumn .notScript (encode input) = .ok (as, u) ∧ as.map erase = es := by
  unfold denotes at h
  split at h
  · next as u heq => exact ⟨as, u, heq, of_sames h⟩
  · cases h

/-- C50 fails as stated, because the code has a symbol for commas: `{Comma @ x, y}` becomes `{x, y}`,
with the default settings, although `{f @ x, y}` is `{f[x], y}`; and ``{CodeParser`Comma[x, y]}``
becomes `{x, y}`. -/
theorem C50_violated :
    (∃ as u, parseBytesAsts Cfg.default AEnv.default .lineColumn .notScript (encode "{f@x,y}".toList) = .ok (as, u) ∧
      as.map erase = [.call (word "List") [.call (word "f") [word "x"], word "y"]]) ∧
    (∃ as u, parseBytesAsts Cfg.default AEnv.default .lineColumn .notScript (encode "{Comma@x,y}".toList) = .ok (as, u) ∧
      as.map erase = [.call (word "List") [word "x", word "y"]]) ∧
    (∃ as u, parseBytesAsts Cfg.default AEnv.default .lineColumn .notScript (encode "{CodeParser`Comma[x,y]}".toList) = .ok (as, u) ∧
      as.map erase = [.call (word "List") [word "x", word "y"]]) :=
  ⟨of_denotes (by decide +kernel), of_denotes (by decide +kernel), of_denotes (by decide +kernel)⟩

/-- C50: the meaning of a symbol depends on how its characters are written: `\[Pi]` and `\:03c0` are `Pi`, but `\:03C0`,
which is the same character, is not. -/
theorem C50_spelling :
    (∃ as u, parseBytesAsts Cfg.default AEnv.default .lineColumn .notScript (encode "\\[Pi]".toList) = .ok (as, u) ∧ as.map erase = [word "Pi"]) ∧
    (∃ as u, parseBytesAsts Cfg.default AEnv.default .lineColumn .notScript (encode "\\:03c0".toList) = .ok (as, u) ∧ as.map erase = [word "Pi"]) ∧
    (∃ as u, parseBytesAsts Cfg.default AEnv.default .lineColumn .notScript (encode "\\:03C0".toList) = .ok (as, u) ∧
      as.map erase = [word "\\:03C0"]) ∧
    NextChar (bytes "\\:03c0".toList) ⟨.char 0x3c0, .hex4⟩ [] ∧ NextChar (bytes "\\:03C0".toList) ⟨.char 0x3c0, .hex4⟩ [] :=
  ⟨of_denotes (by decide +kernel), of_denotes (by decide +kernel), of_denotes (by decide +kernel), nextChar_run (by decide +kernel) rfl,
    nextChar_run (by decide +kernel) rfl⟩

/-- `a\[Rule]\[Pi]` is `Rule[a, Pi]`. -/
example : ∃ as u, parseBytesAsts Cfg.default AEnv.default .lineColumn .notScript (encode "a\\[Rule]\\[Pi]".toList) = .ok (as, u) ∧
    as.map erase = [.call (word "Rule") [word "a", word "Pi"]] := by
  have hl : LexesTo (encode "a\\[Rule]\\[Pi]".toList) [name 'a', (.LongName_Rule, bytes "\\[Rule]".toList), (.Symbol, bytes "\\[Pi]".toList)] := by
    refine .word (text := bytes "a".toList) (r := bytes "\\[Rule]\\[Pi]".toList) ?_ ?_
    · exact .letter (nextChar_run (c := ⟨ch 'a', .none⟩) (r := bytes "\\[Rule]\\[Pi]".toList) (by decide +kernel) rfl)
        ((letter_iff (c := ⟨ch 'a', .none⟩)).mp (by decide +kernel))
        (.stop (.stop (nextChar_run (c := ⟨.char 0xf522, .longName⟩) (r := bytes "\\[Pi]".toList) (by decide +kernel) rfl)
          (fun h => absurd ((letter_iff (c := ⟨.char 0xf522, .none⟩)).mpr h) (by decide +kernel)) (fun h => absurd h.2 (by decide))) (by decide))
    refine .lone (text := bytes "\\[Rule]".toList) (c := ⟨.char 0xf522, .longName⟩) (nextChar_run (by decide +kernel) rfl)
      (.operator (name := "Rule".toList) (by decide +kernel) (by decide +kernel) (by decide +kernel)) (by decide) ?_
    exact .word (text := bytes "\\[Pi]".toList) (r := []) (.letter (nextChar_run (c := ⟨.char 0x3c0, .longName⟩) (r := []) (by decide +kernel) rfl)
      ((letter_iff (c := ⟨.char 0x3c0, .none⟩)).mp (by decide +kernel))
      (.stop (.stop (nextChar_run (c := ⟨.eof, .none⟩) (r := []) (by decide +kernel) rfl) (fun h => h) (fun h => h)) (by decide))) .nil
  obtain ⟨as, u, h1, h2⟩ := C50_meaning_partial Cfg.default AEnv.default .lineColumn _ _
    [.binary (letter 'a') ⟨(.LongName_Rule, bytes "\\[Rule]".toList), _, _, rfl⟩ (.atom (.Symbol, bytes "\\[Pi]".toList))] hl
    (program_one (by decide +kernel) (by decide +kernel)) rfl (fun _ _ => rfl)
    (fun g hg => by obtain rfl := List.mem_singleton.mp hg; exact ⟨trivial, trivial, (fun h => by cases h), (fun _ h => by cases h)⟩)
  exact ⟨as, u, h1, h2.trans rfl⟩

/-- `--0`, `-(2)x`, `+ +a+b-c`, `a/b/c`, `f'''[x]`, `a<b<=c`, `f[[1]][2]`. -/
example : (denotes "- -0".toList [number 0] && denotes "-(2)x".toList [.call (word "Times") [.leaf .Integer (utf8 "-2".toList), word "x"]] &&
    denotes "+ +a+b-c".toList [.call (word "Plus") [word "a", word "b", opposite (word "c")]] &&
    denotes "a/b/c".toList [.call (word "Times") [.call (word "Times") [word "a", .call (word "Power") [word "b", minusOne]],
      .call (word "Power") [word "c", minusOne]]] &&
    denotes "f'''[x]".toList [.call (derivative 3 (word "f")) [word "x"]] &&
    denotes "a<b<=c".toList [.call (word "Inequality") [word "a", word "Less", word "b", word "LessEqual", word "c"]] &&
    denotes "f[[1]][2]".toList [.call (.call (word "Part") [word "f", number 1]) [number 2]]) = true := by
  decide +kernel

/-- Comparisons in long names: `a\[NotEqual]b`, `a\[LessSlantEqual]b<=c` and `a\[NotLess]b<c`. -/
example : (denotes "a\\[NotEqual]b".toList [.call (word "Unequal") [word "a", word "b"]] &&
    denotes "a\\[LessSlantEqual]b<=c".toList [.call (word "LessEqual") [word "a", word "b", word "c"]] &&
    denotes "a\\[NotLess]b<c".toList [.call (word "Inequality") [word "a", word "NotLess", word "b", word "Less", word "c"]]) = true := by
  decide +kernel

/-- Comparisons between vectors: ``a\[VectorLess]b\[VectorLess]c`` is `VectorLess[{a, b, c}]`, with
`<` there is a ``Developer`VectorInequality``, and in front of `\[NotLess]` the chain is cut. -/
example : (denotes "a\\[VectorLess]b\\[VectorLess]c".toList [.call (word "VectorLess") [.call (word "List") [word "a", word "b", word "c"]]] &&
    denotes "a\\[VectorLess]b<c".toList [.call (word "Developer`VectorInequality") [word "a", word "VectorLess", word "b", word "Less", word "c"]] &&
    denotes "a\\[VectorLess]b\\[NotLess]c<d".toList [.call (word "Inequality")
      [.call (word "VectorLess") [.call (word "List") [word "a", word "b"]], word "NotLess", word "c", word "Less", word "d"]]) = true := by
  decide +kernel

/-- `f\[InvisibleApplication]x+y`. -/
example : denotes "f\\[InvisibleApplication]x+y".toList [.call (word "Plus") [.call (word "f") [word "x"], word "y"]] = true := by
  decide +kernel

/-- `%%%`, `x_.`, `_.`, `x__h`, `a; ;b`, `#name`, `##2`, `x/:y=.`, `-_`. -/
example : (denotes "%%%".toList [.call (word "Out") [.leaf .Integer (utf8 "-3".toList)]] &&
    denotes "x_.".toList [.call (word "Optional") [.call (word "Pattern") [word "x", .call (word "Blank") []]]] &&
    denotes "_.".toList [.call (word "Optional") [.call (word "Blank") []]] &&
    denotes "x__h".toList [.call (word "Pattern") [word "x", .call (word "BlankSequence") [word "h"]]] &&
    denotes "a; ;b".toList [.call (word "CompoundExpression") [word "a", word "Null", word "b"]] &&
    denotes "#name".toList [.call (word "Slot") [.leaf .String (utf8 "\"name\"".toList)]] &&
    denotes "##2".toList [.call (word "SlotSequence") [.leaf .Integer (utf8 "2".toList)]] &&
    denotes "x:a_:0".toList [.call (word "Optional") [.call (word "Pattern") [word "x", .call (word "Pattern") [word "a", .call (word "Blank") []]], number 0]] &&
    denotes "x/:y=.".toList [.call (word "TagUnset") [word "x", word "y"]] &&
    denotes "-_".toList [opposite (.call (word "Blank") [])]) = true := by
  decide +kernel

end CodeParser.Props
