import Verif.Proofs.Abstract2
import Verif.Proofs.Abstract4
/-!
Property C37: abstraction of what the parser gives does not panic.
Property C38: chains of inequalities.
-/
namespace CodeParser.Props
open CodeParser Spec Cst Abs

variable {cfg : Cfg} {env : AEnv} {conv : Conv} {first : FirstLine} {r : ParseResult}

/-- The texts of the tokens of valid UTF-8 are valid UTF-8. -/
theorem result_text {input : List Char} (h : parseBytesCst cfg conv first (encode input) = .ok r)
    (ht : ∀ t ∈ leavesL r.syntax', unterminated t.kind = false) : ∀ t ∈ leavesL r.syntax', (fromUtf8 t.text).isSome = true := by
  obtain ⟨cs, f, ks, u, s, o⟩ := parse_ok h
  rw [outcome_fixed o ht]
  intro t htm
  obtain ⟨xs, hp, -⟩ := o.reach.path
  obtain ⟨ds, e1, e2⟩ := hp.steps (WF_init _ _) rfl
  obtain ⟨p, hp⟩ := (o.lies.placed e1 e2 t (o.sub.subset htm)).valid
  rw [hp, fromUtf8_encode]
  rfl

theorem mem_leavesL_iff {t : Tok} : ∀ {cs : List Cst}, t ∈ leavesL cs ↔ ∃ c ∈ cs, t ∈ leaves c
  | [] => by simp [leavesL]
  | c :: cs => by simp [leavesL, mem_leavesL_iff (cs := cs)]

theorem leaf_sub {c : Cst} (h : Form c) {t : Tok} : t ∈ leaves c → Sub (.tok t) c := by
  induction h with
  | tok => intro ht; simp only [leaves, List.mem_singleton] at ht; subst ht; exact .refl
  | node _ _ ih =>
    intro ht
    obtain ⟨c, hc, h⟩ := mem_leavesL_iff.mp (by simpa only [leaves] using ht)
    exact .node hc (ih c hc h)
  | call _ _ _ ih1 ih2 =>
    intro ht
    simp only [leaves, List.mem_append] at ht
    rcases ht with ht | ht
    · obtain ⟨c, hc, h⟩ := mem_leavesL_iff.mp ht
      exact .head hc (ih1 c hc h)
    · obtain ⟨c, hc, h⟩ := mem_leavesL_iff.mp ht
      exact .body hc (ih2 c hc h)

theorem sub_leaves {m c : Cst} (h : Sub m c) : ∀ t ∈ leaves m, t ∈ leaves c := by
  induction h with
  | refl => exact fun _ h => h
  | node hc _ ih => intro t ht; rw [leaves]; exact mem_leavesL_iff.mpr ⟨_, hc, ih t ht⟩
  | head hc _ ih => intro t ht; rw [leaves, List.mem_append]; exact Or.inl (mem_leavesL_iff.mpr ⟨_, hc, ih t ht⟩)
  | body hc _ ih => intro t ht; rw [leaves, List.mem_append]; exact Or.inr (mem_leavesL_iff.mpr ⟨_, hc, ih t ht⟩)

theorem complete_mem : ∀ {cs : List Cst}, completeL cs = true → ∀ c ∈ cs, complete c = true
  | [], _, c, hc => by cases hc
  | d :: cs, h, c, hc => by
    simp only [completeL, Bool.and_eq_true] at h
    rcases List.mem_cons.mp hc with rfl | hc
    · exact h.1
    · exact complete_mem h.2 c hc

theorem sub_complete {m c : Cst} (h : Sub m c) : complete c = true → complete m = true := by
  induction h with
  | refl => exact id
  | @node c k cs hc _ ih =>
    intro hk
    refine ih (complete_mem ?_ c hc)
    cases k <;> first | exact hk | cases hk
  | head hc _ ih =>
    intro hk
    simp only [complete, Bool.and_eq_true] at hk
    exact ih (complete_mem hk.1.2 _ hc)
  | body hc _ ih =>
    intro hk
    simp only [complete, Bool.and_eq_true] at hk
    exact ih (complete_mem hk.2 _ hc)

theorem mapA_length {f : α → A β} : ∀ {as : List α} {bs : List β}, mapA f as = .ok bs → bs.length = as.length
  | [], _, h => by cases h; rfl
  | a :: as, bs, h => by
    rw [mapA] at h
    cases h1 : f a with
    | error e => rw [h1] at h; cases h
    | ok b =>
      cases h2 : mapA f as with
      | error e => rw [h1, h2] at h; cases h
      | ok bs' =>
        rw [h1, h2] at h
        cases h
        simp [mapA_length h2]

theorem form_sub {t : Tok} {c : Cst} (h : Form c) (hs : Sub (.tok t) c) : spare t.kind = false := by
  generalize he : Cst.tok t = d at hs
  induction hs with
  | refl => subst he; cases h with | tok h => exact h
  | node hc _ ih => cases h with | node _ h => exact ih (h _ hc)
  | head hc _ ih => cases h with | call _ h _ => exact ih (h _ hc)
  | body hc _ ih => cases h with | call _ _ h => exact ih (h _ hc)

theorem error_unterminated : ∀ k : TK, k.isError = false → unterminated k = false := forall_of_all (by decide +kernel)

/-- C37.  If the input is valid UTF-8 and what the parser gives is fine, then there is no panic,
and each tree that is not white space, newline or comment gives one expression. -/
theorem C37_abstract_partial {input : List Char} (h : parseBytesCst cfg conv first (encode input) = .ok r)
    (hF : ∀ n, In n r.syntax' → Fine env.infixBinaryAt n) :
    ∃ as, parseBytesAsts cfg env conv first (encode input) = .ok (as, r.unsafeEncoding) ∧
      as.length = (proper r.syntax').length := by
  have hf := form h
  have ht : ∀ t ∈ leavesL r.syntax', unterminated t.kind = false := fun t ht => by
    obtain ⟨c, hc, h'⟩ := mem_leavesL_iff.mp ht
    have : Fine env.infixBinaryAt (.tok t) := hF _ ⟨c, hc, leaf_sub (hf c hc) h'⟩
    exact this.1
  obtain ⟨ds, h1, h2, h3⟩ := C36_aggregate h
  have ho := result_ordered h ht
  have htx := result_text h ht
  have hg : ∀ d ∈ ds, Abs.Good env.infixBinaryAt d := fun d hd => by
    obtain ⟨c, hc, hs⟩ := strippedL_mem h2 d hd
    have hl : ∀ t ∈ leavesL ds, t ∈ leavesL r.syntax' := fun t ht => by rw [h3] at ht; exact (List.mem_filter.mp ht).1
    refine ⟨strip_ready (hf c hc) hs fun n hn => hF n ⟨c, hc, hn⟩, ?_, fun t ht => htx t (hl t (mem_leavesL hd t ht))⟩
    refine ho.sub ((leaves_sublist hd).trans ?_)
    rw [h3]
    exact List.filter_sublist
  obtain ⟨as, h4⟩ := mapA_ok (f := abstractCst env) (as := ds) fun d hd => abstractCst_ok (hg d hd)
  refine ⟨as, by unfold parseBytesAsts; simp only [h, h1, h4], ?_⟩
  rw [← strippedL_length hf h2]
  exact mapA_length h4

/-- C37.  An input without errors and without `()` is turned into expressions without a panic.
(With the setting `infixBinaryAt`, on by default, there must be no `Plus\[InvisibleApplication]x`, nor
the same with the name of another operator.) -/
theorem C37_correct_partial {input : List Char} (h : parseBytesCst cfg conv first (encode input) = .ok r)
    (he : ∀ c ∈ r.syntax', ¬ Flawed c) (hp : ∀ n, In n r.syntax' → ¬ EmptyParens n)
    (hq : env.infixBinaryAt = true → ∀ n, In n r.syntax' → ¬ InvisiblyApplied n) :
    ∃ as, parseBytesAsts cfg env conv first (encode input) = .ok (as, r.unsafeEncoding) ∧
      as.length = (proper r.syntax').length := by
  have hn : ∀ n, In n r.syntax' → ¬ Flawed n := by
    rintro n ⟨c, hc, hs⟩ (⟨t, ht, hk⟩ | hk)
    · exact he c hc (Or.inl ⟨t, sub_leaves hs t ht, hk⟩)
    · refine he c hc (Or.inr ?_)
      cases hc : complete c with
      | false => rfl
      | true => rw [sub_complete hs hc] at hk; cases hk
  have len : ∀ {cs mid : List Cst} {o c : Tok} {op : GroupOp}, cs = .tok o :: (mid ++ [.tok c]) → Opens o.kind op →
      c.kind.isCloser = true → (∀ x ∈ cs, In x r.syntax') → (∃ x ∈ mid, Flawed x) ∨ (proper mid).length ≤ 1 →
      2 ≤ (proper cs).length ∧ (proper cs).length ≤ 3 := by
    rintro cs mid o c op rfl h1 h2 h3 h4
    have e1 : (Cst.tok o).isTrivia = false := by
      have := opens_gap h1
      obtain ⟨d, hd, hs⟩ := h3 (.tok o) (by simp)
      have hsp := form_sub (form h d hd) hs
      exact (trivia_white _ hsp).trans this
    have e2 : (Cst.tok c).isTrivia = false := by
      have := closer_gap _ h2
      obtain ⟨d, hd, hs⟩ := h3 (.tok c) (by simp)
      have hsp := form_sub (form h d hd) hs
      exact (trivia_white _ hsp).trans this
    have h4 := h4.resolve_left (by rintro ⟨x, hx, hfl⟩; exact hn x (h3 x (by simp [hx])) hfl)
    simp only [proper, List.filter_cons, List.filter_append, e1, e2, List.filter_nil, Bool.not_false, if_true,
      List.length_cons, List.length_append, List.length_nil] at h4 ⊢
    omega
  refine C37_abstract_partial h fun n hin => ?_
  obtain ⟨c, hc, hs⟩ := hin
  have hin : In n r.syntax' := ⟨c, hc, hs⟩
  unfold Fine
  split
  · next t =>
    have hk : t.kind.isError = false := by
      cases hk : t.kind.isError with
      | false => rfl
      | true => exact absurd (Or.inl ⟨t, by simp [leaves], hk⟩) (hn _ hin)
    refine ⟨?_, ?_⟩
    · exact error_unterminated _ hk
    · intro he; rw [he] at hk; cases hk
  · exact fun hq' => hq hq' _ hin
  · next op cs =>
    obtain ⟨o, mid, c', h1, h2, -, h3, -, h4⟩ := C29_group h hin
    have := len h1 h2 h3 (fun x hx => ⟨c, hc, sub_trans (.node hx .refl) hs⟩) h4
    refine ⟨?_, fun _ => this.2⟩
    rintro rfl
    have := hp _ hin
    simp only [EmptyParens] at this
    omega
  · next hd b =>
    obtain ⟨gop, o, mid, c', -, h1, h2, -, h3, -, h4⟩ := C29_call h hin
    exact (len h1 h2 h3 (fun x hx => ⟨c, hc, sub_trans (.body hx .refl) hs⟩) h4).2
  · trivial

/-- Which panic ends abstraction, for the examples. -/
def treePanics (bs : List UInt8) (site : APanic) : Bool :=
  match parseBytesAsts Cfg.default AEnv.default .lineColumn .notScript bs with
  | .error (.tree (.panic s)) => s == site
  | _ => false

/-- How many expressions the input gives, for the examples. -/
def expressions (bs : List UInt8) : Option Nat :=
  match parseBytesAsts Cfg.default AEnv.default .lineColumn .notScript bs with
  | .ok (as, _) => some as.length
  | .error _ => none

theorem of_treePanics {bs : List UInt8} {site : APanic} (h : treePanics bs site = true) :
    parseBytesAsts Cfg.default AEnv.default .lineColumn .notScript bs = .error (.tree (.panic site)) := by
  unfold treePanics at h
  split at h
  · next s heq => rw [heq, eq_of_beq h]
  · cases h

/-- C37 fails as stated: valid, correct input can make abstraction panic.  `-()` does, and so
does `\[InvisibleApplication]` behind `Plus` as an operand of `+`. -/
theorem C37_violated :
    parseBytesAsts Cfg.default AEnv.default .lineColumn .notScript (encode ['-','(',')']) = .error (.tree (.panic .children)) ∧
    parseBytesAsts Cfg.default AEnv.default .lineColumn .notScript
      (encode ("Plus\\[InvisibleApplication]a+b".toList)) = .error (.tree (.panic .quirk)) :=
  ⟨of_treePanics (by decide +kernel), of_treePanics (by decide +kernel)⟩

/-- C37 also fails for input with errors: `a>>`, where the name of the file is missing, and
`[a)b]`, where there are two trees between the brackets. -/
theorem C37_violated_errors :
    parseBytesAsts Cfg.default AEnv.default .lineColumn .notScript (encode ['a','>','>']) = .error (.tree (.panic .unhandled)) ∧
    parseBytesAsts Cfg.default AEnv.default .lineColumn .notScript (encode ['[','a',')','b',']']) = .error (.tree (.panic .unhandled)) :=
  ⟨of_treePanics (by decide +kernel), of_treePanics (by decide +kernel)⟩

/-- C37 also fails for input that is not valid UTF-8, as the text of the string in `#"?"` with a byte 255. -/
theorem C37_violated_encoding :
    parseBytesAsts Cfg.default AEnv.default .lineColumn .notScript [35, 34, 255, 34] = .error (.tree (.panic .utf8)) :=
  of_treePanics (by decide +kernel)

mutual
/-- The parts of a tree, for the examples. -/
def parts : Cst → List Cst
  | .tok t => [.tok t]
  | .node k cs => .node k cs :: partsL cs
  | .call h m op b => .call h m op b :: (partsL h ++ partsL b)
  | c => [c]
/-- The parts of trees, for the examples. -/
def partsL : List Cst → List Cst
  | [] => []
  | c :: cs => parts c ++ partsL cs
end

theorem parts_self : ∀ c : Cst, c ∈ parts c
  | .tok _ => by simp [parts]
  | .node .. => by simp [parts]
  | .call .. => by simp [parts]
  | .callAgg .. => by simp [parts]
  | .box .. => by simp [parts]
  | .code .. => by simp [parts]

theorem mem_partsL {n c : Cst} : ∀ {cs : List Cst}, c ∈ cs → n ∈ parts c → n ∈ partsL cs
  | d :: cs, h, hn => by
    simp only [partsL, List.mem_append]
    rcases List.mem_cons.mp h with rfl | h
    · exact Or.inl hn
    · exact Or.inr (mem_partsL h hn)

theorem sub_parts {n c : Cst} (h : Sub n c) : n ∈ parts c := by
  induction h with
  | refl => exact parts_self _
  | node hc _ ih => simp only [parts, List.mem_cons]; exact Or.inr (mem_partsL hc ih)
  | head hc _ ih => simp only [parts, List.mem_cons, List.mem_append]; exact Or.inr (Or.inl (mem_partsL hc ih))
  | body hc _ ih => simp only [parts, List.mem_cons, List.mem_append]; exact Or.inr (Or.inr (mem_partsL hc ih))

/-- There are no errors, no `()` and no `\[InvisibleApplication]` behind a symbol, for the examples. -/
def correct (r : ParseResult) : Bool :=
  r.syntax'.all complete && (leavesL r.syntax').all (fun t => !t.kind.isError) &&
    (partsL r.syntax').all fun n => match n with
      | .node (.group .CodeParser_GroupParen) cs => (proper cs).length != 2
      | .node (.binary .CodeParser_BinaryAt) cs =>
        match proper cs with
        | [.tok s, .tok t, _] => s.kind != .Symbol || t.kind != .LongName_InvisibleApplication
        | _ => true
      | _ => true

theorem of_correct {r : ParseResult} (h : correct r = true) : (∀ c ∈ r.syntax', ¬ Flawed c) ∧ (∀ n, In n r.syntax' → ¬ EmptyParens n) ∧
    ∀ n, In n r.syntax' → ¬ InvisiblyApplied n := by
  simp only [correct, Bool.and_eq_true, List.all_eq_true] at h
  obtain ⟨⟨h1, h2⟩, h3⟩ := h
  refine ⟨?_, ?_, ?_⟩
  · rintro c hc (⟨t, ht, hk⟩ | hk)
    · have := h2 t (mem_leavesL_iff.mpr ⟨c, hc, ht⟩)
      simp [hk] at this
    · rw [h1 c hc] at hk; cases hk
  · rintro n ⟨c, hc, hs⟩ he
    have := h3 n (mem_partsL hc (sub_parts hs))
    unfold EmptyParens at he
    split at he
    · simp [he] at this
    · exact he
  · rintro n ⟨c, hc, hs⟩ he
    have := h3 n (mem_partsL hc (sub_parts hs))
    unfold InvisiblyApplied at he
    split at he
    · obtain ⟨s, t, x, h4, ⟨h5, -⟩, h6⟩ := he
      simp [h4, h5, h6] at this
    · exact he

/-- `a + b*c^-d;;f[x_:1, {1}] := (* c *) # & /@ %2` meets the hypotheses of
`C37_correct_partial`. -/
example : parses .notScript program correct = true ∧ expressions program = some 1 := by
  constructor <;> decide +kernel

/-- Nor is `\[InvisibleApplication]` elsewhere. -/
example : parses .notScript (bytes "f[g]\\[InvisibleApplication]a+b".toList) correct = true ∧
    expressions (bytes "f[g]\\[InvisibleApplication]a+b".toList) = some 1 := by
  constructor <;> decide +kernel

/-- Parentheses around something are no problem. -/
example : parses .notScript (bytes ['-','(','a',')']) correct = true ∧ expressions (bytes ['-','(','a',')']) = some 1 := by
  constructor <;> decide +kernel

/-! ### C38: chains of inequalities -/

/-- What a tree is abstracted to is unique. -/
theorem abstracts_unique {c : Cst} {a b : Ast} (h1 : Abstracts env c a) (h2 : Abstracts env c b) : a = b := by
  obtain ⟨n, h1⟩ := h1
  obtain ⟨m, h2⟩ := h2
  exact run_unique h1 h2

theorem abstracts_cst {c : Cst} {a : Ast} (h : abstractCst env c = .ok a) : Abstracts env c a := ⟨_, h⟩

/-- C38: a chain of inequalities `c o₁ c₁ o₂ c₂ …`, whose operands are abstracted to `x`, `x₁`,
`x₂`, …, is cut in front of each operator that clashes with an earlier one behind the last cut,
and each part is compared with the value of the parts in front.  All operands and operators are
there once, in order. -/
theorem C38_chain {cs : List Cst} {a : Ast} (h : abstractCst env (.node (.infix .CodeParser_InfixInequality) cs) = .ok a)
    (hl : 2 ≤ cs.length) :
    ∃ (c : Cst) (x : Ast) (ls : List Link) (gs : List (List (Sym × Ast))) (d : AMeta),
      cs = c :: ls.flatMap (fun l => [.tok l.op, l.operand]) ∧ Abstracts env c x ∧
      (∀ l ∈ ls, inequalityOperatorToSymbol l.op.kind = some l.sym ∧ Abstracts env l.operand l.expr) ∧
      Cut (ls.map fun l => (l.sym, l.expr)) gs ∧ a = gs.foldl (comparison d) x ∧
      ∀ s, (∃ l ∈ ls, l.sym = s) →
        ((∃ e, a = flatCall s (x :: ls.map (·.expr)) e) ↔ ∀ l ∈ ls, l.sym = s) := by
  unfold abstractCst abstractR at h
  rw [Abs.run] at h
  unfold Abs.step at h
  simp only at h
  cases h1 : getSource (.node (.infix .CodeParser_InfixInequality) cs) with
  | error e => rw [h1] at h; cases h
  | ok d =>
    rw [h1, ok_bind] at h
    obtain ⟨c, x, ls, gs, h2, h3, h4, h5, h6, h7⟩ := inequalityAst_cut h hl
    refine ⟨c, x, ls, gs, .of d, h2, ⟨_, h3⟩, fun l hl => ⟨(h4 l hl).1, _, (h4 l hl).2⟩, h6, h7, ?_⟩
    rintro s ⟨l, hl, rfl⟩
    have := flat_iff (d := .of d) (x := x) h6 (by simpa using h5) (by
      intro p hp
      obtain ⟨l, hl, rfl⟩ := List.mem_map.mp hp
      exact known (h4 l hl).1) (s := l.sym) (known (h4 l hl).1)
    rw [h7]
    simpa [List.map_map, Function.comp_def] using this

/-- The expressions of an input, for the examples. -/
def asts (bs : List UInt8) : List Ast :=
  match parseBytesAsts Cfg.default AEnv.default .lineColumn .notScript bs with
  | .ok (as, _) => as
  | .error _ => []

/-- The heads and the numbers of arguments of some calls, for the examples. -/
def headOf : Ast → Option (List UInt8 × Nat)
  | .call (.leaf _ t _) args _ => some (t, args.length)
  | _ => none

/-- `a < b < c` is `Less[a, b, c]`, `a < b <= c` is `Inequality[…]` with five arguments. -/
example : (asts (bytes ['a','<','b','<','c'])).map headOf = [some (Sym.System_Less.text, 3)] ∧
    (asts (bytes ['a','<','b','<','=','c'])).map headOf = [some (Sym.System_Inequality.text, 5)] := by
  constructor <;> decide +kernel

/-- A chain that is cut: `NotLess`, then `VectorLess`, which clashes. -/
example : (asts (bytes "a\\[NotLess]b\\[VectorLess]c".toList)).map headOf = [some (Sym.System_VectorLess.text, 1)] := by
  decide +kernel

end CodeParser.Props
