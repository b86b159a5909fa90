import Verif.Proofs.Recover6
import Verif.Props.Tokenizer
/-!
Properties C26-C35: what parsing gives.
-/
namespace CodeParser.Props
open CodeParser Spec Cst

/-- Inputs for the examples. -/
def parses (first : FirstLine) (bs : List UInt8) (p : ParseResult → Bool) : Bool :=
  match parseBytesCst Cfg.default .lineColumn first bs with
  | .ok r => p r
  | .error _ => false

theorem of_parses {first : FirstLine} {bs : List UInt8} {p : ParseResult → Bool} (h : parses first bs p = true) :
    ∃ r, parseBytesCst Cfg.default .lineColumn first bs = .ok r ∧ p r = true := by
  unfold parses at h
  cases hr : parseBytesCst Cfg.default .lineColumn first bs with
  | error e => rw [hr] at h; cases h
  | ok r => rw [hr] at h; exact ⟨r, rfl, h⟩

/-- The panic a parse ends in. -/
def panics (conv : Conv) (bs : List UInt8) (site : Site) : Bool :=
  match parseBytesCst Cfg.default conv .notScript bs with
  | .error e => e == .panic site
  | .ok _ => false

theorem of_panics {conv : Conv} {bs : List UInt8} {site : Site} (h : panics conv bs site = true) :
    parseBytesCst Cfg.default conv .notScript bs = .error (.panic site) := by
  unfold panics at h
  cases hr : parseBytesCst Cfg.default conv .notScript bs with
  | error e => rw [hr] at h; simpa using h
  | ok r => rw [hr] at h; cases h

/-- `a + b*c^-d;;f[x_:1, {1}] := (* c *) # & /@ %2`: an input with many kinds of nodes. -/
def program : List UInt8 :=
  bytes ['a',' ','+',' ','b','*','c','^','-','d',';',';','f','[','x','_',':','1',',',' ','{','1','}',']',' ',':','=',
    ' ','(','*',' ','c',' ','*',')',' ','#',' ','&',' ','/','@',' ','%','2']

/-- `{a`, newline, `b=1`: a group without closer, followed by another statement. -/
def unclosed : List UInt8 := bytes ['{','a','\n','b','=','1']

variable {cfg : Cfg} {conv : Conv} {first : FirstLine} {bs : List UInt8} {r : ParseResult}

/-- The kinds of the tokens that miss their end. -/
theorem unterminated_kind (t : Tok) : t.unterminated = unterminated t.kind := by
  have : ∀ k : TK, (k.isError && k.isUnterminated) = unterminated k := forall_of_all (by decide +kernel)
  exact this t.kind

theorem unterminated_kinds : ∀ k : TK, unterminated k = true → invented k = false ∧ ¬ (k = .ToplevelNewline ∨ k = .InternalNewline) :=
  forall_of_all (by decide +kernel)

theorem outcome_fixed {cs : List Cst} {f : Tok → Tok} {ks : List Tok} {u : St} {s : PS}
    (o : Outcome cfg conv first bs r cs f ks u s) (ht : ∀ t ∈ leavesL r.syntax', unterminated t.kind = false) :
    leavesL r.syntax' = leavesL cs := by
  rw [o.eq, leavesL_map] at ht ⊢
  have : (leavesL cs).map f = (leavesL cs).map id := by
    refine List.map_congr_left (fun t htm => o.same t ?_)
    rw [unterminated_kind, ← o.kind t]
    exact ht (f t) (List.mem_map_of_mem htm)
  rw [this, List.map_id]

/-! ### C26: losslessness -/

/-- C26.  If all groups are closed and no string or comment misses its end, then the texts
of the leaves, concatenated from left to right, are the input, up to the skipped first line
of a script and line continuations at the very end.  (What is missing: inputs with
unterminated parts, for which error recovery drops tokens, see `C34_violated`, and trailing
line continuations, see `C26_violated`.) -/
theorem C26_lossless_partial (h : parseBytesCst cfg conv first bs = .ok r) (hc : completeL r.syntax' = true)
    (ht : ∀ t ∈ leavesL r.syntax', unterminated t.kind = false) :
    ∃ skipped tail, skipped ++ ((leavesL r.syntax').flatMap Tok.text ++ tail) = bs ∧
      (first = .notScript → skipped = []) ∧ Continues tail [] := by
  obtain ⟨cs, f, ks, u, s, o⟩ := parse_ok h
  have hw := WF_init conv bs
  obtain ⟨pre, hp⟩ := o.reach.suffix hw
  have hp' : bs = pre ++ u.rest := hp
  have hl : leavesL r.syntax' = ks := by
    rw [outcome_fixed o ht]
    refine o.all ?_
    rw [o.eq, completeL_map] at hc
    exact hc
  refine ⟨pre, s.st.rest, ?_, ?_, o.tail⟩
  · rw [hl, o.lies.text, ← hp']
  · intro hf
    have hu := o.skip hf
    have : pre ++ u.rest = [] ++ u.rest := by rw [← hp', hu]; rfl
    exact List.append_cancel_right this

/-- C26 in full for inputs without line continuations, when nothing is skipped. -/
theorem C26_lossless (h : parseBytesCst cfg conv .notScript bs = .ok r) (hc : completeL r.syntax' = true)
    (ht : ∀ t ∈ leavesL r.syntax', unterminated t.kind = false)
    (hno : ∀ pre q, bs ≠ pre ++ byte '\\' :: 10 :: q ∧ bs ≠ pre ++ byte '\\' :: 13 :: q) :
    (leavesL r.syntax').flatMap Tok.text = bs := by
  obtain ⟨skipped, tail, h1, h2, h3⟩ := C26_lossless_partial h hc ht
  rw [h2 rfl, List.nil_append] at h1
  by_cases hne : tail = []
  · rw [hne] at h1; simpa using h1
  · obtain ⟨q, hq | hq⟩ := Continues.form h3 hne
    · exact absurd (by rw [← h1, hq]) (hno _ q).1
    · exact absurd (by rw [← h1, hq]) (hno _ q).2

/-- C26 before error recovery: whatever the input, the leaves of the trees are the input. -/
theorem C26_before_recovery {cs : List Cst} {s : PS}
    (h : doParse ⟨cfg, fun _ cs => .ok cs⟩ conv first bs = .ok (cs, s)) :
    ∃ skipped tail, skipped ++ ((leavesL cs).flatMap Tok.text ++ tail) = bs ∧
      (first = .notScript → skipped = []) ∧ Continues tail [] := by
  have hp := doParse_wp (U := plainSetup cfg conv bs) (conv := conv) (f := first) (bs := bs) rfl
  have henv : (plainSetup cfg conv bs).env = ⟨cfg, fun _ cs => .ok cs⟩ := rfl
  rw [henv, h] at hp
  obtain ⟨u, hR, hskip, hP⟩ := hp
  obtain ⟨ks, hh, hl, -⟩ := hP.on.spans
  obtain ⟨c, hc, hb⟩ := hP.tail
  have hw := WF_init conv bs
  obtain ⟨pre, hp⟩ := R.suffix hw hR
  have hp' : bs = pre ++ u.rest := hp
  have ha : leavesL cs = ks := by
    have := hh.all (Or.inl (plain_lossless cfg conv bs))
    simpa using this
  refine ⟨pre, s.st.rest, ?_, ?_, hb.continues hc⟩
  · rw [ha, hl.text, ← hp']
  · intro hf
    have hu := hskip hf
    have : pre ++ u.rest = [] ++ u.rest := by rw [← hp', hu]; rfl
    exact List.append_cancel_right this

example : parses .notScript program (fun r => completeL r.syntax' &&
    (leavesL r.syntax').all (fun t => !unterminated t.kind) && (leavesL r.syntax').flatMap Tok.text == program) = true := by
  decide +kernel

/-- C26 fails as stated: the line continuation at the end of `a\<newline>` is in no leaf. -/
theorem C26_violated : ∃ (bs : List UInt8) (r : ParseResult),
    parseBytesCst Cfg.default .lineColumn .notScript bs = .ok r ∧ completeL r.syntax' = true ∧
      (leavesL r.syntax').flatMap Tok.text ≠ bs := by
  obtain ⟨r, h1, h2⟩ := of_parses (first := .notScript) (bs := [97, 92, 10])
    (p := fun r => completeL r.syntax' && decide ((leavesL r.syntax').flatMap Tok.text ≠ [97, 92, 10])) (by decide +kernel)
  simp only [Bool.and_eq_true, decide_eq_true_eq] at h2
  exact ⟨_, r, h1, h2.1, h2.2⟩

/-! ### C27, C28: termination, assertions -/

theorem lineErr_site {input : List Char} {e : Err} (h : LineErr input e) :
    (e = .panic .surrogate ∧ HasSurrogateEscape (encode input)) ∨ (e = .panic .encoding ∧ BOM ∈ input) := h

/-- The errors parsing can end in. -/
theorem parse_sites {e : Err} (h : parseBytesCst cfg conv first bs = .error e) :
    e ∈ [Err.panic .surrogate, .panic .utf8, .panic .recovery, .panic .encoding] := by
  have line : ∀ {input : List Char}, LineErr input e →
      e ∈ [Err.panic .surrogate, .panic .utf8, .panic .recovery, .panic .encoding] := by
    rintro input (⟨rfl, -⟩ | ⟨rfl, -⟩) <;> simp
  rcases parse_err h with ⟨rfl, -⟩ | ⟨op, o, mid, h1, h2, h3, h4⟩ | ⟨input, cs, t, rfl, h1, h2, h3, h4, h5⟩
  · simp
  · rcases recoverGroup_site h4 with rfl | rfl | rfl | ⟨input, rfl, h5⟩
    · simp
    · exfalso
      unfold recoverGroup at h4
      cases hu : fromUtf8 bs with
      | none => rw [hu] at h4; cases h4
      | some input =>
        have hbs := fromUtf8_some hu
        subst hbs
        obtain ⟨t, -, hs⟩ := sourceOf_some recovered_ne h2 h3
        rw [hu] at h4
        simp only [hs] at h4
        split at h4
        · next hg =>
          cases h4
          rcases goodLines_err hg with h | ⟨l, h5, h6⟩
          · cases h
          · rcases isStatement_split h5 h6 with ⟨h, -⟩ | ⟨h, -⟩ <;> cases h
        · have := keepLeaves_err h4
          cases this
    · simp
    · exact line h5
  · rcases fixTok_err h5 with rfl | ⟨l, h6, h7⟩
    · simp
    · exact line (isStatement_split h6 h7)

/-- C27: parsing terminates: the loops and the recursion of the model never run out of fuel. -/
theorem C27_terminates (cfg : Cfg) (conv : Conv) (first : FirstLine) (bs : List UInt8) :
    parseBytesCst cfg conv first bs ≠ .error .fuel := by
  intro h
  have := parse_sites h
  simp at this

/-- C28: no assertion of the parser is ever violated: before error recovery a parse ends with
a result, or with the tokenizer's panic on an escaped surrogate. -/
theorem C28_no_assertion {e : Err} (h : doParse ⟨cfg, fun _ cs => .ok cs⟩ conv first bs = .error e) :
    e = .panic .surrogate ∧ HasSurrogateEscape bs := by
  have hp := doParse_wp (U := plainSetup cfg conv bs) (conv := conv) (f := first) (bs := bs) rfl
  have henv : (plainSetup cfg conv bs).env = ⟨cfg, fun _ cs => .ok cs⟩ := rfl
  rw [henv, h] at hp
  rcases hp with hp | ⟨op, cs, -, -, -, h⟩
  · exact hp
  · cases h

/-- C28 with error recovery: the other panics are those of the recovery. -/
theorem C28_no_assertion_recovery {e : Err} (h : parseBytesCst cfg conv first bs = .error e) :
    e = .panic .surrogate ∨ e = .panic .utf8 ∨ e = .panic .recovery ∨ e = .panic .encoding := by
  simpa using parse_sites h

/-- C28: when parsing is done, every group and every operator context has been closed, and
nothing is left on the builder's stack. -/
theorem C28_quiescent {cs : List Cst} {s : PS} (h : doParse ⟨cfg, recoverGroup cfg bs⟩ conv first bs = .ok (cs, s)) :
    s.groups = [] ∧ s.ctxs = [] ∧ s.stack = [] := by
  have hp := doParse_wp (U := realSetup cfg conv bs) (conv := conv) (f := first) (bs := bs) rfl
  have henv : (realSetup cfg conv bs).env = ⟨cfg, recoverGroup cfg bs⟩ := rfl
  rw [henv, h] at hp
  obtain ⟨u, -, -, hP⟩ := hp
  exact ⟨hP.on.groups, hP.on.ctxs, by simpa using hP.on.stack⟩

/-- A parse that goes through groups, contexts, errors and recovery. -/
example : parses .notScript (bytes ['(','a',',','}',')',']','{','b','+','[','1']) (fun r => r.syntax'.length == 3) = true := by
  decide +kernel

/-! ### C29: groups -/

/-- What every tree in a result looks like. -/
theorem looks (h : parseBytesCst cfg conv first bs = .ok r) {n : Cst} (hn : In n r.syntax') : Looks Recovered n := by
  obtain ⟨cs, f, ks, u, s, o⟩ := parse_ok h
  rw [o.eq, mapToks_eq] at hn
  obtain ⟨c, hc, hs⟩ := hn
  obtain ⟨d, hd, rfl⟩ := List.mem_map.mp hc
  obtain ⟨m, h1, rfl⟩ := sub_map hs rfl
  exact looks_map o.kind (TreeOK.looks (TreeOK.sub h1 (o.trees d hd)))

/-- C29: a group consists of an opener, trees none of which is a closing bracket, and the
closer matching the opener; if there is no error in them, there is at most one such tree that
is not white space, newline or comment. -/
theorem C29_group (h : parseBytesCst cfg conv first bs = .ok r) {op : GroupOp} {cs : List Cst}
    (hn : In (.node (.group op) cs) r.syntax') :
    ∃ o mid c, cs = .tok o :: (mid ++ [.tok c]) ∧ Opens o.kind op ∧ NoCloser mid ∧
      c.kind.isCloser = true ∧ groupOpenerToCloser o.kind = some (tokenToCloser c.kind) ∧
      ((∃ x ∈ mid, Flawed x) ∨ (proper mid).length ≤ 1) := by
  have := looks h hn
  cases this with
  | group h => exact h

theorem toCall_inj {a b : GroupOp} {op : CallOp} (h : a.toCall = some op) (h' : b.toCall = some op) : a = b := by
  cases a <;> cases b <;> cases op <;> simp_all [GroupOp.toCall]

/-- C29 for calls: the body of a call is a group. -/
theorem C29_call (h : parseBytesCst cfg conv first bs = .ok r) {hd body : List Cst} {op : CallOp}
    (hn : In (.call hd false op body) r.syntax') :
    ∃ gop o mid c, GroupOp.toCall gop = some op ∧ body = .tok o :: (mid ++ [.tok c]) ∧ Opens o.kind gop ∧ NoCloser mid ∧
      c.kind.isCloser = true ∧ groupOpenerToCloser o.kind = some (tokenToCloser c.kind) ∧
      ((∃ x ∈ mid, Flawed x) ∨ (proper mid).length ≤ 1) := by
  have := looks h hn
  cases this with
  | group _ _ _ h4 h5 =>
    obtain ⟨o, mid, c, h⟩ := h5
    exact ⟨_, o, mid, c, h4, h⟩

/-- C29: a group without closer starts with an opener (in nodes and in calls), and either
none of its children is a closing bracket, or recovery has made it a sequence of tokens.
(What is missing: that sequence may contain closing brackets, see `C29_violated`.) -/
theorem C29_missing_partial (h : parseBytesCst cfg conv first bs = .ok r) {op : GroupOp} {cs : List Cst}
    (hn : In (.node (.groupMissingCloser op) cs) r.syntax' ∨
      ∃ hd cop, GroupOp.toCall op = some cop ∧ In (.call hd true cop cs) r.syntax') :
    ∃ o rest, cs = .tok o :: rest ∧ Opens o.kind op ∧ (NoCloser rest ∨ ∃ ts, rest = tt ts) := by
  have key : Recovered op cs → ∃ o rest, cs = .tok o :: rest ∧ Opens o.kind op ∧ (NoCloser rest ∨ ∃ ts, rest = tt ts) := by
    rintro (⟨o, mid, rfl, h1, h2⟩ | ⟨o, ts, rfl, h1⟩)
    · exact ⟨o, mid, rfl, h1, Or.inl h2⟩
    · exact ⟨o, tt ts, rfl, h1, Or.inr ⟨ts, rfl⟩⟩
  rcases hn with hn | ⟨hd, cop, hc, hn⟩
  · have := looks h hn
    cases this with
    | missing h => exact key h
  · have := looks h hn
    cases this with
    | @missing l ts op' _ _ _ _ _ h4 h5 =>
      rw [toCall_inj h4 hc] at h5
      exact key h5

/-- C29 before recovery: a group without closer has no closing bracket among its children. -/
theorem C29_missing_before_recovery {cs : List Cst} {s : PS}
    (h : doParse ⟨cfg, fun _ cs => .ok cs⟩ conv first bs = .ok (cs, s)) {n : Cst} (hn : In n cs) :
    Looks OpenGroupShape n := by
  have hp := doParse_wp (U := plainSetup cfg conv bs) (conv := conv) (f := first) (bs := bs) rfl
  have henv : (plainSetup cfg conv bs).env = ⟨cfg, fun _ cs => .ok cs⟩ := rfl
  rw [henv, h] at hp
  obtain ⟨u, -, -, hP⟩ := hp
  obtain ⟨c, hc, hs⟩ := hn
  exact TreeOK.looks (TreeOK.sub hs (hP.on.trees c (by simpa using hc)))

/-- C29 fails as stated: in `{ {a}` the flattened outer group contains the closer of the
inner one. -/
theorem C29_violated : ∃ (bs : List UInt8) (r : ParseResult) (cs : List Cst),
    parseBytesCst Cfg.default .lineColumn .notScript bs = .ok r ∧ In (.node (.groupMissingCloser .List) cs) r.syntax' ∧
      ∃ t, .tok t ∈ cs ∧ t.kind = .CloseCurly := by
  obtain ⟨r, h1, h2⟩ := of_parses (first := .notScript) (bs := bytes ['{',' ','{','a','}'])
    (p := fun r => match r.syntax' with
      | [.node (.groupMissingCloser .List) [_, _, _, _, .tok t]] => t.kind == .CloseCurly
      | _ => false) (by decide +kernel)
  split at h2
  · next a b c d t heq =>
    exact ⟨_, r, _, h1, ⟨_, by rw [heq]; exact List.mem_cons_self, .refl⟩, t, by simp, by simpa using h2⟩
  · cases h2

/-! ### C30: operands -/

theorem proper_tt {ts : List Tok} (h : Tr ts) : proper (tt ts) = [] := by
  unfold proper tt
  rw [List.filter_eq_nil_iff]
  intro c hc
  obtain ⟨t, ht, rfl⟩ := List.mem_map.mp hc
  simp [isTrivia, h t ht]

theorem proper_operand {c : Cst} (h : Operand c) : proper [c] = [c] := by
  cases c <;> simp_all [proper, isTrivia, Operand]

theorem proper_tok {t : Tok} (h : t.kind.isTrivia = false) : proper [.tok t] = [.tok t] := by
  simp [proper, isTrivia, h]

theorem proper_append (a b : List Cst) : proper (a ++ b) = proper a ++ proper b := by simp [proper]

theorem proper_cons (a : Cst) (b : List Cst) : proper (a :: b) = proper [a] ++ proper b := proper_append [a] b

theorem proper_tt_append {ts : List Tok} (h : Tr ts) (cs : List Cst) : proper (tt ts ++ cs) = proper cs := by
  rw [proper_append, proper_tt h]; rfl

theorem proper_operand_cons {c : Cst} (h : Operand c) (cs : List Cst) : proper (c :: cs) = c :: proper cs := by
  rw [proper_cons, proper_operand h]; rfl

theorem proper_tok_cons {t : Tok} (h : t.kind.isTrivia = false) (cs : List Cst) : proper (.tok t :: cs) = .tok t :: proper cs := by
  rw [proper_cons, proper_tok h]; rfl

theorem parselet_trivia : ∀ k : TK, k.isTrivia = true →
    (k.infixParselet = .assertFalse ∨ k.infixParselet = .toplevelNewline ∨ k.infixParselet = .implicitTimes) ∧
    (match k.prefixParselet with | .op _ _ | .integral _ _ | .lessLess => false | _ => true) = true ∧
    k ≠ .Dot ∧ isFile k = false :=
  forall_of_all (by decide +kernel)

/-- An infix operator is not trivia. -/
theorem infix_trivia {k : TK} (h : k.infixParselet ≠ .assertFalse ∧ k.infixParselet ≠ .toplevelNewline ∧
    k.infixParselet ≠ .implicitTimes) : k.isTrivia = false := by
  by_contra hc
  rcases (parselet_trivia k (by simpa using hc)).1 with h1 | h1 | h1
  · exact h.1 h1
  · exact h.2.1 h1
  · exact h.2.2 h1

theorem binaryOf_trivia {k : TK} {op : BinaryOp} {q : Nat} (h : BinaryOf k op q) : k.isTrivia = false := by
  cases h with
  | table h => exact infix_trivia (by rw [h]; simp)
  | set h => exact infix_trivia (by rw [h]; simp)
  | setDelayed h => exact infix_trivia (by rw [h]; simp)
  | pattern h => exact infix_trivia (by rw [h]; simp)
  | optional h => exact infix_trivia (by rw [h]; simp)
  | span h => exact infix_trivia (by rw [h]; simp)

theorem infixOf_trivia {k : TK} {op : InfixOp} (h : InfixOf k op) : k.isTrivia = false := by
  cases h with
  | table h => exact infix_trivia (by rw [h]; simp)
  | times h => exact infix_trivia (by rw [h]; simp)
  | semi h => exact infix_trivia (by rw [h]; simp)
  | comma h => exact infix_trivia (by rw [h]; simp)
  | tag h => exact infix_trivia (by rw [h]; simp)

theorem dot_trivia {t : Tok} (h : t.kind = .Dot) : t.kind.isTrivia = false := by
  by_contra hc
  exact (parselet_trivia t.kind (by simpa using hc)).2.2.1 h

theorem file_trivia {t : Tok} (h : isFile t.kind = true) : t.kind.isTrivia = false := by
  by_contra hc
  rw [(parselet_trivia t.kind (by simpa using hc)).2.2.2] at h
  cases h

theorem prefix_trivia {k : TK} (h : (match k.prefixParselet with | .op _ _ | .integral _ _ | .lessLess => false | _ => true) = false) :
    k.isTrivia = false := by
  by_contra hc
  rw [(parselet_trivia k (by simpa using hc)).2.1] at h
  cases h

theorem putOf_trivia {k : TK} {op : BinaryOp} (h : PutOf k op) : k.isTrivia = false := by
  cases h with
  | put h => exact infix_trivia (by rw [h]; simp)
  | putAppend h => exact infix_trivia (by rw [h]; simp)

theorem ternaryOf_trivia {k k' : TK} {op : TernaryOp} {q q' : Nat} (h : TernaryOf k k' op q q') :
    k.isTrivia = false ∧ k'.isTrivia = false := by
  cases h <;> decide

theorem errorOf_trivia {k : TK} {op : SyntaxErrorKind} {q : Nat} (h : ErrorOf k op q) : k.isTrivia = false := by
  cases h <;> rfl

/-- `Alternates op cs`: operands separated by operators belonging to `op`. -/
inductive Alternates (op : InfixOp) : List Cst → Prop
  | one {c} : Operand c → Alternates op [c]
  | more {cs o r} : Alternates op cs → InfixOf o.kind op → Operand r → Alternates op (cs ++ [.tok o, r])

theorem chain_alternates {op : InfixOp} {p : Nat} {cs : List Cst} {x : Cst} (h : Chain op p cs x) :
    Alternates op (proper cs) := by
  induction h with
  | one h => rw [proper_operand h]; exact .one h
  | @more cs x ts o us r _ h1 h2 h3 h4 h5 h6 ih =>
    have : proper (cs ++ (tt ts ++ .tok o :: (tt us ++ [r]))) = proper cs ++ [.tok o, r] := by
      rw [proper_append, proper_append, proper_cons, proper_append, proper_tt h2, proper_tt h3, proper_operand h4,
        proper_tok (infixOf_trivia h1)]
      rfl
    rw [this]
    exact .more ih h1 h4

theorem alternates_pos {op : InfixOp} {cs : List Cst} (h : Alternates op cs) : 1 ≤ cs.length := by
  cases h <;> simp

/-- How many children, apart from white space, comments and newlines, an operator node has. -/
def arity : NodeKind → Option Nat
  | .prefix _ | .postfix _ => some 2
  | .binary _ | .prefixBinary _ | .syntaxError _ => some 3
  | .ternary _ => some 5
  | .compound _ => some 2
  | _ => none

/-- C30: the number of proper children of every operator node. -/
theorem C30_arity (h : parseBytesCst cfg conv first bs = .ok r) {k : NodeKind} {cs : List Cst}
    (hn : In (.node k cs) r.syntax') {n : Nat} (ha : arity k = some n) : (proper cs).length = n := by
  have hl := looks h hn
  have e1 : ∀ {k : TK} {p : Nat} {op : PrefixOp}, k.prefixParselet = .op p op → k.isTrivia = false :=
    fun h => prefix_trivia (by rw [h])
  have e2 : ∀ {k : TK} {a b}, k.prefixParselet = .integral a b → k.isTrivia = false :=
    fun h => prefix_trivia (by rw [h])
  have nil : proper [] = [] := rfl
  cases hl with
  | prefixOp h1 h2 h3 =>
    cases ha
    simp only [proper_tok_cons (e1 h1), proper_tt_append h2, proper_operand_cons h3, nil, List.length_cons, List.length_nil]
  | get h1 h2 h3 =>
    cases ha
    have h1 := prefix_trivia (k := Tok.kind _) (by rw [h1]; decide)
    simp only [proper_tok_cons h1, proper_tt_append h2, proper_tok_cons (file_trivia h3), nil, List.length_cons, List.length_nil]
  | integral h1 h2 h3 =>
    cases ha
    simp only [proper_tok_cons (e2 h1), proper_tt_append h2, proper_operand_cons h3, nil, List.length_cons, List.length_nil]
  | integrate h1 h2 h3 h4 h5 h6 =>
    cases ha
    simp only [proper_tok_cons (e2 h1), proper_tt_append h2, proper_operand_cons h3, proper_tt_append h5, proper_operand_cons h6,
      nil, List.length_cons, List.length_nil]
  | «postfix» h1 h2 h3 =>
    cases ha
    have h1 := infix_trivia (k := Tok.kind _) (by rw [h1]; simp)
    simp only [proper_tok_cons h1, proper_tt_append h3, proper_operand_cons h2, nil, List.length_cons, List.length_nil]
  | binary h1 h2 h3 h4 h5 =>
    cases ha
    simp only [proper_tok_cons (binaryOf_trivia h1), proper_tt_append h3, proper_tt_append h4, proper_operand_cons h2,
      proper_operand_cons h5, nil, List.length_cons, List.length_nil]
  | unset h1 h2 h3 h4 h5 =>
    cases ha
    have h1 := infix_trivia (k := Tok.kind _) (by rw [h1]; simp)
    simp only [proper_tok_cons h1, proper_tt_append h3, proper_tt_append h4, proper_operand_cons h2,
      proper_tok_cons (dot_trivia h5), nil, List.length_cons, List.length_nil]
  | put h1 h2 h3 h4 h5 =>
    cases ha
    have h1 := putOf_trivia h1
    simp only [proper_tok_cons h1, proper_tt_append h3, proper_tt_append h4, proper_operand_cons h2,
      proper_tok_cons (file_trivia h5), nil, List.length_cons, List.length_nil]
  | ternary h1 h2 h3 h4 h5 h6 h7 h8 =>
    cases ha
    obtain ⟨h1, h1'⟩ := ternaryOf_trivia h1
    simp only [proper_tok_cons h1, proper_tok_cons h1', proper_tt_append h3, proper_tt_append h4, proper_operand_cons h2,
      proper_operand_cons h5, proper_operand_cons h8, proper_tt_append h6, proper_tt_append h7,
      nil, List.length_cons, List.length_nil]
  | tagUnset h1 h2 h3 h4 h5 h6 h7 h8 h9 =>
    cases ha
    have h1 := infix_trivia (k := Tok.kind _) (by rw [h1]; decide)
    have h2 := infix_trivia (k := Tok.kind _) (by rw [h2]; decide)
    simp only [proper_tok_cons h1, proper_tok_cons h2, proper_tt_append h4, proper_tt_append h5, proper_operand_cons h3,
      proper_operand_cons h6, proper_tok_cons (dot_trivia h9), proper_tt_append h7, proper_tt_append h8,
      nil, List.length_cons, List.length_nil]
  | «infix» => cases ha
  | compound h1 =>
    cases ha
    have hs : ∀ {t : Tok}, t.kind = .Symbol → t.kind.isTrivia = false := fun h => by rw [h]; rfl
    have hb : ∀ {k : TK} {op : CompoundOp}, BlankOf k op → k.isTrivia = false := fun h => by cases h <;> rfl
    have hp : ∀ {k : TK} {op : CompoundOp}, PatternOf k op → k.isTrivia = false := fun h => by cases h <;> rfl
    have hk : ∀ {t : Tok} {k : TK}, t.kind = k → k.isTrivia = false → t.kind.isTrivia = false := fun h h' => by rw [h]; exact h'
    cases h1 with
    | blank h1 h2 =>
      have h2 := h2.elim (fun h => hk h rfl) (fun h => hk h rfl)
      simp only [proper_tok_cons (hb h1), proper_tok_cons h2, nil, List.length_cons, List.length_nil]
    | pattern h1 h2 => simp only [proper_tok_cons (hs h1), proper_tok_cons (hp h2), nil, List.length_cons, List.length_nil]
    | patternHead h1 h2 h3 =>
      simp only [proper_tok_cons (hs h1), proper_operand_cons (c := .node _ _) True.intro, nil, List.length_cons, List.length_nil]
    | default h1 h2 => simp only [proper_tok_cons (hs h1), proper_tok_cons (hk h2 rfl), nil, List.length_cons, List.length_nil]
    | slot h1 h2 =>
      have h2 := h2.elim (fun h => hk h rfl) (fun h => hk h rfl)
      simp only [proper_tok_cons (hk h1 rfl), proper_tok_cons h2, nil, List.length_cons, List.length_nil]
    | slotSequence h1 h2 => simp only [proper_tok_cons (hk h1 rfl), proper_tok_cons (hk h2 rfl), nil, List.length_cons, List.length_nil]
    | out h1 h2 => simp only [proper_tok_cons (hk h1 rfl), proper_tok_cons (hk h2 rfl), nil, List.length_cons, List.length_nil]
  | group => cases ha
  | missing => cases ha
  | error h1 h2 h3 h4 h5 =>
    cases ha
    have h1 := errorOf_trivia h1
    simp only [proper_tok_cons h1, proper_tt_append h3, proper_tt_append h4, proper_operand_cons h2,
      proper_operand_cons h5, nil, List.length_cons, List.length_nil]

/-- C30: an infix node has operands separated by its operators, at least two operands. -/
theorem C30_infix (h : parseBytesCst cfg conv first bs = .ok r) {op : InfixOp} {cs : List Cst}
    (hn : In (.node (.infix op) cs) r.syntax') : Alternates op (proper cs) ∧ 3 ≤ (proper cs).length := by
  have hl := looks h hn
  cases hl with
  | «infix» h1 h2 =>
    have ha := chain_alternates h1
    refine ⟨ha, ?_⟩
    cases h1 with
    | one h =>
      obtain ⟨l, rest, o, he, ho, -⟩ := h2
      cases he; cases ho
    | @more cs x ts o us r h1 h3 h4 h5 h6 h7 h8 =>
      rw [proper_append, proper_tt_append h4, proper_tok_cons (infixOf_trivia h3), proper_tt_append h5, proper_operand_cons h6]
      have := alternates_pos (chain_alternates h1)
      have nil : proper [] = [] := rfl
      rw [nil, List.length_append]
      simp only [List.length_cons, List.length_nil]
      omega

/-! ### C32: invented tokens -/

/-- C32: a token the parser invents has an empty text and no width, and every other token
has a text. -/
theorem C32_invented (h : parseBytesCst cfg conv first bs = .ok r) {t : Tok} (ht : t ∈ leavesL r.syntax') :
    (invented t.kind = true → t.text = [] ∧ t.stop = t.start) ∧
    (invented t.kind = false → unterminated t.kind = false → t.text ≠ []) := by
  obtain ⟨cs, f, ks, u, s, o⟩ := parse_ok h
  rw [o.eq, leavesL_map] at ht
  obtain ⟨t', h', rfl⟩ := List.mem_map.mp ht
  have hok := TreeOKL.toks o.trees t' h'
  constructor
  · intro hi
    rw [o.kind] at hi
    have : f t' = t' := o.same t' (by
      rw [unterminated_kind]
      by_contra hc
      rw [(unterminated_kinds _ (by simpa using hc)).1] at hi
      cases hi)
    rw [this]
    exact hok.hollow hi
  · intro hi hu
    rw [o.kind] at hi hu
    rw [o.same t' (by rw [unterminated_kind]; exact hu)]
    exact hok.solid hi

/-- An input with an implicit multiplication sign, an implicit `Null` and a missing operand. -/
example : parses .notScript (bytes ['a',' ','b',';','+']) (fun r =>
    [TK.Fake_ImplicitTimes, .Fake_ImplicitNull, .Error_ExpectedOperand].any fun k =>
      (leavesL r.syntax').any fun t => t.kind == k) = true := by decide +kernel

/-- C32: an invented token lies between the tokens around it. -/
theorem C32_position (h : parseBytesCst cfg conv first bs = .ok r) {a b : List Tok} {t : Tok}
    (ht : leavesL r.syntax' = a ++ t :: b) :
    (∀ t' ∈ a, unterminated t'.kind = false → t'.stop.le t.start = true) ∧
    (unterminated t.kind = false → ∀ t' ∈ b, t.stop.le t'.start = true) := by
  obtain ⟨cs, f, ks, u, s, o⟩ := parse_ok h
  rw [o.eq, leavesL_map] at ht
  obtain ⟨a', y, h1, rfl, hy⟩ := List.map_eq_append_iff.mp ht
  obtain ⟨t', b', rfl, rfl, rfl⟩ := List.map_eq_cons_iff.mp hy
  have hord := (o.lies.ordered).1.sub o.sub
  rw [h1] at hord
  have hp := hord.1
  rw [List.pairwise_append] at hp
  refine ⟨fun x hx hu => ?_, fun hu x hx => ?_⟩
  · obtain ⟨x', hx', rfl⟩ := List.mem_map.mp hx
    rw [o.kind] at hu
    rw [o.same x' (by rw [unterminated_kind]; exact hu), o.start]
    exact hp.2.2 x' hx' t' List.mem_cons_self
  · obtain ⟨x', hx', rfl⟩ := List.mem_map.mp hx
    rw [o.kind] at hu
    rw [o.same t' (by rw [unterminated_kind]; exact hu), o.start]
    exact (List.pairwise_cons.mp hp.2.1).1 x' hx'

/-! ### C33: positions of nodes -/

theorem sub_trans {a b c : Cst} (h : Spec.Sub a b) (h' : Spec.Sub b c) : Spec.Sub a c := by
  induction h' with
  | refl => exact h
  | node h1 _ ih => exact .node h1 ih
  | head h1 _ ih => exact .head h1 ih
  | body h1 _ ih => exact .body h1 ih

/-- C33: the position of every node starts where its first leaf starts and ends where its last leaf ends. -/
theorem C33_hull (h : parseBytesCst cfg conv first bs = .ok r) {n : Cst} (hn : In n r.syntax') :
    ∃ a b, (leaves n).head? = some a ∧ (leaves n).getLast? = some b ∧ n.start = some a.start ∧ n.stop = some b.stop := by
  obtain ⟨cs, f, ks, u, s, o⟩ := parse_ok h
  rw [o.eq, mapToks_eq] at hn
  obtain ⟨c, hc, hs⟩ := hn
  obtain ⟨d, hd, rfl⟩ := List.mem_map.mp hc
  obtain ⟨m, h1, rfl⟩ := sub_map hs rfl
  obtain ⟨h2, h3, h4⟩ := TreeOK.hullMap (f := f) recovered_ne (TreeOK.sub h1 (o.trees d hd))
  rw [h3, h4]
  cases hh : leaves (mapTok f m) with
  | nil => exact absurd hh h2
  | cons a ts =>
    cases hl : (a :: ts).getLast? with
    | none => simp at hl
    | some b => exact ⟨a, b, rfl, rfl, rfl, rfl⟩

/-- Order of the leaves of a result without unterminated tokens. -/
theorem result_ordered (h : parseBytesCst cfg conv first bs = .ok r) (ht : ∀ t ∈ leavesL r.syntax', unterminated t.kind = false) :
    Ordered (leavesL r.syntax') := by
  obtain ⟨cs, f, ks, u, s, o⟩ := parse_ok h
  rw [outcome_fixed o ht]
  exact (o.lies.ordered).1.sub o.sub

theorem ordered_le {ks : List Tok} {a b t : Tok} (h : Ordered ks) (ha : ks.head? = some a) (hb : ks.getLast? = some b) (ht : t ∈ ks) :
    a.start.le t.start = true ∧ t.stop.le b.stop = true := by
  constructor
  · cases ks with
    | nil => cases ht
    | cons x xs =>
      cases ha
      rcases List.mem_cons.mp ht with rfl | ht
      · exact Loc.le_refl _
      · exact Loc.le_trans (h.2 a List.mem_cons_self) ((List.pairwise_cons.mp h.1).1 t ht)
  · obtain ⟨ys, rfl⟩ : ∃ ys, ks = ys ++ [b] := by
      have hne : ks ≠ [] := by rintro rfl; cases ht
      refine ⟨ks.dropLast, ?_⟩
      rw [List.getLast?_eq_some_getLast hne] at hb
      cases hb
      exact (List.dropLast_append_getLast hne).symm
    rcases List.mem_append.mp ht with ht | ht
    · exact Loc.le_trans ((List.pairwise_append.mp h.1).2.2 t ht b (by simp)) (h.2 b (by simp))
    · cases List.mem_singleton.mp ht
      exact Loc.le_refl _

/-- C33: the position of a node contains those of its descendants.  (What is missing: inputs
with an unterminated string or comment, the positions of which are rewritten.) -/
theorem C33_contains_partial (h : parseBytesCst cfg conv first bs = .ok r) (ht : ∀ t ∈ leavesL r.syntax', unterminated t.kind = false)
    {n m : Cst} (hn : In n r.syntax') (hm : Sub m n) :
    ∃ a b a' b', n.start = some a ∧ n.stop = some b ∧ m.start = some a' ∧ m.stop = some b' ∧
      a.le a' = true ∧ b'.le b = true := by
  have hmi : In m r.syntax' := by
    obtain ⟨c, hc, hs⟩ := hn
    exact ⟨c, hc, sub_trans hm hs⟩
  obtain ⟨a, b, h1, h2, h3, h4⟩ := C33_hull h hn
  obtain ⟨a', b', h1', h2', h3', h4'⟩ := C33_hull h hmi
  have hord := (result_ordered h ht).sub (in_infix hn).sublist
  have hsub := (sub_infix hm).subset
  exact ⟨_, _, _, _, h3, h4, h3', h4', (ordered_le hord h1 h2 (hsub (List.mem_of_head? h1'))).1,
    (ordered_le hord h1 h2 (hsub (List.mem_of_getLast? h2'))).2⟩

theorem adjacent_of {a b : List Tok} {s t : Tok} {ks : List Tok}
    (h : ∀ i (hi : i + 1 < ks.length), ks[i + 1].start = ks[i].stop) (he : ks = a ++ s :: t :: b) : t.start = s.stop := by
  subst he
  have := h a.length (by simp)
  simpa using this

/-- C33: consecutive trees of a node, and consecutive top-level trees, are adjacent.  (What
is missing: inputs with unterminated groups, strings or comments.) -/
theorem C33_adjacent_partial (h : parseBytesCst cfg conv first bs = .ok r) (hc : completeL r.syntax' = true)
    (ht : ∀ t ∈ leavesL r.syntax', unterminated t.kind = false) {cs a b : List Cst} {c d : Cst}
    (hn : cs = r.syntax' ∨ ∃ n, In n r.syntax' ∧ children n = cs) (he : cs = a ++ c :: d :: b) : c.stop = d.start := by
  obtain ⟨cs', f, ks, u, s, o⟩ := parse_ok h
  have hle : leavesL r.syntax' = ks := by
    rw [outcome_fixed o ht]
    refine o.all ?_
    rw [o.eq] at hc
    rwa [completeL_map] at hc
  have happ : ∀ x y : List Cst, leavesL (x ++ y) = leavesL x ++ leavesL y := by
    intro x y
    induction x with
    | nil => rfl
    | cons z x ih => simp only [List.cons_append, leavesL, ih, List.append_assoc]
  have hinf : leavesL cs <:+: leavesL r.syntax' := by
    rcases hn with rfl | ⟨n, hn, rfl⟩
    · exact List.infix_refl _
    · have := in_infix hn
      cases n with
      | node k cs => exact this
      | call hd m op body => rw [children, happ]; exact this
      | _ => exact ⟨[], leavesL r.syntax', rfl⟩
  have hin : ∀ x ∈ cs, In x r.syntax' := by
    intro x hx
    rcases hn with rfl | ⟨n, ⟨e, hem, hs⟩, rfl⟩
    · exact ⟨x, hx, .refl⟩
    · refine ⟨e, hem, sub_trans ?_ hs⟩
      cases n with
      | node k cs => exact .node hx .refl
      | call hd m op body =>
        rcases List.mem_append.mp hx with hx | hx
        · exact .head hx .refl
        · exact .body hx .refl
      | _ => cases hx
  obtain ⟨-, c', -, h2, -, h4⟩ := C33_hull h (hin c (by rw [he]; simp))
  obtain ⟨d', -, h1', -, h3', -⟩ := C33_hull h (hin d (by rw [he]; simp))
  rw [h4, h3']
  obtain ⟨x, hx⟩ : ∃ x, leaves c = x ++ [c'] := by
    have hne : leaves c ≠ [] := by intro h; rw [h] at h2; cases h2
    refine ⟨(leaves c).dropLast, ?_⟩
    rw [List.getLast?_eq_some_getLast hne] at h2
    cases h2
    exact (List.dropLast_append_getLast hne).symm
  obtain ⟨y, hy⟩ : ∃ y, leaves d = d' :: y := by
    cases hd : leaves d with
    | nil => rw [hd] at h1'; cases h1'
    | cons z y => rw [hd] at h1'; cases h1'; exact ⟨y, rfl⟩
  obtain ⟨p, q, hpq⟩ := hinf
  rw [hle] at hpq
  have : ks = (p ++ (leavesL a ++ x)) ++ c' :: d' :: (y ++ leavesL b ++ q) := by
    rw [← hpq, he, happ, leavesL, leavesL, hx, hy]
    simp
  rw [adjacent_of o.lies.adjacent this]

/-- Three statements without errors: the hypotheses are met. -/
example : parses .notScript program (fun r => completeL r.syntax' && (leavesL r.syntax').all fun t => !unterminated t.kind) = true := by
  decide +kernel

/-- The position of a group in a result, and that of a leaf of it that ends behind it. -/
def leafBehind : Cst → Bool
  | .node (.group op) cs => (leavesL cs).any fun t => match Cst.stop (.node (.group op) cs) with
    | some b => !t.stop.le b
    | none => false
  | _ => false

/-- C33 fails as stated for the names of files with an open bracket: in `{<<a[ b} + c` the
name of the file is rewritten to reach to the end of the line, beyond the group it is in, and
over the tokens that follow. -/
theorem C33_violated : ∃ (bs : List UInt8) (r : ParseResult) (op : GroupOp) (cs : List Cst) (t : Tok) (b : Loc),
    parseBytesCst Cfg.default .lineColumn .notScript bs = .ok r ∧ In (.node (.group op) cs) r.syntax' ∧ t ∈ leavesL cs ∧
    Cst.stop (.node (.group op) cs) = some b ∧ t.stop.le b = false := by
  obtain ⟨r, h1, h2⟩ := of_parses (first := .notScript) (bs := bytes ['{','<','<','a','[',' ','b','}',' ','+',' ','c'])
    (p := fun r => match r.syntax' with
      | [.node (.infix _) (g :: _)] => leafBehind g
      | _ => false) (by decide +kernel)
  split at h2
  · next op g cs heq =>
    unfold leafBehind at h2
    split at h2
    · next gop gs =>
      obtain ⟨t, ht, hb⟩ := List.any_eq_true.mp h2
      split at hb
      · next b hs =>
        exact ⟨_, r, gop, gs, t, b, h1, ⟨_, by rw [heq]; exact List.mem_cons_self, .node List.mem_cons_self .refl⟩, ht, hs, by simpa using hb⟩
      · cases hb
    · cases h2
  · cases h2

/-! ### C34: what recovery keeps -/

/-- C34 in the part that holds: the leaves of a result are, in their order, among the tokens
read from the input, starting with the first; and if all groups are closed they are all of
them.  (What is missing: the other tokens of unterminated groups, see `C34_violated`.  Before
recovery no token is missing: `C26_before_recovery`.) -/
theorem C34_recovery_partial (h : parseBytesCst cfg conv first bs = .ok r) (ht : ∀ t ∈ leavesL r.syntax', unterminated t.kind = false) :
    ∃ ks skipped tail, skipped ++ (ks.flatMap Tok.text ++ tail) = bs ∧ (first = .notScript → skipped = []) ∧ Continues tail [] ∧
      (∀ i (hi : i + 1 < ks.length), ks[i + 1].start = ks[i].stop) ∧
      (leavesL r.syntax').Sublist ks ∧ (leavesL r.syntax').head? = ks.head? ∧
      (completeL r.syntax' = true → leavesL r.syntax' = ks) := by
  obtain ⟨cs, f, ks, u, s, o⟩ := parse_ok h
  obtain ⟨pre, hp⟩ := o.reach.suffix (WF_init conv bs)
  have hp' : bs = pre ++ u.rest := hp
  rw [outcome_fixed o ht]
  refine ⟨ks, pre, s.st.rest, by rw [o.lies.text, ← hp'], fun hf => ?_, o.tail, o.lies.adjacent, o.sub, o.head, fun hc => ?_⟩
  · have hu := o.skip hf
    have : pre ++ u.rest = [] ++ u.rest := by rw [← hp', hu]; rfl
    exact List.append_cancel_right this
  · refine o.all ?_
    rwa [o.eq, completeL_map] at hc

/-- C34: what recovery keeps of a group that starts with its opening bracket, and the tokens
of which come in the order of their positions, are its first tokens. -/
theorem C34_prefix {op : GroupOp} {o : Tok} {mid cs' : List Cst}
    (ho : (leavesL (.tok o :: mid)).Pairwise fun a b => a.stop.le b.start = true)
    (hl : ∀ t ∈ leavesL (.tok o :: mid), t.start.le t.stop = true)
    (h : recoverGroup cfg bs op (.tok o :: mid) = .ok cs') :
    leavesL cs' <+: leavesL (.tok o :: mid) ∧ ∀ c ∈ cs', ∃ t, c = .tok t := by
  unfold recoverGroup at h
  split at h
  · cases h
  · split at h
    · cases h
    · next src hs =>
      split at h
      · cases h
      · next chunk i better hg =>
        have hst : src.start = o.start := by
          unfold sourceOf at hs
          simp only [Cst.start] at hs
          split at hs
          · next a b ha hb =>
            cases ha
            unfold Span.new at hs
            split at hs
            · next hn => cases hs; split at hn <;> cases hn; rfl
            · cases hs
          · cases hs
        obtain ⟨S, B⟩ := better
        have hS : S = o.start := (goodLines_start hg).trans hst
        obtain ⟨us, rfl, h1, -⟩ := keepLeaves_ok (S := S) (B := B) ⟨ho, hl⟩ (fun t ht => by
          rw [hS]
          have : leavesL (.tok o :: mid) = o :: leavesL mid := rfl
          rw [this] at ht ho hl
          rcases List.mem_cons.mp ht with rfl | ht
          · exact Loc.le_refl _
          · exact Loc.le_trans (hl o List.mem_cons_self) ((List.pairwise_cons.mp ho).1 t ht)) h
        rw [leavesL_tt]
        refine ⟨h1, fun c hc => ?_⟩
        obtain ⟨t, -, rfl⟩ := List.mem_map.mp hc
        exact ⟨t, rfl⟩

/-- The group of `{a`, newline, `b=1` before recovery meets the hypotheses. -/
example : (match doParse ⟨Cfg.default, fun _ cs => .ok cs⟩ .lineColumn .notScript unclosed with
    | .ok ([.node (.groupMissingCloser op) (.tok o :: mid)], _) =>
      decide ((leavesL (.tok o :: mid)).Pairwise fun a b => a.stop.le b.start = true) &&
      (leavesL (.tok o :: mid)).all (fun t => t.start.le t.stop) &&
      (match recoverGroup Cfg.default unclosed op (.tok o :: mid) with
        | .ok cs' => (leavesL cs').length == 3
        | .error _ => false)
    | _ => false) = true := by
  decide +kernel

/-- C34 fails as stated: of `{a`, newline, `b=1` only `{a` and the newline are kept. -/
theorem C34_violated : ∃ r, parseBytesCst Cfg.default .lineColumn .notScript unclosed = .ok r ∧
    (∀ t ∈ leavesL r.syntax', unterminated t.kind = false) ∧
    (leavesL r.syntax').map Tok.text = [bytes ['{'], bytes ['a'], [10]] := by
  obtain ⟨r, h1, h2⟩ := of_parses (first := .notScript) (bs := unclosed)
    (p := fun r => ((leavesL r.syntax').all fun t => !unterminated t.kind) &&
      decide ((leavesL r.syntax').map Tok.text = [bytes ['{'], bytes ['a'], [10]])) (by decide +kernel)
  simp only [Bool.and_eq_true, List.all_eq_true, Bool.not_eq_true', decide_eq_true_eq] at h2
  exact ⟨r, h1, h2.1, h2.2⟩

/-! ### C35: panics -/

/-- C35 in the part that holds, for positions given by line and column: parsing ends in a
result unless the input contains an escaped surrogate, is not valid UTF-8, contains a byte
order mark, or has a blank line.  (What is missing: those inputs, and positions given by
character index, see `C35_violated`.) -/
theorem C35_no_panic_partial {input : List Char} (h1 : ¬ HasSurrogateEscape (encode input)) (h2 : BOM ∉ input) (h3 : ¬ HasBlank input) :
    ∃ r, parseBytesCst cfg .lineColumn first (encode input) = .ok r := by
  cases hr : parseBytesCst cfg .lineColumn first (encode input) with
  | ok r => exact ⟨r, rfl⟩
  | error e =>
    exfalso
    have inj : ∀ {input' : List Char}, encode input = encode input' → input = input' := fun h => encode_injective _ _ h
    have line : LineErr input e → False := by
      rintro (⟨-, h⟩ | ⟨-, h⟩)
      · exact h1 h
      · exact h2 h
    rcases parse_err hr with ⟨-, h⟩ | ⟨op, o, mid, h4, h5, h6, h7⟩ | ⟨input', cs, t, h4, h5, h6, h7, h8, h9⟩
    · exact h1 h
    · rcases recoverGroup_err h4 h5 h6 h7 with ⟨-, h⟩ | ⟨input', h, h'⟩
      · exact h ⟨input, rfl⟩
      · cases inj h; exact line h'
    · cases inj h4
      have hk := TreeOKL.toks h5 t h7
      have hkind := unterminated_kinds t.kind (by rw [← unterminated_kind]; exact h8)
      rcases fixTok_cases (isNew := isStatement cfg) (Source.placed h6 t h7) (hk.solid hkind.1)
        (fun h => hkind.2 (hk.line h)) with ⟨e', l, h10, h11, h12, -⟩ | ⟨-, h, -⟩ | ⟨t', h10, -⟩
      · rw [h10] at h9; cases h9
        exact line (isStatement_split h11 h12)
      · exact h3 h
      · rw [h10] at h9; cases h9

/-- `a`, newline, `{b`, newline, `"c`, newline, `d := 1` meets the hypotheses: the string is
unterminated, the group is not closed, and there is no blank line. -/
example : ¬ HasBlank ['a','\n','{','b','\n','"','c','\n','d',' ',':','=',' ','1'] ∧
    parses .notScript (bytes ['a','\n','{','b','\n','"','c','\n','d',' ',':','=',' ','1']) (fun r =>
      !completeL r.syntax' && (leavesL r.syntax').any fun t => unterminated t.kind) = true := by
  refine ⟨?_, by decide +kernel⟩
  rintro ⟨l, h1, h2⟩
  revert l
  decide +kernel

/-- C35 fails as stated: an unclosed group in bytes that are not UTF-8; an unterminated
string followed by a blank line; a byte order mark on a line behind an unclosed group; and,
with positions given by character index, a string unterminated behind a character that is
not ASCII. -/
theorem C35_violated :
    parseBytesCst Cfg.default .lineColumn .notScript [123, 255] = .error (.panic .utf8) ∧
    parseBytesCst Cfg.default .lineColumn .notScript (bytes ['"', 'a', '\n', '\n']) = .error (.panic .recovery) ∧
    parseBytesCst Cfg.default .lineColumn .notScript (bytes ['{', '\n'] ++ [239, 187, 191]) = .error (.panic .encoding) ∧
    parseBytesCst Cfg.default .characterIndex .notScript ([195, 169] ++ bytes ['"']) = .error (.panic .recovery) :=
  ⟨of_panics (by decide +kernel), of_panics (by decide +kernel), of_panics (by decide +kernel), of_panics (by decide +kernel)⟩

end CodeParser.Props
