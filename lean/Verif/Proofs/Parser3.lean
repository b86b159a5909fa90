import Verif.Proofs.Parser2
/-!
The parser: the contract of its recursive functions (helper lemmas).
-/
namespace CodeParser
open Spec Cst

/-! ### Facts about the parselet tables -/

/-- The prefix parselet of the kind reads the token. -/
def consuming (k : TK) : Bool :=
  match k.prefixParselet with
  | .closer | .eof | .comma | .unhandled => false
  | _ => true

/-- The infix parselet of the kind is a real one. -/
def infixReal (k : TK) : Bool :=
  match k.infixParselet with
  | .assertFalse | .toplevelNewline | .implicitTimes | .differentialD => false
  | _ => true

/-- A token of this kind can be an operand. -/
def operandKind (k : TK) : Bool :=
  !k.isTrivia && !k.isCloser && k != .Colon && k != .EndOfFile

/-- What is to be known about the prefix parselet of a kind. -/
def prefixFacts (k : TK) : Bool :=
  match k.prefixParselet with
  | .leaf | .symbol | .underDot | .hash | .hashHash | .percent => operandKind k
  | .under b p => operandKind k && (match k with
    | .Under => b == .Blank && p == .CodeParser_PatternBlank
    | .UnderUnder => b == .BlankSequence && p == .CodeParser_PatternBlankSequence
    | .UnderUnderUnder => b == .BlankNullSequence && p == .CodeParser_PatternBlankNullSequence
    | _ => false)
  | .error => operandKind k && k.isError
  | .closer => k.isCloser
  | .unhandled => !k.isPossibleBeginning && infixReal k && k.infixParselet != .semiSemi && !k.isCloser &&
      (match opPrec k with | some p => decide (0 < p) | none => k.infixParselet == .colon) && k != .Fake_ImplicitTimes
  | .comma => k.infixParselet == .comma && !k.isCloser
  | .eof => k == .EndOfFile
  | .group o _ => o == k && (groupOpenerToCloser k).isSome
  | .lessLess => k == .LessLess
  | .semiSemi => k == .SemiSemi && infixReal k
  | _ => true

theorem prefix_facts : ∀ k : TK, k.real = true ∨ k = .EndOfFile → k.isTrivia = false → prefixFacts k = true :=
  Props.forall_of_all (by decide +kernel)

theorem prefix_kinds : ∀ k : TK, (k.prefixParselet = .symbol → k = .Symbol) ∧ (k.prefixParselet = .hash → k = .Hash) ∧
    (k.prefixParselet = .hashHash → k = .HashHash) ∧ (k.prefixParselet = .percent → k = .Percent) ∧
    (k = .SemiSemi → k.prefixParselet = .semiSemi) ∧ (k = .EndOfFile → k.prefixParselet = .eof) ∧
    (k.isCloser = true → k.prefixParselet = .closer) ∧ (k.prefixParselet = .semiSemi → k.infixParselet = .semiSemi) :=
  Props.forall_of_all (by decide +kernel)

theorem differential_prefix : ∀ k : TK, k.isDifferential = true →
    (match k.prefixParselet with | .op _ _ => true | _ => false) = true :=
  Props.forall_of_all (by decide +kernel)

/-- The kinds in front of which a multiplication sign may be missing. -/
def implicitKind (k : TK) : Bool :=
  match k.infixParselet with
  | .implicitTimes | .differentialD | .semiSemi => true
  | _ => false

theorem implicit_facts : ∀ k : TK, k.real = true → k.isTrivia = false → implicitKind k = true →
    consuming k = true ∧ (k.infixParselet = .semiSemi → k = .SemiSemi) ∧
    (k.infixParselet = .differentialD → k.isDifferential = true) := by
  exact Props.forall_of_all (by decide +kernel)

/-- What is to be known about the infix parselet of a kind. -/
def infixFacts (k : TK) : Bool :=
  match k.infixParselet with
  | .binary p op => op != .Pattern && op != .Optional && decide (p < 189)
  | .infix p op => op != .MessageName && op != .CodeParser_InternalInvalid && op != .CompoundExpression && decide (p < 189)
  | .postfix p _ => decide (p < 189)
  | .call o op => o == k && (groupOpenerToCloser k).isSome && op.toCall.isSome
  | .comma => k.isComma
  | .semi => k == .Semi
  | .tilde => k == .Tilde
  | .colon => k == .Colon
  | .slashColon => k == .SlashColon
  | .colonColon => k == .ColonColon
  | .semiSemi => k == .SemiSemi
  | .implicitTimes => true
  | _ => true

theorem infix_facts : ∀ k : TK, infixFacts k = true :=
  Props.forall_of_all (by decide +kernel)

theorem infix_kinds : ∀ k : TK, (k = .Semi → k.infixParselet = .semi) ∧ (k.isComma = true → k.infixParselet = .comma) ∧
    (k = .ColonColon → k.infixParselet = .colonColon) ∧ (k = .Fake_ImplicitTimes → k.infixParselet = .times) ∧
    (infixReal k = true → k.isTrivia = false ∧ k ≠ .EndOfFile) ∧ (k = .Equal → k.infixParselet = .equal) ∧
    (k = .ColonEqual → k.infixParselet = .colonEqual) ∧ (k = .SlashColon → k.infixParselet = .slashColon) ∧
    (k = .SemiSemi → k.infixParselet = .semiSemi) ∧ (k.isComma = true → opPrec k = some Prec.COMMA) :=
  Props.forall_of_all (by decide +kernel)

theorem trivia_kinds : ∀ k : TK, k.isTrivia = true → k.isCloser = false :=
  Props.forall_of_all (by decide +kernel)

theorem opens_facts : ∀ k k' : TK, groupOpenerToCloser k = some (tokenToCloser k') → k'.isCloser = true := by
  have h1 : ∀ k : TK, groupOpenerToCloser k ≠ some .AssertFalse := Props.forall_of_all (by decide +kernel)
  have h2 : ∀ k : TK, tokenToCloser k ≠ .AssertFalse → k.isCloser = true := Props.forall_of_all (by decide +kernel)
  intro k k' h
  refine h2 k' fun h' => h1 k ?_
  rw [h, h']

theorem closer_kinds : ∀ k : TK, k.isCloser = true → k ≠ .EndOfFile ∧ k.isTrivia = false :=
  Props.forall_of_all (by decide +kernel)

theorem operandKind_iff {t : Tok} : Operand (.tok t) ↔ operandKind t.kind = true := by
  unfold Operand operandKind
  simp [and_assoc]

/-! ### Stopping -/

/-- The token behind the trivia at the position of `u`, newlines at top level not being
trivia, is `t`. -/
def Ahead (U : Setup) (G : List Closer) (u : St) (ts : List Tok) (t : Tok) : Prop :=
  ∃ v w, SameAt v u ∧ Eats U.env.cfg (gin G) TK.isTriviaButNotToplevelNewline v ts t w

/-- The operators at the right edge of `n` keep it against what follows. -/
def StopT (U : Setup) (G : List Closer) (u : St) (n : Cst) : Prop :=
  ends n = true → ∀ ts t, Ahead U G u ts t → ∀ r, opPrec t.kind = some r → ∀ q ∈ tails n, keeps q r

/-- Kinds of tokens that cannot continue an operand of an operator of precedence `p`, which
is at most that of the comma. -/
def low (p : Nat) (k : TK) : Bool :=
  match k.infixParselet with
  | .assertFalse | .toplevelNewline => true
  | .comma => p == Prec.COMMA
  | _ => false

/-- The operators at the right edge of `n`, and one of precedence `p` in front of it, keep
it against what follows. -/
structure Stop (U : Setup) (p : Nat) (G : List Closer) (u : St) (n : Cst) : Prop where
  keep : ends n = true → ∀ ts t, Ahead U G u ts t → ∀ r, opPrec t.kind = some r → keeps p r ∧ ∀ q ∈ tails n, keeps q r
  halt : p ≤ Prec.COMMA → Flawed n ∨ ∀ ts t, Ahead U G u ts t → low p t.kind = true

/-- The precedence of the topmost context. -/
def topOf : List (Nat × Nat) → Nat
  | [] => 0
  | (p, _) :: _ => p

section
variable {U : Setup} {F : Fr} {C C' : List (Nat × Nat)} {G G' : List Closer} {X Y Z : List Cst} {s s' : PS}
  {k t o : Tok} {ts us : List Tok} {n l x : Cst} {p q top : Nat} {u v : St}

theorem Ahead.congr (h : Ahead U G u ts t) (hs : SameAt u v) : Ahead U G v ts t := by
  obtain ⟨a, b, h1, h2⟩ := h
  exact ⟨a, b, h1.trans hs, h2⟩

theorem Ahead.unique {ts' : List Tok} {t' : Tok} (h : Ahead U G u ts t) (h' : Ahead U G u ts' t') : ts = ts' ∧ t = t' := by
  obtain ⟨a, b, h1, h2⟩ := h
  obtain ⟨a', b', h1', h2'⟩ := h'
  obtain ⟨h3, h4, -⟩ := h2.unique h2' (h1.trans h1'.symm)
  exact ⟨h3, h4⟩

theorem Stop.congr (h : Stop U p G u n) (hs : SameAt u v) : Stop U p G v n :=
  ⟨fun he ts t ha => h.keep he ts t (ha.congr hs.symm), fun hp => (h.halt hp).imp id fun h ts t ha => h ts t (ha.congr hs.symm)⟩

theorem StopT.congr (h : StopT U G u n) (hs : SameAt u v) : StopT U G v n :=
  fun he ts t ha => h he ts t (ha.congr hs.symm)

theorem Stop.T (h : Stop U p G u n) : StopT U G u n := fun he ts t ha r hr => (h.keep he ts t ha r hr).2

theorem Stop.of_ends (h : ends n = false) (hf : p ≤ Prec.COMMA → Flawed n) : Stop U p G u n :=
  ⟨fun he => (by rw [h] at he; cases he), fun hp => Or.inl (hf hp)⟩

theorem flawed_tok (h : t.kind.isError = true) : Flawed (.tok t) := Or.inl ⟨t, by simp [Cst.leaves], h⟩

theorem Flawed.node {k : NodeKind} (h : Flawed n) (hn : n ∈ X) : Flawed (.node k X) := by
  have hl : ∀ X, n ∈ X → (∀ t ∈ n.leaves, t ∈ Cst.leavesL X) ∧ (complete n = false → completeL X = false) := by
    intro X
    induction X with
    | nil => intro h; cases h
    | cons c X ih =>
      intro h
      rcases List.mem_cons.mp h with rfl | h
      · exact ⟨fun t ht => (by simp [Cst.leavesL, ht]), fun h => (by simp [completeL, h])⟩
      · exact ⟨fun t ht => (by simp [Cst.leavesL, (ih h).1 t ht]), fun hc => (by simp [completeL, (ih h).2 hc])⟩
  rcases h with ⟨t, ht, he⟩ | h
  · exact Or.inl ⟨t, by rw [Cst.leaves]; exact (hl X hn).1 t ht, he⟩
  · refine Or.inr ?_
    have := (hl X hn).2 h
    cases hc : complete (.node k X) with
    | false => rfl
    | true => rw [← this]; symm; exact completeL_node (k := k) (by simp [completeL, hc])

theorem StopT.of_ends (h : ends n = false) : StopT U G u n := fun he => by rw [h] at he; cases he

theorem StopT.of_tails (h : tails n = []) : StopT U G u n := fun _ _ _ _ _ _ q hq => by rw [h] at hq; cases hq

theorem Ahead.of_ntn (ha : Ate U.env.cfg (gin G) TK.isTriviaButNotToplevelNewline u ts t v) : Ahead U G u ts t :=
  ⟨u, v, .refl _, ha.eats⟩

theorem Ahead.of_trivia (ha : Ate U.env.cfg (gin G) TK.isTrivia u ts t v) (hn : ∀ k ∈ ts, k.kind ≠ .ToplevelNewline) :
    Ahead U G u ts t :=
  ⟨u, v, .refl _, ha.eats.ntn fun k hk => ⟨hn k hk, (ha.all k hk).2.1⟩⟩

theorem StopT.yields (h : StopT U G u n) (ha : Ahead U G u ts t) : Yields n ts (opPrec t.kind) := by
  unfold Yields
  by_cases he : ends n = true
  · exact Or.inr (Or.inr fun r hr => h he ts t ha r hr)
  · exact Or.inr (Or.inl (by simpa using he))

theorem StopT.yields' (h : StopT U G u n) (ha : Ate U.env.cfg (gin G) TK.isTrivia u ts t v) :
    Yields n ts (opPrec t.kind) := by
  by_cases hn : ∃ k ∈ ts, k.kind = .ToplevelNewline
  · exact Or.inl hn
  · exact h.yields (.of_trivia ha fun k hk hk' => hn ⟨k, hk, hk'⟩)

theorem tailsL_snoc : tailsL (X ++ [n]) = tails n := by
  induction X with
  | nil => rfl
  | cons c X ih =>
    cases X with
    | nil => rfl
    | cons c' X => exact ih

theorem endsL_snoc : endsL (X ++ [n]) = ends n := by
  induction X with
  | nil => rfl
  | cons c X ih =>
    cases X with
    | nil => rfl
    | cons c' X => exact ih

theorem ends_node {k : NodeKind} (h : ends (.node k X) = true) : endsL X = true := by
  unfold ends at h
  split at h
  · cases h
  · cases h
  · exact h

theorem stopT_node {k : NodeKind} (hk : ∀ q, lastPrec k (X ++ [x]) = some q → q = p) (h : Stop U p G u x) :
    StopT U G u (.node k (X ++ [x])) := by
  intro he ts t ha r hr q hq
  have he := ends_node he
  rw [endsL_snoc] at he
  unfold tails at hq
  split at hq
  · rename_i p' hp'
    rw [tailsL_snoc] at hq
    obtain rfl := hk _ hp'
    have := h.keep he ts t ha r hr
    rcases List.mem_cons.mp hq with rfl | hq
    · exact this.1
    · exact this.2 q hq
  · cases hq

theorem stopT_none {k : NodeKind} (hk : lastPrec k X = none) : StopT U G u (.node k X) :=
  .of_tails (by unfold tails; rw [hk])

/-! ### Left edges -/

theorem opAfter_tt (hts : Tr ts) (ho : o.kind.isTrivia = false) : opAfter (tt ts ++ .tok o :: X) = some o := by
  unfold opAfter
  induction ts with
  | nil => simp [tt, isTrivia, ho]
  | cons t ts ih =>
    have h1 : t.kind.isTrivia = true := hts t (by simp)
    have := ih fun k hk => hts k (by simp [hk])
    simp only [tt, List.map_cons, List.cons_append, List.find?_cons, isTrivia, h1] at this ⊢
    exact this

theorem opAfter_append (h : opAfter X = some o) : opAfter (X ++ Y) = some o := by
  unfold opAfter at *
  rw [List.find?_append]
  split at h
  · rename_i h1; rw [h1]; exact h
  · cases h

/-- The operator at the beginning of `X` has precedence `p` (if it has one by itself), and
what is in front of it holds against `top`, like the operator. -/
def Head (top p : Nat) (X : List Cst) : Prop :=
  ∃ l rest o, X = l :: rest ∧ opAfter rest = some o ∧ (∀ q, opPrec o.kind = some q → p = q) ∧ Holds top l ∧
    (isImplicitOne l = true ∨ ¬ keeps top p)

theorem Head.append (h : Head top p X) : Head top p (X ++ Y) := by
  obtain ⟨l, rest, o, rfl, h1, h2⟩ := h
  exact ⟨l, rest ++ Y, o, rfl, opAfter_append h1, h2⟩

theorem Head.mk (hts : Tr ts) (ho : o.kind.isTrivia = false) (h : ∀ q, opPrec o.kind = some q → p = q)
    (hl : Holds top l) (hp : isImplicitOne l = true ∨ ¬ keeps top p) : Head top p (l :: (tt ts ++ [.tok o])) :=
  ⟨l, _, o, rfl, opAfter_tt hts ho, h, hl, hp⟩

theorem Head.holds {k : NodeKind} (h : Head top p X) : Holds top (.node k X) := by
  obtain ⟨l, rest, o, rfl, h1, h2, h3, h4⟩ := h
  intro q hq
  unfold heads at hq
  split at hq
  · rename_i hc
    rw [h1] at hq
    rcases List.mem_append.mp hq with hq | hq
    · cases ho : opPrec o.kind with
      | none => simp [ho] at hq
      | some r =>
        simp [ho] at hq
        subst hq
        obtain rfl := h2 _ ho
        rcases h4 with h4 | h4
        · simp [h4] at hc
        · exact h4
    · exact h3 q hq
  · cases hq

theorem Head.first {k : NodeKind} (h : Head top p X) : ∃ l rest, X = l :: rest ∧ first (.node k X) = first l := by
  obtain ⟨l, rest, o, rfl, h1⟩ := h
  exact ⟨l, rest, rfl, rfl⟩

/-- The first token of the first of the trees. -/
def firstL : List Cst → Option Tok
  | [] => none
  | c :: _ => first c

theorem first_node {k : NodeKind} : first (.node k X) = firstL X := by
  cases X <;> rfl

theorem firstL_append (h : X ≠ []) : firstL (X ++ Y) = firstL X := by
  cases X with
  | nil => exact absurd rfl h
  | cons c X => rfl

/-! ### The contract -/

/-- The number of bytes left. -/
abbrev PS.len (s : PS) : Nat := s.st.rest.length

/-- The order of the recursive functions at one position. -/
def Job.rank : Job → Nat
  | .prefix t => if consuming t.kind then 2 else 5
  | .climb => 4
  | .infix t => if t.kind = .Fake_ImplicitTimes then 3 else 1
  | .groupLoop _ _ => 6
  | _ => 5

/-- What decreases with each recursive call. -/
def meas (j : Job) (s : PS) : Nat := 8 * s.len + j.rank

theorem rank_le (j : Job) : j.rank ≤ 6 := by
  cases j <;> simp only [Job.rank] <;> (try split) <;> omega

/-- Where an infix operator comes from: `t0` is the token read, `t` the operator. -/
inductive Src (U : Setup) (G : List Closer) (u : St) : Tok → Tok → Prop
  | real {t : Tok} : Ready U.env.cfg (gin G) u t → infixReal t.kind = true → t.kind ≠ .Fake_ImplicitTimes → Src U G u t t
  | fake {t : Tok} : Ready U.env.cfg (gin G) u t → t.kind.isTrivia = false → implicitKind t.kind = true →
      Src U G u t (t.atStart .Fake_ImplicitTimes)

/-- The situation when an infix parselet is called. -/
structure PreInfix (U : Setup) (F : Fr) (C : List (Nat × Nat)) (G : List Closer) (p : Nat) (l : Cst)
    (ts : List Tok) (t0 t : Tok) (s : PS) : Prop where
  on : On U F ((p, F.S.length) :: C) G (l :: tt ts) [] s
  operand : Operand l
  holds : Holds (topOf C) l
  trivia : Tr ts
  tight : (isImplicitOne l = true ∧ t.kind.infixParselet = .semiSemi) ∨ ¬ keeps (topOf C) p
  prec : ∀ q, opPrec t.kind = some q → p = q
  src : Src U G s.st t0 t
  yields : Yields l ts (opPrec t0.kind)

/-- The situation at the beginning of a round of a loop. -/
structure PreLoop (U : Setup) (F : Fr) (C : List (Nat × Nat)) (G : List Closer) (op : InfixOp) (p : Nat)
    (X : List Cst) (x : Cst) (s : PS) : Prop where
  on : On U F ((p, F.S.length) :: C) G X [] s
  chain : Chain op p X x
  firstOp : FirstOp p X
  head : Head (topOf C) p X

/-- What is between the opener of a group and the position of `u`: nothing, something with
errors, or one tree that cannot be continued. -/
def Slim (U : Setup) (G : List Closer) (mid : List Cst) (u : St) : Prop :=
  (∃ x ∈ mid, Flawed x) ∨ proper mid = [] ∨
    ((proper mid).length ≤ 1 ∧ ∀ ts t, Ahead U G u ts t → low 0 t.kind = true)

/-- When a recursive function may be called; `X` is what has been pushed. -/
def Pre (U : Setup) (F : Fr) (C : List (Nat × Nat)) (G : List Closer) : Job → List Cst → PS → Prop
  | .prefix t, X, s => X = [] ∧ On U F C G [] [] s ∧ Ready U.env.cfg (gin G) s.st t ∧ t.kind.isTrivia = false
  | .climb, X, s => ∃ n, X = [n] ∧ On U F C G [n] [] s ∧ Operand n ∧ Holds (topOf C) n ∧ StopT U G s.st n
  | .infix t, X, s => ∃ p l ts t0, X = l :: tt ts ∧ PreInfix U F C G p l ts t0 t s
  | .groupLoop c op, X, s => ∃ o mid, X = .tok o :: mid ∧ On U F ((0, F.S.length) :: C) (c :: G) X [] s ∧
      Opens o.kind op ∧ groupOpenerToCloser o.kind = some c ∧ NoCloser mid ∧ Slim U (c :: G) mid s.st
  | .infixLoop op, X, s => ∃ p x, PreLoop U F C G op p X x s ∧ Stop U p G s.st x ∧ op ≠ .MessageName ∧
      op ≠ .CodeParser_InternalInvalid
  | .timesLoop, X, s => ∃ p x, PreLoop U F C G .Times p X x s ∧ Stop U p G s.st x
  | .commaLoop, X, s => ∃ x, PreLoop U F C G .CodeParser_Comma Prec.COMMA X x s ∧ Stop U Prec.COMMA G s.st x
  | .semiLoop, X, s => ∃ x, PreLoop U F C G .CompoundExpression Prec.SEMI X x s ∧ Stop U Prec.SEMI G s.st x
  | .colonColonLoop, X, s => ∃ p x, PreLoop U F C G .MessageName p X x s ∧ tails x = []

/-- What every recursive function achieves: one tree `n`. -/
structure Done (U : Setup) (F : Fr) (C : List (Nat × Nat)) (G : List Closer) (n : Cst) (s s' : PS) : Prop where
  on : On U F C G [n] [] s'
  operand : Operand n
  holds : Holds (topOf C) n
  stop : Stop U (topOf C) G s'.st n
  len : s'.len ≤ s.len

theorem Done.of_le (h : Done U F C G n s s') {s1 : PS} (hl : s.len ≤ s1.len) : Done U F C G n s1 s' :=
  ⟨h.on, h.operand, h.holds, h.stop, Nat.le_trans h.len hl⟩

/-- What a prefix parselet achieves besides. -/
structure ExtraP (C : List (Nat × Nat)) (t : Tok) (s s' : PS) (n : Cst) : Prop where
  one : t.kind = .SemiSemi → ∃ f, first n = some f ∧ f.kind = .Fake_ImplicitOne
  diff : t.kind.isDifferential = true → ∃ f, first n = some f ∧ f.kind = t.kind
  strict : consuming t.kind = true → s'.len < s.len
  strict0 : topOf C = 0 → t.kind.isCloser = false → t.kind ≠ .EndOfFile → s'.len < s.len
  bad : t.kind.prefixParselet = .error ∨ t.kind.prefixParselet = .unsupported → Flawed n

/-- What the recursive functions achieve besides. -/
def Extra (U : Setup) (C : List (Nat × Nat)) (G : List Closer) (X : List Cst) (s s' : PS) (n : Cst) : Job → Prop
  | .prefix t => ExtraP C t s s' n
  | .climb => first n = firstL X ∧ (topOf C = Prec.HIGHEST → X = [n]) ∧
      (topOf C = 0 → ∀ t, Ready U.env.cfg (gin G) s.st t → t.kind.prefixParselet = .comma → s'.len < s.len)
  | .infix _ => first n = firstL X ∧ s'.len < s.len
  | .groupLoop _ op => topOf C = Prec.HIGHEST → GroupLike U op n
  | _ => first n = firstL X

/-- The recursive calls with a measure below `m` do what they should. -/
def RecOK (U : Setup) (rec : Job → P Unit) (m : Nat) : Prop :=
  ∀ j F C G X s, Pre U F C G j X s → meas j s < m →
    wpP U.E (rec j) s (fun _ s' => ∃ n, Done U F C G n s s' ∧ Extra U C G X s s' n j)

variable {rec : Job → P Unit} {m : Nat}

theorem len_skip (h : Here U.env.cfg s.st k) (hs : s'.st = k.skipSt s.st) : s'.len + k.text.length = s.len := by
  unfold PS.len
  rw [hs, ← h.split]
  show k.after.length + _ = _
  simp; omega

theorem len_skip_lt {g : Bool} (h : Ready U.env.cfg g s.st k) (hne : k.kind ≠ .EndOfFile) (hs : s'.st = k.skipSt s.st) :
    s'.len < s.len := by
  have := len_skip h.toHere hs
  have := List.length_pos_iff.mpr (h.more hne)
  omega

theorem Ate.len {pr : TK → Bool} {g : Bool} (h : Ate U.env.cfg g pr u ts t v) (hw : WF u) : v.rest.length ≤ u.rest.length :=
  h.reach.len hw

theorem SameAt.len (h : SameAt s.st s'.st) : s'.len = s.len := by unfold PS.len; rw [h.rest]

/-- Climbing from a single tree. -/
theorem climb_wp (hrec : RecOK U rec m) (h : On U F C G [n] [] s) (ho : Operand n) (hh : Holds (topOf C) n)
    (hs : StopT U G s.st n) (hm : 8 * s.len + 4 < m) :
    wpP U.E (rec .climb) s (fun _ s' => ∃ n', Done U F C G n' s s' ∧ Extra U C G [n] s s' n' .climb) :=
  hrec .climb F C G [n] s ⟨n, rfl, h, ho, hh, hs⟩ hm

/-- The end of most parselets. -/
theorem reduceClimb_wp {k : NodeKind} (hrec : RecOK U rec m) (h : On U F ((p, F.S.length) :: C) G X [] s)
    (hn : NodeOK U.ρ k X) (hx : X ≠ []) (hh : Holds (topOf C) (.node k X)) (hs : StopT U G s.st (.node k X))
    (hm : 8 * s.len + 4 < m) (hb : k.bracket = false := by rfl) :
    wpP U.E (reduceClimb rec k) s (fun _ s' => ∃ n', Done U F C G n' s s' ∧ first n' = firstL X) := by
  refine wpP_call (reduceNode_wp h hn hx hb) ?_
  rintro _ s1 ⟨h1, e1⟩
  have hl : s1.len = s.len := by unfold PS.len; rw [e1]
  refine wpP_mono (climb_wp hrec h1 trivial hh (by rw [e1]; exact hs) (by omega)) ?_
  rintro _ s2 ⟨n', hd, hf, -⟩
  exact ⟨n', hd.of_le (by omega), by rw [hf]; exact first_node⟩

/-- An operand that has been pushed behind `X`. -/
structure Opd (U : Setup) (F : Fr) (C : List (Nat × Nat)) (G : List Closer) (X : List Cst) (r : Cst) (t : Tok)
    (s s' : PS) : Prop where
  on : On U F C G (X ++ [r]) [] s'
  operand : Operand r
  holds : Holds (topOf C) r
  stop : Stop U (topOf C) G s'.st r
  len : s'.len ≤ s.len
  extra : ExtraP C t s s' r

/-- An operand behind `X`. -/
theorem prefix_wp (hrec : RecOK U rec m) (h : On U F C G X [] s) (hr : Ready U.env.cfg (gin G) s.st t)
    (ht : t.kind.isTrivia = false) (hm : 8 * s.len + (Job.prefix t).rank < m) :
    wpP U.E (rec (.prefix t)) s (fun _ s' => ∃ r, Opd U F C G X r t s s') := by
  refine wpP_mono (hrec (.prefix t) _ C G [] s ⟨rfl, h.sub, hr, ht⟩ hm) ?_
  rintro _ s' ⟨r, hd, he⟩
  exact ⟨r, h.glue hd.on, hd.operand, hd.holds, hd.stop, hd.len, he⟩

/-- What `operand` achieves. -/
structure OpdT (U : Setup) (F : Fr) (C : List (Nat × Nat)) (G : List Closer) (X : List Cst) (us : List Tok)
    (r : Cst) (t : Tok) (s s' : PS) : Prop where
  ate : ∃ v, Ate U.env.cfg (gin G) TK.isTrivia s.st us t v
  trivia : Tr us
  on : On U F C G (X ++ (tt us ++ [r])) [] s'
  operand : Operand r
  holds : Holds (topOf C) r
  stop : Stop U (topOf C) G s'.st r
  len : s'.len ≤ s.len
  one : t.kind = .SemiSemi → ∃ f, first r = some f ∧ f.kind = .Fake_ImplicitOne
  diff : t.kind.isDifferential = true → ∃ f, first r = some f ∧ f.kind = t.kind
  strict : consuming t.kind = true → s'.len < s.len

theorem operand_wp (hrec : RecOK U rec m) (h : On U F C G X [] s)
    (hm : ∀ us t v, Ate U.env.cfg (gin G) TK.isTrivia s.st us t v → 8 * s.len + (Job.prefix t).rank < m) :
    wpP U.E (operand U.env rec) s (fun _ s' => ∃ us t r, OpdT U F C G X us r t s s') := by
  refine wpP_call (eatTrivia_wp h) ?_
  rintro t s1 ⟨us, h1, ha⟩
  have hl : s1.len ≤ s.len := ha.len h.wf
  have := hm us t _ ha
  refine wpP_mono (prefix_wp hrec h1 ha.ready ha.stop (by omega)) ?_
  rintro _ s2 ⟨r, hr⟩
  have hl2 := hr.len
  refine ⟨us, t, r, ⟨_, ha⟩, ha.trivia fun _ h => h, by rw [← List.append_assoc]; exact hr.on, hr.operand, hr.holds, hr.stop,
    by omega, hr.extra.one, hr.extra.diff, fun hc => ?_⟩
  have := hr.extra.strict hc
  omega

theorem operand_wp' (hrec : RecOK U rec m) (h : On U F C G X [] s) (hm : 8 * s.len + 6 < m) :
    wpP U.E (operand U.env rec) s (fun _ s' => ∃ us t r, OpdT U F C G X us r t s s') :=
  operand_wp hrec h fun _ t _ _ => by have := rank_le (.prefix t); omega

end
end CodeParser
