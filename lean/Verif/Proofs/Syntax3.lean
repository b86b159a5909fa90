import Verif.Proofs.Syntax2
/-!
Operators, operands and sequences in the parser, on a text whose lexemes are known (helper lemmas).
-/
namespace CodeParser.Syn
open CodeParser Spec Props

/-! ### Facts about kinds -/

/-- The kinds that may belong to the lexeme in front of them. -/
def joinee : TK → Bool
  | .Under | .UnderUnder | .UnderUnderUnder | .UnderDot => true
  | .Symbol | .String | .Integer | .Real | .Rational | .Error_Number => true
  | _ => false

theorem joins_joinee {a b : TK} (h : joins a b = true) : joinee b = true := by
  unfold joins at h
  split at h <;> first | rfl | cases h

/-- The kind is that of an operator, operand or bracket. -/
structure Visible (k : TK) : Prop where
  blank : blankKind true k = false
  trivia : k.isTrivia = false
  eof : k ≠ .EndOfFile
  newline : k ≠ .ToplevelNewline

/-- `Visible`, as a computation. -/
def visible (k : TK) : Bool :=
  !blankKind true k && !k.isTrivia && k != .EndOfFile && k != .ToplevelNewline

theorem visible_iff {k : TK} : visible k = true ↔ Visible k := by
  unfold visible
  simp only [Bool.and_eq_true, Bool.not_eq_true', bne_iff_ne, ne_eq]
  constructor
  · rintro ⟨⟨⟨h1, h2⟩, h3⟩, h4⟩; exact ⟨h1, h2, h3, h4⟩
  · rintro ⟨h1, h2, h3, h4⟩; exact ⟨⟨⟨h1, h2⟩, h3⟩, h4⟩

/-- What is used about operators behind an operand. -/
def behindFact (k : TK) (p : Nat) : Bool :=
  visible k && follows k == some p && k.infixParselet != .implicitTimes && decide (3 ≤ p) && decide (p < 189) && !joinee k && k != .Colon &&
    p != Prec.FAKE_PATTERNCOLON && k != .SemiSemi

structure Behind (k : TK) (p : Nat) : Prop where
  visible : Visible k
  follows : follows k = some p
  notImplicit : k.infixParselet ≠ .implicitTimes
  low : 3 ≤ p
  high : p < 189
  apart : joinee k = false
  notColon : k ≠ .Colon
  notPattern : p ≠ Prec.FAKE_PATTERNCOLON
  notSpan : k ≠ .SemiSemi

theorem behind_of {k : TK} {p : Nat} (h : behindFact k p = true) : Behind k p := by
  unfold behindFact at h
  simp only [Bool.and_eq_true, bne_iff_ne, ne_eq, beq_iff_eq, decide_eq_true_eq, Bool.not_eq_true'] at h
  obtain ⟨⟨⟨⟨⟨⟨⟨⟨h1, h2⟩, h3⟩, h4⟩, h5⟩, h6⟩, h7⟩, h8⟩, h9⟩ := h
  exact ⟨visible_iff.mp h1, h2, h3, h4, h5, h6, h7, h8, h9⟩

theorem binary_table : ∀ k : TK, (match binaryOf k with | some (p, _) => behindFact k p | none => true) = true :=
  forall_of_all (by decide +kernel)

theorem postfix_table : ∀ k : TK, (match postfixOf k with | some (p, _) => behindFact k p | none => true) = true :=
  forall_of_all (by decide +kernel)

theorem call_table : ∀ k : TK, (match callOpOf k with | some _ => behindFact k Prec.CALL | none => true) = true :=
  forall_of_all (by decide +kernel)

theorem infix_table : ∀ k : TK, (match infixOf k with
    | some (p, op) => behindFact k p && p % 2 == 0 && op != .CodeParser_InternalInvalid && (k.infixParselet == .times || op != .Times)
    | none => true) = true :=
  forall_of_all (by decide +kernel)

theorem binary_behind {k : TK} {p : Nat} {op : BinaryOp} (h : binaryOf k = some (p, op)) : Behind k p := by
  have := binary_table k
  rw [h] at this
  exact behind_of this

theorem postfix_behind {k : TK} {p : Nat} {op : PostfixOp} (h : postfixOf k = some (p, op)) : Behind k p := by
  have := postfix_table k
  rw [h] at this
  exact behind_of this

theorem call_behind {k : TK} {op : CallOp} (h : callOpOf k = some op) : Behind k Prec.CALL := by
  have := call_table k
  rw [h] at this
  exact behind_of this

theorem infix_behind {k : TK} {p : Nat} {op : InfixOp} (h : infixOf k = some (p, op)) :
    Behind k p ∧ p % 2 = 0 ∧ op ≠ .CodeParser_InternalInvalid ∧ (k.infixParselet = .times ∨ op ≠ .Times) := by
  have := infix_table k
  rw [h] at this
  simp only [Bool.and_eq_true, beq_iff_eq, bne_iff_ne, ne_eq, Bool.or_eq_true] at this
  obtain ⟨⟨⟨h1, h2⟩, h3⟩, h4⟩ := this
  exact ⟨behind_of h1, h2, h3, h4⟩

theorem semi_behind : Behind .Semi Prec.SEMI := behind_of (by decide)

theorem slashColon_behind : Behind .SlashColon Prec.SLASHCOLON := behind_of (by decide)

theorem equal_behind : Behind .Equal Prec.EQUAL := behind_of (by decide)

theorem ternary_behind {k k' : TK} {p p' : Nat} {op : TernaryOp} (h : ternaryOf k k' = some (p, p', op)) :
    Behind k p ∧ Behind k' p' ∧ TighterOrLeft p p' := by
  unfold ternaryOf at h
  split at h <;> cases h
  · exact ⟨behind_of (by decide), behind_of (by decide), by unfold TighterOrLeft; decide⟩
  · exact ⟨behind_of (by decide), behind_of (by decide), by unfold TighterOrLeft; decide⟩
  · exact ⟨behind_of (by decide), behind_of (by decide), by unfold TighterOrLeft; decide⟩

/-- The kinds an expression begins with. -/
def startKind (k : TK) : Bool := atomKind k || (prefixOf k).isSome || (groupOf k).isSome || k == .SemiSemi

theorem start_table : ∀ k : TK, startKind k = true → visible k = true ∧ k.isCloser = false ∧ k.isComma = false ∧ k ≠ .Dot ∧
    k ≠ .Semi ∧ k ≠ .Colon :=
  forall_of_all (by decide +kernel)

theorem prefix_table' : ∀ k : TK, (match prefixOf k with | some (p, _) => decide (3 ≤ p) && decide (p < 189) && p != Prec.FAKE_PATTERNCOLON | none => true) = true :=
  forall_of_all (by decide +kernel)

theorem closer_table : ∀ k : TK, k.isCloser = true → visible k = true ∧ follows k = some 0 ∧ continues k = none ∧
    infixOf k = none ∧ tokenToCloser k ≠ .AssertFalse ∧ k.isComma = false ∧ joinee k = false ∧ (k ≠ .Semi ∧ k.isPossibleBeginning = false) ∧ k ≠ .Colon :=
  forall_of_all (by decide +kernel)

theorem notCloser_table : ∀ k : TK, k.isCloser = false → tokenToCloser k = .AssertFalse := forall_of_all (by decide +kernel)

theorem closer_prefix : ∀ k : TK, k.isCloser = true → k.prefixParselet = .closer := forall_of_all (by decide +kernel)

theorem comma_table : visible .Comma = true ∧ follows .Comma = some Prec.COMMA ∧ continues .Comma = none ∧ joinee .Comma = false ∧
    TK.Comma ≠ .Semi ∧ TK.isPossibleBeginning .Comma = false := by decide

/-! ### Expressions -/

theorem blankOf_start {k : TK} {op : CompoundOp} (h : blankOf k = some op) : startKind k = true := by
  unfold blankOf at h
  split at h <;> first | rfl | cases h

theorem slotOf_start {k : TK} {op : CompoundOp} (h : slotOf k = some op) : startKind k = true := by
  unfold slotOf at h
  split at h <;> first | rfl | cases h

theorem writes_first : ∀ {f : Form} {g : Bool} {ks : List Lexeme}, Writes g f ks →
    (∃ tl, ks = f.first :: tl) ∧ startKind f.first.1 = true
  | .atom x, _, _, h => by
    cases h with
    | atom h => exact ⟨⟨_, rfl⟩, by show startKind x.1 = true; unfold startKind; rw [h]; rfl⟩
  | .compound c, _, _, h => by
    cases h with
    | compound =>
      cases c with
      | blank u h op hk hh => exact ⟨⟨_, rfl⟩, blankOf_start hk⟩
      | named x u op hk hx => exact ⟨⟨_, rfl⟩, by show startKind x.1 = true; rw [hx]; rfl⟩
      | typed x u h op op' hk hk' hx hh => exact ⟨⟨_, rfl⟩, by show startKind x.1 = true; rw [hx]; rfl⟩
      | slot s n op hk hn hd => exact ⟨⟨_, rfl⟩, slotOf_start hk⟩
      | slotName s n hk hn => exact ⟨⟨_, rfl⟩, by show startKind s.1 = true; rw [hk]; rfl⟩
  | .group o b, _, _, h => by
    cases h with
    | group h => exact ⟨⟨_, rfl⟩, by show startKind o.opener.1 = true; unfold startKind; rw [o.known]; simp⟩
  | .call f o b, _, _, h => by
    cases h with
    | call h _ _ =>
      obtain ⟨⟨tl, h1⟩, h2⟩ := writes_first h
      exact ⟨⟨_, by rw [h1]; rfl⟩, h2⟩
  | .binary l o r, _, _, h => by
    cases h with
    | binary h _ _ _ =>
      obtain ⟨⟨tl, h1⟩, h2⟩ := writes_first h
      exact ⟨⟨_, by rw [h1]; rfl⟩, h2⟩
  | .chain op p f t, _, _, h => by
    cases h with
    | chain h _ _ =>
      obtain ⟨⟨tl, h1⟩, h2⟩ := writes_first h
      exact ⟨⟨_, by rw [h1]; rfl⟩, h2⟩
  | .prefix o f, _, _, h => by
    cases h with
    | «prefix» _ h => exact ⟨⟨_, rfl⟩, by show startKind o.lex.1 = true; unfold startKind; rw [o.known]; simp⟩
  | .postfix f o, _, _, h => by
    cases h with
    | «postfix» h _ =>
      obtain ⟨⟨tl, h1⟩, h2⟩ := writes_first h
      exact ⟨⟨_, by rw [h1]; rfl⟩, h2⟩
  | .semi f t, _, _, h => by
    cases h with
    | semi h _ =>
      obtain ⟨⟨tl, h1⟩, h2⟩ := writes_first h
      exact ⟨⟨_, by rw [h1]; rfl⟩, h2⟩
  | .ternary l o m r, _, _, h => by
    cases h with
    | ternary h _ _ _ _ _ _ =>
      obtain ⟨⟨tl, h1⟩, h2⟩ := writes_first h
      exact ⟨⟨_, by rw [h1]; rfl⟩, h2⟩
  | .unset f e d, _, _, h => by
    cases h with
    | unset _ _ h _ _ =>
      obtain ⟨⟨tl, h1⟩, h2⟩ := writes_first h
      exact ⟨⟨_, by rw [h1]; rfl⟩, h2⟩
  | .tagUnset l o m e d, _, _, h => by
    cases h with
    | tagUnset _ _ _ h _ _ _ _ _ =>
      obtain ⟨⟨tl, h1⟩, h2⟩ := writes_first h
      exact ⟨⟨_, by rw [h1]; rfl⟩, h2⟩
  | .pattern x o r, _, _, h => by
    cases h with
    | pattern h _ _ _ _ => exact ⟨⟨_, rfl⟩, by show startKind x.1 = true; rw [h]; rfl⟩
  | .optional l o r, _, _, h => by
    cases h with
    | optional _ h _ _ _ =>
      obtain ⟨⟨tl, h1⟩, h2⟩ := writes_first h
      exact ⟨⟨_, by rw [h1]; rfl⟩, h2⟩
  | .span l o e, _, _, h => by
    cases h with
    | span _ h _ _ =>
      obtain ⟨⟨tl, h1⟩, h2⟩ := writes_first h
      exact ⟨⟨_, by rw [h1]; rfl⟩, h2⟩
  | .spanFrom o e, _, _, h => by
    cases h with
    | spanFrom h _ => exact ⟨⟨_, rfl⟩, by show startKind o.1 = true; rw [h]; rfl⟩

theorem start_visible {k : TK} (h : startKind k = true) : Visible k := visible_iff.mp (start_table k h).1

theorem cst_solid {g : Bool} {f : Form} {ks : List Lexeme} (h : Writes g f ks) : f.cst.isTrivia = false := by
  cases h with
  | @atom g x h =>
    show x.1.isTrivia = false
    exact (start_visible (by unfold startKind; rw [h]; rfl)).trivia
  | @compound g c => cases c <;> rfl
  | _ => rfl

theorem greater_iff {q p : Nat} : precGreater q p = true ↔ TighterOrLeft q p := by
  rw [precGreater_iff, keeps_iff]

theorem not_greater_iff {q p : Nat} : ¬ precGreater p q = true ↔ TighterOrRight q p := by
  rw [greater_iff]
  unfold TighterOrLeft TighterOrRight
  omega

/-- What follows lets the expression end: `R` is what it ends with. -/
structure Stops (g : Bool) (R : List Edge) (rest : List Lexeme) : Prop where
  follows : ∃ p, follows (nextKind g rest) = some p ∧ p < 189
  beyond : ∃ p, Spec.follows (nextKind true rest) = some p
  kept : ∀ e ∈ R, e.Kept (nextKind g rest)
  goes : ∀ e ∈ R, e.Ends (nextKind true rest)

theorem Stops.sub {g : Bool} {R R' : List Edge} {rest : List Lexeme} (h : Stops g R rest)
    (hs : ∀ e ∈ R', e ∈ R) : Stops g R' rest :=
  ⟨h.follows, h.beyond, fun e he => h.kept e (hs e he), fun e he => h.goes e (hs e he)⟩

theorem again_continues {k : TK} {op : InfixOp} (h : again k = some op) : continues k = some op := by
  unfold again at h
  unfold continues
  cases hk : k.infixParselet <;> rw [hk] at h <;> simp_all

theorem infixOf_again {k : TK} {op : InfixOp} (h : (infixOf k).map Prod.snd = some op) : again k = some op := by
  unfold infixOf at h
  unfold again
  cases hk : k.infixParselet <;> rw [hk] at h <;> simp_all

theorem infixOf_continues {k : TK} {op : InfixOp} (h : (infixOf k).map Prod.snd = some op) : continues k = some op :=
  again_continues (infixOf_again h)

theorem kept_ends {k : TK} {e : Edge} (h : e.Kept k) : e.Ends k := by
  cases e with
  | operand p a => exact fun op hop h' => h.2.1 op hop (again_continues h')
  | _ => trivial

theorem stops_before {g : Bool} {f : Form} {w ks : List Lexeme} {o : Lexeme} {p : Nat} (hw : Blank g w) (ho : Visible o.1)
    (hf : follows o.1 = some p) (hp : p < 189) (hk : f.KeptBefore o.1) : Stops g f.right (w ++ o :: ks) := by
  have hs : Solid true (o :: ks) := by rintro _ _ ⟨⟩; exact ho.blank
  have h1 : nextKind g (w ++ o :: ks) = o.1 := by rw [nextKind_blank hw, nextKind_solid (solid_mono hs)]
  have h2 : nextKind true (w ++ o :: ks) = o.1 := by rw [nextKind_blank hw.mono, nextKind_solid hs]
  exact ⟨⟨p, by rw [h1]; exact hf, hp⟩, ⟨p, by rw [h2]; exact hf⟩, fun e he => by rw [h1]; exact hk e he,
    fun e he => by rw [h2]; exact kept_ends (hk e he)⟩

/-! ### Spans -/

theorem noSpan_table : ∀ k : TK, (match binaryOf k with | some (_, op) => op != .Span | none => true) = true :=
  forall_of_all (by decide +kernel)

theorem noSpan_ternary : ∀ k k' : TK, (match ternaryOf k k' with | some (_, _, op) => op != .Span | none => true) = true := by
  intro k k'
  rcases ht : ternaryOf k k' with _ | ⟨p, q, op⟩
  · rfl
  · unfold ternaryOf at ht
    split at ht <;> cases ht <;> rfl

/-- An expression with an operator that takes a `;;` behind it as its own is not what is before a `;;`. -/
theorem kept_noSpan {f : Form} (h : ∀ e ∈ f.right, e.Kept .SemiSemi) : isSpan f.cst = false := by
  cases f with
  | compound c => cases c <;> rfl
  | binary l o r =>
    have := noSpan_table o.lex.1
    rw [o.known] at this
    simp only [bne_iff_ne, ne_eq] at this
    show isSpan (.node (.binary o.op) _) = false
    cases ho : o.op <;> first | rfl | exact absurd ho this
  | ternary l o m r =>
    have := noSpan_ternary o.first.1 o.second.1
    rw [o.known] at this
    simp only [bne_iff_ne, ne_eq] at this
    show isSpan (.node (.ternary o.op) _) = false
    cases ho : o.op <;> first | rfl | exact absurd ho this
  | span l o e =>
    exfalso
    cases e with
    | all => exact absurd (h .spanOpen (by simp [Form.right, Reach.right])) (by unfold Edge.Kept; decide)
    | _ => exact absurd rfl (h .span (by simp [Form.right, Reach.right]))
  | spanFrom o e =>
    exfalso
    cases e with
    | all => exact absurd (h .spanOpen (by simp [Form.right, Reach.right])) (by unfold Edge.Kept; decide)
    | _ => exact absurd rfl (h .span (by simp [Form.right, Reach.right]))
  | _ => rfl

theorem Stops.noSpan {g : Bool} {f : Form} {rest : List Lexeme} {c : Cst} {S : List Cst} (h : Stops g f.right rest) (hc : Shows c f.cst)
    (hn : nextKind g rest = .SemiSemi) : NoSpan (c :: S) :=
  hc.noSpan (kept_noSpan fun e he => by rw [← hn]; exact h.kept e he)

/-! ### Colons -/

/-- The contexts of an expression: `b` says that it has a `:` that would be torn apart inside of a
pattern, and `k` is the token behind it. -/
structure Colons (C : List (Nat × Nat)) (b : Bool) (k : TK) : Prop where
  closed : b = true → checkPatternPrec C = false
  opened : k = .Colon → checkPatternPrec C = true

theorem pattern_above {p i : Nat} {C : List (Nat × Nat)} (hp : Prec.FAKE_PATTERNCOLON < p) :
    checkPatternPrec ((p, i) :: C) = checkPatternPrec C := by
  conv => lhs; unfold checkPatternPrec
  rw [if_neg (by unfold Prec.FAKE_PATTERNCOLON at hp; omega), if_pos hp]

theorem pattern_below {p i : Nat} {C : List (Nat × Nat)} (hp : p < Prec.FAKE_PATTERNCOLON) :
    checkPatternPrec ((p, i) :: C) = false := by
  unfold checkPatternPrec
  repeat' split
  all_goals first | rfl | omega

theorem pattern_at {i : Nat} {C : List (Nat × Nat)} : checkPatternPrec ((Prec.FAKE_PATTERNCOLON, i) :: C) = true := by
  unfold checkPatternPrec
  rw [if_neg (by decide), if_neg (by omega), if_neg (by omega)]

theorem Colons.operand {C : List (Nat × Nat)} {b r : Bool} {k : TK} {p i : Nat} (h : Colons C b k) (hp : p ≠ Prec.FAKE_PATTERNCOLON)
    (hb : Prec.FAKE_PATTERNCOLON ≤ p → r = true → b = true) (hk : k = .Colon → Prec.FAKE_PATTERNCOLON ≤ p) :
    Colons ((p, i) :: C) r k := by
  rcases Nat.lt_or_gt_of_ne hp with hlt | hgt
  · exact ⟨fun _ => pattern_below hlt, fun e => absurd (hk e) (by omega)⟩
  · exact ⟨fun e => by rw [pattern_above hgt]; exact h.closed (hb (by omega) e), fun e => by rw [pattern_above hgt]; exact h.opened e⟩

theorem Colons.left {C : List (Nat × Nat)} {b l : Bool} {k k' : TK} (h : Colons C b k) (hb : l = true → b = true) (hk : k' ≠ .Colon) :
    Colons C l k' := ⟨fun e => h.closed (hb e), fun e => absurd e hk⟩

theorem Colons.before {C : List (Nat × Nat)} {b l g : Bool} {k : TK} {w ks : List Lexeme} {o : Lexeme} (h : Colons C b k)
    (hb : l = true → b = true) (hw : Blank g w) (ho : Visible o.1) (hn : o.1 ≠ .Colon) : Colons C l (nextKind g (w ++ o :: ks)) := by
  refine h.left hb ?_
  rw [nextKind_blank hw, nextKind_solid (solid_mono (by rintro _ _ ⟨⟩; exact ho.blank))]
  exact hn

/-- In brackets. -/
theorem Colons.zero {C : List (Nat × Nat)} {i p : Nat} {b : Bool} {k : TK} (hp : p < Prec.FAKE_PATTERNCOLON) (hk : k ≠ .Colon) :
    Colons ((p, i) :: C) b k := ⟨fun _ => pattern_below hp, fun e => absurd e hk⟩

/-! ### Lexemes that do not belong together -/

theorem blank_joinee : ∀ k : TK, blankKind true k = true → joinee k = false := forall_of_all (by decide +kernel)

theorem apart_of {ks ks' : List Lexeme} (h : ∀ b ∈ ks'.head?, joinee b.1 = false) : Apart ks ks' := by
  intro a _ b hb
  cases hj : joins a.1 b.1 with
  | false => rfl
  | true => have := joins_joinee hj; rw [h b hb] at this; cases this

theorem apart_before {g : Bool} {ks w r : List Lexeme} {o : Lexeme} (hw : Blank g w) (ho : joinee o.1 = false) :
    Apart ks (w ++ o :: r) := by
  refine apart_of fun b hb => ?_
  cases w with
  | nil => cases hb; exact ho
  | cons x w => cases hb; exact blank_joinee _ (hw.mono _ (by simp))

theorem apart_blank {g : Bool} {ks w : List Lexeme} (hw : Blank g w) : Apart ks w := by
  refine apart_of fun b hb => ?_
  cases w with
  | nil => cases hb
  | cons x w => cases hb; exact blank_joinee _ (hw.mono _ (by simp))

theorem Apart.right {a b ks : List Lexeme} (h : Apart (a ++ b) ks) (hb : b ≠ []) : Apart b ks := by
  intro x hx
  refine h x ?_
  rw [List.getLast?_append_of_ne_nil _ hb]
  exact hx

theorem Apart.more {a b ks : List Lexeme} (h : Apart a b) (hb : b ≠ []) : Apart a (b ++ ks) := by
  intro x hx y hy
  refine h x hx y ?_
  cases b with
  | nil => exact absurd rfl hb
  | cons => exact hy

theorem writes_ne {g : Bool} {f : Form} {ks : List Lexeme} (h : Writes g f ks) : ks ≠ [] := by
  obtain ⟨⟨tl, rfl⟩, -⟩ := writes_first h
  simp

/-! ### Reading operands -/

/-- The token is the first of the lexemes. -/
def Reads (x : Tok) (ks : List Lexeme) : Prop := ∃ l ks', ks = l :: ks' ∧ Is x l ks'

theorem Sees.is {g : Bool} {x : Tok} {l : Lexeme} {ks : List Lexeme} (h : Sees g x (l :: ks)) (hl : l.1 ≠ .ToplevelNewline) :
    Is x l ks := by
  cases h with
  | lexeme h _ =>
    have hk : x.kind = kindIn g l.1 := h.kind
    exact ⟨hk.trans (kindIn_other hl), h.text, h.lex⟩

section
variable {env : PEnv} {n : Nat} {g : Bool} {st : St} {G : List Closer} {C : List (Nat × Nat)} {S : List Cst}
  {rest ks ws : List Lexeme} {x y : Tok} {ts : List Tok} {rec : Job → P Unit} {Q : Unit → PS → Prop} {o : Lexeme}

theorem solid_first {f : Form} (h : Writes g f ks) : Solid true (ks ++ rest) := by
  obtain ⟨⟨tl, rfl⟩, h'⟩ := writes_first h
  rintro _ _ ⟨⟩
  exact (start_visible h').blank

theorem sees_first {f : Form} (h : Writes g f ks) {g' : Bool} (hx : Sees g' x (ks ++ rest)) :
    Reads x (ks ++ rest) ∧ x.kind = f.first.1 := by
  obtain ⟨⟨tl, rfl⟩, h'⟩ := writes_first h
  have := Sees.is hx (start_visible h').newline
  exact ⟨⟨_, _, rfl, this⟩, this.kind⟩

theorem wpP_unbind {α β} {m : P α} {f : α → P β} {s : PS} {Q : β → PS → Prop} (h : wpP F (m >>= f) s Q) :
    wpP F m s (fun a t => wpP F (f a) t Q) := by
  have e : (m >>= f) s = P.bind m f s := rfl
  unfold wpP at h ⊢
  cases hm : m s with
  | error e' =>
    have : (m >>= f) s = .error e' := by rw [e]; unfold P.bind; rw [hm]
    rw [this] at h; exact h
  | ok p =>
    have : (m >>= f) s = f p.1 p.2 := by rw [e]; unfold P.bind; rw [hm]
    rw [this] at h; exact h

theorem do_operand {α} {f : Form} {k : Unit → P α} {Q : α → PS → Prop} (hy : Is y o (ws ++ (ks ++ rest))) (ho : o.1 ≠ .EndOfFile) (hws : Blank true ws)
    (hf : Writes g f ks)
    (hQ : ∀ t ts z, Tr ts → Reads z (ks ++ rest) →
      wpP F (rec (.prefix z) >>= k) ⟨t, G, C, (tt ts).reverse ++ S⟩ Q) :
    wpP F (operand env rec >>= k) ⟨y.skipSt st, G, C, S⟩ Q := by
  refine wpP_bind ?_
  unfold operand
  refine do_eatTrivia (hy.skip ho) hws (solid_first hf) fun ts z t he => ?_
  exact wpP_unbind (hQ t ts z he.trivia (sees_first hf he.sees).1)

end
end CodeParser.Syn
