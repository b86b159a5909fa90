import Verif.Spec.Parens
import Verif.Proofs.FullForm4
/-!
Operators with their operands in parentheses.
-/
namespace CodeParser.Full
open CodeParser Spec Mean

/-! ### Texts do not begin with a star -/

theorem atom_star {k : TK} {t : List UInt8} (h : PlainAtom k t) : t.head? ≠ some (byte '*') := by
  obtain ⟨-, ⟨b, q, he, -⟩, -⟩ := atom_text h
  intro hs
  rw [he] at hs
  obtain rfl : b = byte '*' := Option.some.inj hs
  cases h with
  | name h =>
    have := name_bytes h (byte '*') (by rw [he]; exact List.mem_cons_self)
    revert this; decide
  | word h hb hc =>
    obtain ⟨c, q', rfl, hw⟩ := wide_head h
    obtain ⟨b, r, he', h1⟩ := wide_first hw (encode q')
    have he' : byte '*' :: q = b :: r := he.symm.trans he'
    injection he' with h2
    exact h1 (by simp [← h2])
  | @number l h hd =>
    obtain ⟨c, q', he', hc⟩ := text_head h
    have h1 : c.toNat < 128 := (numChar_ascii (text_num h c (by simp [he']))).1
    rw [he'] at he
    have he : byte c :: bytes q' = byte '*' :: q := he
    injection he with h2
    have := byte_inj h1 (by decide) h2
    subst this
    rcases hc with hc | hc <;> revert hc <;> decide
  | @string s h =>
    have := quoted_text s []
    rw [List.append_nil] at this
    rw [this] at he
    injection he with h2
    revert h2; decide

theorem text_star : ∀ (e : Expr), e.Writable → e.text.head? ≠ some (byte '*')
  | .leaf k t, h => by
    rw [Expr.text]
    rcases h with h | h
    · exact atom_star h
    · obtain ⟨l, -, -, rfl, -⟩ := negative_text h
      exact fun h => absurd (Option.some.inj h) (by decide)
  | .call f as, h => by
    obtain ⟨b, q, he, -⟩ := safe f h.1
    have := text_star f h.1
    rw [Expr.text]
    rw [he] at this ⊢
    exact this
  | .error, h => h.elim

/-! ### Lexing -/

/-- The end of the text or one of these characters. -/
def Shut (p : List Char) (r : List UInt8) : Prop := ∀ b q, r = b :: q → b ∈ bytes p

theorem shut_not {p : List Char} (hp : ∀ c ∈ p, isDigitByte (byte c) = false ∧ byte c ≠ byte '\\' ∧ byte c ∉ bytes opInner) {r : List UInt8} (h : Shut p r) {b : UInt8} {q : List UInt8} (he : r = b :: q) :
    isDigitByte b = false ∧ b ≠ byte '\\' ∧ b ∉ bytes opInner := by
  obtain ⟨c, hc, rfl⟩ := List.mem_map.mp (h b q he)
  exact hp c hc

theorem lex_long {c : Char} {tail : List Char} {k : TK} {p : List Char} {r : List UInt8} {ks : List Lexeme} (hm : (tail, k) ∈ operators c)
    (hc : c ≠ '(') (ht : ∀ x ∈ tail, isDigitByte (byte x) = false ∧ byte x ≠ byte '\\') (hp : ∀ c ∈ p, isDigitByte (byte c) = false ∧ byte c ≠ byte '\\' ∧ byte c ∉ bytes opInner)
    (ho : ∀ x ∈ operators c, ∀ y ∈ p, byte y ∉ bytes x.1) (hr : Shut p r) (h : LexesTo r ks) :
    LexesTo (byte c :: bytes tail ++ r) ((k, byte c :: bytes tail) :: ks) := by
  have head : ∀ b q, bytes tail ++ r = b :: q → isDigitByte b = false ∧ b ≠ byte '\\' := by
    intro b q he
    cases tail with
    | nil => exact ⟨(shut_not hp hr he).1, (shut_not hp hr he).2.1⟩
    | cons x t =>
      have he : byte x :: (bytes t ++ r) = b :: q := he
      injection he with h1
      subst h1
      exact ht x List.mem_cons_self
  refine LexesTo.operator ⟨hm, ⟨r, rfl, ?_⟩, ?_⟩ (fun h => hc h.1) ?_ (.inl ?_) ?_ h
  · rintro ⟨-, -, b, q, he, hd⟩
    rw [(shut_not hp hr he).1] at hd; cases hd
  · rintro t' k' hm' ⟨q, hq, -⟩
    by_contra hl
    rcases List.append_eq_append_iff.mp hq with ⟨a, h1, h2⟩ | ⟨a, h1, h2⟩
    · cases a with
      | nil =>
        rw [List.append_nil] at h1
        have := congrArg List.length h1
        simp [bytes] at this
        omega
      | cons b a =>
        obtain ⟨y, hy, rfl⟩ := List.mem_map.mp (hr b (a ++ q) h2)
        exact ho _ hm' y hy (by rw [h1]; simp)
    · have := congrArg List.length h1
      simp [bytes] at this
      omega
  · rintro ⟨-, b, q, he, hd⟩
    rw [(head b q he).1] at hd; cases hd
  · intro he
    cases hb : bytes tail ++ r with
    | nil => rw [hb] at he; cases he
    | cons b q => rw [hb] at he; exact (head b q hb).2 (Option.some.inj he)
  · intro x q he hx
    refine .inl fun hq => ?_
    cases tail with
    | nil => exact (shut_not hp hr he).2.2 (List.mem_map_of_mem hx)
    | cons y t =>
      have he : byte y :: (bytes t ++ r) = byte x :: q := he
      injection he with _ he
      subst he
      cases t with
      | nil =>
        cases r with
        | nil => cases hq
        | cons b r => exact (shut_not hp hr rfl).2.1 (Option.some.inj hq)
      | cons z t => exact (ht z (by simp)).2 (Option.some.inj hq)

theorem quiet_op {cs p : List Char} (hp : ∀ c ∈ p, isDigitByte (byte c) = false ∧ byte c ≠ byte '\\' ∧ byte c ∉ bytes opInner) (ht : ∀ x ∈ cs, byte x ≠ byte '\\') {r : List UInt8} (hr : Shut p r) :
    Quiet (bytes cs ++ r) := by
  have h1 : ∀ {r : List UInt8}, Shut p r → r.head? ≠ some (byte '\\') := by
    intro r hr he
    cases r with
    | nil => cases he
    | cons b r => exact (shut_not hp hr rfl).2.1 (Option.some.inj he)
  cases cs with
  | nil =>
    refine ⟨h1 hr, ?_⟩
    intro b q he hb
    exact absurd hb (shut_not hp hr he).2.2
  | cons x t =>
    refine ⟨fun he => ht x List.mem_cons_self (Option.some.inj he), ?_⟩
    intro b q he _
    have he : byte x :: (bytes t ++ r) = b :: q := he
    injection he with _ he
    subst he
    cases t with
    | nil => exact h1 hr
    | cons y t => exact fun he => ht y (by simp) (Option.some.inj he)

/-- What can be behind an expression. -/
def shutters : List Char := [')', ']', '}', ',', '\n', '\r']

def openP : Lexeme := (.OpenParen, [byte '('])
def closeP : Lexeme := (.CloseParen, [byte ')'])
def paren : Bracket := ⟨openP, closeP, .CodeParser_GroupParen, rfl, ⟨rfl, rfl⟩⟩

/-- The form in parentheses. -/
def grp (f : Spec.Form) : Spec.Form := .group paren (.one f)

theorem lex_open {r : List UInt8} {ks : List Lexeme} (hs : r.head? ≠ some (byte '*')) (hb : Quiet r) (h : LexesTo r ks) :
    LexesTo (byte '(' :: r) (openP :: ks) := by
  refine LexesTo.operator (c := '(') (tail := []) ⟨by decide, ⟨r, rfl, fun h => by cases h.2.1⟩, ?_⟩ ?_ (fun h => absurd h.1 (by decide)) (.inl hb.1) ?_ h
  · rintro t' k' ht -
    cases List.mem_singleton.mp ht
    exact Nat.le_refl _
  · rintro ⟨-, q, hq⟩
    have hq : r = byte '*' :: q := hq
    exact hs (by rw [hq]; rfl)
  · intro x q hx hm
    exact .inl (hb.2 _ _ (show r = byte x :: q from hx) (List.mem_map_of_mem hm))

/-! ### Forms -/

/-- Unless the text `t` begins with a sign, its first lexeme does not continue a sequence from the line before. -/
def Starts (t : List UInt8) (ks : List Lexeme) : Prop :=
  signed t = false → ∃ x q, ks = x :: q ∧ blankKind true x.1 = false ∧ again x.1 = none

/-- The text `t` is a form for the expression `e`. -/
structure Good (e : Expr) (t : List UInt8) (f : Spec.Form) (ks : List Lexeme) : Prop where
  writes : ∀ g, Writes g f ks
  grouped : f.Grouped
  meaningful : ∀ q, f.Meaningful q
  expr : ∀ q, f.expr q .value = e
  comma : isComma e = false
  lexes : ∀ {r kr}, Shut shutters r → LexesTo r kr → LexesTo (t ++ r) (ks ++ kr)
  safe : ∃ b q, t = b :: q ∧ b ≠ byte '*'
  quiet : ∀ {r}, Shut shutters r → Quiet (t ++ r)
  chars : ∃ s, encode s = t
  noAt : ∀ n, f.isAt n = false
  noSquare : (Spec.Body.one f).double = false
  neg : ∀ q, Form.expr q .negated (grp f) = e.negative
  zero : f.isZero = true ↔ e = .leaf .Integer [byte '0']
  start : Starts t ks

theorem plain_start {k : TK} {t : List UInt8} (h : PlainAtom k t) : blankKind true k = false ∧ again k = none := by
  cases h with
  | name => exact ⟨rfl, rfl⟩
  | word => exact ⟨rfl, rfl⟩
  | @number l h1 h2 =>
    unfold Literal.kind
    rw [if_neg h2]
    split
    · exact ⟨rfl, rfl⟩
    split <;> exact ⟨rfl, rfl⟩
  | string => exact ⟨rfl, rfl⟩

theorem lex_start : ∀ (e : Expr), e.Writable → Starts e.text (lex e)
  | .leaf k t, h => fun hm => by
    rcases h with h | h
    · refine ⟨(k, t), [], ?_, plain_start h⟩
      rw [lex, (leaf_plain h).2]
    · cases h with
      | mk => exact absurd (show true = false from hm) (by decide)
  | .call f as, h => fun hm => by
    obtain ⟨b, q, he, -⟩ := Full.safe f h.1
    obtain ⟨x, ks, h1, h2⟩ := lex_start f h.1 (by rw [Expr.text, he] at hm; rw [he]; exact hm)
    exact ⟨x, _, by rw [lex, h1]; rfl, h2⟩
  | .error, h => h.elim

theorem shut_follows {r : List UInt8} (h : Shut shutters r) : Follows r := by
  intro b q he
  obtain ⟨c, hc, rfl⟩ := List.mem_map.mp (h b q he)
  have key : ∀ c ∈ shutters, byte c ∈ bytes followers := by decide
  exact key c hc

theorem grp_negated (q : Quirks) (f : Spec.Form) : Form.expr q .negated (grp f) =
    if f.isNumber ∨ f.isZero then f.expr q .negated else opposite (f.expr q .value) := by
  rw [grp, Form.expr, if_pos (show paren.op = .CodeParser_GroupParen from rfl), Body.inParens]

theorem neg_call {f : Spec.Form} {h : Expr} {as : List Expr} (h1 : f.isNumber = false) (h2 : f.isZero = false)
    (h3 : ∀ q, f.expr q .value = .call h as) (q : Quirks) : Form.expr q .negated (grp f) = (Expr.call h as).negative := by
  rw [grp_negated, h1, h2, if_neg (by simp), h3]
  rfl

theorem zero_call {f : Spec.Form} {h : Expr} {as : List Expr} (h2 : f.isZero = false) :
    f.isZero = true ↔ Expr.call h as = .leaf .Integer [byte '0'] := by
  rw [h2]
  exact ⟨fun h => (by cases h), fun h => (by cases h)⟩

theorem neg_plain : ∀ (e : Expr), e.Writable → ∀ q, Form.expr q .negated (grp (form e)) = e.negative
  | .call f as, h, q => neg_call (by rw [form]; rfl) (by rw [form]; rfl) (fun q => expr q _ h) q
  | .leaf k t, h, q => by
    rcases h with h | h
    · have hh := plain_head h
      have ha := atom_expr h
      rw [form, (leaf_plain h).1, grp_negated, Expr.negative]
      by_cases hk : k = .Integer ∨ k = .Real
      · rw [if_pos (.inl (by rcases hk with rfl | rfl <;> rfl)), if_pos ⟨hk, hh⟩, Form.expr]
        exact if_pos hk
      · rw [if_neg, if_neg (fun h => hk h.1)]
        · show opposite (atomExpr (k, t)) = _
          rw [ha]
        · rintro (h | h) <;> simp [Form.isNumber, Form.isZero] at h
          · exact hk h
          · exact hk (.inl h.1)
    · have hw : (Expr.leaf k t).Writable := .inr h
      have he := expr q _ hw
      cases h with
      | @mk l h1 h2 h3 =>
        rw [form, leaf_negative.1] at he ⊢
        rw [grp_negated, if_neg, he]
        · exact (if_neg (fun h => h.2 rfl)).symm
        rintro (h | h)
        · exact absurd h Bool.false_ne_true
        · simp [Form.isZero, minus] at h
          have h4 : bytes l.text = bytes ['0'] := h.2
          apply h3
          cases ht : l.text with
          | nil => rw [ht] at h4; cases h4
          | cons c cs =>
            rw [ht] at h4
            injection h4 with h5 h6
            have hc : c = '0' := byte_inj (numChar_ascii (text_num h1 c (by simp [ht]))).1 (by decide) h5
            cases cs with
            | nil => rw [hc]
            | cons => cases h6
  | .error, h, _ => h.elim

theorem zero_plain : ∀ (e : Expr), e.Writable → ((form e).isZero = true ↔ e = .leaf .Integer [byte '0'])
  | .call f as, h => zero_call (by rw [form]; rfl)
  | .leaf k t, h => by
    rcases h with h | h
    · rw [form, (leaf_plain h).1]
      simp [Form.isZero]
    · cases h with
      | @mk l h1 h2 h3 =>
        rw [form, leaf_negative.1]
        constructor
        · intro h
          exfalso
          simp [Form.isZero, minus] at h
          have h4 : bytes l.text = bytes ['0'] := h.2
          apply h3
          cases ht : l.text with
          | nil => rw [ht] at h4; cases h4
          | cons c cs =>
            rw [ht] at h4
            injection h4 with h5 h6
            have hc : c = '0' := byte_inj (numChar_ascii (text_num h1 c (by simp [ht]))).1 (by decide) h5
            cases cs with
            | nil => rw [hc]
            | cons => cases h6
        · intro h
          injection h with _ h
          injection h with h
          exact absurd h (by decide)
  | .error, h => h.elim

theorem good_plain {e : Expr} (h : e.Writable) (hc : isComma e = false) : Good e e.text (form e) (lex e) where
  writes := writes e h
  grouped := grouped e h
  meaningful q := meaningful q e h
  expr q := expr q e h
  comma := hc
  lexes hr hl := cuts e h (shut_follows hr) hl
  safe := by
    obtain ⟨b, q, he, -⟩ := Full.safe e h
    refine ⟨b, q, he, fun hb => text_star e h ?_⟩
    rw [he, hb]; rfl
  quiet {r} _ := safe_quiet ((Full.safe e h).append r)
  chars := Full.chars e h
  noAt n := form_isAt n e
  noSquare := by have := body_double [e]; rwa [body] at this
  neg := neg_plain e h
  zero := zero_plain e h
  start := lex_start e h

section
variable {e : Expr} {t : List UInt8} {f : Spec.Form} {ks : List Lexeme}

theorem group_writes (h : Good e t f ks) (g : Bool) : Writes g (grp f) (openP :: (ks ++ [closeP])) := by
  have := Writes.group (g := g) (o := paren) (Inside.one (w := []) (w' := []) blank0 (h.writes true) blank0)
  simpa [paren, grp] using this

theorem group_meaningful (h : Good e t f ks) (q : Quirks) : Form.Meaningful q (grp f) := by
  refine ⟨fun _ => rfl, by decide, by decide, by decide, h.meaningful q, ?_⟩
  rw [h.expr q]; exact h.comma

theorem group_expr (h : Good e t f ks) (q : Quirks) {r : Role} (hr : r ≠ .negated) : Form.expr q r (grp f) = r.of e := by
  rw [grp, Form.expr, if_pos (show paren.op = .CodeParser_GroupParen from rfl)]
  cases r with
  | negated => exact absurd rfl hr
  | _ => rw [Body.inParens, h.expr q] <;> exact hr

theorem group_lexes (h : Good e t f ks) {r : List UInt8} {kr : List Lexeme} (hr : Quiet r) (hl : LexesTo r kr) :
    LexesTo (parens t ++ r) ((openP :: (ks ++ [closeP])) ++ kr) := by
  have h1 : LexesTo (byte ')' :: r) (closeP :: kr) := lex_op (c := ')') (.inl rfl) (by decide) hr hl
  have hs : Shut shutters (byte ')' :: r) := by intro b q he; cases he; decide
  have h2 := lex_open ?_ (h.quiet hs) (h.lexes hs h1)
  · simpa [parens] using h2
  · obtain ⟨b, q, rfl, hb⟩ := h.safe
    exact fun he => hb (Option.some.inj he)

end

theorem parens_shut (t r : List UInt8) : Shut ['('] (parens t ++ r) := by
  intro b q he; cases he; decide

theorem parens_quiet (t r : List UInt8) : Quiet (parens t ++ r) := by
  refine ⟨fun he => absurd (Option.some.inj he) (by decide), ?_⟩
  intro b q he hb; cases he; exact absurd hb (by decide)

theorem parens_chars {t : List UInt8} : (∃ s, encode s = t) → ∃ s, encode s = parens t := by
  rintro ⟨s, rfl⟩
  refine ⟨['('] ++ (s ++ [')']), ?_⟩
  rw [encode_app, encode_app]; rfl

/-! ### Operators -/

/-- The operator `s`, of kind `k`, is not continued by the characters `p`, and its symbol is not the one for commas. -/
def opRow (p : List Char) (s name : String) (test : TK → Bool) : Bool :=
  match s.toList with
  | [] => false
  | c :: tail => c != '(' && byte c != byte '\\' && (tail.all fun x => !isDigitByte (byte x) && byte x != byte '\\') &&
      ((operators c).all fun x => p.all fun y => !(bytes x.1).contains (byte y)) && utf8 s.toList == bytes s.toList &&
      !isComma (.call (word name) []) && (operators c).any fun x => x.1 == tail && test x.2

/-- What `opRow` says. -/
structure OpRow (p : List Char) (s name : String) (k : TK) : Prop where
  lexes : ∀ {r ks}, Shut p r → LexesTo r ks → LexesTo (utf8 s.toList ++ r) ((k, utf8 s.toList) :: ks)
  quiet : ∀ {r}, Shut p r → Quiet (utf8 s.toList ++ r)
  comma : ∀ as, isComma (.call (word name) as) = false
  first : ∃ b q, utf8 s.toList = b :: q

theorem op_row {p : List Char} {s name : String} {test : TK → Bool} (hp : ∀ c ∈ p, isDigitByte (byte c) = false ∧ byte c ≠ byte '\\' ∧ byte c ∉ bytes opInner) (h : opRow p s name test = true) :
    ∃ k, test k = true ∧ OpRow p s name k := by
  unfold opRow at h
  split at h
  · cases h
  · rename_i c tail hs
    simp only [Bool.and_eq_true, bne_iff_ne, ne_eq, List.all_eq_true, Bool.not_eq_true', beq_iff_eq, List.any_eq_true,
      List.contains_eq_mem, decide_eq_false_iff_not] at h
    obtain ⟨⟨⟨⟨⟨⟨h1, h2⟩, h4⟩, h5⟩, h6⟩, h7⟩, ⟨t, k⟩, h8, h9, h10⟩ := h
    simp only at h9 h10
    subst h9
    rw [hs] at h6
    refine ⟨k, h10, ?_, ?_, fun as => h7, ?_⟩
    · intro r ks hr hl
      rw [hs, h6]
      exact lex_long h8 h1 h4 hp h5 hr hl
    · intro r hr
      rw [hs, h6]
      refine quiet_op hp ?_ hr
      intro x hx
      rcases List.mem_cons.mp hx with rfl | hx
      · exact h2
      · exact (h4 x hx).2
    · rw [hs, h6]
      exact ⟨_, _, rfl⟩

theorem joins_close (k : TK) : joins .CloseParen k = false := by cases k <;> rfl

/-- An operator between two operands: a binary operator, a sequence or a comparison. -/
def testBetween (name : String) (k : TK) : Bool :=
  (match binaryOf k with
  | some (_, op) => op != .Divide && op != .CodeParser_BinaryAt && op != .CodeParser_BinarySlashSlash && op != .MapApply &&
      op.toSymbol.text == utf8 name.toList && k != .LongName_InvisibleApplication
  | none => false) ||
  match infixOf k with
  | some (_, op) => (op != .CodeParser_InfixInequality && op != .Divisible && op.toSymbol.text == utf8 name.toList && k != .Minus &&
      k != .LongName_Minus) || (op == .CodeParser_InfixInequality && comparisonOf k == some name && sortOf name == none)
  | none => false

theorem rows_between : ∀ x ∈ operatorsBetween, opRow ['('] x.1 x.2 (testBetween x.2) = true := by decide +kernel

def testBefore (name : String) (k : TK) : Bool :=
  match prefixOf k with
  | some (_, op) => op != .Minus && op != .Plus && op != .CodeParser_PrefixNot2 && op != .CodeParser_PrefixLinearSyntaxBang &&
      op.toSymbol.text == utf8 name.toList && !blankKind true k && (again k).isNone
  | none => false

theorem rows_before : ∀ x ∈ operatorsBefore, opRow ['('] x.1 x.2 (testBefore x.2) = true := by decide +kernel

theorem rows_star : ∀ x ∈ operatorsBefore, (utf8 x.1.toList).head? ≠ some (byte '*') := by decide +kernel

def testBehind (name : String) (k : TK) : Bool :=
  match postfixOf k with
  | some (_, op) => op != .Derivative && op != .HermitianConjugate && op.toSymbol.text == utf8 name.toList
  | none => false

theorem rows_behind : ∀ x ∈ operatorsBehind, opRow shutters x.1 x.2 (testBehind x.2) = true := by decide +kernel

theorem binary_expr {op : BinaryOp} (h1 : op ≠ .Divide) (h2 : op ≠ .CodeParser_BinaryAt) (h3 : op ≠ .CodeParser_BinarySlashSlash)
    (h4 : op ≠ .MapApply) (q : Quirks) (l r : Expr) : binaryExpr q op l r = .call (operator op.toSymbol) [l, r] := by
  cases op <;> first | rfl | exact absurd rfl h1 | exact absurd rfl h2 | exact absurd rfl h3 | exact absurd rfl h4

theorem compare_two {name : String} (h : sortOf name = none) (l r : Expr)  : Spec.compare l [(name, r)] = .call (word name) [l, r] := by
  simp [Spec.compare, compareFrom, compareAlike, h]

theorem kept_before {f : Spec.Form} {k : TK} : (grp f).KeptBefore k := by intro x hx; cases hx
theorem kept_after {f : Spec.Form} {p : Nat} : (grp f).KeptAfter p := by intro x hx; cases hx

theorem good_two {s name : String} {k : TK} {l r E : Expr} {tl tr : List UInt8} {fl fr : Spec.Form} {kl kr : List Lexeme} (row : OpRow ['('] s name k)
    (hl : Good l tl fl kl) (hr : Good r tr fr kr) {f : Spec.Form}
    (h1 : ∀ g, Writes g f ((openP :: (kl ++ [closeP])) ++ (k, utf8 s.toList) :: (openP :: (kr ++ [closeP]))))
    (h2 : f.Grouped) (h3 : ∀ q, f.Meaningful q) (h4 : ∀ q, f.expr q .value = E) (hc : isComma E = false)
    (h8 : ∀ n, f.isAt n = false) (h9 : (Spec.Body.one f).double = false) (h10 : ∀ q, Form.expr q .negated (grp f) = E.negative)
    (h11 : f.isZero = true ↔ E = .leaf .Integer [byte '0']) : ∃ f ks, Good E (parens tl ++ (utf8 s.toList ++ parens tr)) f ks := by
  refine ⟨f, _, h1, h2, h3, h4, hc, ?_, ⟨byte '(', _, rfl, by decide⟩, fun _ => ?_, ?_, h8, h9, h10, h11, fun _ => ⟨openP, _, rfl, rfl, rfl⟩⟩
  · intro r' kr' hs hl'
    have h5 := group_lexes hr (follows_quiet (shut_follows hs)) hl'
    have h6 := row.lexes (parens_shut _ _) h5
    have h7 := group_lexes hl (row.quiet (parens_shut _ _)) h6
    simpa using h7
  · rw [List.append_assoc]; exact parens_quiet _ _
  · obtain ⟨s1, e1⟩ := parens_chars hl.chars
    obtain ⟨s2, e2⟩ := parens_chars hr.chars
    refine ⟨s1 ++ (s.toList ++ s2), ?_⟩
    rw [encode_app, encode_app, e1, e2]; rfl

theorem row_ne {p : List Char} {s name : String} {k : TK} (row : OpRow p s name k) : (k, utf8 s.toList) ≠ implicitTimes := by
  obtain ⟨b, q, he⟩ := row.first
  intro h
  have := congrArg Prod.snd h
  rw [he] at this; cases this

section
variable {l r : Expr} {tl tr : List UInt8} {fl fr : Spec.Form} {kl kr : List Lexeme}

theorem binary_writes (hl : Good l tl fl kl) (hr : Good r tr fr kr) (o : Binary) (g : Bool) : Writes g (.binary (grp fl) o (grp fr))
    ((openP :: (kl ++ [closeP])) ++ o.lex :: (openP :: (kr ++ [closeP]))) := by
  have := Writes.binary (w := []) (w' := []) (o := o) (group_writes hl g) blank0 blank0 (group_writes hr g)
  simpa using this

theorem chain_writes (hl : Good l tl fl kl) (hr : Good r tr fr kr) {op : InfixOp} {p : Nat} {o : Lexeme} (ne : o ≠ implicitTimes) (g : Bool) :
    Writes g (.chain op p (grp fl) (.last o (grp fr))) ((openP :: (kl ++ [closeP])) ++ o :: (openP :: (kr ++ [closeP]))) := by
  have := Writes.chain (op := op) (prec := p) (group_writes hl g)
    (Rest.last (Sep.shown (w := []) (w' := []) ne blank0 blank0) (group_writes hr g)) ?_
  · simpa using this
  · intro a ha b _
    have : (openP :: (kl ++ [closeP])).getLast? = some closeP := by simp [List.getLast?_cons]
    rw [this] at ha
    cases ha
    exact joins_close _

end

theorem good_between {s name : String} {l r : Expr} {tl tr : List UInt8} {fl fr : Spec.Form} {kl kr : List Lexeme}
    (h : (s, name) ∈ operatorsBetween) (hl : Good l tl fl kl) (hr : Good r tr fr kr) :
    ∃ f ks, Good (.call (word name) [l, r]) (parens tl ++ (utf8 s.toList ++ parens tr)) f ks := by
  obtain ⟨k, ht, row⟩ := op_row (by decide) (rows_between _ h)
  have ne := row_ne row
  rw [testBetween, Bool.or_eq_true] at ht
  rcases ht with ht | ht
  · cases hb : binaryOf k with
    | none => rw [hb] at ht; cases ht
    | some x =>
      obtain ⟨p, op⟩ := x
      rw [hb] at ht
      simp only [Bool.and_eq_true, bne_iff_ne, ne_eq, beq_iff_eq] at ht
      obtain ⟨⟨⟨⟨⟨t1, t2⟩, t3⟩, t4⟩, t5⟩, t6⟩ := ht
      have he : ∀ q, Form.expr q .value (.binary (grp fl) ⟨(k, utf8 s.toList), p, op, hb⟩ (grp fr)) = .call (word name) [l, r] := by
        intro q
        show binaryExpr q op (Form.expr q .value (grp fl)) (Form.expr q .value (grp fr)) = _
        rw [group_expr hl q (by simp), group_expr hr q (by simp), binary_expr t1 t2 t3 t4, operator, t5]
        rfl
      exact good_two row hl hr (f := .binary (grp fl) ⟨(k, utf8 s.toList), p, op, hb⟩ (grp fr)) (binary_writes hl hr _) ⟨hl.grouped, kept_before, hr.grouped, kept_after⟩
        (fun q => ⟨group_meaningful hl q, group_meaningful hr q, fun _ => rfl, fun _ h => absurd h t6⟩) he (row.comma _)
        (fun n => by simp [Form.isAt, t2]) rfl (neg_call rfl rfl he) (zero_call rfl)
  · cases hb : infixOf k with
    | none => rw [hb] at ht; cases ht
    | some x =>
      obtain ⟨p, op⟩ := x
      rw [hb] at ht
      have hf : ∀ (q : Quirks) (r' : Role), r' ≠ .negated → Form.expr q r' (grp fl) = r'.of l := fun q r' => group_expr hl q
      have hg : ∀ (q : Quirks) (r' : Role), r' ≠ .negated → Form.expr q r' (grp fr) = r'.of r := fun q r' => group_expr hr q
      have he : ∀ q, Form.expr q .value (.chain op p (grp fl) (.last (k, utf8 s.toList) (grp fr))) = .call (word name) [l, r] := by
        intro q
        simp only [Bool.or_eq_true, Bool.and_eq_true, bne_iff_ne, ne_eq, beq_iff_eq] at ht
        rcases ht with ⟨⟨⟨⟨t1, t2⟩, t3⟩, t4⟩, t5⟩ | ⟨⟨rfl, t1⟩, t2⟩
        · have hw : word name = operator op.toSymbol := by rw [operator, t3]; rfl
          rw [hw]
          cases op <;> first
            | exact absurd rfl t1
            | exact absurd rfl t2
            | (simp [Form.expr, Tail.exprs, Tail.terms, hf, hg, Role.of, t4, t5]; done)
            | (simp [Form.expr, Tail.exprs, Tail.terms, hf, hg, Role.of, t4, t5]; rfl)
        · simp [Form.expr, Tail.comparisons, hf, hg, Role.of, t1, compare_two t2]
      exact good_two row hl hr (chain_writes hl hr ne) ⟨hl.grouped, kept_before, hb, fun h => absurd h ne, hr.grouped, kept_after⟩
        (fun q => ⟨group_meaningful hl q, group_meaningful hr q⟩) he (row.comma _) (fun _ => rfl) rfl (neg_call rfl rfl he) (zero_call rfl)

theorem row_divide : ∃ k, (k == TK.Slash) = true ∧ OpRow ['('] "/" "Times" k := op_row (by decide) (by decide +kernel)
theorem row_minus : ∃ k, (k == TK.Minus) = true ∧ OpRow ['('] "-" "Plus" k := op_row (by decide) (by decide +kernel)

theorem good_divide {l r : Expr} {tl tr : List UInt8} {fl fr : Spec.Form} {kl kr : List Lexeme} (hl : Good l tl fl kl) (hr : Good r tr fr kr) :
    ∃ f ks, Good (.call (word "Times") [l, .call (word "Power") [r, minusOne]]) (parens tl ++ (utf8 "/".toList ++ parens tr)) f ks := by
  obtain ⟨k, hk, row⟩ := row_divide
  obtain rfl := beq_iff_eq.mp hk
  have hb : binaryOf .Slash = some (Prec.SLASH, .Divide) := rfl
  have he : ∀ q, Form.expr q .value (.binary (grp fl) ⟨(.Slash, utf8 "/".toList), Prec.SLASH, .Divide, hb⟩ (grp fr)) =
      .call (word "Times") [l, .call (word "Power") [r, minusOne]] := by
    intro q
    show binaryExpr q .Divide (Form.expr q .value (grp fl)) (Form.expr q .value (grp fr)) = _
    rw [group_expr hl q (by simp), group_expr hr q (by simp)]
    rfl
  exact good_two row hl hr (f := .binary (grp fl) ⟨(.Slash, utf8 "/".toList), Prec.SLASH, .Divide, hb⟩ (grp fr)) (binary_writes hl hr _)
    ⟨hl.grouped, kept_before, hr.grouped, kept_after⟩
    (fun q => ⟨group_meaningful hl q, group_meaningful hr q, fun _ => rfl, fun _ h => absurd (show TK.Slash = .LongName_InvisibleApplication from h) (by decide)⟩) he (row.comma _)
    (fun n => rfl) rfl (neg_call rfl rfl he) (zero_call rfl)

theorem row_at : ∃ k, (k == TK.At) = true ∧ OpRow ['('] "@" "f" k := op_row (by decide) (by decide +kernel)
theorem row_slashes : ∃ k, (k == TK.SlashSlash) = true ∧ OpRow ['('] "//" "f" k := op_row (by decide) (by decide +kernel)

theorem good_apply {l r : Expr} {tl tr : List UInt8} {fl fr : Spec.Form} {kl kr : List Lexeme} (hc : isComma (.call l [r]) = false)
    (hl : Good l tl fl kl) (hr : Good r tr fr kr) : ∃ f ks, Good (.call l [r]) (parens tl ++ (utf8 "@".toList ++ parens tr)) f ks := by
  obtain ⟨k, hk, row⟩ := row_at
  obtain rfl := beq_iff_eq.mp hk
  have hb : binaryOf .At = some (Prec.AT, .CodeParser_BinaryAt) := rfl
  have he : ∀ q, Form.expr q .value (.binary (grp fl) ⟨(.At, utf8 "@".toList), Prec.AT, .CodeParser_BinaryAt, hb⟩ (grp fr)) = .call l [r] := by
    intro q
    show binaryExpr q .CodeParser_BinaryAt (Form.expr q .value (grp fl)) (Form.expr q .value (grp fr)) = _
    rw [group_expr hl q (by simp), group_expr hr q (by simp)]
    rfl
  exact good_two row hl hr (f := .binary (grp fl) ⟨(.At, utf8 "@".toList), Prec.AT, .CodeParser_BinaryAt, hb⟩ (grp fr)) (binary_writes hl hr _)
    ⟨hl.grouped, kept_before, hr.grouped, kept_after⟩
    (fun q => ⟨group_meaningful hl q, group_meaningful hr q, fun _ => rfl, fun _ h => absurd (show TK.At = .LongName_InvisibleApplication from h) (by decide)⟩) he hc
    (fun n => rfl) rfl (neg_call rfl rfl he) (zero_call rfl)

theorem good_applyBehind {l r : Expr} {tl tr : List UInt8} {fl fr : Spec.Form} {kl kr : List Lexeme} (hc : isComma (.call r [l]) = false)
    (hl : Good l tl fl kl) (hr : Good r tr fr kr) : ∃ f ks, Good (.call r [l]) (parens tl ++ (utf8 "//".toList ++ parens tr)) f ks := by
  obtain ⟨k, hk, row⟩ := row_slashes
  obtain rfl := beq_iff_eq.mp hk
  have hb : binaryOf .SlashSlash = some (Prec.SLASHSLASH, .CodeParser_BinarySlashSlash) := rfl
  have he : ∀ q, Form.expr q .value (.binary (grp fl) ⟨(.SlashSlash, utf8 "//".toList), Prec.SLASHSLASH, .CodeParser_BinarySlashSlash, hb⟩ (grp fr)) =
      .call r [l] := by
    intro q
    show binaryExpr q .CodeParser_BinarySlashSlash (Form.expr q .value (grp fl)) (Form.expr q .value (grp fr)) = _
    rw [group_expr hl q (by simp), group_expr hr q (by simp)]
    rfl
  exact good_two row hl hr (f := .binary (grp fl) ⟨(.SlashSlash, utf8 "//".toList), Prec.SLASHSLASH, .CodeParser_BinarySlashSlash, hb⟩ (grp fr))
    (binary_writes hl hr _) ⟨hl.grouped, kept_before, hr.grouped, kept_after⟩
    (fun q => ⟨group_meaningful hl q, group_meaningful hr q, fun _ => rfl,
      fun _ h => absurd (show TK.SlashSlash = .LongName_InvisibleApplication from h) (by decide)⟩) he hc
    (fun n => rfl) rfl (neg_call rfl rfl he) (zero_call rfl)

theorem row_semi : ∃ k, (k == TK.Semi) = true ∧ OpRow ['('] ";" "CompoundExpression" k := op_row (by decide) (by decide +kernel)
theorem row_span : ∃ k, (k == TK.SemiSemi) = true ∧ OpRow ['('] ";;" "Span" k := op_row (by decide) (by decide +kernel)
theorem row_tilde : ∃ k, (k == TK.Tilde) = true ∧ OpRow ['('] "~" "f" k := op_row (by decide) (by decide +kernel)
theorem row_tag : ∃ k, (k == TK.SlashColon) = true ∧ OpRow ['('] "/:" "f" k := op_row (by decide) (by decide +kernel)
theorem row_set : ∃ k, (k == TK.Equal) = true ∧ OpRow ['('] "=" "f" k := op_row (by decide) (by decide +kernel)
theorem row_delayed : ∃ k, (k == TK.ColonEqual) = true ∧ OpRow ['('] ":=" "f" k := op_row (by decide) (by decide +kernel)

theorem good_steps {l r : Expr} {tl tr : List UInt8} {fl fr : Spec.Form} {kl kr : List Lexeme} (hl : Good l tl fl kl) (hr : Good r tr fr kr) :
    ∃ f ks, Good (.call (word "CompoundExpression") [l, r]) (parens tl ++ (utf8 ";".toList ++ parens tr)) f ks := by
  obtain ⟨k, hk, row⟩ := row_semi
  obtain rfl := beq_iff_eq.mp hk
  have he : ∀ q, Form.expr q .value (.semi (grp fl) (.last (.Semi, utf8 ";".toList) (grp fr))) = .call (word "CompoundExpression") [l, r] := by
    intro q
    show Expr.call _ [Form.expr q .value (grp fl), Form.expr q .value (grp fr)] = _
    rw [group_expr hl q (by simp), group_expr hr q (by simp)]
    rfl
  refine good_two row hl hr (f := .semi (grp fl) (.last (.Semi, utf8 ";".toList) (grp fr))) (fun g => ?_)
    ⟨hl.grouped, kept_before, show TK.OpenParen.isPossibleBeginning = true by decide, hr.grouped, kept_after⟩ (fun q => ⟨group_meaningful hl q, group_meaningful hr q⟩) he (row.comma _)
    (fun n => rfl) rfl (neg_call rfl rfl he) (zero_call rfl)
  exact Writes.semi (group_writes hl g) (Steps.last (w := []) (w' := []) rfl blank0 blank0 (group_writes hr g))

theorem good_span {l r : Expr} {tl tr : List UInt8} {fl fr : Spec.Form} {kl kr : List Lexeme} (hl : Good l tl fl kl) (hr : Good r tr fr kr) :
    ∃ f ks, Good (.call (word "Span") [l, r]) (parens tl ++ (utf8 ";;".toList ++ parens tr)) f ks := by
  obtain ⟨k, hk, row⟩ := row_span
  obtain rfl := beq_iff_eq.mp hk
  have he : ∀ q, Form.expr q .value (.span (grp fl) (.SemiSemi, utf8 ";;".toList) (.to (grp fr))) = .call (word "Span") [l, r] := by
    intro q
    show Expr.call _ [Form.expr q .value (grp fl), Form.expr q .value (grp fr)] = _
    rw [group_expr hl q (by simp), group_expr hr q (by simp)]
    rfl
  refine good_two row hl hr (f := .span (grp fl) (.SemiSemi, utf8 ";;".toList) (.to (grp fr))) (fun g => ?_)
    ⟨hl.grouped, kept_before, ⟨show TK.OpenParen.isPossibleBeginning = true by decide, show TK.OpenParen ≠ .SemiSemi by decide⟩, hr.grouped, kept_after⟩ (fun q => ⟨group_meaningful hl q, group_meaningful hr q⟩) he (row.comma _)
    (fun n => rfl) rfl (neg_call rfl rfl he) (zero_call rfl)
  exact Writes.span (w := []) rfl (group_writes hl g) blank0 (Reaches.to (w := []) blank0 (group_writes hr g))

theorem good_three {s s' n n' : String} {k k' : TK} {p p' : Nat} {op : TernaryOp} {l m r E : Expr} {tl tm tr : List UInt8} {fl fm fr : Spec.Form}
    {kl km kr : List Lexeme} (row : OpRow ['('] s n k) (row' : OpRow ['('] s' n' k') (ho : ternaryOf k k' = some (p, p', op))
    (hl : Good l tl fl kl) (hm : Good m tm fm km) (hr : Good r tr fr kr) (h4 : ternaryExpr op l m r = E) (hc : isComma E = false)
    (hz : ∃ f as, E = .call f as) :
    ∃ f ks, Good E (parens tl ++ (utf8 s.toList ++ (parens tm ++ (utf8 s'.toList ++ parens tr)))) f ks := by
  let o : Ternary := ⟨(k, utf8 s.toList), (k', utf8 s'.toList), p, p', op, ho⟩
  obtain ⟨ef, eas, rfl⟩ := hz
  have he : ∀ q, Form.expr q .value (.ternary (grp fl) o (grp fm) (grp fr)) = .call ef eas := by
    intro q
    show ternaryExpr op (Form.expr q .value (grp fl)) (Form.expr q .value (grp fm)) (Form.expr q .value (grp fr)) = _
    rw [group_expr hl q (by simp), group_expr hm q (by simp), group_expr hr q (by simp)]
    exact h4
  refine ⟨.ternary (grp fl) o (grp fm) (grp fr),
    (openP :: (kl ++ [closeP])) ++ (o.first :: ((openP :: (km ++ [closeP])) ++ (o.second :: (openP :: (kr ++ [closeP]))))), fun g => ?_,
    ⟨hl.grouped, kept_before, hm.grouped, kept_after, kept_before, hr.grouped, kept_after⟩,
    fun q => ⟨group_meaningful hl q, group_meaningful hm q, group_meaningful hr q⟩, he, hc, ?_, ⟨byte '(', _, rfl, by decide⟩, fun _ => ?_, ?_,
    fun _ => rfl, rfl, neg_call rfl rfl he, zero_call rfl, fun _ => ⟨openP, _, rfl, rfl, rfl⟩⟩
  · exact Writes.ternary (o := o) (v := []) (v' := []) (w := []) (w' := []) (group_writes hl g) blank0 blank0 (group_writes hm g) blank0 blank0 (group_writes hr g)
  · intro r' kr' hs hl'
    have h5 := group_lexes hr (follows_quiet (shut_follows hs)) hl'
    have h6 := row'.lexes (parens_shut _ _) h5
    have h7 := group_lexes hm (row'.quiet (parens_shut _ _)) h6
    have h8 := row.lexes (parens_shut _ _) h7
    have h9 := group_lexes hl (row.quiet (parens_shut _ _)) h8
    simpa [o] using h9
  · rw [List.append_assoc]; exact parens_quiet _ _
  · obtain ⟨s1, e1⟩ := parens_chars hl.chars
    obtain ⟨s2, e2⟩ := parens_chars hm.chars
    obtain ⟨s3, e3⟩ := parens_chars hr.chars
    refine ⟨s1 ++ (s.toList ++ (s2 ++ (s'.toList ++ s3))), ?_⟩
    rw [encode_app, encode_app, encode_app, encode_app, e1, e2, e3]; rfl

theorem good_infix {l m r : Expr} {tl tm tr : List UInt8} {fl fm fr : Spec.Form} {kl km kr : List Lexeme} (hc : isComma (.call m [l, r]) = false)
    (hl : Good l tl fl kl) (hm : Good m tm fm km) (hr : Good r tr fr kr) :
    ∃ f ks, Good (.call m [l, r]) (parens tl ++ (utf8 "~".toList ++ (parens tm ++ (utf8 "~".toList ++ parens tr)))) f ks := by
  obtain ⟨k, hk, row⟩ := row_tilde
  obtain rfl := beq_iff_eq.mp hk
  exact good_three row row rfl hl hm hr rfl hc ⟨_, _, rfl⟩

theorem good_tagSet {l m r : Expr} {tl tm tr : List UInt8} {fl fm fr : Spec.Form} {kl km kr : List Lexeme}
    (hl : Good l tl fl kl) (hm : Good m tm fm km) (hr : Good r tr fr kr) :
    ∃ f ks, Good (.call (word "TagSet") [l, m, r]) (parens tl ++ (utf8 "/:".toList ++ (parens tm ++ (utf8 "=".toList ++ parens tr)))) f ks := by
  obtain ⟨k, hk, row⟩ := row_tag
  obtain rfl := beq_iff_eq.mp hk
  obtain ⟨k, hk, row'⟩ := row_set
  obtain rfl := beq_iff_eq.mp hk
  exact good_three row row' rfl hl hm hr rfl rfl ⟨_, _, rfl⟩

theorem good_tagSetDelayed {l m r : Expr} {tl tm tr : List UInt8} {fl fm fr : Spec.Form} {kl km kr : List Lexeme}
    (hl : Good l tl fl kl) (hm : Good m tm fm km) (hr : Good r tr fr kr) :
    ∃ f ks, Good (.call (word "TagSetDelayed") [l, m, r]) (parens tl ++ (utf8 "/:".toList ++ (parens tm ++ (utf8 ":=".toList ++ parens tr)))) f ks := by
  obtain ⟨k, hk, row⟩ := row_tag
  obtain rfl := beq_iff_eq.mp hk
  obtain ⟨k, hk, row'⟩ := row_delayed
  obtain rfl := beq_iff_eq.mp hk
  exact good_three row row' rfl hl hm hr rfl rfl ⟨_, _, rfl⟩

theorem good_minus {l r : Expr} {tl tr : List UInt8} {fl fr : Spec.Form} {kl kr : List Lexeme} (hl : Good l tl fl kl) (hr : Good r tr fr kr) :
    ∃ f ks, Good (.call (word "Plus") [l, r.negative]) (parens tl ++ (utf8 "-".toList ++ parens tr)) f ks := by
  obtain ⟨k, hk, row⟩ := row_minus
  obtain rfl := beq_iff_eq.mp hk
  have ne := row_ne row
  have hb : infixOf .Minus = some (Prec.INFIX_MINUS, .Plus) := rfl
  have he : ∀ q, Form.expr q .value (.chain .Plus Prec.INFIX_MINUS (grp fl) (.last (.Minus, utf8 "-".toList) (grp fr))) =
      .call (word "Plus") [l, r.negative] := by
    intro q
    have h1 := group_expr hl q (r := .term) (by simp)
    have h2 := hr.neg q
    simp [Form.expr, Tail.terms, h1, h2, Role.of]
  exact good_two row hl hr (chain_writes hl hr ne) ⟨hl.grouped, kept_before, hb, fun h => absurd h ne, hr.grouped, kept_after⟩
    (fun q => ⟨group_meaningful hl q, group_meaningful hr q⟩) he (row.comma _) (fun _ => rfl) rfl (neg_call rfl rfl he) (zero_call rfl)

theorem negative_comma (e : Expr) : isComma e.negative = false := by
  cases e with
  | leaf k t =>
    rw [Expr.negative]
    split <;> rfl
  | _ => rfl

theorem negative_twice {e : Expr} (h : e ≠ .leaf .Integer [byte '0']) : e.negative.negative = opposite e.negative := by
  cases e with
  | leaf k t =>
    rw [Expr.negative]
    split
    · have : negativeNumber (k, t) = .leaf k (byte '-' :: t) := by
        rw [negativeNumber, if_neg]
        rintro ⟨rfl, rfl⟩
        exact h rfl
      rw [this, Expr.negative, if_neg (fun h => h.2 rfl)]
    · rfl
  | _ => rfl

theorem negative_zero {e : Expr} (h : e.negative = .leaf .Integer [byte '0']) : e = .leaf .Integer [byte '0'] := by
  cases e with
  | leaf k t =>
    rw [Expr.negative] at h
    split at h
    · rw [negativeNumber] at h
      split at h
      · exact h
      · injection h with _ h
        injection h with h
        exact absurd h (by decide)
    · cases h
  | _ => cases h

theorem good_negative {e : Expr} {t : List UInt8} {fe : Spec.Form} {ke : List Lexeme} (he : Good e t fe ke) :
    ∃ f ks, Good e.negative (utf8 "-".toList ++ parens t) f ks := by
  obtain ⟨k, hk, row⟩ := row_minus
  obtain rfl := beq_iff_eq.mp hk
  let o : Prefix := ⟨(.Minus, utf8 "-".toList), _, .Minus, rfl⟩
  have hx : ∀ q, Form.expr q .value (.prefix o (grp fe)) = e.negative := by
    intro q
    show Form.expr q .negated (grp fe) = _
    exact he.neg q
  refine ⟨.prefix o (grp fe), o.lex :: (openP :: (ke ++ [closeP])),
    fun g => ?_, ⟨he.grouped, kept_after⟩, fun q => ⟨group_meaningful he q, by decide⟩, hx, negative_comma e, ?_, ⟨byte '-', _, rfl, by decide⟩,
    fun _ => ?_, ?_, fun _ => rfl, rfl, fun q => ?_, ?_, fun h => absurd (show true = false from h) (by decide)⟩
  · have := Writes.prefix (w := []) (o := o) blank0 (group_writes he g)
    simpa using this
  · intro r kr hs hl
    have h5 := group_lexes he (follows_quiet (shut_follows hs)) hl
    have h6 := row.lexes (parens_shut _ _) h5
    simpa [o] using h6
  · rw [List.append_assoc]
    exact row.quiet (parens_shut _ _)
  · obtain ⟨s1, e1⟩ := parens_chars he.chars
    refine ⟨"-".toList ++ s1, ?_⟩
    rw [encode_app, e1]; rfl
  · rw [grp_negated, hx]
    by_cases hz : fe.isZero = true
    · rw [if_pos (.inr (show fe.isZero = true from hz))]
      show (if (grp fe).isZero then Form.expr q .negated (grp fe) else _) = _
      rw [if_pos (show (grp fe).isZero = true from hz), he.neg q]
      obtain rfl := he.zero.mp hz
      rfl
    · rw [if_neg, negative_twice (fun h => hz (he.zero.mpr h))]
      rintro (h | h)
      · cases h
      · exact hz h
  · show fe.isZero = true ↔ _
    rw [he.zero]
    exact ⟨fun h => by rw [h]; rfl, negative_zero⟩

theorem good_prefix {s n : String} {k : TK} {p : Nat} {op : PrefixOp} {e f : Expr} {as : List Expr} {t : List UInt8} {fe : Spec.Form} {ke : List Lexeme}
    (row : OpRow ['('] s n k) (hb : prefixOf k = some (p, op)) (t1 : op ≠ .Minus) (t4 : op ≠ .CodeParser_PrefixLinearSyntaxBang)
    (hx : ∀ q, Form.expr q .value (.prefix ⟨(k, utf8 s.toList), p, op, hb⟩ (grp fe)) = .call f as) (hc : isComma (.call f as) = false)
    (star : (utf8 s.toList).head? ≠ some (byte '*'))
    (st : Starts (utf8 s.toList ++ parens t) ((k, utf8 s.toList) :: (openP :: (ke ++ [closeP]))))
    (he : Good e t fe ke) : ∃ f' ks, Good (.call f as) (utf8 s.toList ++ parens t) f' ks := by
  refine ⟨.prefix ⟨(k, utf8 s.toList), p, op, hb⟩ (grp fe), (k, utf8 s.toList) :: (openP :: (ke ++ [closeP])),
    fun g => ?_, ⟨he.grouped, kept_after⟩, fun q => ⟨group_meaningful he q, t4⟩, hx, hc, ?_, ?_, fun _ => ?_, ?_, fun _ => rfl, rfl,
    neg_call rfl (by simp [Form.isZero, t1]) hx, zero_call (by simp [Form.isZero, t1]), st⟩
  · have := Writes.prefix (w := []) (o := ⟨(k, utf8 s.toList), p, op, hb⟩) blank0 (group_writes he g)
    simpa using this
  · intro r kr hs hl
    have h5 := group_lexes he (follows_quiet (shut_follows hs)) hl
    have h6 := row.lexes (parens_shut _ _) h5
    simpa using h6
  · obtain ⟨b, q, h1⟩ := row.first
    refine ⟨b, q ++ parens t, by rw [h1]; rfl, fun hb => star ?_⟩
    rw [h1, hb]; rfl
  · rw [List.append_assoc]
    exact row.quiet (parens_shut _ _)
  · obtain ⟨s1, e1⟩ := parens_chars he.chars
    refine ⟨s.toList ++ s1, ?_⟩
    rw [encode_app, e1]; rfl

theorem good_before {s name : String} {e : Expr} {t : List UInt8} {fe : Spec.Form} {ke : List Lexeme}
    (h : (s, name) ∈ operatorsBefore) (he : Good e t fe ke) : ∃ f ks, Good (.call (word name) [e]) (utf8 s.toList ++ parens t) f ks := by
  obtain ⟨k, ht, row⟩ := op_row (by decide) (rows_before _ h)
  rw [testBefore] at ht
  cases hb : prefixOf k with
  | none => rw [hb] at ht; cases ht
  | some x =>
    obtain ⟨p, op⟩ := x
    rw [hb] at ht
    simp only [Bool.and_eq_true, bne_iff_ne, ne_eq, beq_iff_eq, Bool.not_eq_true', Option.isNone_iff_eq_none] at ht
    obtain ⟨⟨⟨⟨⟨⟨t1, t2⟩, t3⟩, t4⟩, t5⟩, t6⟩, t7⟩ := ht
    refine good_prefix row hb t1 t4 (fun q => ?_) (row.comma _) (rows_star _ h) (fun _ => ⟨_, _, rfl, t6, t7⟩) he
    have hw : word name = operator op.toSymbol := by rw [operator, t5]; rfl
    have hg : ∀ (r' : Role), r' ≠ .negated → Form.expr q r' (grp fe) = r'.of e := fun r' => group_expr he q
    rw [hw]
    cases op <;> first
      | exact absurd rfl t1
      | exact absurd rfl t2
      | exact absurd rfl t3
      | (simp [Form.expr, hg, Role.of])

theorem row_plus : ∃ k, (k == TK.Plus) = true ∧ OpRow ['('] "+" "Plus" k := op_row (by decide) (by decide +kernel)
theorem row_bangs : ∃ k, (k == TK.BangBang) = true ∧ OpRow ['('] "!!" "Not" k := op_row (by decide) (by decide +kernel)

theorem good_positive {e : Expr} {t : List UInt8} {fe : Spec.Form} {ke : List Lexeme} (he : Good e t fe ke) :
    ∃ f ks, Good (.call (word "Plus") [e]) (utf8 "+".toList ++ parens t) f ks := by
  obtain ⟨k, hk, row⟩ := row_plus
  obtain rfl := beq_iff_eq.mp hk
  refine good_prefix row (p := _) (op := .Plus) rfl (by decide) (by decide) (fun q => ?_) rfl (by decide)
    (fun h => absurd (show true = false from h) (by decide)) he
  show Expr.call _ [Form.expr q .afterPlus (grp fe)] = _
  rw [group_expr he q (by simp)]
  rfl

theorem good_notNot {e : Expr} {t : List UInt8} {fe : Spec.Form} {ke : List Lexeme} (he : Good e t fe ke) :
    ∃ f ks, Good (.call (word "Not") [.call (word "Not") [e]]) (utf8 "!!".toList ++ parens t) f ks := by
  obtain ⟨k, hk, row⟩ := row_bangs
  obtain rfl := beq_iff_eq.mp hk
  refine good_prefix row (p := _) (op := .CodeParser_PrefixNot2) rfl (by decide) (by decide) (fun q => ?_) rfl (by decide)
    (fun _ => ⟨_, _, rfl, rfl, rfl⟩) he
  show Expr.call _ [.call _ [Form.expr q .value (grp fe)]] = _
  rw [group_expr he q (by simp)]
  rfl

theorem good_behind {s name : String} {e : Expr} {t : List UInt8} {fe : Spec.Form} {ke : List Lexeme}
    (h : (s, name) ∈ operatorsBehind) (he : Good e t fe ke) : ∃ f ks, Good (.call (word name) [e]) (parens t ++ utf8 s.toList) f ks := by
  obtain ⟨k, ht, row⟩ := op_row (by decide) (rows_behind _ h)
  rw [testBehind] at ht
  cases hb : postfixOf k with
  | none => rw [hb] at ht; cases ht
  | some x =>
    obtain ⟨p, op⟩ := x
    rw [hb] at ht
    simp only [Bool.and_eq_true, bne_iff_ne, ne_eq, beq_iff_eq] at ht
    obtain ⟨⟨t1, t2⟩, t3⟩ := ht
    have hx : ∀ q, Form.expr q .value (.postfix (grp fe) ⟨(k, utf8 s.toList), p, op, hb⟩) = .call (word name) [e] := by
      intro q
      have hw : word name = operator op.toSymbol := by rw [operator, t3]; rfl
      have hg : ∀ (r' : Role), r' ≠ .negated → Form.expr q r' (grp fe) = r'.of e := fun r' => group_expr he q
      rw [hw]
      cases op <;> first
        | exact absurd rfl t1
        | exact absurd rfl t2
        | (simp [Form.expr, hg, Role.of])
    refine ⟨.postfix (grp fe) ⟨(k, utf8 s.toList), p, op, hb⟩, (openP :: (ke ++ [closeP])) ++ [(k, utf8 s.toList)],
      fun g => ?_, ⟨he.grouped, kept_before⟩, fun q => ⟨group_meaningful he q, fun h => absurd h t1⟩, hx, row.comma _, ?_,
      ⟨byte '(', _, rfl, by decide⟩, fun _ => ?_, ?_, fun _ => rfl, rfl, neg_call rfl rfl hx, zero_call rfl,
      fun _ => ⟨openP, _, rfl, rfl, rfl⟩⟩
    · have := Writes.postfix (w := []) (o := ⟨(k, utf8 s.toList), p, op, hb⟩) (group_writes he g) blank0
      simpa using this
    · intro r kr hs hl
      have h6 := row.lexes hs hl
      have h7 := group_lexes he (row.quiet hs) h6
      simpa using h7
    · rw [List.append_assoc]; exact parens_quiet _ _
    · obtain ⟨s1, e1⟩ := parens_chars he.chars
      refine ⟨s1 ++ s.toList, ?_⟩
      rw [encode_app, e1]; rfl

theorem row_stop : ∃ k, (k == TK.Semi) = true ∧ OpRow shutters ";" "CompoundExpression" k := op_row (by decide) (by decide +kernel)

theorem good_stop {e : Expr} {t : List UInt8} {fe : Spec.Form} {ke : List Lexeme} (he : Good e t fe ke) :
    ∃ f ks, Good (.call (word "CompoundExpression") [e, word "Null"]) (parens t ++ utf8 ";".toList) f ks := by
  obtain ⟨k, hk, row⟩ := row_stop
  obtain rfl := beq_iff_eq.mp hk
  have hx : ∀ q, Form.expr q .value (.semi (grp fe) (.stop (.Semi, utf8 ";".toList))) = .call (word "CompoundExpression") [e, word "Null"] := by
    intro q
    show Expr.call _ [Form.expr q .value (grp fe), _] = _
    rw [group_expr he q (by simp)]
    rfl
  refine ⟨.semi (grp fe) (.stop (.Semi, utf8 ";".toList)), (openP :: (ke ++ [closeP])) ++ [(.Semi, utf8 ";".toList)],
    fun g => ?_, ⟨he.grouped, kept_before, trivial⟩, fun q => ⟨group_meaningful he q, trivial⟩, hx, row.comma _, ?_,
    ⟨byte '(', _, rfl, by decide⟩, fun _ => ?_, ?_, fun _ => rfl, rfl, neg_call rfl rfl hx, zero_call rfl,
    fun _ => ⟨openP, _, rfl, rfl, rfl⟩⟩
  · exact Writes.semi (group_writes he g) (Steps.stop (w := []) rfl blank0)
  · intro r kr hs hl
    have h6 := row.lexes hs hl
    have h7 := group_lexes he (row.quiet hs) h6
    simpa using h7
  · rw [List.append_assoc]; exact parens_quiet _ _
  · obtain ⟨s1, e1⟩ := parens_chars he.chars
    refine ⟨s1 ++ ";".toList, ?_⟩
    rw [encode_app, e1]; rfl

theorem good_inside {e : Expr} {t : List UInt8} {f : Spec.Form} {ks : List Lexeme} (h : Good e t f ks) :
    Good e (parens t) (grp f) (openP :: (ks ++ [closeP])) where
  writes := group_writes h
  grouped := h.grouped
  meaningful := group_meaningful h
  expr q := group_expr h q (by simp)
  comma := h.comma
  lexes hs hl := group_lexes h (follows_quiet (shut_follows hs)) hl
  safe := ⟨byte '(', _, rfl, by decide⟩
  quiet _ := parens_quiet _ _
  chars := parens_chars h.chars
  noAt _ := rfl
  noSquare := rfl
  neg q := by
    have h1 := h.neg q
    rw [grp_negated, show (grp f).isNumber = f.isNumber from rfl, show (grp f).isZero = f.isZero from rfl, group_expr h q (r := .value) (by simp), h1]
    rw [grp_negated] at h1
    split
    · rfl
    · rename_i hn
      rw [if_neg hn, h.expr q] at h1
      exact h1
  zero := h.zero
  start _ := ⟨openP, _, rfl, rfl, rfl⟩

/-! ### Sequences -/

/-- `Good` for expressions with commas between them. -/
inductive Goods : List Expr → List UInt8 → List Spec.Form → List Lexeme → Prop
  | none : Goods [] [] [] []
  | one {e t f ks} : Good e t f ks → Goods [e] t [f] ks
  | more {e t f k e' es ts fs ks} : Good e t f k → Goods (e' :: es) ts fs ks →
      Goods (e :: e' :: es) (t ++ byte ',' :: byte ' ' :: ts) (f :: fs) (k ++ commaL :: spaceL :: ks)

def tailOf : List Spec.Form → Spec.Tail
  | [] => .last commaL (.atom (.Symbol, []))
  | [f] => .last commaL f
  | f :: g :: fs => .more commaL f (tailOf (g :: fs))

def bodyOf : List Spec.Form → Spec.Body
  | [] => .empty
  | [f] => .one f
  | f :: g :: fs => .many f (tailOf (g :: fs))

/-- What the forms behind the first comma are. -/
structure GoodTail (as : List Expr) (fs : List Spec.Form) (ks : List Lexeme) : Prop where
  rest : Rest true (tailOf fs) (commaL :: spaceL :: ks)
  commas : (tailOf fs).Commas
  meaningful : ∀ q, (tailOf fs).Meaningful q
  exprs : ∀ q, (tailOf fs).exprs q .value = as
  noAt : ∀ n, (tailOf fs).Each fun _ f => f.isAt n = false
  some : ∃ f fs', fs = f :: fs'

theorem good_tail {as : List Expr} {ts : List UInt8} {fs : List Spec.Form} {ks : List Lexeme} (h : Goods as ts fs ks) (hn : as ≠ []) :
    GoodTail as fs ks := by
  induction h with
  | none => exact absurd rfl hn
  | @one e t f ks h =>
    exact ⟨Rest.last (ks := [commaL, spaceL]) (Sep.shown (w := []) (by decide) blank0 blank1) (h.writes true), ⟨rfl, h.grouped⟩,
      fun q => h.meaningful q, fun q => by rw [tailOf, Tail.exprs, h.expr q], fun n => h.noAt n, _, _, rfl⟩
  | @more e t f k e' es ts fs ks h _ ih =>
    have ih := ih (by simp)
    obtain ⟨g, fs', rfl⟩ := ih.some
    refine ⟨?_, ⟨rfl, h.grouped, ih.commas⟩, fun q => ⟨h.meaningful q, ih.meaningful q⟩, fun q => ?_, fun n => ⟨h.noAt n, ih.noAt n⟩, _, _, rfl⟩
    · exact Rest.more (ks := [commaL, spaceL]) (Sep.shown (w := []) (by decide) blank0 blank1) (h.writes true) ih.rest apart_comma
    · rw [tailOf, Tail.exprs, h.expr q, ih.exprs q]

/-- What is between brackets. -/
structure GoodBody (as : List Expr) (ts : List UInt8) (b : Spec.Body) (ks : List Lexeme) : Prop where
  inside : Inside b ks
  grouped : b.Grouped
  meaningful : ∀ q, b.Meaningful q
  exprs : ∀ q, b.exprs q = as
  double : b.double = false

theorem good_body {as : List Expr} {ts : List UInt8} {fs : List Spec.Form} {ks : List Lexeme} (h : Goods as ts fs ks) :
    GoodBody as ts (bodyOf fs) ks := by
  cases h with
  | none => exact ⟨.empty blank0, trivial, fun _ => trivial, fun _ => rfl, rfl⟩
  | one h =>
    refine ⟨?_, h.grouped, fun q => ⟨h.meaningful q, by rw [h.expr q]; exact h.comma⟩, fun q => ?_, h.noSquare⟩
    · simpa [bodyOf] using Inside.one (w := []) (w' := []) blank0 (h.writes true) blank0
    · rw [bodyOf, Body.exprs, h.expr q]
  | more h hs =>
    have ht := good_tail hs (by simp)
    obtain ⟨g, fs', rfl⟩ := ht.some
    refine ⟨?_, ⟨h.grouped, ht.commas⟩, fun q => ⟨h.meaningful q, ht.meaningful q, fun _ => ⟨h.noAt _, ht.noAt _⟩⟩, fun q => ?_, rfl⟩
    · simpa [bodyOf] using Inside.many (w := []) (w' := []) blank0 (h.writes true) ht.rest blank0
    · rw [bodyOf, Body.exprs, h.expr q, ht.exprs q]

theorem shut_cons {c : Char} {r : List UInt8} (h : c ∈ shutters) : Shut shutters (byte c :: r) := by
  intro b q he; cases he; exact List.mem_map_of_mem h

theorem goods_lexes {as : List Expr} {ts : List UInt8} {fs : List Spec.Form} {ks : List Lexeme} (h : Goods as ts fs ks) {r : List UInt8}
    {kr : List Lexeme} (hr : Shut shutters r) (hl : LexesTo r kr) : LexesTo (ts ++ r) (ks ++ kr) := by
  induction h with
  | none => exact hl
  | one h => exact h.lexes hr hl
  | @more e t f k e' es ts fs ks h hs ih =>
    have hb : Quiet (byte ' ' :: (ts ++ r)) := by
      refine ⟨by simp; decide, ?_⟩
      rintro b q he hm
      cases he
      exact absurd hm (by decide)
    have h2 : LexesTo (byte ',' :: byte ' ' :: (ts ++ r)) (commaL :: spaceL :: (ks ++ kr)) :=
      lex_op (c := ',') (.inl rfl) (by decide) hb (.space ih)
    have := h.lexes (shut_cons (by decide)) h2
    simpa using this

theorem goods_quiet {as : List Expr} {ts : List UInt8} {fs : List Spec.Form} {ks : List Lexeme} (h : Goods as ts fs ks) {r : List UInt8}
    (hr : Shut shutters r) : Quiet (ts ++ r) := by
  cases h with
  | none => exact follows_quiet (shut_follows hr)
  | one h => exact h.quiet hr
  | more h hs => rw [List.append_assoc]; exact h.quiet (shut_cons (by decide))

theorem goods_chars {as : List Expr} {ts : List UInt8} {fs : List Spec.Form} {ks : List Lexeme} (h : Goods as ts fs ks) : ∃ s, encode s = ts := by
  induction h with
  | none => exact ⟨[], rfl⟩
  | one h => exact h.chars
  | more h _ ih =>
    obtain ⟨s, rfl⟩ := h.chars
    obtain ⟨s', rfl⟩ := ih
    refine ⟨s ++ ([',', ' '] ++ s'), ?_⟩
    rw [encode_app, encode_app]; rfl

theorem good_call {h : Expr} {as : List Expr} {ts : List UInt8} {fs : List Spec.Form} {ks : List Lexeme} (hw : h.Writable) (hh : h.Head)
    (hc : isComma (.call h as) = false) (hs : Goods as ts fs ks) :
    Good (.call h as) (h.text ++ byte '[' :: (ts ++ [byte ']'])) (.call (form h) square (bodyOf fs)) (lex h ++ openL :: (ks ++ [closeL])) := by
  have b := good_body hs
  have hx : ∀ q, Spec.Form.expr q .value (.call (form h) square (bodyOf fs)) = .call h as := by
    intro q
    have : Spec.Form.expr q .value (.call (form h) square (bodyOf fs)) = .call ((form h).expr q .value) ((bodyOf fs).exprs q) := by
      simp only [Spec.Form.expr, b.double]
      rfl
    rw [this, expr q h hw, b.exprs q]
  refine ⟨fun g => ?_, ⟨grouped h hw, ?_, b.grouped⟩, fun q => ⟨meaningful q h hw, ?_⟩, hx, hc, ?_, ?_, ?_, ?_, fun _ => rfl, rfl,
    neg_call rfl rfl hx, zero_call rfl, fun hm => ?_⟩
  on_goal 8 =>
    obtain ⟨b, q, he, -⟩ := safe h hw
    obtain ⟨x, ks', h1, h2⟩ := lex_start h hw (by rw [he] at hm ⊢; exact hm)
    exact ⟨x, _, by rw [h1]; rfl, h2⟩
  · exact Writes.call (o := square) (w := []) (writes h hw g) blank0 b.inside
  · intro e he
    rw [head_right hw hh] at he; cases he
  · rw [b.double, if_neg (by simp)]
    exact b.meaningful q
  · intro r kr hr hl
    have h1 : LexesTo (byte ']' :: r) (closeL :: kr) := lex_op (c := ']') (.inl rfl) (by decide) (follows_quiet (shut_follows hr)) hl
    have h2 := goods_lexes hs (shut_cons (by decide)) h1
    have h3 : LexesTo (byte '[' :: (ts ++ byte ']' :: r)) (openL :: (ks ++ closeL :: kr)) :=
      lex_op (c := '[') (.inl rfl) (by decide) (goods_quiet hs (shut_cons (by decide))) h2
    have := cuts h hw (follows_cons (by decide)) h3
    simpa using this
  · obtain ⟨b, q, he, -⟩ := safe h hw
    refine ⟨b, q ++ byte '[' :: (ts ++ [byte ']']), by rw [he]; rfl, fun hb => text_star h hw ?_⟩
    rw [he, hb]; rfl
  · intro r _
    rw [List.append_assoc]
    exact safe_quiet ((safe h hw).append _)
  · obtain ⟨s, hs'⟩ := chars h hw
    obtain ⟨s', rfl⟩ := goods_chars hs
    refine ⟨s ++ (['['] ++ (s' ++ [']'])), ?_⟩
    rw [encode_app, encode_app, encode_app, hs']; rfl

def openC : Lexeme := (.OpenCurly, [byte '{'])
def closeC : Lexeme := (.CloseCurly, [byte '}'])
def curly : Bracket := ⟨openC, closeC, .List, rfl, ⟨rfl, rfl⟩⟩

theorem good_list {as : List Expr} {ts : List UInt8} {fs : List Spec.Form} {ks : List Lexeme} (hs : Goods as ts fs ks) :
    Good (.call (word "List") as) (byte '{' :: (ts ++ [byte '}'])) (.group curly (bodyOf fs)) (openC :: (ks ++ [closeC])) := by
  have b := good_body hs
  have hx : ∀ q, Spec.Form.expr q .value (.group curly (bodyOf fs)) = .call (word "List") as := by
    intro q
    rw [Form.expr, if_neg (by decide), b.exprs q]
    rfl
  have hn : (Spec.Form.group curly (bodyOf fs)).isNumber = false ∧ (Spec.Form.group curly (bodyOf fs)).isZero = false := by
    cases bodyOf fs <;> exact ⟨rfl, rfl⟩
  refine ⟨fun g => Writes.group (o := curly) b.inside, b.grouped, fun q => ?_, hx, rfl, ?_, ⟨_, _, rfl, by decide⟩, ?_, ?_, fun _ => rfl, rfl,
    neg_call hn.1 hn.2 hx, zero_call hn.2, fun _ => ⟨openC, _, rfl, rfl, rfl⟩⟩
  · exact ⟨fun h => absurd h (by decide), by decide, by decide, by decide, b.meaningful q⟩
  · intro r kr hr hl
    have h1 : LexesTo (byte '}' :: r) (closeC :: kr) := lex_op (c := '}') (.inl rfl) (by decide) (follows_quiet (shut_follows hr)) hl
    have h2 := goods_lexes hs (shut_cons (by decide)) h1
    have h3 : LexesTo (byte '{' :: (ts ++ byte '}' :: r)) (openC :: (ks ++ closeC :: kr)) :=
      lex_op (c := '{') (.inl rfl) (by decide) (goods_quiet hs (shut_cons (by decide))) h2
    simpa using h3
  · intro r _
    refine ⟨fun he => absurd (Option.some.inj he) (by decide), ?_⟩
    intro b q he hb; cases he; exact absurd hb (by decide)
  · obtain ⟨s', rfl⟩ := goods_chars hs
    refine ⟨['{'] ++ (s' ++ ['}']), ?_⟩
    rw [encode_app, encode_app]; rfl

mutual
theorem notated : ∀ {e : Expr} {t : List UInt8}, Notated e t → ∃ f ks, Good e t f ks
  | _, _, .plain h hc => ⟨_, _, good_plain h hc⟩
  | _, _, .inside h => by obtain ⟨_, _, h⟩ := notated h; exact ⟨_, _, good_inside h⟩
  | _, _, .call hw hh hc h => by obtain ⟨_, _, h⟩ := notatedAll h; exact ⟨_, _, good_call hw hh hc h⟩
  | _, _, .list h => by obtain ⟨_, _, h⟩ := notatedAll h; exact ⟨_, _, good_list h⟩
  | _, _, .between h h1 h2 => by
    obtain ⟨_, _, h1⟩ := notated h1
    obtain ⟨_, _, h2⟩ := notated h2
    exact good_between h h1 h2
  | _, _, .minus h1 h2 => by
    obtain ⟨_, _, h1⟩ := notated h1
    obtain ⟨_, _, h2⟩ := notated h2
    exact good_minus h1 h2
  | _, _, .divide h1 h2 => by
    obtain ⟨_, _, h1⟩ := notated h1
    obtain ⟨_, _, h2⟩ := notated h2
    exact good_divide h1 h2
  | _, _, .apply hc h1 h2 => by
    obtain ⟨_, _, h1⟩ := notated h1
    obtain ⟨_, _, h2⟩ := notated h2
    exact good_apply hc h1 h2
  | _, _, .applyBehind hc h1 h2 => by
    obtain ⟨_, _, h1⟩ := notated h1
    obtain ⟨_, _, h2⟩ := notated h2
    exact good_applyBehind hc h1 h2
  | _, _, .steps h1 h2 => by
    obtain ⟨_, _, h1⟩ := notated h1
    obtain ⟨_, _, h2⟩ := notated h2
    exact good_steps h1 h2
  | _, _, .span h1 h2 => by
    obtain ⟨_, _, h1⟩ := notated h1
    obtain ⟨_, _, h2⟩ := notated h2
    exact good_span h1 h2
  | _, _, .infix hc h1 h2 h3 => by
    obtain ⟨_, _, h1⟩ := notated h1
    obtain ⟨_, _, h2⟩ := notated h2
    obtain ⟨_, _, h3⟩ := notated h3
    exact good_infix hc h1 h2 h3
  | _, _, .tagSet h1 h2 h3 => by
    obtain ⟨_, _, h1⟩ := notated h1
    obtain ⟨_, _, h2⟩ := notated h2
    obtain ⟨_, _, h3⟩ := notated h3
    exact good_tagSet h1 h2 h3
  | _, _, .tagSetDelayed h1 h2 h3 => by
    obtain ⟨_, _, h1⟩ := notated h1
    obtain ⟨_, _, h2⟩ := notated h2
    obtain ⟨_, _, h3⟩ := notated h3
    exact good_tagSetDelayed h1 h2 h3
  | _, _, .positive h => by obtain ⟨_, _, h⟩ := notated h; exact good_positive h
  | _, _, .notNot h => by obtain ⟨_, _, h⟩ := notated h; exact good_notNot h
  | _, _, .stop h => by obtain ⟨_, _, h⟩ := notated h; exact good_stop h
  | _, _, .negative h => by obtain ⟨_, _, h⟩ := notated h; exact good_negative h
  | _, _, .before h h1 => by obtain ⟨_, _, h1⟩ := notated h1; exact good_before h h1
  | _, _, .behind h h1 => by obtain ⟨_, _, h1⟩ := notated h1; exact good_behind h h1
theorem notatedAll : ∀ {as : List Expr} {ts : List UInt8}, NotatedAll as ts → ∃ fs ks, Goods as ts fs ks
  | _, _, .none => ⟨_, _, .none⟩
  | _, _, .one h => by obtain ⟨_, _, h⟩ := notated h; exact ⟨_, _, .one h⟩
  | _, _, .more h hs => by
    obtain ⟨_, _, h⟩ := notated h
    obtain ⟨_, _, hs⟩ := notatedAll hs
    exact ⟨_, _, .more h hs⟩
end

/-! ### Lines -/

theorem edge_ends {k : TK} (h : again k = none) (x : Edge) : x.Ends k := by
  cases x with
  | operand p a => intro op _; rw [h]; simp
  | _ => trivial

/-- What follows a line continues no sequence. -/
def Fresh (ks : List Lexeme) : Prop := again (nextKind true ks) = none

theorem line_shut {crlf : Bool} {r : List UInt8} : Shut shutters (lineEnd crlf ++ r) := by
  cases crlf <;> exact shut_cons (by decide)

theorem notated_lines {crlf : Bool} : ∀ {xs : List (Expr × List UInt8)}, (∀ x ∈ xs, Notated x.1 x.2) →
    (∀ x ∈ xs.tail, signed x.2 = false) →
    ∃ fs ks, LexesTo (notatedLines crlf xs) ks ∧ Program fs ks ∧ (∀ q, ∀ f ∈ fs, f.Meaningful q) ∧ (∀ q, fs.map (·.expr q .value) = xs.map Prod.fst) ∧
      (∀ x ∈ xs.head?, signed x.2 = false → Fresh ks) ∧ (xs = [] → Fresh ks)
  | [], _, _ => ⟨[], [], .nil, .nil blank0, fun _ _ h => (by cases h), fun _ => rfl, fun _ h => (by cases h), fun _ => rfl⟩
  | (e, t) :: xs, h, hm => by
    obtain ⟨f, ks, g⟩ := notated (h _ List.mem_cons_self)
    obtain ⟨fs, kr, h1, h2, h3, h4, h5, h6⟩ := notated_lines (crlf := crlf) (xs := xs) (fun x hx => h x (List.mem_cons_of_mem _ hx))
      (fun x hx => hm x (List.mem_of_mem_tail hx))
    have hf : Fresh kr := by
      cases xs with
      | nil => exact h6 rfl
      | cons y ys => exact h5 y rfl (hm y List.mem_cons_self)
    refine ⟨f :: fs, ks ++ newL crlf :: kr, ?_, ?_, fun q x hx => ?_, fun q => ?_, ?_, fun h => by cases h⟩
    · have := g.lexes line_shut (lex_line (crlf := crlf) h1)
      simpa [notatedLines] using this
    · have := Program.cons (w := []) (w' := []) (nl := lineEnd crlf) blank0 (g.writes false) g.grouped blank0 (fun x _ => edge_ends hf x) h2
      simpa [newL] using this
    · rcases List.mem_cons.mp hx with rfl | hx
      · exact g.meaningful q
      · exact h3 q x hx
    · rw [List.map_cons, List.map_cons, g.expr q, h4 q]
    · intro x hx hn
      cases hx
      obtain ⟨y, q, rfl, h7, h8⟩ := g.start hn
      rw [Fresh, List.cons_append, nextKind, if_neg (by rw [h7]; simp)]
      exact h8

end CodeParser.Full
