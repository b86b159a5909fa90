import Verif.Proofs.FullForm2
/-!
Full form: the text is cut into its lexemes.
-/
namespace CodeParser.Full
open CodeParser Spec Mean

/-- The characters that can follow an expression: a bracket, a parenthesis, a comma or white space, or the
beginning of a comment. -/
def followers : List Char := ['[', ']', ',', '\n', '\r', ' ', '\t', '(', ')', '}']

/-- What can follow an expression in full form. -/
def Follows (r : List UInt8) : Prop := ∀ b q, r = b :: q → b ∈ bytes followers

theorem follows_not {r : List UInt8} (h : Follows r) {c : Char} (h1 : byte c ∉ bytes followers) : ¬ Starts c r := by
  rintro ⟨q, rfl⟩
  exact h1 (h _ _ rfl)

/-- The text does not begin with a backslash, also not behind a first character that could begin an
operator. -/
def Quiet (r : List UInt8) : Prop := r.head? ≠ some (byte '\\') ∧ ∀ b q, r = b :: q → b ∈ bytes opInner → q.head? ≠ some (byte '\\')

theorem follows_clear {r : List UInt8} (h : Follows r) : r.head? ≠ some (byte '\\') := by
  intro he
  cases r with
  | nil => cases he
  | cons b q =>
    cases he
    exact absurd (h _ _ rfl) (by decide)

theorem follows_quiet {r : List UInt8} (h : Follows r) : Quiet r := by
  refine ⟨follows_clear h, ?_⟩
  rintro b q rfl hb
  have key : ∀ b ∈ bytes followers, b ∉ bytes opInner := by decide
  exact absurd hb (key b (h _ _ rfl))

theorem safe_quiet {r : List UInt8} (h : Safe r) : Quiet r := by
  obtain ⟨b, q, rfl, h1, h2⟩ := h
  refine ⟨fun he => h1 (Option.some.inj he), ?_⟩
  rintro _ _ he hb
  cases he
  obtain ⟨b', q', rfl, h3⟩ := h2 hb
  exact fun he => h3 (Option.some.inj he)

theorem alnum_not {c : Char} (h : isAlnum c = true) : byte c ∉ bytes followers := by
  intro hm
  obtain ⟨x, hx, he⟩ := List.mem_map.mp hm
  have h1 : ∀ x ∈ followers, x.toNat < 128 ∧ isAlnum x = false := by decide
  have := byte_inj (h1 x hx).1 (numChar_ascii (alnum_num h)).1 he
  rw [← this, (h1 x hx).2] at h
  cases h

theorem ends_number {l : Literal} {r : List UInt8} (h : Follows r) : l.Ends r where
  escape := .inl (follows_clear h)
  digit c hc := follows_not h (alnum_not (dec_alnum hc))
  letter c _ hc := follows_not h (alnum_not hc)
  dot := follows_not h (by decide)
  quote := follows_not h (by decide)
  star q hq := absurd ⟨q, hq⟩ (follows_not h (c := '*') (by decide))
  caret q hq := absurd ⟨q, hq⟩ (follows_not h (c := '^') (by decide))
  sign _ := ⟨follows_not h (by decide), follows_not h (by decide)⟩

theorem ends_name {r : List UInt8} (h : Follows r) : endsName r := by
  rintro b q rfl
  have key : ∀ b ∈ bytes followers, b.toNat < 128 ∧ isNameChar b.toNat = false ∧ b ≠ byte '`' ∧ b ≠ byte '\\' ∧
      (32 ≤ b.toNat ∨ (7 ≤ b.toNat ∧ b.toNat ≤ 13 ∧ b.toNat ≠ 8)) := by decide
  exact key b (h _ _ rfl)

theorem follows_stops {r : List UInt8} (h : Follows r) : Stops r := by
  cases r with
  | nil => exact ⟨⟨.eof, .none⟩, [], .here .eof (by unfold IsContinuation; simp), (fun h => h), (fun h => h), (by decide)⟩
  | cons b q =>
    obtain ⟨c, hc, rfl⟩ := List.mem_map.mp (h _ _ rfl)
    have key : ∀ c ∈ followers, c ≠ '\\' ∧ c.toNat ≠ 0xfeff ∧ c.toNat < 128 ∧
        ¬ (isNameStart c.toNat = true ∨ c.toNat ≤ 6 ∨ c.toNat = 8 ∨ 0x0e ≤ c.toNat ∧ c.toNat ≤ 0x1f) ∧
        ¬ (0x30 ≤ c.toNat ∧ c.toNat ≤ 0x39) ∧ ch c ≠ ch '`' := by decide
    obtain ⟨h1, h2, h4, h5, h6, h7⟩ := key c hc
    by_cases hr : c = '\r' ∧ q.head? = some 10
    · obtain ⟨rfl, hr⟩ := hr
      cases q with
      | nil => cases hr
      | cons x q =>
        cases hr
        exact ⟨⟨.crlf, .none⟩, q, .here .crlf (by unfold IsContinuation; simp), (fun h => h), (fun h => h), (by decide)⟩
    have := CharAt.plain (c := c) (r := q) h1 h2 (fun h h' => hr ⟨h, h'⟩)
    rw [enc_ascii h4] at this
    exact ⟨_, _, .here this not_cont, by simpa only [Letter, ch, if_pos h4] using h5, h6, h7⟩

/-- An operator of one character, in front of a text that does not continue it. -/
theorem lex_op {c : Char} {k : TK} {r : List UInt8} {ks : List Lexeme} (hk : operators c = [([], k)] ∨ c = '-' ∧ k = .Minus ∧
    ∀ b q, r = b :: q → b ≠ byte '>' ∧ b ≠ byte '-' ∧ b ≠ byte '=') (hc : c ≠ '(' ∧ c ≠ '.') (hb : Quiet r)
    (h : LexesTo r ks) : LexesTo (byte c :: r) ((k, [byte c]) :: ks) := by
  refine LexesTo.operator (c := c) (tail := []) ⟨?_, ⟨r, rfl, fun h => by cases h.2.1⟩, ?_⟩ (fun h => hc.1 h.1) (fun h => hc.2 h.1)
    (.inl hb.1) ?_ h
  · rcases hk with hk | ⟨rfl, rfl, -⟩
    · rw [hk]; exact List.mem_singleton.mpr rfl
    · decide
  · rintro t' k' ht ⟨q, hq, -⟩
    rcases hk with hk | ⟨rfl, rfl, hr⟩
    · rw [hk] at ht
      cases List.mem_singleton.mp ht
      exact Nat.le_refl _
    · simp only [operators, List.mem_cons, Prod.mk.injEq, List.not_mem_nil, or_false] at ht
      rcases ht with ⟨rfl, -⟩ | ⟨rfl, -⟩ | ⟨rfl, -⟩ | ⟨rfl, -⟩
      · exact Nat.le_refl _
      · exact absurd rfl (hr _ _ hq).1
      · exact absurd rfl (hr _ _ hq).2.1
      · exact absurd rfl (hr _ _ hq).2.2
  · intro x q hx hm
    exact .inl (hb.2 _ _ (show r = byte x :: q from hx) (List.mem_map_of_mem hm))

theorem lex_plain {k : TK} {t r : List UInt8} {ks : List Lexeme} (h : PlainAtom k t) (hf : Follows r)
    (hl : LexesTo r ks) : LexesTo (t ++ r) ((k, t) :: ks) := by
  cases h with
  | name h => exact .name h (ends_name hf) hl
  | word h hb _ => exact .word (name_at (follows_stops hf) h hb) hl
  | number h _ => exact .number h (ends_number hf) hl
  | @string s h =>
    refine LexesTo.string (c := ⟨.char 34, .none⟩) (q := inner s r) ?_ rfl (quote_end s r h) hl
    rw [quoted_text]
    refine .here ?_ not_cont
    exact CharAt.plain (c := '"') (by decide) (by decide) (fun h => absurd h (by decide))

theorem lex_leaf {k : TK} {t r : List UInt8} {ks : List Lexeme} (h : PlainAtom k t ∨ Negative k t) (hf : Follows r)
    (hl : LexesTo r ks) : LexesTo (t ++ r) (leafLex k t ++ ks) := by
  rcases h with h | h
  · rw [(leaf_plain h).2]
    exact lex_plain h hf hl
  · obtain ⟨l, h1, rfl, rfl, -, h2⟩ := negative_text h
    rw [leaf_negative.2]
    refine lex_op (c := '-') (.inr ⟨rfl, rfl, ?_⟩) (by decide) ?_ (.number h1 (ends_number hf) hl)
    · obtain ⟨c, q, he, hc⟩ := text_head h1
      intro b q' hq
      rw [he] at hq
      have : b = byte c := by
        have hq : byte c :: (bytes q ++ r) = b :: q' := hq
        injection hq with hq; exact hq.symm
      subst this
      have hn : c.toNat < 128 := (numChar_ascii (text_num h1 c (by simp [he]))).1
      refine ⟨fun he => ?_, fun he => ?_, fun he => ?_⟩ <;>
      · have := byte_inj hn (by decide) he
        subst this
        revert hc; decide
    · exact safe_quiet ((number_safe h1).append r)

/-! ### The whole text -/

theorem safe : ∀ (e : Expr), e.Writable → Safe e.text
  | .leaf k t, h => by
    rw [Expr.text]
    rcases h with h | h
    · exact (atom_text h).2.1
    · obtain ⟨l, -, -, -, -, h⟩ := negative_text h; exact h
  | .call f as, h => by
    rw [Expr.text]
    exact (safe f h.1).append _
  | .error, h => h.elim

theorem safes {r : List UInt8} (hr : Follows r) : ∀ (es : List Expr), Expr.AllWritable es → Quiet (Expr.texts es ++ r)
  | [], _ => by rw [Expr.texts]; exact follows_quiet hr
  | [e], h => by rw [Expr.texts]; exact safe_quiet ((safe e h.1).append r)
  | e :: e' :: es, h => by
    rw [Expr.texts, List.append_assoc]
    exact safe_quiet ((safe e h.1).append _)

theorem follows_cons {b : UInt8} {r : List UInt8} (h : b ∈ bytes followers) : Follows (b :: r) := by
  intro b' q hq; cases hq; exact h

mutual
theorem cuts : ∀ (e : Expr), e.Writable → ∀ {r : List UInt8} {ks : List Lexeme}, Follows r → LexesTo r ks →
    LexesTo (e.text ++ r) (lex e ++ ks)
  | .leaf k t, h, r, ks, hf, hl => by
    rw [Expr.text, lex]
    exact lex_leaf h hf hl
  | .call f as, h, r, ks, hf, hl => by
    rw [Expr.text, lex]
    have h1 : LexesTo (byte ']' :: r) (closeL :: ks) := lex_op (c := ']') (.inl rfl) (by decide) (follows_quiet hf) hl
    have hc : Follows (byte ']' :: r) := follows_cons (by decide)
    have h2 : LexesTo (Expr.texts as ++ byte ']' :: r) (lexes as ++ closeL :: ks) := cutsAll as h.2.2.1 hc h1
    have h3 : LexesTo (byte '[' :: (Expr.texts as ++ byte ']' :: r)) (openL :: (lexes as ++ closeL :: ks)) :=
      lex_op (c := '[') (.inl rfl) (by decide) (safes hc as h.2.2.1) h2
    have := cuts f h.1 (follows_cons (by decide)) h3
    simpa using this
  | .error, h, _, _, _, _ => h.elim
theorem cutsAll : ∀ (es : List Expr), Expr.AllWritable es → ∀ {r : List UInt8} {ks : List Lexeme}, Follows r →
    LexesTo r ks → LexesTo (Expr.texts es ++ r) (lexes es ++ ks)
  | [], _, _, _, _, hl => by rw [Expr.texts, lexes]; exact hl
  | [e], h, _, _, hf, hl => by rw [Expr.texts, lexes]; exact cuts e h.1 hf hl
  | e :: e' :: es, h, r, ks, hf, hl => by
    rw [Expr.texts, lexes]
    have h1 := cutsAll (e' :: es) h.2 hf hl
    have hb : Quiet (byte ' ' :: (Expr.texts (e' :: es) ++ r)) := by
      refine ⟨by simp; decide, ?_⟩
      rintro b q he hm
      cases he
      exact absurd hm (by decide)
    have h2 : LexesTo (byte ',' :: byte ' ' :: (Expr.texts (e' :: es) ++ r)) (commaL :: spaceL :: (lexes (e' :: es) ++ ks)) :=
      lex_op (c := ',') (.inl rfl) (by decide) hb (.space h1)
    have := cuts e h.1 (follows_cons (by decide)) h2
    simpa using this
end

/-! ### The text is UTF-8 -/

mutual
theorem chars : ∀ (e : Expr), e.Writable → ∃ s, encode s = e.text
  | .leaf k t, h => by
    rw [Expr.text]
    rcases h with h | h
    · exact (atom_text h).1
    · obtain ⟨l, -, -, -, h, -⟩ := negative_text h; exact h
  | .call f as, h => by
    obtain ⟨s, hs⟩ := chars f h.1
    obtain ⟨t, ht⟩ := charsAll as h.2.2.1
    refine ⟨s ++ '[' :: (t ++ [']']), ?_⟩
    rw [Expr.text, ← hs, ← ht, encode_app, show '[' :: (t ++ [']']) = ['['] ++ (t ++ [']']) from rfl, encode_app, encode_app]
    rfl
  | .error, h => h.elim
theorem charsAll : ∀ (es : List Expr), Expr.AllWritable es → ∃ s, encode s = Expr.texts es
  | [], _ => ⟨[], by rw [Expr.texts]; rfl⟩
  | [e], h => by rw [Expr.texts]; exact chars e h.1
  | e :: e' :: es, h => by
    obtain ⟨s, hs⟩ := chars e h.1
    obtain ⟨t, ht⟩ := charsAll (e' :: es) h.2
    refine ⟨s ++ ([',', ' '] ++ t), ?_⟩
    rw [Expr.texts, ← hs, ← ht, encode_app, encode_app]
    rfl
end

/-! ### Lines -/

/-- The lexeme of the end of a line. -/
def newL (crlf : Bool) : Lexeme := (.ToplevelNewline, lineEnd crlf)

theorem lex_line {crlf : Bool} {r : List UInt8} {ks : List Lexeme} (h : LexesTo r ks) : LexesTo (lineEnd crlf ++ r) (newL crlf :: ks) := by
  cases crlf with
  | false => exact .newline h
  | true =>
    exact LexesTo.lone (text := lineEnd true) (c := ⟨.crlf, .none⟩) (.here .crlf (by unfold IsContinuation; simp))
      (.newline (.inr (by simp [mbNewlineTable]))) (by decide) h

theorem line_follows {crlf : Bool} {r : List UInt8} : Follows (lineEnd crlf ++ r) := by
  cases crlf <;> exact follows_cons (by decide)

theorem cuts_lines {crlf : Bool} : ∀ {es : List Expr}, (∀ e ∈ es, e.Writable) →
    LexesTo (Expr.lines crlf es) (es.flatMap fun e => lex e ++ [newL crlf])
  | [], _ => .nil
  | e :: es, h => by
    have hs : ∀ x ∈ es, x.Writable := fun x hx => h x (List.mem_cons_of_mem _ hx)
    have := cuts e (h e List.mem_cons_self) line_follows (lex_line (crlf := crlf) (cuts_lines (crlf := crlf) hs))
    simpa [Expr.lines] using this

theorem form_ends {e : Expr} (h : e.Writable) (k : TK) : ∀ x ∈ (form e).right, x.Ends k := by
  cases e with
  | leaf k' t =>
    rw [form, leafForm]
    split
    · intro x hx
      simp only [Spec.Form.right, List.mem_singleton] at hx
      subst hx
      intro op hop
      cases hop
    · intro x hx; cases hx
  | call f as => rw [form]; intro x hx; cases hx
  | error => exact h.elim

theorem program_lines {crlf : Bool} : ∀ {es : List Expr}, (∀ e ∈ es, e.Writable) →
    Program (es.map form) (es.flatMap fun e => lex e ++ [newL crlf])
  | [], _ => .nil blank0
  | e :: es, h => by
    have he := h e List.mem_cons_self
    have := Program.cons (w := []) (w' := []) (nl := lineEnd crlf) blank0 (writes e he false) (grouped e he) blank0 (form_ends he _)
      (program_lines (crlf := crlf) (es := es) fun x hx => h x (List.mem_cons_of_mem _ hx))
    simpa [newL] using this

end CodeParser.Full
