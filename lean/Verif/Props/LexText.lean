import Verif.Props.CharTokens
import Verif.Spec.LexText
/-!
Property C47: the tokens of a text are its lexemes.
-/
namespace CodeParser.Props
open CodeParser Spec

section
variable {cfg : Cfg} {g : Bool} {s t : St} {r : List UInt8} {E : Err → Prop}

theorem lone_eof {k : TK} (h : Lone .eof k) : k = .EndOfFile := by
  generalize hp : CP.eof = p at h
  cases h with
  | operator => cases hp
  | linear h => subst hp; exact absurd h (by simp [linearSyntax])
  | white => cases hp
  | newline h =>
    subst hp
    rcases h with h | h
    · simp at h
    · exact absurd h (by decide +kernel)
  | single => cases hp
  | unhandled => cases hp
  | stringMeta h => subst hp; exact absurd h (by decide)
  | eof => rfl

theorem lone_kind {p : CP} {k : TK} (h : Lone p k) : numberKind k = false ∧ k ≠ .Symbol ∧ k ≠ .String := by
  cases h with
  | @operator n name k h1 h2 h3 =>
    refine ⟨?_, ?_, ?_⟩
    · cases hk : numberKind k with
      | false => rfl
      | true =>
        have : ∀ k : TK, numberKind k = true → k.name.head? ≠ some 'L' := forall_of_all (by decide +kernel)
        exact absurd (by rw [h3]; rfl) (this k hk)
    · rintro rfl
      have : TK.Symbol.name.head? = some 'L' := by rw [h3]; rfl
      exact absurd this (by decide +kernel)
    · rintro rfl
      have : TK.String.name.head? = some 'L' := by rw [h3]; rfl
      exact absurd this (by decide +kernel)
  | linear h =>
    simp only [linearSyntax, List.mem_cons, Prod.mk.injEq, List.not_mem_nil, or_false] at h
    rcases h with h | h | h | h | h | h | h | h | h | h | h | h <;> (obtain ⟨-, rfl⟩ := h; decide)
  | single h =>
    simp only [Spec.single, List.mem_cons, Prod.mk.injEq, List.not_mem_nil, or_false] at h
    rcases h with h | h | h | h | h | h | h <;> (obtain ⟨-, rfl⟩ := h; decide)
  | _ => decide

theorem nameAt_len {bs : List UInt8} {k : TK} (h : NameAt bs k r) : r.length < bs.length := by
  have hl : ∀ {p : CP}, Letter p → p ≠ .eof := by rintro p h rfl; exact h
  cases h with
  | letter h h1 h2 => exact Nat.lt_of_le_of_lt (suffix_len h2.suffix) (h.len (hl h1))
  | context h h1 h2 h3 h4 =>
    exact Nat.lt_of_le_of_lt (Nat.le_trans (suffix_len h4.suffix) (suffix_len h2.suffix)) (h.len (by rw [h1]; simp [ch]))
  | bad h h1 h2 => exact h.len (by rw [h1]; simp [ch])

/-- The first lexeme is the next token, with any policy; but not all of a number is read behind `#`
and `%`. -/
theorem lexes_with {pol : Pol} {bs : List UInt8} {ks : List (TK × List UInt8)} (h : LexesTo bs ks) (h0 : s.eof = false)
    (hs : s.rest = bs) (hpol : pol.intShort = true → ∀ l ∈ ks.head?, numberKind l.1 = false) : (bs = [] ∧ ks = []) ∨ ∃ k text r ks', ks = (k, text) :: ks' ∧ k ≠ .EndOfFile ∧ bs = text ++ r ∧
      text ≠ [] ∧ LexesTo r ks' ∧ NextWith cfg pol g s (kindWith pol g k) text r := by
  have hwf : WF s := by intro h; rw [h0] at h; cases h
  have given : ∀ {k k' : TK} {text r : List UInt8} {ks' : List (TK × List UInt8)}, k ≠ .EndOfFile → LexesTo r ks' → bs = text ++ r →
      r.length < (text ++ r).length → kindWith pol g k = k' → (∃ text', s.rest = text' ++ r ∧ NextWith cfg pol g s k' text' r) →
      (bs = [] ∧ (k, text) :: ks' = []) ∨ ∃ k₁ text₁ r₁ ks₁, (k, text) :: ks' = (k₁, text₁) :: ks₁ ∧ k₁ ≠ .EndOfFile ∧ bs = text₁ ++ r₁ ∧
        text₁ ≠ [] ∧ LexesTo r₁ ks₁ ∧ NextWith cfg pol g s (kindWith pol g k₁) text₁ r₁ := by
    intro k k' text r ks' h1 h2 h3 h4 h5 ⟨text', h6, h7⟩
    rw [hs, h3] at h6
    obtain rfl := List.append_cancel_right h6
    refine Or.inr ⟨_, _, r, _, rfl, h1, h3, ?_, h2, h5 ▸ h7⟩
    rintro rfl
    simp at h4
  cases h with
  | nil => exact Or.inl ⟨rfl, rfl⟩
  | @space r ks h =>
    refine Or.inr ⟨_, _, r, _, rfl, by decide, rfl, by simp, h, ?_⟩
    rw [kindWith_other (by decide) (by decide)]
    exact next_single h0 hs (by decide) (by decide) (by decide) fun _ => rfl
  | @tab r ks h =>
    refine Or.inr ⟨_, _, r, _, rfl, by decide, rfl, by simp, h, ?_⟩
    rw [kindWith_other (by decide) (by decide)]
    exact next_single h0 hs (by decide) (by decide) (by decide) fun _ => rfl
  | @newline r ks h =>
    refine Or.inr ⟨_, _, r, _, rfl, by decide, rfl, by simp, h, ?_⟩
    exact next_single h0 hs (by decide) (by decide) (by decide) fun _ => rfl
  | @operator c tail k r ks h1 h2 h3 h4 h5 h =>
    have hk : k ≠ .EndOfFile ∧ k ≠ .ToplevelNewline ∧ k ≠ .Symbol := by
      have : ∀ e ∈ operators c, e.2 ≠ .EndOfFile ∧ e.2 ≠ .ToplevelNewline ∧ e.2 ≠ .Symbol := by
        unfold operators
        split <;> decide
      exact this _ h1.known
    refine Or.inr ⟨_, _, r, _, rfl, hk.1, rfl, by simp, h, ?_⟩
    rw [kindWith_other hk.2.1 hk.2.2]
    have hne : operators c ≠ [] := fun e => by have := h1.known; rw [e] at this; simp at this
    obtain ⟨x, t, tail', e1, e2, e3, e4, -⟩ := C45_operator cfg pol g s c (bytes tail ++ r) h0 hs hne h4 h5 h2 h3
    obtain ⟨rfl, rfl⟩ := C45_unique _ _ _ _ _ _ h1 e2
    refine ⟨x, t, e1, rfl, e3, ?_⟩
    rw [e3, hs] at e4
    exact List.append_cancel_left e4
  | @percent n r ks h1 h2 h =>
    obtain ⟨x, t, e1, e2, e3, e4⟩ := C45_percent cfg pol g s n r h0 hs (not_starts_head h1) h2
    exact Or.inr ⟨_, _, r, _, rfl, by split <;> decide, rfl, by simp, h, x, t, e1,
      e2.trans (kindWith_other (by split <;> decide) (by split <;> decide)).symm, e3, e4⟩
  | @name name r ks h1 h2 h =>
    obtain ⟨x, t, e1, e2, e3, e4, -⟩ := C46_name cfg pol g s name r h0 h1 hs h2
    refine Or.inr ⟨_, _, r, _, rfl, by decide, rfl, ?_, h, x, t, e1, e2.trans (by simp [kindWith]), e3, e4⟩
    cases h1 with
    | plain h1 _ => obtain ⟨a, q, rfl, -⟩ := h1; simp [bytes]
    | @relative segs h1 _ =>
      cases segs with
      | nil => exact absurd rfl h1
      | cons => simp [bytes, contexts]
  | @number l r ks h1 h2 h =>
    obtain ⟨x, t, e1, e2, e3, e4, -⟩ := C22_number cfg pol g s l r h0 h1 hs h2 (by
      cases hp : pol.intShort with
      | false => rfl
      | true => have := hpol hp _ rfl; rw [literal_kind] at this; cases this)
    have hk : l.kind ≠ .EndOfFile ∧ l.kind ≠ .ToplevelNewline ∧ l.kind ≠ .Symbol := by
      unfold Literal.kind
      repeat' split
      all_goals decide
    refine Or.inr ⟨_, _, r, _, rfl, hk.1, rfl, ?_, h, x, t, e1, e2.trans (kindWith_other hk.2.1 hk.2.2).symm, e3, e4⟩
    · intro h
      have h : l.text = [] := by simpa [bytes] using h
      have hm := h1.mantissa.1
      unfold Literal.text Digits.text at h
      unfold Digits.all at hm
      cases hi : l.mantissa.int with
      | cons => rw [hi] at h; simp at h
      | nil =>
        cases hf : l.mantissa.frac with
        | none => rw [hi, hf] at hm; simp at hm
        | some f => rw [hf] at h; simp at h
  | @quoted body r ks h1 h1' h =>
    refine given (by decide) h (by simp) (by simp; omega) (kindWith_other (by decide) (by decide)) ⟨byte '"' :: body ++ [byte '"'], by rw [hs]; simp, C58_plain cfg pol g s h0 body r hs h1 h1'⟩
  | @comment body r ks h1 h =>
    have hs' : s.rest = byte '(' :: byte '*' :: (body ++ r) := by rw [hs]; simp
    have hw := nextToken_comment (cfg := cfg) (pol := polIn pol g) hwf hs'
    obtain ⟨x, t, u, e1, e2, e3, e4⟩ := peek_of_wp (pol := pol) (g := g) hw
    unfold CommentIs at e4
    rw [h1] at e4
    obtain ⟨e4, e5⟩ := e4
    refine Or.inr ⟨_, _, r, _, rfl, by decide, rfl, by simp, h, x, t, e1, e4.trans (kindWith_other (by decide) (by decide)).symm, ?_, ?_⟩
    · rw [e3]
      show between s u = _
      exact between_of (v := r) (by rw [hs']; simp) e5
    · rw [e3]; exact e5
  | @lone text r c k ks h1 h2 h3 h =>
    exact given h3 h rfl (h1.len fun e => h3 (lone_eof (e ▸ h2))) rfl (C57_lone cfg pol g s h0 c r k (hs ▸ h1) h2)
  | @word text r ks h1 h => exact given (by decide) h rfl (nameAt_len h1) rfl (C58_name cfg pol g s h0 .Symbol r (hs ▸ h1))
  | @string text c q r ks h1 h2 h3 h =>
    exact given (by decide) h rfl (Nat.lt_of_le_of_lt (suffix_len h3.suffix) (h1.len (by rw [h2]; simp [ch]))) (kindWith_other (by decide) (by decide))
      (C58_string cfg pol g s h0 c q .String r (hs ▸ h1) h2 h3)
  | @blob text c q r ks h1 h2 h3 h =>
    exact given (by decide) h rfl (Nat.lt_of_le_of_lt (suffix_len h3.suffix) (h1.len (by rw [h2]; simp))) (kindWith_other (by decide) (by decide))
      (C58_blob cfg pol g s h0 c q .LinearSyntaxBlob r (hs ▸ h1) h2 h3)
  | @malformed text c q r ks h1 h2 h3 h =>
    exact given (by decide) h rfl (Nat.lt_of_le_of_lt (suffix_len h3.suffix) (h1.len (by rw [h2]; simp [ch]))) (kindWith_other (by decide) (by decide))
      (C61_malformed cfg pol g s h0 c q r (hs ▸ h1) h2 h3)

/-- The first lexeme is the next token. -/
theorem lexes_next {bs : List UInt8} {ks : List (TK × List UInt8)} (h : LexesTo bs ks) (h0 : s.eof = false)
    (hs : s.rest = bs) : (bs = [] ∧ ks = []) ∨ ∃ k text r ks', ks = (k, text) :: ks' ∧ k ≠ .EndOfFile ∧ bs = text ++ r ∧
      text ≠ [] ∧ LexesTo r ks' ∧ Next cfg g s (kindIn g k) text r := by
  rcases lexes_with (cfg := cfg) (g := g) (pol := Pol.top) h h0 hs (fun h => by cases h) with h | ⟨k, text, r, ks', h1, h2, h3, h4, h5, h6⟩
  · exact Or.inl h
  · rw [kindWith_top] at h6
    exact Or.inr ⟨k, text, r, ks', h1, h2, h3, h4, h5, h6⟩

/-- Digits are read behind `#` and `%`. -/
theorem lexes_short {pol : Pol} {bs : List UInt8} {ds : List Char} {ks : List (TK × List UInt8)} (h : LexesTo bs ((.Integer, bytes ds) :: ks))
    (hds : ∀ c ∈ ds, isDec c = true) (h0 : s.eof = false) (hs : s.rest = bs) (hpol : pol.intShort = true) :
    ∃ r, bs = bytes ds ++ r ∧ LexesTo r ks ∧ NextWith cfg pol g s .Integer (bytes ds) r := by
  rcases lexes_next (cfg := cfg) (g := g) h h0 hs with ⟨-, h2⟩ | ⟨k, text, r, ks', h1, -, h3, h4, h5, -⟩
  · cases h2
  cases h1
  refine ⟨r, h3, h5, ?_⟩
  have hend : (∀ c, isDec c = true → ¬ Starts c r) ∧ Clear r := by
    generalize hk : (TK.Integer, bytes ds) = l at h
    cases h with
    | @operator c tail k r' ks h1 h2 h3' h4 h5 h =>
      have : ∀ e ∈ operators c, e.2 ≠ .Integer := by
        unfold operators
        split <;> decide
      exact absurd (congrArg Prod.fst hk).symm (this _ h1.known)
    | @percent n r' ks h1 h2 h => have := congrArg Prod.fst hk; dsimp at this; split at this <;> cases this
    | @number l r' ks h1 h2 h =>
      have : bytes ds = bytes l.text := congrArg Prod.snd hk
      rw [this] at h3
      have := List.append_cancel_left h3
      subst this
      exact ⟨h2.digit, h2.escape⟩
    | lone h1 h2 => cases hk; exact absurd (lone_kind h2).1 (by decide)
    | _ => cases hk
  obtain ⟨x, t, e1, e2, e3, e4, -⟩ := C22_short cfg pol g s ds r h0 (by rintro rfl; exact h4 rfl) hds (hs.trans h3)
    hend.2 hend.1 hpol
  exact ⟨x, t, e1, e2, e3, e4⟩

end

/-- C47: when a text is cut into lexemes, tokenizing it gives exactly these
lexemes, whatever the kind of positions. -/
theorem C47_tokens (cfg : Cfg) (conv : Conv) (bs : List UInt8) (ks : List (TK × List UInt8)) (h : LexesTo bs ks) :
    ∃ ts t, tokens cfg conv .notScript bs = .ok (ts, t) ∧ ts.map (fun x => (x.kind, x.text)) = ks := by
  have key : wp (fun _ => False) (tokenLoop cfg) (St.init conv bs) (fun ts _ => ts.map (fun x => (x.kind, x.text)) = ks) := by
    unfold tokenLoop
    refine wp_loop (fun ts u => u.eof = false ∧ ∃ ks', LexesTo u.rest ks' ∧
      ts.reverse.map (fun x : Tok => (x.kind, x.text)) ++ ks' = ks) (fun _ u => u.rest.length) ⟨rfl, ks, h, rfl⟩ (by omega) ?_
    rintro ts u ⟨h0, ks', hl, hk⟩
    rcases lexes_next (cfg := cfg) (g := false) hl h0 rfl with ⟨h1, h2⟩ | ⟨k, text, r, ks'', h1, h2, h3, h4, h5, x, t, h6, h7, h8, h9⟩
    · have hwf : WF u := by intro h; rw [h0] at h; cases h
      have hp := peekTokenWith_wp (cfg := cfg) (pol := Pol.top) (g := false) hwf
      refine wp_call hp (fun e he' => (no_escape (by rw [h1]; simp) he'.2).elim) ?_
      intro x t hx
      have hx' : x.kind = .EndOfFile := by
        by_contra hne
        have := hx.more hne
        have hs := hx.split
        rw [h1] at hs
        simp at hs
        exact this hs.1
      rw [if_pos hx']
      refine wp_pure ?_
      rw [← hk, h2, List.append_nil]
    · rw [kindIn_false] at h7
      have hp : wp (fun _ => False) (peekToken cfg false) u (fun a b => a = x ∧ b = t) := by
        unfold wp; rw [h6]; exact ⟨rfl, rfl⟩
      refine wp_call hp (fun e h => h) ?_
      rintro _ _ ⟨rfl, rfl⟩
      rw [if_neg (by rw [h7]; exact h2)]
      unfold wp
      show _ ∧ _
      refine ⟨⟨?_, ks'', ?_, ?_⟩, ?_⟩
      · show (_ == _) = false
        rw [h7]; simpa using h2
      · show LexesTo _ _
        rw [h9]; exact h5
      · rw [← hk, h1]
        simp [h7, h8]
      · show _ < _
        show List.length _ < _
        rw [h9, h3]
        have := List.length_pos_iff.mpr h4
        simp; omega
  have : tokens cfg conv .notScript bs = tokenLoop cfg (St.init conv bs) := rfl
  unfold wp at key
  rw [this]
  cases hr : tokenLoop cfg (St.init conv bs) with
  | error e => rw [hr] at key; exact absurd key id
  | ok p => rw [hr] at key; exact ⟨p.1, p.2, rfl, key⟩

/-- A text has at most one way of being cut into lexemes. -/
theorem C47_unique (bs : List UInt8) (ks ks' : List (TK × List UInt8))
    (h : LexesTo bs ks) (h' : LexesTo bs ks') : ks = ks' := by
  obtain ⟨ts, t, e, h1⟩ := C47_tokens Cfg.default .lineColumn bs ks h
  obtain ⟨ts', t', e', h2⟩ := C47_tokens Cfg.default .lineColumn bs ks' h'
  rw [e] at e'
  cases e'
  rw [← h1, ← h2]

/-- `f@"a b" 1*^-3` is cut into a name, an operator, a string, a space and a number. -/
example : LexesTo (bytes ['f', '@', '"', 'a', ' ', 'b', '"', ' ', '1', '*', '^', '-', '3'])
    [(.Symbol, bytes ['f']), (.At, bytes ['@']), (.String, bytes ['"', 'a', ' ', 'b', '"']), (.Whitespace, bytes [' ']),
      (({ mantissa := ⟨['1'], none⟩, exponent := some ⟨some .minus, ['3']⟩ } : Literal).kind, bytes ['1', '*', '^', '-', '3'])] := by
  refine .name (name := ['f']) (.plain (seg := ['f']) (segs := []) ⟨'f', [], rfl, by decide, by simp⟩ (by simp)) ?_ ?_
  · intro b q h; cases h; decide
  refine .operator (c := '@') (tail := []) (k := .At) ⟨by decide, ⟨_, rfl, fun h => absurd h.2.1 (by decide)⟩, ?_⟩
    (fun h => absurd h.1 (by decide)) (fun h => absurd h.1 (by decide)) (.inl (by decide))
    (fun x q h hx => by
      simp [bytes] at h
      obtain ⟨h, -⟩ := h
      have : ∀ x ∈ opInner, byte '"' ≠ byte x := by decide
      exact absurd h (this x hx)) ?_
  · intro t k h hw
    simp only [operators, List.mem_cons, List.not_mem_nil, or_false, Prod.mk.injEq] at h
    rcases h with h | h | h | h <;> obtain ⟨rfl, rfl⟩ := h <;>
      obtain ⟨q, hq, hd⟩ := hw <;> simp [bytes, byte] at hq ⊢
  refine .quoted (body := bytes ['a', ' ', 'b']) (by decide) (by decide) (.space ?_)
  have := @LexesTo.number { mantissa := ⟨['1'], none⟩, exponent := some ⟨some .minus, ['3']⟩ } [] [] ?_ ?_ .nil
  · exact this
  · refine ⟨fun b h => (by cases h), ⟨by decide, by decide⟩, fun a s v h => (by cases h), fun e h => ?_⟩
    cases h; decide
  · exact ends_nil _

/-- `x\[Rule]"a\"b"` is a name, an operator and a string. -/
example : LexesTo (bytes "x\\[Rule]\"a\\\"b\"".toList)
    [(.Symbol, bytes "x".toList), (.LongName_Rule, bytes "\\[Rule]".toList), (.String, bytes "\"a\\\"b\"".toList)] := by
  refine .word (text := bytes "x".toList) (r := bytes "\\[Rule]\"a\\\"b\"".toList) ?_ ?_
  · exact .letter (nextChar_run (c := ⟨ch 'x', .none⟩) (r := bytes "\\[Rule]\"a\\\"b\"".toList) (by decide +kernel) rfl)
      ((letter_iff (c := ⟨ch 'x', .none⟩)).mp (by decide +kernel))
      (.stop (.stop (nextChar_run (c := ⟨.char 0xf522, .longName⟩) (r := bytes "\"a\\\"b\"".toList) (by decide +kernel) rfl)
        (fun h => absurd ((letter_iff (c := ⟨.char 0xf522, .none⟩)).mpr h) (by decide +kernel)) (fun h => absurd h.2 (by decide))) (by decide))
  refine .lone (text := bytes "\\[Rule]".toList) (c := ⟨.char 0xf522, .longName⟩) (nextChar_run (by decide +kernel) rfl)
    (.operator (name := "Rule".toList) (by decide +kernel) (by decide +kernel) (by decide +kernel)) (by decide) ?_
  refine .string (text := bytes "\"a\\\"b\"".toList) (r := []) (c := ⟨ch '"', .none⟩) (nextChar_run (r := bytes "a\\\"b\"".toList) (by decide +kernel) rfl) rfl ?_ .nil
  exact .other (nextChar_run (c := ⟨ch 'a', .none⟩) (r := bytes "\\\"b\"".toList) (by decide +kernel) rfl) (by decide) (by decide)
    (.other (nextChar_run (c := ⟨.metaDoubleQuote, .single⟩) (r := bytes "b\"".toList) (by decide +kernel) rfl) (by decide) (by decide)
      (.other (nextChar_run (c := ⟨ch 'b', .none⟩) (r := bytes "\"".toList) (by decide +kernel) rfl) (by decide) (by decide)
        (.close (nextChar_run (c := ⟨ch '"', .none⟩) (r := []) (by decide +kernel) rfl) rfl)))

end CodeParser.Props
