import Verif.Proofs.FullForm3
/-!
Full form with white space and comments.
-/
namespace CodeParser.Full
open CodeParser Spec Mean

theorem commentEnd_append : ∀ {n : Nat} {bs : List UInt8}, bs.length ≤ n → ∀ {d : Nat} {q : List UInt8}, commentEnd d bs = some q →
    ∀ r, commentEnd d (bs ++ r) = some (q ++ r)
  | _, [], _, d, q, h, r => by cases h
  | _, [_], _, d, q, h, r => by cases h
  | 0, _ :: _ :: _, hn, _, _, _, _ => by simp at hn
  | n + 1, a :: b :: bs, hn, d, q, h, r => by
    have hl : bs.length ≤ n := by simp at hn; omega
    have hl' : (b :: bs).length ≤ n := by simp at hn ⊢; omega
    rw [commentEnd] at h
    rw [List.cons_append, List.cons_append, commentEnd]
    split at h
    · rename_i hc
      rw [if_pos hc]
      exact commentEnd_append hl h r
    · rename_i hc
      rw [if_neg hc]
      split at h
      · rename_i hd
        rw [if_pos hd]
        split at h
        · rename_i h1
          rw [if_pos h1]
          cases h; rfl
        · rename_i h1
          rw [if_neg h1]
          exact commentEnd_append hl h r
      · rename_i hd
        rw [if_neg hd]
        exact commentEnd_append hl' h r

theorem gap_follows {g : Bool} {w : List UInt8} (h : Gap g w) {r : List UInt8} (hr : Follows r) : Follows (w ++ r) := by
  cases h with
  | none => exact hr
  | space => exact follows_cons (by decide)
  | tab => exact follows_cons (by decide)
  | newline => rw [List.append_assoc]; exact line_follows
  | comment => exact follows_cons (by decide)

theorem gap_quiet {g : Bool} {w : List UInt8} (h : Gap g w) {r : List UInt8} (hr : Quiet r) : Quiet (w ++ r) := by
  cases h with
  | none => exact hr
  | space => exact follows_quiet (follows_cons (by decide))
  | tab => exact follows_quiet (follows_cons (by decide))
  | newline => rw [List.append_assoc]; exact follows_quiet line_follows
  | comment => exact follows_quiet (follows_cons (by decide))

theorem gap_lexes {g : Bool} {w : List UInt8} (h : Gap g w) : ∃ kw, Blank g kw ∧ ∀ {r ks}, LexesTo r ks → LexesTo (w ++ r) (kw ++ ks) := by
  induction h with
  | none => exact ⟨[], blank0, fun h => h⟩
  | space _ ih =>
    obtain ⟨kw, h1, h2⟩ := ih
    exact ⟨(.Whitespace, [byte ' ']) :: kw, List.forall_mem_cons.mpr ⟨rfl, h1⟩, fun h => .space (h2 h)⟩
  | tab _ ih =>
    obtain ⟨kw, h1, h2⟩ := ih
    exact ⟨(.Whitespace, [byte '\t']) :: kw, List.forall_mem_cons.mpr ⟨rfl, h1⟩, fun h => .tab (h2 h)⟩
  | @newline w crlf hg _ ih =>
    obtain ⟨kw, h1, h2⟩ := ih
    refine ⟨newL crlf :: kw, List.forall_mem_cons.mpr ⟨hg, h1⟩, fun h => ?_⟩
    rw [List.append_assoc]
    exact lex_line (h2 h)
  | @comment body w hc _ ih =>
    obtain ⟨kw, h1, h2⟩ := ih
    refine ⟨(.Comment, byte '(' :: byte '*' :: body) :: kw, List.forall_mem_cons.mpr ⟨rfl, h1⟩, fun {r ks} h => ?_⟩
    have := LexesTo.comment (body := body) (r := w ++ r) (by rw [commentEnd_append (Nat.le_refl _) hc]; rfl) (h2 h)
    simpa using this

/-- The text is cut into these lexemes, whatever follows. -/
def Cuts (t : List UInt8) (ks : List Lexeme) : Prop := ∀ {r k'}, Follows r → LexesTo r k' → LexesTo (t ++ r) (ks ++ k')

/-- No lexeme in front of these belongs to the first of them. -/
def Alone (ks : List Lexeme) : Prop := ∀ k, ∀ b ∈ ks.head?, joins k b.1 = false

theorem joins_blank {g : Bool} (k : TK) {b : TK} (h : blankKind g b = true) : joins k b = false := by
  unfold blankKind at h
  split at h <;> first | (cases k <;> rfl) | cases h

theorem alone_comma {g : Bool} {v ks : List Lexeme} (hv : Blank g v) : Alone (v ++ commaL :: ks) := by
  cases v with
  | nil => rintro k b hb; cases hb; exact joins_comma k
  | cons x v => rintro k b hb; cases hb; exact joins_blank k (hv x List.mem_cons_self)

theorem comma_sep {v w : List Lexeme} (hv : Blank true v) (hw : Blank true w) : Sep true commaL (v ++ commaL :: w) :=
  .shown (by decide) hv hw

mutual
theorem spelled_safe : ∀ {g : Bool} {e : Expr} {t : List UInt8}, Spelled g e t → Safe t
  | _, _, _, .leaf (.inl h) => (atom_text h).2.1
  | _, _, _, .leaf (.inr h) => by obtain ⟨l, -, -, -, -, h⟩ := negative_text h; exact h
  | _, _, _, .call h _ _ _ _ => (spelled_safe h).append _
end

theorem arguments_quiet {es : List Expr} {ts r : List UInt8} (h : Arguments es ts) (hr : Follows r) : Quiet (ts ++ r) := by
  cases h with
  | none hw => exact gap_quiet hw (follows_quiet hr)
  | one hw he hw' =>
    rw [List.append_assoc, List.append_assoc]
    exact gap_quiet hw (safe_quiet ((spelled_safe he).append _))
  | more hw he hw' hs =>
    rw [List.append_assoc, List.append_assoc]
    exact gap_quiet hw (safe_quiet ((spelled_safe he).append _))

mutual
theorem spelled : ∀ {g : Bool} {e : Expr} {t : List UInt8}, Spelled g e t → e.Writable ∧ ∃ ks, Writes g (form e) ks ∧ Cuts t ks
  | g, .leaf k t, _, .leaf h => by
    refine ⟨h, lex (.leaf k t), writes (.leaf k t) h g, fun hf hl => ?_⟩
    rw [lex]
    exact lex_leaf h hf hl
  | g, .call f as, _, .call (t := t) (w := w) (ts := ts) h hh hw ha hc => by
    obtain ⟨h1, ks, h2, h3⟩ := spelled h
    obtain ⟨a1, ka, a2, a3, -⟩ := arguments ha
    obtain ⟨kw, w1, w2⟩ := gap_lexes hw
    refine ⟨⟨h1, hh, a1, hc⟩, ks ++ (kw ++ openL :: (ka ++ [closeL])), ?_, fun {r k'} hf hl => ?_⟩
    · rw [form]
      exact Writes.call (o := square) h2 w1 a2
    · have l1 : LexesTo (byte ']' :: r) (closeL :: k') := lex_op (c := ']') (.inl rfl) (by decide) (follows_quiet hf) hl
      have hc : Follows (byte ']' :: r) := follows_cons (by decide)
      have l2 : LexesTo (ts ++ byte ']' :: r) (ka ++ closeL :: k') := a3 hc l1
      have l3 : LexesTo (byte '[' :: (ts ++ byte ']' :: r)) (openL :: (ka ++ closeL :: k')) :=
        lex_op (c := '[') (.inl rfl) (by decide) (arguments_quiet ha hc) l2
      have := h3 (gap_follows hw (follows_cons (by decide))) (w2 l3)
      simpa using this
theorem arguments : ∀ {es : List Expr} {ts : List UInt8}, Arguments es ts → Expr.AllWritable es ∧ ∃ ks, Inside (body es) ks ∧ Cuts ts ks ∧
    (es ≠ [] → ∀ v, Blank true v → ∃ kr w, Rest true (tail es) kr ∧ Blank true w ∧ v ++ commaL :: ks = kr ++ w ∧ Alone kr)
  | [], _, .none hw => by
    obtain ⟨kw, w1, w2⟩ := gap_lexes hw
    refine ⟨trivial, kw, ?_, fun _ hl => w2 hl, fun h => absurd rfl h⟩
    rw [body]; exact .empty w1
  | [e], _, .one (t := t) hw he hw' => by
    obtain ⟨h1, ks, h2, h3⟩ := spelled he
    obtain ⟨kw, w1, w2⟩ := gap_lexes hw
    obtain ⟨kw', w1', w2'⟩ := gap_lexes hw'
    refine ⟨⟨h1, trivial⟩, kw ++ (ks ++ kw'), ?_, fun hf hl => ?_, fun _ v hv => ?_⟩
    · rw [body]; exact .one w1 h2 w1'
    · have := w2 (h3 (gap_follows hw' hf) (w2' hl))
      simpa using this
    · refine ⟨(v ++ commaL :: kw) ++ ks, kw', ?_, w1', by simp, ?_⟩
      · rw [tail]; exact .last (comma_sep hv w1) h2
      · rw [List.append_assoc]; exact alone_comma hv
  | e :: e' :: es, _, .more (t := t) (w' := w') (ts := ts) hw he hw' ha => by
    obtain ⟨h1, ks, h2, h3⟩ := spelled he
    obtain ⟨kw, w1, w2⟩ := gap_lexes hw
    obtain ⟨kw', w1', w2'⟩ := gap_lexes hw'
    obtain ⟨a1, ka, a2, a3, a4⟩ := arguments ha
    obtain ⟨kr, wr, r1, r2, r3, r4⟩ := a4 (by simp) kw' w1'
    refine ⟨⟨h1, a1⟩, kw ++ (ks ++ (kw' ++ commaL :: ka)), ?_, fun {r k'} hf hl => ?_, fun _ v hv => ?_⟩
    · rw [body, r3]; exact .many w1 h2 r1 r2
    · have l1 : LexesTo (byte ',' :: (ts ++ r)) (commaL :: (ka ++ k')) :=
        lex_op (c := ',') (.inl rfl) (by decide) (arguments_quiet ha hf) (a3 hf hl)
      have := w2 (h3 (gap_follows hw' (follows_cons (by decide))) (w2' l1))
      simpa using this
    · refine ⟨(v ++ commaL :: kw) ++ (ks ++ kr), wr, ?_, r2, by simp [r3], ?_⟩
      · rw [tail]; exact .more (comma_sep hv w1) h2 r1 (fun a _ b hb => r4 a.1 b hb)
      · rw [List.append_assoc]; exact alone_comma hv
end

mutual
theorem spells : ∀ (g : Bool) (e : Expr), e.Writable → Spelled g e e.text
  | _, .leaf k t, h => by rw [Expr.text]; exact .leaf h
  | g, .call f as, h => by
    rw [Expr.text]
    exact Spelled.call (w := []) (spells g f h.1) h.2.1 .none (argues as h.2.2.1 .none) h.2.2.2
  | _, .error, h => h.elim
theorem argues : ∀ (es : List Expr), Expr.AllWritable es → ∀ {w}, Gap true w → Arguments es (w ++ Expr.texts es)
  | [], _, w, hw => by rw [Expr.texts, List.append_nil]; exact .none hw
  | [e], h, w, hw => by
    rw [Expr.texts]
    have := Arguments.one hw (spells true e h.1) .none
    simpa using this
  | e :: e' :: es, h, w, hw => by
    rw [Expr.texts]
    exact Arguments.more (w' := []) hw (spells true e h.1) .none (argues (e' :: es) h.2 (.space .none))
end

end CodeParser.Full
