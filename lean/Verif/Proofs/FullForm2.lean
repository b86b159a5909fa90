import Verif.Proofs.FullForm
/-!
Full form: the expression that is written, and its lexemes.
-/
namespace CodeParser.Full
open CodeParser Spec Mean

def openL : Lexeme := (.OpenSquare, [byte '['])
def closeL : Lexeme := (.CloseSquare, [byte ']'])
def commaL : Lexeme := (.Comma, [byte ','])
def spaceL : Lexeme := (.Whitespace, [byte ' '])
def minusL : Lexeme := (.Minus, [byte '-'])
def square : CallBracket := ⟨openL, closeL, _, rfl, ⟨rfl, rfl⟩⟩
def minus : Prefix := ⟨minusL, _, _, rfl⟩

/-- The form of an atom. -/
def leafForm (k : TK) (t : List UInt8) : Spec.Form :=
  if t.head? = some (byte '-') then .prefix minus (.atom (k, t.tail)) else .atom (k, t)

def leafLex (k : TK) (t : List UInt8) : List Lexeme :=
  if t.head? = some (byte '-') then [minusL, (k, t.tail)] else [(k, t)]

mutual
def form : Expr → Spec.Form
  | .leaf k t => leafForm k t
  | .call h as => .call (form h) square (body as)
  | .error => .atom (.Symbol, [])
def body : List Expr → Spec.Body
  | [] => .empty
  | e :: es => match es with
    | [] => .one (form e)
    | _ :: _ => .many (form e) (tail es)
def tail : List Expr → Spec.Tail
  | [] => .last commaL (.atom (.Symbol, []))
  | e :: es => match es with
    | [] => .last commaL (form e)
    | _ :: _ => .more commaL (form e) (tail es)
end

mutual
def lex : Expr → List Lexeme
  | .leaf k t => leafLex k t
  | .call h as => lex h ++ openL :: (lexes as ++ [closeL])
  | .error => []
def lexes : List Expr → List Lexeme
  | [] => []
  | e :: es => match es with
    | [] => lex e
    | _ :: _ => lex e ++ commaL :: spaceL :: lexes es
end

theorem plain_head {k : TK} {t : List UInt8} (h : PlainAtom k t) : t.head? ≠ some (byte '-') := (atom_text h).2.2

theorem leaf_plain {k : TK} {t : List UInt8} (h : PlainAtom k t) : leafForm k t = .atom (k, t) ∧ leafLex k t = [(k, t)] :=
  ⟨if_neg (plain_head h), if_neg (plain_head h)⟩

theorem leaf_negative {k : TK} {t : List UInt8} : leafForm k (byte '-' :: t) = .prefix minus (.atom (k, t)) ∧
    leafLex k (byte '-' :: t) = [minusL, (k, t)] := ⟨if_pos rfl, if_pos rfl⟩

theorem plain_kind {k : TK} {t : List UInt8} (h : PlainAtom k t) : atomKind k = true := by
  cases h with
  | name => rfl
  | word => rfl
  | @number l h1 h2 =>
    unfold Literal.kind
    rw [if_neg h2]
    split
    · rfl
    split <;> rfl
  | string => rfl

theorem plain_number {k : TK} {t : List UInt8} (h : Negative k t) : (k = .Integer ∨ k = .Real) := by
  cases h with
  | mk _ h _ => exact h

/-! ### It is written -/

theorem blank0 {g : Bool} : Blank g [] := by intro x hx; cases hx
theorem blank1 : Blank true [spaceL] := by
  intro x hx
  obtain rfl := List.mem_singleton.mp hx
  rfl

theorem joins_comma (k : TK) : joins k .Comma = false := by cases k <;> rfl

theorem apart_comma {ks : List Lexeme} {r : List Lexeme} : Apart ks (commaL :: r) := by
  intro a _ b hb
  cases hb
  exact joins_comma _

mutual
theorem writes : ∀ (e : Expr), e.Writable → ∀ g, Writes g (form e) (lex e)
  | .leaf k t, h, g => by
    rw [form, lex]
    rcases h with h | h
    · rw [(leaf_plain h).1, (leaf_plain h).2]
      exact .atom (plain_kind h)
    · have hk := plain_number h
      obtain ⟨l, -, -, rfl, -⟩ := negative_text h
      rw [leaf_negative.1, leaf_negative.2]
      refine Writes.prefix (o := minus) (w := []) blank0 (.atom ?_)
      rcases hk with h | h <;> simp only [h] <;> rfl
  | .call f as, h, g => by
    rw [form, lex]
    exact Writes.call (o := square) (w := []) (writes f h.1 g) blank0 (inside as h.2.2.1)
  | .error, h, _ => h.elim
theorem inside : ∀ (es : List Expr), Expr.AllWritable es → Inside (body es) (lexes es)
  | [], _ => by
    rw [body, lexes]; exact .empty blank0
  | [e], h => by
    rw [body, lexes]
    simpa using Inside.one (w := []) (w' := []) blank0 (writes e h.1 true) blank0
  | e :: e' :: es, h => by
    rw [body, lexes]
    obtain ⟨r, hr, ht⟩ := rest (e' :: es) h.2 (by simp)
    have := Inside.many (w := []) (w' := []) blank0 (writes e h.1 true) ht blank0
    simpa [hr] using this
theorem rest : ∀ (es : List Expr), Expr.AllWritable es → es ≠ [] →
    ∃ r, r = commaL :: spaceL :: lexes es ∧ Rest true (tail es) r
  | [], _, h => absurd rfl h
  | [e], h, _ => by
    refine ⟨_, rfl, ?_⟩
    rw [tail, lexes]
    exact Rest.last (ks := [commaL, spaceL]) (Sep.shown (w := []) (by decide) blank0 blank1) (writes e h.1 true)
  | e :: e' :: es, h, _ => by
    refine ⟨_, rfl, ?_⟩
    rw [tail, lexes]
    obtain ⟨r, hr, ht⟩ := rest (e' :: es) h.2 (by simp)
    rw [← hr]
    exact Rest.more (ks := [commaL, spaceL]) (Sep.shown (w := []) (by decide) blank0 blank1) (writes e h.1 true) ht (hr ▸ apart_comma)
end

/-! ### The operators have their operands -/

theorem head_right {e : Expr} (h : e.Writable) (hh : e.Head) : (form e).right = [] := by
  cases e with
  | leaf k t => rw [form, (leaf_plain hh).1]; rfl
  | call f as => rw [form]; rfl
  | error => exact h.elim

mutual
theorem grouped : ∀ (e : Expr), e.Writable → (form e).Grouped
  | .leaf k t, h => by
    rw [form]
    rcases h with h | h
    · rw [(leaf_plain h).1]; trivial
    · obtain ⟨l, -, -, rfl, -⟩ := negative_text h
      rw [leaf_negative.1]
      refine ⟨trivial, ?_⟩
      intro q hq; cases hq
  | .call f as, h => by
    rw [form]
    refine ⟨grouped f h.1, ?_, bodyGrouped as h.2.2.1⟩
    intro e he
    rw [head_right h.1 h.2.1] at he; cases he
  | .error, h => h.elim
theorem bodyGrouped : ∀ (es : List Expr), Expr.AllWritable es → (body es).Grouped
  | [], _ => by rw [body]; trivial
  | [e], h => by rw [body]; exact grouped e h.1
  | e :: e' :: es, h => by rw [body]; exact ⟨grouped e h.1, commas (e' :: es) h.2⟩
theorem commas : ∀ (es : List Expr), Expr.AllWritable es → (tail es).Commas
  | [], _ => by rw [tail]; exact ⟨rfl, trivial⟩
  | [e], h => by rw [tail]; exact ⟨rfl, grouped e h.1⟩
  | e :: e' :: es, h => by rw [tail]; exact ⟨rfl, grouped e h.1, commas (e' :: es) h.2⟩
end

/-! ### What it means -/

theorem atom_expr {k : TK} {t : List UInt8} (h : PlainAtom k t) : atomExpr (k, t) = .leaf k t := by
  cases h with
  | name h =>
    show (match constant _ with | some s => word s | none => Expr.leaf .Symbol _) = _
    rw [renamed_none (name_renamed h)]
  | word _ _ h =>
    show (match constant _ with | some s => word s | none => Expr.leaf .Symbol _) = _
    rw [h]
  | @number l h1 h2 =>
    have : l.kind = .Real ∨ l.kind = .Rational ∨ l.kind = .Integer := by
      unfold Literal.kind
      rw [if_neg h2]
      split
      · simp
      split <;> simp
    rcases this with h | h | h <;> rw [h] <;> rfl
  | string => rfl

theorem body_double (es : List Expr) : (body es).double = false := by
  match es with
  | [] => rw [body]; rfl
  | [e] =>
    rw [body]
    cases e with
    | leaf k t => rw [form, leafForm]; split <;> rfl
    | call => rw [form]; rfl
    | error => rw [form]; rfl
  | e :: e' :: es => rw [body]; rfl

mutual
theorem expr (q : Quirks) : ∀ (e : Expr), e.Writable → (form e).expr q .value = e
  | .leaf k t, h => by
    rw [form]
    rcases h with h | h
    · rw [(leaf_plain h).1]
      exact atom_expr h
    · cases h with
      | @mk l h1 h2 h3 =>
        rw [leaf_negative.1]
        show (if l.kind = .Integer ∨ l.kind = .Real then negativeNumber (l.kind, bytes l.text) else _) = _
        rw [if_pos h2]
        unfold negativeNumber
        rw [if_neg]
        rintro ⟨-, h4⟩
        apply h3
        have h4 : bytes l.text = bytes ['0'] := h4
        cases ht : l.text with
        | nil => rw [ht] at h4; cases h4
        | cons c cs =>
          rw [ht] at h4
          injection h4 with h5 h6
          have hc : c = '0' := byte_inj (numChar_ascii (text_num h1 c (by simp [ht]))).1 (by decide) h5
          cases cs with
          | nil => rw [hc]
          | cons => cases h6
  | .call f as, h => by
    rw [form]
    have : Spec.Form.expr q .value (.call (form f) square (body as)) = .call ((form f).expr q .value) ((body as).exprs q) := by
      simp only [Spec.Form.expr, body_double]
      rfl
    rw [this, expr q f h.1, bodyExprs q as h.2.2.1]
  | .error, h => h.elim
theorem bodyExprs (q : Quirks) : ∀ (es : List Expr), Expr.AllWritable es → (body es).exprs q = es
  | [], _ => by rw [body]; rfl
  | [e], h => by
    rw [body]
    show [(form e).expr q .value] = _
    rw [expr q e h.1]
  | e :: e' :: es, h => by
    rw [body]
    show (form e).expr q .value :: (tail (e' :: es)).exprs q .value = _
    rw [expr q e h.1, tailExprs q (e' :: es) h.2 (by simp)]
theorem tailExprs (q : Quirks) : ∀ (es : List Expr), Expr.AllWritable es → es ≠ [] → (tail es).exprs q .value = es
  | [], _, h => absurd rfl h
  | [e], h, _ => by
    rw [tail]
    show [(form e).expr q .value] = _
    rw [expr q e h.1]
  | e :: e' :: es, h, _ => by
    rw [tail]
    show (form e).expr q .value :: (tail (e' :: es)).exprs q .value = _
    rw [expr q e h.1, tailExprs q (e' :: es) h.2 (by simp)]
end

theorem form_isAt (n : List UInt8) (e : Expr) : (form e).isAt n = false := by
  cases e with
  | leaf k t => rw [form, leafForm]; split <;> rfl
  | call => rw [form]; rfl
  | error => rw [form]; rfl

theorem tail_each (n : List UInt8) : ∀ (es : List Expr), (tail es).Each fun _ f => f.isAt n = false
  | [] => by rw [tail]; rfl
  | [e] => by rw [tail]; exact form_isAt n e
  | e :: e' :: es => by rw [tail]; exact ⟨form_isAt n e, tail_each n (e' :: es)⟩

mutual
theorem meaningful (q : Quirks) : ∀ (e : Expr), e.Writable → (form e).Meaningful q
  | .leaf k t, h => by
    rw [form, leafForm]
    split
    · exact ⟨trivial, by decide⟩
    · trivial
  | .call f as, h => by
    rw [form]
    refine ⟨meaningful q f h.1, ?_⟩
    rw [body_double, if_neg (by simp)]
    exact bodyMeaningful q as h.2.2.1 h.2.2.2
  | .error, h => h.elim
theorem bodyMeaningful (q : Quirks) : ∀ (es : List Expr), Expr.AllWritable es → (∀ a, es = [a] → isComma a = false) → (body es).Meaningful q
  | [], _, _ => by rw [body]; trivial
  | [e], h, hc => by
    rw [body]
    refine ⟨meaningful q e h.1, ?_⟩
    rw [expr q e h.1]
    exact hc e rfl
  | e :: e' :: es, h, _ => by
    rw [body]
    exact ⟨meaningful q e h.1, tailMeaningful q (e' :: es) h.2, fun _ => ⟨form_isAt _ e, tail_each _ _⟩⟩
theorem tailMeaningful (q : Quirks) : ∀ (es : List Expr), Expr.AllWritable es → (tail es).Meaningful q
  | [], _ => by rw [tail]; trivial
  | [e], h => by rw [tail]; exact meaningful q e h.1
  | e :: e' :: es, h => by rw [tail]; exact ⟨meaningful q e h.1, tailMeaningful q (e' :: es) h.2⟩
end

end CodeParser.Full
