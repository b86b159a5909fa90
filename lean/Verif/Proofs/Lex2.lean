import Verif.Proofs.Lex1
/-!
Operators are recognised by longest match (helper lemmas).
-/
namespace CodeParser
open Spec

/-- The longest operator was read. -/
def OpPost (start : St) (c : Char) (r : List UInt8) (x : Tok) (t : St) : Prop :=
  ∃ tail k after, Longest c r tail k ∧ r = bytes tail ++ after ∧ Gives start k (byte c :: bytes tail) after x t

/-- What comes next, and what comes behind it where it can be part of an operator, is not escaped or
not in ASCII. -/
structure NoEsc (cfg : Cfg) (r : List UInt8) : Prop where
  first : Sees cfg r
  second : ∀ c q, r = byte c :: q → c ∈ opInner → Sees cfg q

theorem op_leaf {cfg : Cfg} {start s : St} {E : Err → Prop} {c : Char} {r after : List UInt8} (tail : List Char) (k : TK)
    (h : Lex cfg start after s) (h0 : start.rest = byte c :: r) (hr : r = bytes tail ++ after)
    (hm : (tail, k) ∈ operators c) (hd : ¬ (c = '/' ∧ tail = ['.'] ∧ startsWithDigit after))
    (hl : ∀ e ∈ operators c, Written c e.1 r → e.1.length ≤ tail.length) :
    wp E (tok k start) s (OpPost start c r) := by
  have ht : start.rest = (byte c :: bytes tail) ++ after := by rw [h0, hr]; rfl
  refine wp_mono (lex_tok h ht) (fun _ h => h) fun x t hx => ⟨tail, k, after, ⟨hm, ⟨after, hr, hd⟩, fun t' k' h1 h2 => hl _ h1 h2⟩, hr, hx⟩

theorem op_leafNext {cfg : Cfg} {start s : St} {E : Err → Prop} {c : Char} {r after : List UInt8} {b : UInt8} (tail : List Char) (k : TK)
    (h : Lex cfg start (b :: after) s) (h0 : start.rest = byte c :: r) (hr : r = bytes tail ++ after)
    (hb : b.toNat < 0x80) (h92 : b ≠ byte '\\') (h13 : b.toNat ≠ 13)
    (hm : (tail, k) ∈ operators c) (hd : ¬ (c = '/' ∧ tail = ['.'] ∧ startsWithDigit after))
    (hl : ∀ e ∈ operators c, Written c e.1 r → e.1.length ≤ tail.length) :
    wp E (tokNext cfg k start) s (OpPost start c r) := by
  unfold tokNext
  exact lex_next h hb h92 h13 fun t ht => op_leaf tail k ht h0 hr hm hd hl

theorem head_some {r : List UInt8} {b : UInt8} (h : r.head? = some b) : ∃ q, r = b :: q := by
  cases r with
  | nil => cases h
  | cons a q => cases h; exact ⟨q, rfl⟩

section
variable {cfg : Cfg} {start s : St} {E : Err → Prop} {r : List UInt8} {c : WLC}

/-- Closes the side conditions of a leaf. -/
macro "op_side" : tactic => `(tactic| first
  | rfl
  | decide
  | (simp; done)
  | (simp only [operators, List.forall_mem_cons]
     refine' ⟨?_, ?_⟩
     all_goals skip
     repeat' apply And.intro
     all_goals first
       | (rintro ⟨q, hq, hn⟩; first | (simp; done) | (simp_all [bytes]; done) | (simp_all [bytes, byte]; done))
       | (simp; done)))

/-- A condition on the character ahead becomes a condition on the byte ahead. -/
macro "op_if" hl:ident hx:ident : tactic => `(tactic| (
  refine wp_ite (fun $hx => ?_) (fun $hx => ?_) <;>
    rw [Look.ch $hl (by decide) (by decide)] at $hx:ident))

/-- The end of a handler: the token has been read. -/
macro "op_end" t:term : tactic => `(tactic| (
  refine op_leaf $t _ (by assumption) (by assumption) ?_ ?_ ?_ ?_ <;> op_side))

/-- The end of a handler: one more character is read. -/
macro "op_last" t:term "," hx:ident : tactic => `(tactic| (
  obtain ⟨q, hq⟩ := head_some $hx
  subst hq
  refine op_leafNext $t _ (by assumption) (by assumption) ?_ ?_ ?_ ?_ ?_ ?_ ?_ <;> op_side))

theorem lex_colon (h : Lex cfg start r s) (h0 : start.rest = byte ':' :: r) (hn : NoEsc cfg r) (hc : c.point = ch ':') :
    wp E (handleColon cfg start c) s (OpPost start ':' r) := by
  unfold handleColon
  refine lex_assert (by simp [hc]) (lex_see h hn.first fun c t ht hl => ?_)
  op_if hl hx
  · obtain ⟨q, rfl⟩ := head_some hx
    refine lex_next ht (by decide) (by decide) (by decide) fun t ht => ?_
    refine lex_see ht (hn.second _ _ rfl (by decide)) fun c t ht hl => ?_
    op_if hl hx
    · op_last [':', '['], hx
    · op_end [':']
  · op_if hl hx
    · op_last ['='], hx
    · op_if hl hx
      · op_last ['>'], hx
      · op_end []

theorem lex_equal (h : Lex cfg start r s) (h0 : start.rest = byte '=' :: r) (hn : NoEsc cfg r) (hc : c.point = ch '=') :
    wp E (handleEqual cfg start c) s (OpPost start '=' r) := by
  unfold handleEqual
  refine lex_assert (by simp [hc]) (lex_see h hn.first fun c t ht hl => ?_)
  op_if hl hx
  · obtain ⟨q, rfl⟩ := head_some hx
    refine lex_next ht (by decide) (by decide) (by decide) fun t ht => ?_
    refine lex_see ht (hn.second _ _ rfl (by decide)) fun c t ht hl => ?_
    op_if hl hx
    · op_last ['=', '='], hx
    · op_end ['=']
  · op_if hl hx
    · obtain ⟨q, rfl⟩ := head_some hx
      refine lex_mark (lex_next ht (by decide) (by decide) (by decide) fun t ht' => ?_)
      refine lex_see ht' (hn.second _ _ rfl (by decide)) fun c t ht' hl => ?_
      op_if hl hx
      · op_last ['!', '='], hx
      · refine lex_seek (by assumption) fun t ht => ?_
        op_end []
    · op_end []


theorem lex_under (h : Lex cfg start r s) (h0 : start.rest = byte '_' :: r) (hn : NoEsc cfg r) (hc : c.point = ch '_') :
    wp E (handleUnder cfg start c) s (OpPost start '_' r) := by
  unfold handleUnder
  refine lex_assert (by simp [hc]) (lex_see h hn.first fun c t ht hl => ?_)
  op_if hl hx
  · obtain ⟨q, rfl⟩ := head_some hx
    refine lex_next ht (by decide) (by decide) (by decide) fun t ht => ?_
    refine lex_see ht (hn.second _ _ rfl (by decide)) fun c t ht hl => ?_
    op_if hl hx
    · op_last ['_', '_'], hx
    · op_end ['_']
  · op_if hl hx
    · op_last ['.'], hx
    · op_end []


theorem lex_less (h : Lex cfg start r s) (h0 : start.rest = byte '<' :: r) (hn : NoEsc cfg r) (hc : c.point = ch '<') :
    wp E (handleLess cfg start c) s (OpPost start '<' r) := by
  unfold handleLess
  refine lex_assert (by simp [hc]) (lex_see h hn.first fun c t ht hl => ?_)
  op_if hl hx
  · op_last ['|'], hx
  · op_if hl hx
    · op_last ['<'], hx
    · op_if hl hx
      · op_last ['>'], hx
      · op_if hl hx
        · op_last ['='], hx
        · op_if hl hx
          · obtain ⟨q, rfl⟩ := head_some hx
            refine lex_mark (lex_next ht (by decide) (by decide) (by decide) fun t ht' => ?_)
            refine lex_see ht' (hn.second _ _ rfl (by decide)) fun c t ht' hl => ?_
            op_if hl hx
            · op_last ['-', '>'], hx
            · refine lex_seek (by assumption) fun t ht => ?_
              op_end []
          · op_end []


theorem lex_greater (h : Lex cfg start r s) (h0 : start.rest = byte '>' :: r) (hn : NoEsc cfg r) (hc : c.point = ch '>') :
    wp E (handleGreater cfg start c) s (OpPost start '>' r) := by
  unfold handleGreater
  refine lex_assert (by simp [hc]) (lex_see h hn.first fun c t ht hl => ?_)
  op_if hl hx
  · obtain ⟨q, rfl⟩ := head_some hx
    refine lex_next ht (by decide) (by decide) (by decide) fun t ht => ?_
    refine lex_see ht (hn.second _ _ rfl (by decide)) fun c t ht hl => ?_
    op_if hl hx
    · op_last ['>', '>'], hx
    · op_end ['>']
  · op_if hl hx
    · op_last ['='], hx
    · op_end []


theorem lex_minus (h : Lex cfg start r s) (h0 : start.rest = byte '-' :: r) (hn : NoEsc cfg r) (hc : c.point = ch '-') :
    wp E (handleMinus cfg start c) s (OpPost start '-' r) := by
  unfold handleMinus
  refine lex_assert (by simp [hc]) (lex_see h hn.first fun c t ht hl => ?_)
  op_if hl hx
  · op_last ['>'], hx
  · op_if hl hx
    · op_last ['-'], hx
    · op_if hl hx
      · op_last ['='], hx
      · op_end []


theorem lex_bar (h : Lex cfg start r s) (h0 : start.rest = byte '|' :: r) (hn : NoEsc cfg r) (hc : c.point = ch '|') :
    wp E (handleBar cfg start c) s (OpPost start '|' r) := by
  unfold handleBar
  refine lex_assert (by simp [hc]) (lex_see h hn.first fun c t ht hl => ?_)
  op_if hl hx
  · op_last ['>'], hx
  · op_if hl hx
    · op_last ['|'], hx
    · op_if hl hx
      · obtain ⟨q, rfl⟩ := head_some hx
        refine lex_mark (lex_next ht (by decide) (by decide) (by decide) fun t ht' => ?_)
        refine lex_see ht' (hn.second _ _ rfl (by decide)) fun c t ht' hl => ?_
        op_if hl hx
        · op_last ['-', '>'], hx
        · refine lex_seek (by assumption) fun t ht => ?_
          op_end []
      · op_end []


theorem lex_bang (h : Lex cfg start r s) (h0 : start.rest = byte '!' :: r) (hn : NoEsc cfg r) (hc : c.point = ch '!') :
    wp E (handleBang cfg start c) s (OpPost start '!' r) := by
  unfold handleBang
  refine lex_assert (by simp [hc]) (lex_see h hn.first fun c t ht hl => ?_)
  op_if hl hx
  · op_last ['='], hx
  · op_if hl hx
    · op_last ['!'], hx
    · op_end []


theorem lex_at (h : Lex cfg start r s) (h0 : start.rest = byte '@' :: r) (hn : NoEsc cfg r) (hc : c.point = ch '@') :
    wp E (handleAt cfg start c) s (OpPost start '@' r) := by
  unfold handleAt
  refine lex_assert (by simp [hc]) (lex_see h hn.first fun c t ht hl => ?_)
  op_if hl hx
  · obtain ⟨q, rfl⟩ := head_some hx
    refine lex_next ht (by decide) (by decide) (by decide) fun t ht => ?_
    refine lex_see ht (hn.second _ _ rfl (by decide)) fun c t ht hl => ?_
    op_if hl hx
    · op_last ['@', '@'], hx
    · op_end ['@']
  · op_if hl hx
    · op_last ['*'], hx
    · op_end []


theorem lex_plus (h : Lex cfg start r s) (h0 : start.rest = byte '+' :: r) (hn : NoEsc cfg r) (hc : c.point = ch '+') :
    wp E (handlePlus cfg start c) s (OpPost start '+' r) := by
  unfold handlePlus
  refine lex_assert (by simp [hc]) (lex_see h hn.first fun c t ht hl => ?_)
  op_if hl hx
  · op_last ['+'], hx
  · op_if hl hx
    · op_last ['='], hx
    · op_end []


theorem lex_star (h : Lex cfg start r s) (h0 : start.rest = byte '*' :: r) (hn : NoEsc cfg r) (hc : c.point = ch '*') :
    wp E (handleStar cfg start c) s (OpPost start '*' r) := by
  unfold handleStar
  refine lex_assert (by simp [hc]) (lex_see h hn.first fun c t ht hl => ?_)
  op_if hl hx
  · op_last ['='], hx
  · op_if hl hx
    · op_last ['*'], hx
    · op_if hl hx
      · op_last [')'], hx
      · op_end []


theorem lex_caret (h : Lex cfg start r s) (h0 : start.rest = byte '^' :: r) (hn : NoEsc cfg r) (hc : c.point = ch '^') :
    wp E (handleCaret cfg start c) s (OpPost start '^' r) := by
  unfold handleCaret
  refine lex_assert (by simp [hc]) (lex_see h hn.first fun c t ht hl => ?_)
  op_if hl hx
  · obtain ⟨q, rfl⟩ := head_some hx
    refine lex_next ht (by decide) (by decide) (by decide) fun t ht => ?_
    refine lex_see ht (hn.second _ _ rfl (by decide)) fun c t ht hl => ?_
    op_if hl hx
    · op_last [':', '='], hx
    · op_end [':']
  · op_if hl hx
    · op_last ['='], hx
    · op_end []


theorem lex_semi (h : Lex cfg start r s) (h0 : start.rest = byte ';' :: r) (hn : NoEsc cfg r) (hc : c.point = ch ';') :
    wp E (handleDoubled cfg ';' .Semi .SemiSemi start c) s (OpPost start ';' r) := by
  unfold handleDoubled
  refine lex_assert (by simp [hc]) (lex_see h hn.first fun c t ht hl => ?_)
  op_if hl hx
  · op_last [';'], hx
  · op_end []


theorem lex_hash (h : Lex cfg start r s) (h0 : start.rest = byte '#' :: r) (hn : NoEsc cfg r) (hc : c.point = ch '#') :
    wp E (handleDoubled cfg '#' .Hash .HashHash start c) s (OpPost start '#' r) := by
  unfold handleDoubled
  refine lex_assert (by simp [hc]) (lex_see h hn.first fun c t ht hl => ?_)
  op_if hl hx
  · op_last ['#'], hx
  · op_end []


theorem lex_amp (h : Lex cfg start r s) (h0 : start.rest = byte '&' :: r) (hn : NoEsc cfg r) (hc : c.point = ch '&') :
    wp E (handleDoubled cfg '&' .Amp .AmpAmp start c) s (OpPost start '&' r) := by
  unfold handleDoubled
  refine lex_assert (by simp [hc]) (lex_see h hn.first fun c t ht hl => ?_)
  op_if hl hx
  · op_last ['&'], hx
  · op_end []


theorem lex_tilde (h : Lex cfg start r s) (h0 : start.rest = byte '~' :: r) (hn : NoEsc cfg r) (hc : c.point = ch '~') :
    wp E (handleDoubled cfg '~' .Tilde .TildeTilde start c) s (OpPost start '~' r) := by
  unfold handleDoubled
  refine lex_assert (by simp [hc]) (lex_see h hn.first fun c t ht hl => ?_)
  op_if hl hx
  · op_last ['~'], hx
  · op_end []


theorem lex_question (h : Lex cfg start r s) (h0 : start.rest = byte '?' :: r) (hn : NoEsc cfg r) (hc : c.point = ch '?') :
    wp E (handleDoubled cfg '?' .Question .QuestionQuestion start c) s (OpPost start '?' r) := by
  unfold handleDoubled
  refine lex_assert (by simp [hc]) (lex_see h hn.first fun c t ht hl => ?_)
  op_if hl hx
  · op_last ['?'], hx
  · op_end []


theorem lex_slash (h : Lex cfg start r s) (h0 : start.rest = byte '/' :: r) (hn : NoEsc cfg r) (hc : c.point = ch '/') :
    wp E (handleSlash cfg start c) s (OpPost start '/' r) := by
  unfold handleSlash
  refine lex_assert (by simp [hc]) (lex_see h hn.first fun c t ht hl => ?_)
  op_if hl hx
  · op_last ['@'], hx
  · op_if hl hx
    · op_last [';'], hx
    · op_if hl hx
      · obtain ⟨q, rfl⟩ := head_some hx
        refine lex_mark (lex_next ht (by decide) (by decide) (by decide) fun t ht' => ?_)
        refine lex_see ht' (hn.second _ _ rfl (by decide)) fun c t ht' hl => ?_
        refine wp_ite (fun hx => ?_) (fun hx => ?_)
        · have hx : ¬ startsWithDigit q := by rw [← hl.digit]; simpa using hx
          refine op_leaf ['.'] _ ht' h0 rfl (by decide) (by simpa using hx) ?_
          op_side
        · have hx : startsWithDigit q := by rw [← hl.digit]; simpa using hx
          refine lex_seek ht fun t ht => ?_
          op_end []
      · op_if hl hx
        · obtain ⟨q, rfl⟩ := head_some hx
          refine lex_next ht (by decide) (by decide) (by decide) fun t ht => ?_
          refine lex_see ht (hn.second _ _ rfl (by decide)) fun c t ht hl => ?_
          op_if hl hx
          · op_last ['/', '.'], hx
          · op_if hl hx
            · op_last ['/', '@'], hx
            · op_if hl hx
              · op_last ['/', '='], hx
              · op_end ['/']
        · op_if hl hx
          · op_last [':'], hx
          · op_if hl hx
            · op_last ['='], hx
            · op_if hl hx
              · op_last ['*'], hx
              · op_end []

theorem lex_dot {pol : Pol} (h : Lex cfg start r s) (h0 : start.rest = byte '.' :: r) (hn : NoEsc cfg r) (hc : c.point = ch '.')
    (hd : ¬ startsWithDigit r) : wp E (handleDot cfg pol start c) s (OpPost start '.' r) := by
  unfold handleDot
  refine lex_assert (by simp [hc]) (lex_see h hn.first fun c t ht hl => ?_)
  rw [if_neg (by rw [hl.digit]; exact hd)]
  op_if hl hx
  · obtain ⟨q, rfl⟩ := head_some hx
    refine lex_next ht (by decide) (by decide) (by decide) fun t ht => ?_
    refine lex_see ht (hn.second _ _ rfl (by decide)) fun c t ht hl => ?_
    op_if hl hx
    · op_last ['.', '.'], hx
    · op_end ['.']
  · op_end []

end

end CodeParser
