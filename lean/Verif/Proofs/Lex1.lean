import Verif.Proofs.TokenText
import Verif.Spec.Lex
/-!
Reading text written without escapes (helper lemmas): exact evaluation of the token
handlers, on bytes.
-/
namespace CodeParser
open Spec

/-- The reader went from `start` to `s`; ahead is `r`. -/
structure Lex (cfg : Cfg) (start : St) (r : List UInt8) (s : St) : Prop where
  wf0 : WF start
  wf : WF s
  path : ∃ cs, Path cfg start cs s
  rest : s.rest = r

/-- The character `c` is what can be read at `r`: it is not escaped, or not in ASCII. -/
inductive Look (r : List UInt8) (c : WLC) : Prop
  | plain (escape : c.escape = .none) (plain : ∃ r', Plain r c.point r')
  | beyond (head : r.head? = some (byte '\\')) (high : ∀ n, c.point = .char n → 0x80 ≤ n)

/-- What can be read at `r` is not escaped, or not in ASCII. -/
def Sees (cfg : Cfg) (r : List UInt8) : Prop :=
  ∀ s, WF s → s.rest = r → ∃ c t, nextC cfg s = .ok (c, t) ∧ Look r c

section
variable {cfg : Cfg} {start s t m : St} {r : List UInt8} {b : UInt8} {c : WLC} {E : Err → Prop}

theorem Lex.refl (h : WF s) (hr : s.rest = r) : Lex cfg s r s := ⟨h, h, ⟨[], .nil rfl rfl⟩, hr⟩

/-- Going back. -/
theorem Lex.seek (h : Lex cfg start r m) : Lex cfg start r (t.seek m) := by
  obtain ⟨h0, h1, ⟨cs, h2⟩, h3⟩ := h
  exact ⟨h0, h1, ⟨cs, h2.congr_right rfl rfl⟩, h3⟩

theorem Lex.source (h : Lex cfg start r s) (hne : r ≠ []) :
    Lex cfg start (nextSource cfg s).2.rest (nextSource cfg s).2 := by
  obtain ⟨h0, h1, ⟨cs, h2⟩, h3⟩ := h
  exact ⟨h0, WF_nextSource h1, ⟨_, h2.trans (.cons (by rw [h3]; exact hne) (.nil rfl rfl)) h0 h1⟩, rfl⟩

theorem lex_next {β} {f : WLC → M β} {Q : β → St → Prop} (h : Lex cfg start (b :: r) s)
    (hb : b.toNat < 0x80) (h92 : b ≠ byte '\\') (h13 : b.toNat ≠ 13)
    (hf : ∀ t, Lex cfg start r t → wp E (f ⟨.char b.toNat, .none⟩) t Q) :
    wp E (nextC cfg >>= f) s Q := by
  have hns := ns_byte (cfg := cfg) h.wf h.rest hb (fun h => absurd h h13)
  have hc := nextC_plain (cfg := cfg) h.wf (by rw [h.rest]; simpa using h92)
  have := hf (nextSource cfg s).2 (by
    have := h.source (by simp)
    rw [hns] at this ⊢
    exact this)
  unfold wp at this ⊢
  rw [bind_ok hc, hns]
  rw [hns] at this
  exact this

theorem sees_plain (h92 : r.head? ≠ some (byte '\\')) : Sees cfg r := by
  intro s hs hr
  have hp := plain_nextSource (cfg := cfg) hs
  rw [hr] at hp
  exact ⟨_, _, nextC_plain (cfg := cfg) hs (by rw [hr]; exact h92), .plain rfl ⟨_, hp⟩⟩

/-- Looking at the next character. -/
theorem lex_see {β} {f : WLC → M β} {Q : β → St → Prop} (h : Lex cfg start r s) (hr : Sees cfg r)
    (hf : ∀ c t, Lex cfg start r t → Look r c → wp E (f c) t Q) :
    wp E (curC cfg >>= f) s Q := by
  obtain ⟨c, t, hc, hl⟩ := hr s h.wf h.rest
  have := hf c (t.seek s) h.seek hl
  unfold wp at this ⊢
  have he : curC cfg s = .ok (c, t.seek s) := by
    unfold curC
    rw [bind_ok (rfl : M.mark s = .ok (s, s)), bind_ok hc]
    rfl
  rw [bind_ok he]
  exact this

theorem lex_cur {β} {f : WLC → M β} {Q : β → St → Prop} (h : Lex cfg start r s)
    (h92 : r.head? ≠ some (byte '\\'))
    (hf : ∀ c t, Lex cfg start r t → Look r c → wp E (f c) t Q) :
    wp E (curC cfg >>= f) s Q := lex_see h (sees_plain h92) hf

theorem lex_mark {β} {f : St → M β} {Q : β → St → Prop} (hf : wp E (f s) s Q) :
    wp E (M.mark >>= f) s Q := hf

theorem lex_seek {β} {f : Unit → M β} {Q : β → St → Prop} (h : Lex cfg start r m)
    (hf : ∀ t, Lex cfg start r t → wp E (f ()) t Q) : wp E (M.seek m >>= f) s Q :=
  wp_bind (wp_seek (hf _ h.seek))

theorem lex_assert {β} {f : Unit → M β} {Q : β → St → Prop} {x : Bool} (hx : x = true)
    (hf : wp E (f ()) s Q) : wp E (assertB x >>= f) s Q := by
  subst hx
  exact hf

theorem Lex.text {text : List UInt8} (h : Lex cfg start r s) (ht : start.rest = text ++ r) : between start s = text := by
  unfold between
  rw [ht, h.rest]
  simp

/-- The token of kind `k` and text `text`, followed by `after`. -/
structure Gives (s : St) (k : TK) (text rest : List UInt8) (x : Tok) (t : St) : Prop where
  kind : x.kind = k
  text_eq : x.text = text
  after : x.after = rest
  start : x.start = s.loc
  rest_eq : t.rest = rest

theorem lex_tok {k : TK} {text : List UInt8} (h : Lex cfg start r s) (ht : start.rest = text ++ r) :
    wp E (tok k start) s (Gives start k text r) := by
  obtain ⟨cs, hp⟩ := h.path
  have hle := hp.loc_le h.wf0
  have hspan : Span.new start.loc s.loc = some ⟨start.loc, s.loc⟩ := by
    revert hle
    generalize start.loc = a
    generalize s.loc = b
    unfold Span.new
    intro h
    rw [if_pos]
    cases a <;> cases b <;> simp_all [before, Loc.le] <;> omega
  unfold wp tok
  rw [hspan]
  exact ⟨rfl, h.text ht, h.rest, rfl, h.rest⟩

theorem lex_tokNext {k : TK} {text : List UInt8} (h : Lex cfg start (b :: r) s)
    (hb : b.toNat < 0x80) (h92 : b ≠ byte '\\') (h13 : b.toNat ≠ 13) (ht : start.rest = text ++ r) :
    wp E (tokNext cfg k start) s (Gives start k text r) := by
  unfold tokNext
  exact lex_next h hb h92 h13 fun t ht' => lex_tok ht' ht

/-! ### What can be seen -/

theorem Look.ch (h : Look r c) {x : Char} (hx : x.toNat < 0x80) (h13 : x.toNat ≠ 13) (h92 : byte x ≠ byte '\\' := by decide) :
    c.point = CodeParser.ch x ↔ r.head? = some (byte x) := by
  rcases h with ⟨-, r', hp⟩ | ⟨hh, hp⟩
  rotate_left
  · rw [hh]
    constructor
    · intro h
      have := hp _ h
      omega
    · intro h
      exact absurd (Option.some.inj h).symm h92
  generalize c.point = p at hp
  have hbx : (byte x).toNat = x.toNat := by unfold byte; simp; omega
  cases hp with
  | eof => simp [CodeParser.ch]
  | @ascii b _ h1 h2 =>
    simp only [CodeParser.ch, CP.char.injEq, List.head?_cons, Option.some.injEq]
    rw [← hbx]
    exact UInt8.toNat_inj
  | crlf =>
    simp only [CodeParser.ch, List.head?_cons, Option.some.injEq]
    refine ⟨fun h => (by cases h), fun h => ?_⟩
    rw [← hbx, ← h] at h13
    exact absurd rfl h13
  | @high pre _ _ h1 h2 h3 =>
    cases pre with
    | nil => exact absurd rfl h1
    | cons a pre =>
      have ha := h2 a List.mem_cons_self
      simp only [CodeParser.ch, List.cons_append, List.head?_cons, Option.some.injEq]
      constructor
      · intro h
        subst h
        rcases h3 with h3 | ⟨n, h3, hn⟩
        · simp [CP.isUnsafe] at h3
        · cases h3; omega
      · intro h
        rw [h] at ha
        omega

/-- The first byte satisfies the predicate. -/
def headIs (f : CP → Bool) : List UInt8 → Bool
  | [] => false
  | b :: _ => f (.char b.toNat)

/-- A predicate of characters that holds of no other characters than ASCII ones. -/
structure AsciiPred (f : CP → Bool) : Prop where
  eof : f .eof = false
  crlf : f .crlf = false
  cr : f (.char 13) = false
  high : ∀ n, 0x80 ≤ n → f (.char n) = false
  bad : ∀ p : CP, p.isUnsafe = true → f p = false
  other : ∀ p : CP, (∀ n, p = .char n → 0x80 ≤ n) → f p = false
  back : f (.char 92) = false

theorem Look.pred (h : Look r c) {f : CP → Bool} (hf : AsciiPred f) :
    f c.point = headIs f r := by
  rcases h with ⟨-, r', hp⟩ | ⟨hh, hp⟩
  rotate_left
  · cases r with
    | nil => cases hh
    | cons b r =>
      cases hh
      rw [hf.other _ hp]
      exact hf.back.symm
  generalize c.point = p at hp
  cases hp with
  | eof => exact hf.eof
  | ascii h1 h2 => rfl
  | crlf => rw [hf.crlf]; exact hf.cr.symm
  | @high pre _ _ h1 h2 h3 =>
    cases pre with
    | nil => exact absurd rfl h1
    | cons a pre =>
      have ha := h2 a List.mem_cons_self
      have e1 : f p = false := by
        rcases h3 with h3 | ⟨n, rfl, hn⟩
        · exact hf.bad _ h3
        · exact hf.high _ hn
      rw [e1]
      exact (hf.high _ ha).symm

theorem inR_high {a b n : Nat} (h : b < n) : inR a b n = false := by
  unfold inR; simp; omega

theorem asciiPred_digit : AsciiPred CP.isDigit where
  eof := rfl
  crlf := rfl
  cr := by decide
  high n h := inR_high (by omega)
  bad p h := by cases p <;> simp_all [CP.isUnsafe, CP.isDigit]
  other p h := by
    cases p
    case char n => have := h n rfl; simp [CP.isDigit, inR]; omega
    all_goals rfl
  back := by decide

theorem asciiPred_alnum : AsciiPred CP.isAlphaOrDigit where
  eof := rfl
  crlf := rfl
  cr := by decide
  high n h := by simp only [CP.isAlphaOrDigit]; rw [inR_high (by omega), inR_high (by omega), inR_high (by omega)]; rfl
  bad p h := by cases p <;> simp_all [CP.isUnsafe, CP.isAlphaOrDigit]
  other p h := by
    cases p
    case char n => have := h n rfl; simp [CP.isAlphaOrDigit, inR]; omega
    all_goals rfl
  back := by decide

theorem asciiPred_sign : AsciiPred CP.isSign where
  eof := rfl
  crlf := rfl
  cr := by decide
  high n h := by simp only [CP.isSign, Bool.or_eq_false_iff, beq_eq_false_iff_ne]; omega
  bad p h := by cases p <;> simp_all [CP.isUnsafe, CP.isSign]
  other p h := by
    cases p
    case char n => have := h n rfl; simp [CP.isSign, inR]; omega
    all_goals rfl
  back := by decide

theorem Look.digit (h : Look r c) : c.point.isDigit = true ↔ startsWithDigit r := by
  rw [h.pred asciiPred_digit]
  unfold startsWithDigit
  cases r with
  | nil => simp [headIs]
  | cons b q =>
    simp only [headIs, List.cons.injEq]
    constructor
    · intro h; exact ⟨b, q, ⟨rfl, rfl⟩, h⟩
    · rintro ⟨b', q', ⟨rfl, rfl⟩, h⟩; exact h

end

end CodeParser
