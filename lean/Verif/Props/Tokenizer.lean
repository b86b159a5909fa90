import Verif.Proofs.Token4
import Verif.Proofs.TokenText
/-!
Properties C08 (tokens), C17-C21, C23 (tokens), C24, C25, C44.
-/
namespace CodeParser.Props
open CodeParser Spec

/-! ### C17: losslessness -/

/-- C17.  The texts of the tokens, concatenated in order, are the input up to line
continuations at its very end.  (What is missing: those trailing line continuations, see
`C17_violated`.) -/
theorem C17_lossless_partial (cfg : Cfg) (conv : Conv) (bs : List UInt8) (ts : List Tok) (t : St)
    (h : tokens cfg conv .notScript bs = .ok (ts, t)) :
    ∃ tail, ts.flatMap Tok.text ++ tail = bs ∧ Continues tail [] := by
  have := tokens_notScript (cfg := cfg) conv bs
  rw [h] at this
  obtain ⟨c, hc, hb⟩ := this.tail
  exact ⟨t.rest, this.laid.text, hb.continues hc⟩

theorem Continues.form {r : List UInt8} (h : Continues r []) (hne : r ≠ []) :
    ∃ q, r = byte '\\' :: 10 :: q ∨ r = byte '\\' :: 13 :: q := by
  cases h with
  | nil => exact absurd rfl hne
  | @cons q r _ _ hq _ _ =>
    simp only [List.mem_cons, List.not_mem_nil, or_false] at hq
    rcases hq with rfl | rfl | rfl
    · exact ⟨r, Or.inl rfl⟩
    · exact ⟨r, Or.inr rfl⟩
    · exact ⟨_, Or.inr rfl⟩

/-- C17 in full for inputs without line continuations. -/
theorem C17_lossless (cfg : Cfg) (conv : Conv) (bs : List UInt8) (ts : List Tok) (t : St)
    (h : tokens cfg conv .notScript bs = .ok (ts, t))
    (hno : ∀ pre q, bs ≠ pre ++ byte '\\' :: 10 :: q ∧ bs ≠ pre ++ byte '\\' :: 13 :: q) :
    ts.flatMap Tok.text = bs := by
  obtain ⟨tail, h1, h2⟩ := C17_lossless_partial cfg conv bs ts t h
  by_cases hne : tail = []
  · rw [hne] at h1; simpa using h1
  · obtain ⟨q, hq | hq⟩ := Continues.form h2 hne
    · exact absurd (by rw [← h1, hq]) (hno (ts.flatMap Tok.text) q).1
    · exact absurd (by rw [← h1, hq]) (hno (ts.flatMap Tok.text) q).2

/-- C17 fails as stated: the line continuation at the end of `a\<newline>` is in no token. -/
theorem C17_violated : ∃ (bs : List UInt8) (ts : List Tok) (t : St),
    tokens Cfg.default .lineColumn .notScript bs = .ok (ts, t) ∧ ts.flatMap Tok.text ≠ bs := by
  have h : (match tokens Cfg.default .lineColumn .notScript [97, 92, 10] with
    | .ok (ts, _) => decide (ts.flatMap Tok.text ≠ [97, 92, 10])
    | .error _ => false) = true := by decide +kernel
  cases he : tokens Cfg.default .lineColumn .notScript [97, 92, 10] with
  | error e => rw [he] at h; cases h
  | ok p => rw [he] at h; exact ⟨_, p.1, p.2, he, by simpa using h⟩

/-- An input with several kinds of tokens, for the examples. -/
def sample : List UInt8 := bytes "f[x_, 1.5`3] (* (*c*) *)\n\"a\\\"b\"\\\n c\\[Alpha]->2^^101".toList

example : ((tokens Cfg.default .lineColumn .notScript sample).map (fun r => r.1.map (·.kind))) =
    .ok [.Symbol, .OpenSquare, .Symbol, .Under, .Comma, .Whitespace, .Real, .CloseSquare, .Whitespace,
      .Comment, .ToplevelNewline, .String, .Symbol, .MinusGreater, .Integer] := by decide +kernel

/-! ### C18: positions -/

/-- C18: the first token starts at the initial position; each token starts where the one
before it stops; and reading a token's text, in front of the texts of the later tokens,
moves the position from its start to its stop. -/
theorem C18_positions (cfg : Cfg) (conv : Conv) (bs : List UInt8) (ts : List Tok) (t : St)
    (h : tokens cfg conv .notScript bs = .ok (ts, t)) :
    (∀ k, ts.head? = some k → k.start = conv.start) ∧
    (∀ i (hi : i + 1 < ts.length), ts[i + 1].start = ts[i].stop) ∧
    (∃ tail, ∀ i (hi : i < ts.length),
      Moves cfg ts[i].text ((ts.drop (i + 1)).flatMap Tok.text ++ tail) ts[i].start ts[i].stop) := by
  have := tokens_notScript (cfg := cfg) conv bs
  rw [h] at this
  refine ⟨this.laid.start, this.laid.adjacent, t.rest, fun i hi => ?_⟩
  rw [← this.laid.after i hi]
  exact this.laid.moves _ (List.getElem_mem _)

example : ((tokens Cfg.default .lineColumn .notScript sample).map (fun r => r.1.map fun k => (k.start, k.stop))) =
    .ok [(.lineCol 1 1, .lineCol 1 2), (.lineCol 1 2, .lineCol 1 3), (.lineCol 1 3, .lineCol 1 4),
      (.lineCol 1 4, .lineCol 1 5), (.lineCol 1 5, .lineCol 1 6), (.lineCol 1 6, .lineCol 1 7),
      (.lineCol 1 7, .lineCol 1 12), (.lineCol 1 12, .lineCol 1 13), (.lineCol 1 13, .lineCol 1 14),
      (.lineCol 1 14, .lineCol 1 25), (.lineCol 1 25, .lineCol 2 1), (.lineCol 2 1, .lineCol 2 7),
      (.lineCol 2 7, .lineCol 3 11), (.lineCol 3 11, .lineCol 3 13), (.lineCol 3 13, .lineCol 3 19)] := by
  decide +kernel

/-! ### C19: termination and progress -/

/-- C19: tokenizing terminates (the model's loops never run out of fuel) and every token
has a text, so that there are at most as many tokens as bytes. -/
theorem C19_terminates (cfg : Cfg) (conv : Conv) (first : FirstLine) (bs : List UInt8) :
    tokens cfg conv first bs ≠ .error .fuel ∧
    ∀ ts t, tokens cfg conv first bs = .ok (ts, t) →
      (∀ k ∈ ts, k.text ≠ []) ∧ ts.length ≤ bs.length := by
  have := tokens_wp (cfg := cfg) conv first bs
  constructor
  · intro h; rw [h] at this; cases this.1
  · intro ts t h
    rw [h] at this
    obtain ⟨s, hR, hL⟩ := this
    have hne := hL.laid.nonempty
    refine ⟨hne, ?_⟩
    have h1 : s.rest.length ≤ bs.length := hR.len (WF_init conv bs)
    have h2 : ∀ ks : List Tok, (∀ k ∈ ks, k.text ≠ []) → ks.length ≤ (ks.flatMap Tok.text).length := by
      intro ks
      induction ks with
      | nil => simp
      | cons k ks ih =>
        intro h
        have := List.length_pos_iff.mpr (h k List.mem_cons_self)
        have := ih fun k hk => h k (List.mem_cons_of_mem _ hk)
        simp only [List.flatMap_cons, List.length_append, List.length_cons]; omega
    have := h2 ts hne
    have h3 : (ts.flatMap Tok.text ++ t.rest).length = s.rest.length := by rw [hL.laid.text]
    rw [List.length_append] at h3
    omega

/-! ### C20: comments nest -/

/-- C20: a text starting with `(*` is one comment token up to where the nesting depth
drops to zero, or one error token covering the rest of the input.  Reading it cannot
fail. -/
theorem C20_comment (cfg : Cfg) (pol : Pol) (insideGroup : Bool) (s : St) (r : List UInt8)
    (h0 : s.eof = false) (hs : s.rest = byte '(' :: byte '*' :: r) :
    ∃ k t, peekTokenWith cfg pol insideGroup s = .ok (k, t) ∧ k.text ++ k.after = s.rest ∧
      match commentEnd 1 r with
      | some after => k.kind = .Comment ∧ k.after = after
      | none => k.kind = .Error_UnterminatedComment ∧ k.after = [] := by
  have hwf : WF s := by intro h; rw [h0] at h; cases h
  have h1 := nextToken_comment (cfg := cfg) (pol := pol.inside insideGroup) hwf hs
  have h2 := peekTokenWith_wp (cfg := cfg) (pol := pol) (g := insideGroup) hwf
  unfold wp at h1
  cases hn : nextToken cfg (pol.inside insideGroup) s with
  | error e => rw [hn] at h1; exact h1.elim
  | ok p =>
    obtain ⟨k, t⟩ := p
    rw [hn] at h1
    obtain ⟨_, hk, hc⟩ := h1
    have hp := C08_peek_eq hn
    refine ⟨k, _, hp, (wp_ok h2 hp).split, ?_⟩
    have ha : k.after = t.rest := by rw [hk]; rfl
    unfold CommentIs at hc
    rw [ha]
    exact hc
where
  C08_peek_eq {cfg : Cfg} {pol : Pol} {g : Bool} {s t : St} {k : Tok}
      (hn : nextToken cfg (pol.inside g) s = .ok (k, t)) :
      peekTokenWith cfg pol g s = .ok (k, t.seek s) := by
    unfold peekTokenWith
    rw [bind_ok (rfl : M.mark s = .ok (s, s))]
    rw [bind_ok (show nextToken cfg { pol with toplevel := pol.toplevel && !g } s = _ from hn)]
    rfl

example : commentEnd 1 (bytes "a (* b *) c *) d".toList) = some (bytes " d".toList) := by decide +kernel
example : commentEnd 1 (bytes "a (* b *) c *".toList) = none := by decide +kernel
example : commentEnd 1 (bytes ") *) x".toList) = some (bytes " x".toList) := by decide +kernel

/-! ### C21: strings -/

/-- C21: a text starting with a double quote is one string token up to and including the
first double quote that is not escaped, or one error token covering the rest of the
input.  (It cannot fail except on the escape of a surrogate, C25.) -/
theorem C21_string (cfg : Cfg) (pol : Pol) (insideGroup : Bool) (s : St) (r : List UInt8)
    (h0 : s.eof = false) (hs : s.rest = byte '"' :: r) :
    (¬ HasSurrogateEscape r → ∃ k t, peekTokenWith cfg pol insideGroup s = .ok (k, t)) ∧
    ∀ k t, peekTokenWith cfg pol insideGroup s = .ok (k, t) →
      k.text ++ k.after = s.rest ∧
      match stringEnd r with
      | some after => k.kind = .String ∧ k.after = after
      | none => k.kind = .Error_UnterminatedString ∧ k.after = [] := by
  have hwf : WF s := by intro h; rw [h0] at h; cases h
  have h1 := nextToken_string (cfg := cfg) (pol := pol.inside insideGroup) hwf hs
  have h2 := peekTokenWith_wp (cfg := cfg) (pol := pol) (g := insideGroup) hwf
  constructor
  · intro hno
    unfold wp at h2
    cases hp : peekTokenWith cfg pol insideGroup s with
    | ok p => exact ⟨p.1, p.2, rfl⟩
    | error e =>
      rw [hp] at h2
      exfalso
      obtain ⟨_, pre, q, hq, hsur⟩ := h2
      rw [hs] at hq
      cases pre with
      | nil => simp [byte] at hq
      | cons b pre =>
        simp only [List.cons_append, List.cons.injEq] at hq
        exact hno ⟨pre, q, hq.2, hsur⟩
  · intro k t hp
    refine ⟨(wp_ok h2 hp).split, ?_⟩
    unfold wp at h1
    cases hn : nextToken cfg (pol.inside insideGroup) s with
    | error e =>
      exfalso
      have : peekTokenWith cfg pol insideGroup s = .error e := by
        unfold peekTokenWith
        rw [bind_ok (rfl : M.mark s = .ok (s, s))]
        show M.bind _ _ s = _
        unfold M.bind
        rw [show nextToken cfg { pol with toplevel := pol.toplevel && !insideGroup } s = _ from hn]
      rw [this] at hp; cases hp
    | ok p =>
      obtain ⟨k', t'⟩ := p
      rw [hn] at h1
      obtain ⟨_, hk, hc⟩ := h1
      have := C20_comment.C08_peek_eq hn
      rw [this] at hp
      cases hp
      have ha : k.after = t'.rest := by rw [hk]; rfl
      unfold StringIs at hc
      rw [ha]
      exact hc

example : stringEnd (bytes "a\\\"b\\\\\"c".toList) = some (bytes "c".toList) := by decide +kernel
example : stringEnd (bytes "a\\\"b".toList) = none := by decide +kernel

/-! ### C23: newlines -/

/-- C23 for tokens: in front of a line terminator the token is one newline token, which
is top-level exactly outside groups; and no other token has these kinds. -/
theorem C23_newline_tokens (cfg : Cfg) (insideGroup : Bool) (s : St) (h0 : s.eof = false)
    (k : Tok) (t : St) (h : peekToken cfg insideGroup s = .ok (k, t)) :
    ((s.rest.head? = some 10 ∨ s.rest.head? = some 13) →
      k.kind = (if insideGroup then .InternalNewline else .ToplevelNewline) ∧
      (k.text = s.rest.take 1 ∨ k.text = [13, 10])) ∧
    (k.kind = .ToplevelNewline → insideGroup = false) ∧
    (k.kind = .InternalNewline → insideGroup = true) := by
  have hwf : WF s := by
    intro h; rw [h0] at h; cases h
  have h2 := wp_ok (peekTokenWith_wp (cfg := cfg) (pol := Pol.top) (g := insideGroup) hwf) h
  refine ⟨fun hh => ?_, fun hk => ?_, fun hk => ?_⟩
  · obtain ⟨u, hn, hr⟩ := nextToken_newline (cfg := cfg) (pol := Pol.top.inside insideGroup) hwf hh
    have := C20_comment.C08_peek_eq hn
    have h' : peekTokenWith cfg Pol.top insideGroup s = .ok (k, t) := h
    rw [this] at h'
    cases h'
    refine ⟨by cases insideGroup <;> rfl, ?_⟩
    show between s u = _ ∨ between s u = _
    unfold between
    rcases hr with hr | ⟨hr, h13⟩
    · left
      rw [hr]
      cases hx : s.rest with
      | nil => simp
      | cons b r => simp
    · right
      rw [hr, ← h13]
      have : 2 ≤ s.rest.length := by
        have := congrArg List.length h13
        simp at this; omega
      congr 1
      simp; omega
  · have := h2.kind
    rw [hk] at this
    rcases this with h | h
    · cases h
    · cases insideGroup
      · rfl
      · exact absurd h (by decide)
  · have := h2.kind
    rw [hk] at this
    rcases this with h | h
    · cases h
    · cases insideGroup
      · exact absurd h (by decide)
      · rfl

example : ((peekToken Cfg.default true (St.init .lineColumn [13, 10, 97])).map fun r => (r.1.kind, r.1.text)) =
    .ok (.InternalNewline, [13, 10]) := by decide +kernel

/-! ### C25: panics -/

/-- C25.  The only way tokenizing can fail is the panic on the numeric escape of a
surrogate; without one, it succeeds. -/
theorem C25_tokens_partial (cfg : Cfg) (conv : Conv) (first : FirstLine) (bs : List UInt8) :
    (∀ e, tokens cfg conv first bs = .error e → e = .panic .surrogate ∧ HasSurrogateEscape bs) ∧
    (¬ HasSurrogateEscape bs → ∃ ts t, tokens cfg conv first bs = .ok (ts, t)) := by
  have := tokens_wp (cfg := cfg) conv first bs
  cases h : tokens cfg conv first bs with
  | error e =>
    rw [h] at this
    exact ⟨fun _ he => (by cases he; exact this), fun hn => absurd this.2 hn⟩
  | ok p => exact ⟨fun _ he => (by cases he), fun _ => ⟨p.1, p.2, rfl⟩⟩

/-- C25 fails as stated: tokenizing the six characters of `\:d800` panics. -/
theorem C25_surrogate_panics (conv : Conv) (first : FirstLine) :
    tokens Cfg.default conv first (bytes "\\:d800".toList) = .error (.panic .surrogate) := by
  cases conv <;> cases first <;> exact eq_of_isError (by decide +kernel)
where
  eq_of_isError {α} {r : Except Err α} (h : (match r with | .error (.panic .surrogate) => true | _ => false) = true) :
      r = .error (.panic .surrogate) := by
    split at h <;> simp_all

/-! ### C44: encoding errors -/

/-- C44: when tokenizing ends, an encoding error has been recorded if and only if the
input is not UTF-8 or contains a byte order mark, also for the bytes of a skipped first
line, of line continuations and of characters looked at in advance. -/
theorem C44_encoding_error (cfg : Cfg) (conv : Conv) (first : FirstLine) (bs : List UInt8)
    (ts : List Tok) (t : St) (h : tokens cfg conv first bs = .ok (ts, t)) :
    t.flag ≠ none ↔ (¬ ValidUTF8 bs ∨ ∃ cs, bs = encode cs ∧ BOM ∈ cs) := by
  have := tokens_wp (cfg := cfg) conv first bs
  rw [h] at this
  obtain ⟨s, hR, hL⟩ := this
  obtain ⟨v, hv, hr, hf⟩ := hL.done
  rw [← hf]
  exact (R.trans (WF_init conv bs) hR hv).flag_iff hr

example : ((tokens Cfg.default .lineColumn .notScript [97, 0xc3, 0x28]).map fun r => (r.1.map (·.kind), r.2.flag != none)) =
    .ok ([.Symbol, .Error_UnsafeCharacterEncoding, .OpenParen], true) := by decide +kernel

/-! ### C24: script first lines -/

/-- C24, first part: with `NotScript` nothing is skipped (together with C17: every byte
is in a token or in a trailing line continuation). -/
theorem C24_not_script (cfg : Cfg) (s : St) : handleFirstLine cfg .notScript s = .ok ((), s) := rfl

/-- C24: whatever the first line behaviour, what is skipped is one stretch at the
beginning of the input; the tokens cover everything behind it, and the first of them
starts at the position reached by reading the skipped stretch. -/
theorem C24_skips_prefix (cfg : Cfg) (conv : Conv) (first : FirstLine) (bs : List UInt8)
    (ts : List Tok) (t : St) (h : tokens cfg conv first bs = .ok (ts, t)) :
    ∃ pre tail l, pre ++ (ts.flatMap Tok.text ++ tail) = bs ∧ Continues tail [] ∧
      Moves cfg pre (ts.flatMap Tok.text ++ tail) conv.start l ∧
      (∀ k, ts.head? = some k → k.start = l) := by
  have := tokens_wp (cfg := cfg) conv first bs
  rw [h] at this
  obtain ⟨s, hR, hL⟩ := this
  obtain ⟨c, hc, hb⟩ := hL.tail
  have hw := WF_init conv bs
  obtain ⟨pre, hp⟩ := hR.suffix hw
  obtain ⟨cs, hpath, _⟩ := hR.path
  have ht := hL.laid.text
  have hp' : bs = pre ++ s.rest := hp
  refine ⟨pre, t.rest, s.loc, by rw [ht, hp'], hb.continues hc, ?_, hL.laid.start⟩
  rw [ht]
  have := hpath.moves (s' := ⟨pre ++ s.rest, conv.start, false, none⟩) hw (by intro h; cases h) hp.symm rfl
  refine ⟨cs.length, ?_, this.2.1, this.2.2.1, this.2.2.2.1⟩
  have h1 := this.1
  rw [hp] at h1
  exact List.append_cancel_right h1

/-! ### C08 for tokens -/

/-- Peeking with `peek` shows what reading with `next` reads and does not move. -/
def PeeksLike {α} (peek next : M α) : Prop := ∀ s,
  match next s with
  | .error e => peek s = .error e
  | .ok (k, t) => ∃ u, peek s = .ok (k, u) ∧ SameAt u s ∧
      (∃ u', peek u = .ok (k, u') ∧ SameAt u' s) ∧ (∃ t', next u = .ok (k, t') ∧ SameAt t' t)

theorem peeksLike {α} {m : M α} (h : MSim Eq m m) :
    PeeksLike (do let mark ← M.mark; let t ← m; M.seek mark; pure t) m := by
  intro s
  have hpe : ∀ s, (do let mark ← M.mark; let t ← m; M.seek mark; pure t : M α) s =
      match m s with
      | .ok (c, t) => .ok (c, t.seek s)
      | .error e => .error e := by
    intro s
    show M.bind M.mark _ s = _
    unfold M.bind M.mark
    simp only
    show M.bind m _ s = _
    unfold M.bind
    cases m s with
    | error e => rfl
    | ok p => rfl
  cases hm : m s with
  | error e => simp only; rw [hpe, hm]
  | ok p =>
    obtain ⟨k, t⟩ := p
    have hsame : SameAt (t.seek s) s := ⟨rfl, rfl, rfl⟩
    obtain ⟨t', h1, h2⟩ := h.ok hsame.symm hm
    refine ⟨t.seek s, by rw [hpe, hm], hsame, ⟨t'.seek (t.seek s), by rw [hpe, h1], ⟨rfl, rfl, rfl⟩⟩, t', h1, h2.symm⟩

/-- C08 for tokens: peeking at the next token, under every policy, inside and outside
groups, as a tag or as a file name, returns what reading it would return and does not
move; peeking again gives the same token. -/
theorem C08_peek_token (cfg : Cfg) (pol : Pol) (insideGroup : Bool) :
    PeeksLike (peekTokenWith cfg pol insideGroup)
      (nextToken cfg { pol with toplevel := pol.toplevel && !insideGroup }) ∧
    PeeksLike (peekTokenTag cfg) (nextTokenTag cfg) ∧
    PeeksLike (peekTokenFile cfg) (nextTokenFile cfg) :=
  ⟨peeksLike nextToken_sim, peeksLike nextTokenTag_sim, peeksLike nextTokenFile_sim⟩

/-- C08 for tokens: skipping a peeked token has the effect of reading it. -/
theorem C08_skip_token (cfg : Cfg) (conv : Conv) (bs : List UInt8) (s : St) (h : Position cfg conv bs s)
    (pol : Pol) (k : Tok) (t : St) (hn : nextToken cfg pol s = .ok (k, t)) :
    ∃ u, k.skip (t.seek s) = .ok ((), u) ∧ u.rest = t.rest ∧ u.loc = t.loc ∧ u.flag = t.flag := by
  have := wp_ok (nextToken_wp (cfg := cfg) (pol := pol) h.wf) hn
  refine ⟨_, rfl, ?_⟩
  cases this with
  | token h _ => rw [h.shape]; exact ⟨rfl, rfl, rfl⟩
  | eof _ h _ _ _ => rw [h]; exact ⟨rfl, rfl, rfl⟩

end CodeParser.Props
