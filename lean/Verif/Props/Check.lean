import Verif.Proofs.Check12
/-!
Property theorems about reading and tokenizing with issues (C62-C65).

`Chk.tokens E` is tokenizing with the options `check_issues` and `compute_oob` of `E`,
`CodeParser.tokens` is tokenizing without both.
-/
namespace CodeParser.Props
open CodeParser.Spec
open CodeParser.Chk (Env Ev Fail)

/-- A session with the default options, as far as they concern the reader (lib.rs:292-305). -/
def checking : Env := { cfg := .default, check := true, oob := true, normal := true, dist := fun _ _ => 3 }

/-- Operators that run into each other, an escape that is none, a line continuation, a string over two
lines, and a byte that is not UTF-8. -/
def flawed : List UInt8 := bytes "a++=\\q \\\n1 \"b\nc\" ".toList ++ [0xff, 0x2f]

example : ((Chk.tokens checking .lineColumn .notScript flawed).map fun r => r.1.map (·.kind)) =
    .ok [.Symbol, .PlusPlus, .Equal, .Error_UnhandledCharacter, .Whitespace, .Integer, .Whitespace, .String, .Whitespace,
      .Error_UnsafeCharacterEncoding, .Slash] := by decide +kernel

/-! ### C62: looking for issues does not change the tokens -/

/-- C62: whatever the options, tokenizing with issues and tracked locations gives the tokens that
tokenizing without them gives, and ends at the same place with an encoding error in the same cases; it
fails exactly if tokenizing without them fails, with the same failure. -/
theorem C62_tokens (E : Env) (conv : Conv) (first : FirstLine) (bs : List UInt8) :
    (∀ ts t, tokens E.cfg conv first bs = .ok (ts, t) →
      ∃ t' es, Chk.tokens E conv first bs = .ok (ts, t', es) ∧ t'.rest = t.rest ∧ t'.loc = t.loc ∧
        (t'.flag ≠ none ↔ t.flag ≠ none)) ∧
    ∀ e, tokens E.cfg conv first bs = .error e → Chk.tokens E conv first bs = .error (.base e) := by
  have h := Chk.tokens_out (E := E) conv first bs
  constructor
  · intro ts t ht
    rw [ht] at h
    obtain ⟨t', es, h1, h2, h3, -⟩ := h
    refine ⟨t', es, h1, h2.same.rest.symm, h2.same.loc.symm, fun hf => ?_, h2.flag⟩
    exact (C44_encoding_error E.cfg conv first bs ts t ht).mpr (h3.flag hf)
  · intro e ht
    rw [ht] at h
    exact h

/-- The other direction of C62: what tokenizing with issues gives, tokenizing without issues gives. -/
theorem C62_only (E : Env) (conv : Conv) (first : FirstLine) (bs : List UInt8) (ts : List Tok) (t' : St) (es : List Ev)
    (h : Chk.tokens E conv first bs = .ok (ts, t', es)) : ∃ t, tokens E.cfg conv first bs = .ok (ts, t) := by
  have := C62_tokens E conv first bs
  rcases hb : tokens E.cfg conv first bs with e | ⟨us, t⟩
  · rw [this.2 e hb] at h; cases h
  · obtain ⟨u, fs, h1, -⟩ := this.1 us t hb
    rw [h] at h1
    cases h1
    exact ⟨t, rfl⟩

/-- The kinds of the tokens behind which the code that looks for issues looks at one more character. -/
def looksAhead (k : TK) : Prop := k = .UnderDot ∨ k = .MinusMinus ∨ k = .BarGreater ∨ k = .PlusPlus

/-- C62 for a single token, as the parser asks for it: at any place of any text, with any policy, looking
at the next token with issues gives the token that looking at it without issues gives and leaves the
place as it is.  It fails if looking without issues fails; otherwise it only fails if the token is one of
four operators and if, without issues, no token at all can be read behind it. -/
theorem C62_peek (E : Env) (pol : Pol) (g : Bool) (rest : List UInt8) (loc : Loc) (flag : Option Unsafe)
    (hl : ∀ l c, loc = .lineCol l c → 0 < c) :
    let s : St := ⟨rest, loc, false, flag⟩
    (∀ e, peekTokenWith E.cfg pol g s = .error e → Chk.peekTokenWith E pol g s = .error (.base e)) ∧
    ∀ k t, peekTokenWith E.cfg pol g s = .ok (k, t) →
      (∃ t' es, Chk.peekTokenWith E pol g s = .ok (k, t', es) ∧ t'.rest = rest ∧ t'.loc = loc) ∨
      looksAhead k.kind ∧ ∃ e, Chk.peekTokenWith E pol g s = .error (.base e) ∧
        ∀ pol' g' flag', peekTokenWith E.cfg pol' g' ⟨k.after, k.stop, false, flag'⟩ = .error e := by
  intro s
  have hp : Chk.Pos E.cfg s s := by
    refine .refl (by intro h; cases h) ?_
    show Chk.ColOK loc
    cases loc with
    | index i => trivial
    | lineCol l c => exact hl l c rfl
  have h := Chk.peek_out (pol := pol) (g := g) (.refl s) hp
  constructor
  · intro e he
    rw [he] at h
    rcases h2 : Chk.peekTokenWith E pol g s with f | ⟨k', t', es⟩ <;> rw [h2] at h
    · exact congrArg _ h
    · exact h.elim
  · intro k t he
    rw [he] at h
    rcases h2 : Chk.peekTokenWith E pol g s with f | ⟨k', t', es⟩ <;> rw [h2] at h
    · right
      obtain ⟨hk, e, hn, rfl⟩ := h
      refine ⟨hk, e, rfl, fun pol' g' flag' => ?_⟩
      have hs : SameAt (k.skipSt t) ⟨k.after, k.stop, false, flag'⟩ := by
        refine ⟨rfl, rfl, ?_⟩
        show (k.kind == .EndOfFile) = false
        rcases hk with h | h | h | h <;> rw [h] <;> rfl
      have h1 := Chk.nextC_same hs hn
      rw [Chk.peek_base]
      have : nextToken E.cfg (pol'.inside g') ⟨k.after, k.stop, false, flag'⟩ = .error e := by
        unfold nextToken
        show M.bind (nextC E.cfg) _ _ = _
        unfold M.bind
        rw [h1]
      rw [this]
    · left
      obtain ⟨rfl, -, -, -⟩ := h
      refine ⟨t', es, rfl, ?_⟩
      rw [Chk.peek_chk] at h2
      rcases h3 : Chk.nextToken E (pol.inside g) s with f | ⟨a, b, c⟩ <;> rw [h3] at h2
      · cases h2
      · cases h2
        exact ⟨rfl, rfl⟩

/-- C62 for the tokens behind `::`, `>>` and `<<`: looking at the next tag or file name with issues does
what looking at it without issues does. -/
theorem C62_peek_name (E : Env) (rest : List UInt8) (loc : Loc) (flag : Option Unsafe)
    (hl : ∀ l c, loc = .lineCol l c → 0 < c) :
    let s : St := ⟨rest, loc, false, flag⟩
    (∀ e, peekTokenTag E.cfg s = .error e → Chk.peekTokenTag E s = .error (.base e)) ∧
    (∀ k t, peekTokenTag E.cfg s = .ok (k, t) →
      ∃ t' es, Chk.peekTokenTag E s = .ok (k, t', es) ∧ t'.rest = rest ∧ t'.loc = loc) ∧
    (∀ e, peekTokenFile E.cfg s = .error e → Chk.peekTokenFile E s = .error (.base e)) ∧
    ∀ k t, peekTokenFile E.cfg s = .ok (k, t) →
      ∃ t' es, Chk.peekTokenFile E s = .ok (k, t', es) ∧ t'.rest = rest ∧ t'.loc = loc := by
  intro s
  have hp : Chk.Pos E.cfg s s := by
    refine .refl (by intro h; cases h) ?_
    show Chk.ColOK loc
    cases loc with
    | index i => trivial
    | lineCol l c => exact hl l c rfl
  have h1 := Chk.peekTag_out (E := E) (.refl s) hp
  have h2 := Chk.peekFile_out (E := E) (.refl s) hp
  refine ⟨fun e he => ?_, fun k t he => ?_, fun e he => ?_, fun k t he => ?_⟩
  · rw [he] at h1
    rcases h3 : Chk.peekTokenTag E s with f | ⟨k', t', es⟩ <;> rw [h3] at h1
    · exact congrArg _ h1
    · exact h1.elim
  · rw [he] at h1
    rcases h3 : Chk.peekTokenTag E s with f | ⟨k', t', es⟩ <;> rw [h3] at h1
    · exact h1.elim
    · obtain ⟨rfl, -⟩ := h1
      refine ⟨t', es, rfl, ?_⟩
      rw [Chk.peekTag_chk] at h3
      rcases h4 : Chk.nextTokenTag E s with f | ⟨a, b, c⟩ <;> rw [h4] at h3
      · cases h3
      · cases h3
        exact ⟨rfl, rfl⟩
  · rw [he] at h2
    rcases h3 : Chk.peekTokenFile E s with f | ⟨k', t', es⟩ <;> rw [h3] at h2
    · exact congrArg _ h2
    · exact h2.elim
  · rw [he] at h2
    rcases h3 : Chk.peekTokenFile E s with f | ⟨k', t', es⟩ <;> rw [h3] at h2
    · exact h2.elim
    · obtain ⟨rfl, -⟩ := h2
      refine ⟨t', es, rfl, ?_⟩
      rw [Chk.peekFile_chk] at h3
      rcases h4 : Chk.nextTokenFile E s with f | ⟨a, b, c⟩ <;> rw [h4] at h3
      · cases h3
      · cases h3
        exact ⟨rfl, rfl⟩

example : ((tokens Cfg.default .lineColumn .notScript flawed).map fun r => r.1.map (·.kind)) =
    .ok [.Symbol, .PlusPlus, .Equal, .Error_UnhandledCharacter, .Whitespace, .Integer, .Whitespace, .String, .Whitespace,
      .Error_UnsafeCharacterEncoding, .Slash] := by decide +kernel

/-- The exception in `C62_peek`: the escape of a surrogate behind `++`. -/
example : (Chk.peekTokenWith checking Pol.top false ⟨bytes "++\\:d800".toList, .lineCol 1 1, false, none⟩).toOption.isNone ∧
    (peekTokenWith Cfg.default Pol.top false ⟨bytes "++\\:d800".toList, .lineCol 1 1, false, none⟩).toOption.isSome := by
  decide +kernel

/-! ### C63: issues and tracked locations are in the text -/

/-- C63: the spans of all issues and of all code actions offered for them cover pieces of the text. -/
theorem C63_issues (E : Env) (conv : Conv) (first : FirstLine) (bs : List UInt8) (ts : List Tok) (t : St) (es : List Ev)
    (h : Chk.tokens E conv first bs = .ok (ts, t, es)) (i : Chk.Report) (hi : .issue i ∈ es) :
    Piece E.cfg bs conv.start i.span ∧ ∀ a ∈ i.actions, Piece E.cfg bs conv.start a.span := by
  obtain ⟨u, hu⟩ := C62_only E conv first bs ts t es h
  have := Chk.tokens_out (E := E) conv first bs
  rw [hu] at this
  obtain ⟨t', es', h1, -, -, h2⟩ := this
  rw [h] at h1
  cases h1
  have := h2 _ hi
  exact ⟨this.1.piece, fun a ha => (this.2.1 a ha).piece⟩

/-- C63 for a single token, as the parser asks for it: at any place of any text, with any policy, the
spans of the issues and of their actions cover pieces of the rest of the text, and what is recorded is
recorded for the place at which the token starts. -/
theorem C63_peek (E : Env) (pol : Pol) (g : Bool) (rest : List UInt8) (loc : Loc) (flag : Option Unsafe)
    (hl : ∀ l c, loc = .lineCol l c → 0 < c) (k : Tok) (t : St) (es : List Ev)
    (h : Chk.peekTokenWith E pol g ⟨rest, loc, false, flag⟩ = .ok (k, t, es)) :
    (∀ i, .issue i ∈ es → Piece E.cfg rest loc i.span ∧ ∀ a ∈ i.actions, Piece E.cfg rest loc a.span) ∧
    ∀ e ∈ es, ∀ l, recorded e = some l → l = k.start := by
  have hp : Chk.Pos E.cfg ⟨rest, loc, false, flag⟩ ⟨rest, loc, false, flag⟩ := by
    refine .refl (by intro h; cases h) ?_
    show Chk.ColOK loc
    cases loc with
    | index i => trivial
    | lineCol l c => exact hl l c rfl
  have h1 := Chk.peek_out (pol := pol) (g := g) (.refl _) hp
  rw [h] at h1
  rcases h2 : peekTokenWith E.cfg pol g ⟨rest, loc, false, flag⟩ with f | ⟨k', t'⟩ <;> rw [h2] at h1
  · exact h1.elim
  · obtain ⟨rfl, h3, h4, h5⟩ := h1
    obtain ⟨h6, -⟩ := Chk.peek_skip (.refl _) hp h2 h
    refine ⟨fun i hi => ⟨(h5 _ hi).1.piece, fun a ha => ((h5 _ hi).2.1 a ha).piece⟩, fun e he l hl => ?_⟩
    have := h5 e he
    rw [h6]
    cases e with
    | issue i => cases hl
    | _ => cases hl; exact this

/-- C63: every location that is recorded is one of the text. -/
theorem C63_recorded (E : Env) (conv : Conv) (first : FirstLine) (bs : List UInt8) (ts : List Tok) (t : St) (es : List Ev)
    (h : Chk.tokens E conv first bs = .ok (ts, t, es)) (e : Ev) (he : e ∈ es) (l : Loc) (hl : recorded e = some l) :
    Within E.cfg bs conv.start l := by
  obtain ⟨u, hu⟩ := C62_only E conv first bs ts t es h
  have := Chk.tokens_out (E := E) conv first bs
  rw [hu] at this
  obtain ⟨t', es', h1, -, -, h2⟩ := this
  rw [h] at h1
  cases h1
  have := h2 _ he
  cases e with
  | issue i => cases hl
  | _ => cases hl; exact Chk.Spot.within this

/-- C63: if no first line is left out, every location that is recorded is the start of a token, or the
place behind all tokens. -/
theorem C63_starts (E : Env) (conv : Conv) (bs : List UInt8) (ts : List Tok) (t : St) (es : List Ev)
    (h : Chk.tokens E conv .notScript bs = .ok (ts, t, es)) (e : Ev) (he : e ∈ es) (l : Loc) (hl : recorded e = some l) :
    (∃ k ∈ ts, k.start = l) ∨ l = t.loc := by
  have h0 := Chk.tokenLoop_out (E := E) (.refl _) (Chk.init_pos E.cfg conv bs)
  have h1 : Chk.tokens E conv .notScript bs = Chk.tokenLoop E (St.init conv bs) := by
    unfold Chk.tokens
    show Chk.M.bind (Chk.M.pure ()) (fun _ => Chk.tokenLoop E) _ = _
    unfold Chk.M.bind Chk.M.pure
    simp only
    rcases Chk.tokenLoop E (St.init conv bs) with e | ⟨b, u, fs⟩ <;> rfl
  rw [h1] at h
  rw [h] at h0
  rcases h2 : tokenLoop E.cfg (St.init conv bs) with f | ⟨us, u⟩ <;> rw [h2] at h0
  · exact h0.elim
  · obtain ⟨rfl, h3, -, -, h4⟩ := h0
    have := h4 e he
    have key : Chk.Starts us u l := by
      cases e with
      | issue i => cases hl
      | _ => cases hl; exact this.1
    rcases key with h | h
    · exact .inl h
    · exact .inr (by rw [h, h3.same.loc])

/-- What is reported and recorded about `flawed`, without repetitions. -/
example : ((Chk.tokens checking .lineColumn .notScript flawed).map fun r => r.2.2.eraseDups) = .ok [
    .issue ⟨.fmt, .ambiguous, .formatting, ⟨.lineCol 1 4, .lineCol 1 4⟩, 100, [.insert ⟨.lineCol 1 4, .lineCol 1 4⟩ [32]]⟩,
    .issue ⟨.syn, .unhandledCharacter, .fatal, ⟨.lineCol 1 5, .lineCol 1 7⟩, 100,
      [.replace ⟨.lineCol 1 5, .lineCol 1 7⟩ [92, 92, 113]]⟩,
    .simpleContinuation (.lineCol 1 8),
    .embeddedNewline (.lineCol 2 3),
    .issue ⟨.enc, .incompleteUTF8Sequence, .fatal, ⟨.lineCol 3 4, .lineCol 3 5⟩, 100, []⟩] := by decide +kernel

/-! ### C64: broken encodings are reported -/

/-- C64: if issues are looked for, a fatal issue about the encoding is reported exactly if the text is not
UTF-8 or contains a byte order mark, also for the bytes of a skipped first line, of comments and of line
continuations. -/
theorem C64_reported (E : Env) (hc : E.check = true) (conv : Conv) (first : FirstLine) (bs : List UInt8) (ts : List Tok) (t : St)
    (es : List Ev) (h : Chk.tokens E conv first bs = .ok (ts, t, es)) :
    (∃ e ∈ es, aboutEncoding e) ↔ (¬ ValidUTF8 bs ∨ ∃ cs, bs = encode cs ∧ BOM ∈ cs) := by
  obtain ⟨u, hu⟩ := C62_only E conv first bs ts t es h
  obtain ⟨t', es', h1, -, -, h2⟩ := (C62_tokens E conv first bs).1 ts u hu
  rw [h] at h1
  cases h1
  have h3 := Chk.tokens_o (Chk.encoding_law E) h
  rw [← C44_encoding_error E.cfg conv first bs ts u hu, ← h2]
  exact ⟨h3.2.1, h3.2.2 hc rfl⟩

/-- C64 for a single token, as the parser asks for it: if no encoding error has been recorded before and
one is recorded while looking at a token, it is reported; what is reported is recorded. -/
theorem C64_peek (E : Env) (hc : E.check = true) (pol : Pol) (g : Bool) (rest : List UInt8) (loc : Loc) (k : Tok) (t : St)
    (es : List Ev) (h : Chk.peekTokenWith E pol g ⟨rest, loc, false, none⟩ = .ok (k, t, es)) :
    (∃ e ∈ es, aboutEncoding e) ↔ t.flag ≠ none := by
  have h3 := Chk.peekTokenWith_o (Chk.encoding_law E) (Chk.Kin.refl E) _ _ _ _ h
  exact ⟨h3.2.1, h3.2.2 hc rfl⟩

/-! ### C65: issues and tracked locations only if asked for -/

/-- C65: without `check_issues` no issue is reported, without `compute_oob` nothing is recorded. -/
theorem C65_off (E : Env) (conv : Conv) (first : FirstLine) (bs : List UInt8) (ts : List Tok) (t : St) (es : List Ev)
    (h : Chk.tokens E conv first bs = .ok (ts, t, es)) :
    (E.check = false → ∀ i, .issue i ∉ es) ∧ (E.oob = false → ∀ e ∈ es, recorded e = none) := by
  have h3 := Chk.tokens_o (Chk.off_law E) h
  exact ⟨fun hc i hi => (h3 _ hi).1 hc rfl, fun ho e he => (h3 e he).2 ho⟩

/-- C65 for a single token, as the parser asks for it. -/
theorem C65_peek (E : Env) (pol : Pol) (g : Bool) (s : St) (k : Tok) (t : St) (es : List Ev)
    (h : Chk.peekTokenWith E pol g s = .ok (k, t, es)) :
    (E.check = false → ∀ i, .issue i ∉ es) ∧ (E.oob = false → ∀ e ∈ es, recorded e = none) := by
  have h3 := Chk.peekTokenWith_o (Chk.off_law E) (Chk.Kin.refl E) _ _ _ _ h
  exact ⟨fun hc i hi => (h3 _ hi).1 hc rfl, fun ho e he => (h3 e he).2 ho⟩

example : ((Chk.tokens { checking with check := false } .lineColumn .notScript flawed).map fun r => r.2.2.eraseDups) =
    .ok [.simpleContinuation (.lineCol 1 8), .embeddedNewline (.lineCol 2 3)] := by decide +kernel

end CodeParser.Props
