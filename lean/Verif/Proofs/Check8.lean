import Verif.Proofs.Check7
import Verif.Proofs.Token4
/-!
Helper lemmas about peeking at tokens with issues, and about whole runs.
-/
namespace CodeParser.Chk
open CodeParser (Bad Path WF SameAt MSim R)

section
variable {E : Env} {pol : Pol} {g : Bool} {s s' z : St}

theorem path_col {cfg : Cfg} {cs : List CP} {t : St} (h : Path cfg s cs t) : WF s → ColOK s.loc → ColOK t.loc := by
  induction h with
  | nil h1 h2 => intro _ h; rw [h2]; exact h
  | @cons s u cs hne hp ih =>
    intro hs hc
    refine ih (WF_nextSource hs) ?_
    rw [Props.loc_step _ s hs]; exact hc.upd

/-- A token after which the text cannot be read further, once it has been peeked at. -/
def StuckP (cfg : Cfg) (k : Tok) (u : St) (f : Fail) : Prop :=
  Peeking k.kind ∧ ∃ e, CodeParser.nextC cfg (k.skipSt u) = .error e ∧ f = .base e

theorem peek_base {cfg : Cfg} : CodeParser.peekTokenWith cfg pol g s = (match CodeParser.nextToken cfg (pol.inside g) s with
    | .ok (k, t) => .ok (k, t.seek s)
    | .error e => .error e) := by
  unfold CodeParser.peekTokenWith
  show CodeParser.M.bind (CodeParser.nextToken cfg (pol.inside g)) (fun c => CodeParser.M.bind (CodeParser.M.seek s) fun _ => pure c) s = _
  unfold CodeParser.M.bind
  rcases CodeParser.nextToken cfg (pol.inside g) s with e | ⟨c, t⟩ <;> rfl

theorem peek_chk : peekTokenWith E pol g s = (match nextToken E (pol.inside g) s with
    | .ok (k, t, es) => .ok (k, t.seek s, es)
    | .error e => .error e) := by
  unfold peekTokenWith
  rw [mark_run]
  show M.bind (nextToken E (pol.inside g)) (fun c => M.bind (M.seek s) fun _ => pure c) s = _
  unfold M.bind
  rcases nextToken E (pol.inside g) s with e | ⟨c, t, es⟩
  · rfl
  · show Except.ok (c, t.seek s, es ++ ([] ++ [])) = _
    simp

theorem nextC_same {cfg : Cfg} {t v : St} {e : Err} (h : SameAt t v) (hn : CodeParser.nextC cfg t = .error e) :
    CodeParser.nextC cfg v = .error e := by
  have := CodeParser.nextC_sim cfg t v h
  rw [hn] at this
  rcases hv : CodeParser.nextC cfg v with e' | ⟨a, u⟩ <;> rw [hv] at this
  · rw [this]
  · exact this.elim

theorem peek_out (hs : Near s s') (hp : Pos E.cfg s' s') :
    Out E.cfg (Is s') (StuckP E.cfg) s' Eq (CodeParser.peekTokenWith E.cfg pol g s) (peekTokenWith E pol g s') := by
  rw [peek_base, peek_chk]
  have h := nextToken_out (pol := pol.inside g) hs hp
  have hw := nextToken_wp (cfg := E.cfg) (pol := pol.inside g) (hs.wf hp.wf)
  unfold wp at hw
  rcases h1 : CodeParser.nextToken E.cfg (pol.inside g) s with e | ⟨k, t⟩ <;> rcases h2 : nextToken E (pol.inside g) s' with f | ⟨k', t', es⟩ <;>
    rw [h1, h2] at h <;> rw [h1] at hw
  · exact h
  · exact h.elim
  · obtain ⟨hk, ha, hst, e, hn, rfl⟩ := h
    refine ⟨hk, e, nextC_same ⟨ha.symm, hst.symm, ?_⟩ hn, rfl⟩
    have hne : k.kind ≠ .EndOfFile := by
      rcases hk with h | h | h | h <;> rw [h] <;> decide
    have hwf : WF t := by
      cases hw with
      | token h _ => exact h.reach.wf
      | eof h _ _ _ _ => exact h.wf
    have he := nextC_wp (cfg := E.cfg) hwf
    unfold wp at he
    rw [hn] at he
    obtain ⟨-, pre, r, hr, -⟩ := he
    have : t.eof = false := by
      cases hb : t.eof with
      | false => rfl
      | true =>
        have := hwf hb
        rw [this] at hr
        simp at hr
    rw [this]
    show false = (k.kind == .EndOfFile)
    cases hk' : (k.kind == .EndOfFile) with
    | false => rfl
    | true => exact absurd (eq_of_beq hk') hne
  · obtain ⟨rfl, h3, h4, h5⟩ := h
    exact ⟨rfl, h3.seek hs.same, hp.seek h4, h5⟩

/-- What is known when a token has been peeked at on both sides. -/
theorem peek_skip {k : Tok} {u u' : St} {es : List Ev} (hs : Near s s') (hp : Pos E.cfg s' s')
    (h1 : CodeParser.peekTokenWith E.cfg pol g s = .ok (k, u)) (h2 : peekTokenWith E pol g s' = .ok (k, u', es)) :
    k.start = s'.loc ∧ SameAt s u ∧ Near (k.skipSt u) (k.skipSt u') ∧ Pos E.cfg s' (k.skipSt u') := by
  have h := peek_out (pol := pol) (g := g) hs hp
  rw [h1, h2] at h
  obtain ⟨-, h3, h4, -⟩ := h
  have hw := peekTokenWith_wp (cfg := E.cfg) (pol := pol) (g := g) (hs.wf hp.wf)
  unfold wp at hw
  rw [h1] at hw
  refine ⟨hw.start.trans hs.same.loc, hw.same, ⟨⟨rfl, rfl, rfl⟩, h3.flag⟩, hp.wf, fun he => hw.skip.wf he, ?_, ?_, h4.blame⟩
  · obtain ⟨cs, hc, -⟩ := hw.skip.path
    exact ⟨cs, (hc.congr_left (hs.wf hp.wf) hp.wf hs.same.rest.symm hs.same.loc.symm).congr_right rfl rfl⟩
  · obtain ⟨cs, hc, -⟩ := hw.skip.path
    exact (path_col hc (hs.wf hp.wf) (by rw [hs.same.loc]; exact hp.col) : ColOK (k.skipSt u).loc)

theorem StuckP.peek {cfg : Cfg} {k : Tok} {u : St} {f : Fail} (h : StuckP cfg k u f) {pol' : Pol} {g' : Bool} :
    ∃ e, CodeParser.peekTokenWith cfg pol' g' (k.skipSt u) = .error e ∧ f = .base e := by
  obtain ⟨-, e, h1, h2⟩ := h
  refine ⟨e, ?_, h2⟩
  rw [peek_base]
  have : CodeParser.nextToken cfg (pol'.inside g') (k.skipSt u) = .error e := by
    unfold CodeParser.nextToken
    show CodeParser.M.bind (CodeParser.nextC cfg) _ (k.skipSt u) = _
    unfold CodeParser.M.bind
    rw [h1]
  rw [this]

theorem StuckP.kind {cfg : Cfg} {k : Tok} {u : St} {f : Fail} (h : StuckP cfg k u f) :
    k.kind ≠ .EndOfFile ∧ k.kind ≠ .Hash ∧ k.kind ≠ .Bang ∧ k.kind ≠ .ToplevelNewline := by
  rcases h.1 with h | h | h | h <;> rw [h] <;> decide

/-! ### The token loop -/

/-- The body of `tokenLoop` of Model/Tokenizer.lean. -/
def baseBody (cfg : Cfg) (ts : List Tok) : CodeParser.M (List Tok ⊕ List Tok) := do
  let t ← CodeParser.peekToken cfg false
  if t.kind = .EndOfFile then pure (.inr ts.reverse)
  else do
    t.skip
    pure (.inl (t :: ts))

/-- The body of `tokenLoop`. -/
def chkBody (E : Env) (ts : List Tok) : M (List Tok ⊕ List Tok) := do
  let t ← peekToken E false
  if t.kind = .EndOfFile then pure (.inr ts.reverse)
  else do
    M.lift t.skip
    pure (.inl (t :: ts))

theorem baseBody_run {cfg : Cfg} {ts : List Tok} : baseBody cfg ts s = (match CodeParser.peekToken cfg false s with
    | .ok (k, u) => if k.kind = .EndOfFile then .ok (.inr ts.reverse, u) else .ok (.inl (k :: ts), k.skipSt u)
    | .error e => .error e) := by
  unfold baseBody
  show CodeParser.M.bind _ _ s = _
  unfold CodeParser.M.bind
  rcases CodeParser.peekToken cfg false s with e | ⟨k, u⟩
  · rfl
  · simp only
    by_cases h : k.kind = .EndOfFile
    · rw [if_pos h, if_pos h]; rfl
    · rw [if_neg h, if_neg h]; rfl

theorem chkBody_run {ts : List Tok} : chkBody E ts s = (match peekToken E false s with
    | .ok (k, u, es) => if k.kind = .EndOfFile then .ok (.inr ts.reverse, u, es) else .ok (.inl (k :: ts), k.skipSt u, es)
    | .error e => .error e) := by
  unfold chkBody
  show M.bind _ _ s = _
  unfold M.bind
  rcases peekToken E false s with e | ⟨k, u, es⟩
  · rfl
  · simp only
    by_cases h : k.kind = .EndOfFile
    · rw [if_pos h, if_pos h]
      show Except.ok (_, u, es ++ []) = _
      simp
    · rw [if_neg h, if_neg h]
      show Except.ok (_, k.skipSt u, es ++ ([] ++ [])) = _
      simp

/-- Where tokens start, and where the last one ends. -/
def Starts (ts : List Tok) (t : St) (l : Loc) : Prop := (∃ k ∈ ts, k.start = l) ∨ l = t.loc

/-- A location in the text. -/
def Spot (cfg : Cfg) (z : St) (l : Loc) : Prop := ∃ p, Pos cfg z p ∧ l = p.loc

/-- How two runs of the token loop compare. -/
def OutL (cfg : Cfg) (z : St) (ts : List Tok) : Except Err (List Tok × St) → Except Fail (List Tok × St × List Ev) → Prop
  | .ok (a, t), .ok (a', t', es) => a = a' ∧ Near t t' ∧ Pos cfg z t' ∧ (∀ k ∈ ts, k ∈ a) ∧ ∀ e ∈ es, Placed cfg (.all fun l => Starts a t l ∧ Spot cfg z l) z e
  | .error e, .error e' => e' = .base e ∨ e = .fuel
  | .ok _, .error _ => False
  | .error _, .ok _ => False

theorem Placed.mono {cfg : Cfg} {T T' : Want} (h : ∀ l, T l → T' l) {e : Ev} (he : Placed cfg T z e)
    (hf : T'.full → T.full) : Placed cfg T' z e := by
  cases e <;> first
    | exact h _ he
    | exact ⟨he.1, he.2.1, fun h => he.2.2 (hf h)⟩

theorem Placed.mono' {cfg : Cfg} {P P' : Loc → Prop} (h : ∀ l, P l → P' l) {e : Ev} (he : Placed cfg (.all P) z e) : Placed cfg (.all P') z e :=
  Placed.mono (T := .all P) (T' := .all P') h he fun _ => trivial

theorem tokenLoop_outN (n : Nat) : ∀ (ts : List Tok) (s s' : St), Near s s' → Pos E.cfg z s' →
    OutL E.cfg z ts (CodeParser.M.loopN (baseBody E.cfg) n ts s) (M.loopN (chkBody E) n ts s') := by
  induction n with
  | zero => intro ts s s' _ _; exact .inl rfl
  | succ n ih =>
    intro ts s s' hs hp
    have h := peek_out (pol := Pol.top) (g := false) hs hp.self
    unfold CodeParser.M.loopN M.loopN
    rw [baseBody_run, chkBody_run]
    unfold CodeParser.peekToken peekToken
    rcases h1 : CodeParser.peekTokenWith E.cfg Pol.top false s with e | ⟨k, u⟩ <;>
      rcases h2 : peekTokenWith E Pol.top false s' with f | ⟨k', u', es⟩ <;> rw [h1, h2] at h
    · exact .inl h
    · exact h.elim
    · simp only
      rw [if_neg h.kind.1]
      simp only
      cases n with
      | zero => exact .inr rfl
      | succ n =>
        obtain ⟨e, h3, rfl⟩ := StuckP.peek (pol' := Pol.top) (g' := false) h
        have : CodeParser.M.loopN (baseBody E.cfg) (n + 1) (k :: ts) (k.skipSt u) = .error e := by
          unfold CodeParser.M.loopN
          rw [baseBody_run]
          unfold CodeParser.peekToken
          rw [h3]
        rw [this]
        exact .inl rfl
    · obtain ⟨rfl, h3, h4, h5⟩ := h
      obtain ⟨h6, h7, h8, h9⟩ := peek_skip hs hp.self h1 h2
      simp only
      by_cases hk : k.kind = .EndOfFile
      · rw [if_pos hk, if_pos hk]
        refine ⟨rfl, h3, hp.trans h4, fun k hk => List.mem_reverse.mpr hk, fun e he => ?_⟩
        refine ((h5 e he).up hp).mono' fun l hl => ⟨.inr ?_, s', hp, hl⟩
        rw [hl, ← h7.loc, hs.same.loc]
      · rw [if_neg hk, if_neg hk]
        simp only
        have := ih (k :: ts) _ _ h8 (hp.trans h9)
        rcases g1 : CodeParser.M.loopN (baseBody E.cfg) n (k :: ts) (k.skipSt u) with e | ⟨a, t⟩ <;>
          rcases g2 : M.loopN (chkBody E) n (k :: ts) (k.skipSt u') with f | ⟨a', t', fs⟩ <;> rw [g1, g2] at this
        · exact this
        · exact this.elim
        · exact this.elim
        · obtain ⟨rfl, i1, i2, i3, i4⟩ := this
          refine ⟨rfl, i1, i2, fun k hk => i3 k (List.mem_cons_of_mem _ hk), fun e he => ?_⟩
          rcases List.mem_append.mp he with he | he
          · refine ((h5 e he).up hp).mono' fun l hl => ⟨.inl ⟨k, i3 k List.mem_cons_self, ?_⟩, s', hp, hl⟩
            rw [hl, h6]
          · exact i4 e he

theorem tokenLoop_out (hs : Near s s') (hp : Pos E.cfg z s') :
    OutL E.cfg z [] (CodeParser.tokenLoop E.cfg s) (tokenLoop E s') := by
  have := tokenLoop_outN (E := E) (s'.rest.length + 2) [] s s' hs hp
  show OutL E.cfg z [] (CodeParser.M.loopN (baseBody E.cfg) (s.rest.length + 2) [] s) (M.loopN (chkBody E) (s'.rest.length + 2) [] s')
  rw [hs.same.rest]
  exact this

/-- Behind a token after which the text cannot be read, the token loop fails. -/
theorem StuckP.loop {cfg : Cfg} {k : Tok} {u : St} {f : Fail} (hs : WF s) (h : StuckP cfg k u f)
    (h1 : CodeParser.peekTokenWith cfg Pol.top false s = .ok (k, u)) : ∃ e, CodeParser.tokenLoop cfg u = .error e ∧ f = .base e := by
  have hw := peekTokenWith_wp (cfg := cfg) (pol := Pol.top) (g := false) hs
  unfold wp at hw
  rw [h1] at hw
  have h2 := CodeParser.nextToken_sim (cfg := cfg) (pol := Pol.top.inside false) s u hw.same
  rw [peek_base] at h1
  obtain ⟨e, h3, rfl⟩ := StuckP.peek (pol' := Pol.top) (g' := false) h
  have h4 : ∃ v, CodeParser.peekTokenWith cfg Pol.top false u = .ok (k, v) := by
    rw [peek_base]
    rcases g1 : CodeParser.nextToken cfg (Pol.top.inside false) s with e | ⟨a, t⟩ <;>
      rcases g2 : CodeParser.nextToken cfg (Pol.top.inside false) u with f | ⟨a', t'⟩ <;> rw [g1, g2] at h2 <;> rw [g1] at h1
    · cases h1
    · cases h1
    · exact h2.elim
    · injection h1 with h1
      injection h1 with h1 _
      subst h1
      have := h2.1
      subst this
      exact ⟨_, rfl⟩
  obtain ⟨v, h4⟩ := h4
  refine ⟨e, ?_, rfl⟩
  show CodeParser.M.loopN (baseBody cfg) (u.rest.length + 2) [] u = _
  unfold CodeParser.M.loopN
  rw [baseBody_run]
  unfold CodeParser.peekToken
  rw [h4]
  simp only
  rw [if_neg h.kind.1]
  simp only
  unfold CodeParser.M.loopN
  rw [baseBody_run]
  unfold CodeParser.peekToken
  have h5 := CodeParser.nextToken_sim (cfg := cfg) (pol := Pol.top.inside false) (k.skipSt u) (k.skipSt v) ⟨rfl, rfl, rfl⟩
  rw [peek_base] at h3 ⊢
  rcases g1 : CodeParser.nextToken cfg (Pol.top.inside false) (k.skipSt u) with e' | ⟨a, t⟩ <;>
    rcases g2 : CodeParser.nextToken cfg (Pol.top.inside false) (k.skipSt v) with f | ⟨a', t'⟩ <;> rw [g1, g2] at h5 <;> rw [g1] at h3
  · have : e' = f := h5
    subst this
    injection h3 with h3
    subst h3
    rfl
  · exact h5.elim
  · cases h3
  · cases h3

/-! ### The first line -/

/-- The body of the loop of `handleFirstLine` of Model/Tokenizer.lean. -/
def baseLine (cfg : Cfg) (_ : Unit) : CodeParser.M (Unit ⊕ Unit) := do
  let t ← CodeParser.peekToken cfg false
  if t.kind = .EndOfFile then pure (.inr ())
  else if t.kind = .ToplevelNewline then do
    t.skip
    pure (.inr ())
  else do
    t.skip
    pure (.inl ())

/-- The body of the loop of `handleFirstLine`. -/
def chkLine (E : Env) (_ : Unit) : M (Unit ⊕ Unit) := do
  let t ← peekToken E false
  if t.kind = .EndOfFile then pure (.inr ())
  else if t.kind = .ToplevelNewline then do
    M.lift t.skip
    pure (.inr ())
  else do
    M.lift t.skip
    pure (.inl ())

/-- How two computations compare: where the one with issues fails, the other fails now or in the token
loop. -/
def OutF {α : Type} (cfg : Cfg) (T : Want) (z : St) : Except Err (α × St) → Except Fail (α × St × List Ev) → Prop
  | .ok (a, t), .ok (a', t', es) => a = a' ∧ Near t t' ∧ Pos cfg z t' ∧ ∀ e ∈ es, Placed cfg T z e
  | .error e, .error e' => e' = .base e ∨ e = .fuel
  | .ok (_, t), .error e' => ∃ e, CodeParser.tokenLoop cfg t = .error e ∧ e' = .base e
  | .error _, .ok _ => False

theorem OutF.pure {α : Type} {T : Want} {a : α} (hs : Near s s') (hp : Pos E.cfg z s') :
    OutF E.cfg T z ((Pure.pure a : CodeParser.M α) s) ((Pure.pure a : M α) s') := ⟨rfl, hs, hp, fun _ h => by cases h⟩

/-- A token is looked at, and what is done next depends on it. -/
theorem OutF.peek {α : Type} {T : Want} {f : Tok → CodeParser.M α} {f' : Tok → M α} (hs : Near s s') (hp : Pos E.cfg z s')
    (hT : T s'.loc)
    (hd : ∀ k u e, CodeParser.peekToken E.cfg false s = .ok (k, u) → StuckP E.cfg k u (.base e) →
      (∃ e', f k u = .error e' ∧ (e = e' ∨ e' = .fuel)) ∨ ∃ a t, f k u = .ok (a, t) ∧ CodeParser.tokenLoop E.cfg t = .error e)
    (hf : ∀ k u u', k.start = s'.loc → Near u u' → Pos E.cfg z u' → Near (k.skipSt u) (k.skipSt u') → Pos E.cfg z (k.skipSt u') →
      OutF E.cfg T z (f k u) (f' k u')) :
    OutF E.cfg T z ((CodeParser.peekToken E.cfg false >>= f) s) ((peekToken E false >>= f') s') := by
  have h := peek_out (pol := Pol.top) (g := false) hs hp.self
  show OutF E.cfg T z (CodeParser.M.bind _ f s) (M.bind _ f' s')
  unfold CodeParser.M.bind M.bind
  unfold CodeParser.peekToken peekToken
  rcases h1 : CodeParser.peekTokenWith E.cfg Pol.top false s with e | ⟨k, u⟩ <;>
    rcases h2 : peekTokenWith E Pol.top false s' with e' | ⟨k', u', es⟩ <;> rw [h1, h2] at h
  · exact .inl h
  · exact h.elim
  · simp only
    obtain ⟨e, -, he⟩ := id h.2
    subst he
    rcases hd k u e h1 h with ⟨e2, g1, g2⟩ | ⟨a, t, g1, g2⟩
    · rw [g1]
      rcases g2 with rfl | rfl
      · exact .inl rfl
      · exact .inr rfl
    · rw [g1]
      exact ⟨e, g2, rfl⟩
  · obtain ⟨rfl, h3, h4, h5⟩ := h
    obtain ⟨h6, -, h8, h9⟩ := peek_skip hs hp.self h1 h2
    have := hf k u u' h6 h3 (hp.trans h4) h8 (hp.trans h9)
    simp only
    rcases g1 : f k u with e | ⟨a, t⟩ <;> rcases g2 : f' k u' with e' | ⟨a', t', fs⟩ <;> rw [g1, g2] at this
    · exact this
    · exact this.elim
    · exact this
    · obtain ⟨i1, i2, i3, i4⟩ := this
      refine ⟨i1, i2, i3, fun e he => ?_⟩
      rcases List.mem_append.mp he with he | he
      · exact ((h5 e he).up hp).mono (fun l hl => by cases hl; exact hT) fun _ => trivial
      · exact i4 e he

theorem skip_run {α : Type} {f : Unit → M α} {k : Tok} : (M.lift k.skip >>= f) s = f () (k.skipSt s) := by
  show M.bind (M.lift k.skip) f s = _
  have h : M.lift k.skip s = .ok ((), k.skipSt s, []) := rfl
  unfold M.bind
  rw [h]
  simp only
  rcases f () (k.skipSt s) with e | ⟨a, t, es⟩ <;> rfl

theorem baseLine_stuck {k : Tok} {u : St} {e : Err} (h : StuckP E.cfg k u (.base e)) : baseLine E.cfg () (k.skipSt u) = .error e := by
  obtain ⟨e', h1, h2⟩ := StuckP.peek (pol' := Pol.top) (g' := false) h
  injection h2 with h2
  subst h2
  unfold baseLine
  show CodeParser.M.bind _ _ _ = _
  unfold CodeParser.M.bind CodeParser.peekToken
  rw [h1]

/-- What follows on a token of the first line. -/
def baseRest (cfg : Cfg) (n : Nat) (k : Tok) : CodeParser.M Unit := fun u =>
  if k.kind = .EndOfFile then .ok ((), u) else if k.kind = .ToplevelNewline then .ok ((), k.skipSt u)
  else CodeParser.M.loopN (baseLine cfg) n () (k.skipSt u)

/-- What follows on a token of the first line. -/
def chkRest (E : Env) (n : Nat) (k : Tok) : M Unit := fun u =>
  if k.kind = .EndOfFile then .ok ((), u, []) else if k.kind = .ToplevelNewline then .ok ((), k.skipSt u, [])
  else M.loopN (chkLine E) n () (k.skipSt u)

theorem baseLine_run {cfg : Cfg} : baseLine cfg () s = (match CodeParser.peekToken cfg false s with
    | .ok (k, u) => if k.kind = .EndOfFile then .ok (.inr (), u) else
        if k.kind = .ToplevelNewline then .ok (.inr (), k.skipSt u) else .ok (.inl (), k.skipSt u)
    | .error e => .error e) := by
  unfold baseLine
  show CodeParser.M.bind _ _ s = _
  unfold CodeParser.M.bind
  rcases CodeParser.peekToken cfg false s with e | ⟨k, u⟩
  · rfl
  · simp only
    by_cases h1 : k.kind = .EndOfFile
    · rw [if_pos h1, if_pos h1]; rfl
    · rw [if_neg h1, if_neg h1]
      by_cases h2 : k.kind = .ToplevelNewline
      · rw [if_pos h2, if_pos h2]; rfl
      · rw [if_neg h2, if_neg h2]; rfl

theorem chkLine_run : chkLine E () s = (match peekToken E false s with
    | .ok (k, u, es) => if k.kind = .EndOfFile then .ok (.inr (), u, es) else
        if k.kind = .ToplevelNewline then .ok (.inr (), k.skipSt u, es) else .ok (.inl (), k.skipSt u, es)
    | .error e => .error e) := by
  unfold chkLine
  show M.bind _ _ s = _
  unfold M.bind
  rcases peekToken E false s with e | ⟨k, u, es⟩
  · rfl
  · simp only
    by_cases h1 : k.kind = .EndOfFile
    · rw [if_pos h1, if_pos h1]
      show Except.ok (_, u, es ++ []) = _
      simp
    · rw [if_neg h1, if_neg h1]
      by_cases h2 : k.kind = .ToplevelNewline
      · rw [if_pos h2, if_pos h2]
        show Except.ok (_, k.skipSt u, es ++ ([] ++ [])) = _
        simp
      · rw [if_neg h2, if_neg h2]
        show Except.ok (_, k.skipSt u, es ++ ([] ++ [])) = _
        simp

theorem baseLine_loop {cfg : Cfg} {n : Nat} :
    CodeParser.M.loopN (baseLine cfg) (n + 1) () s = (CodeParser.peekToken cfg false >>= baseRest cfg n) s := by
  unfold CodeParser.M.loopN
  rw [baseLine_run]
  show _ = CodeParser.M.bind _ _ s
  unfold CodeParser.M.bind baseRest
  rcases CodeParser.peekToken cfg false s with e | ⟨k, u⟩
  · rfl
  · simp only
    by_cases h1 : k.kind = .EndOfFile
    · rw [if_pos h1, if_pos h1]
    · rw [if_neg h1, if_neg h1]
      by_cases h2 : k.kind = .ToplevelNewline
      · rw [if_pos h2, if_pos h2]
      · rw [if_neg h2, if_neg h2]

theorem chkLine_loop {n : Nat} : M.loopN (chkLine E) (n + 1) () s = (peekToken E false >>= chkRest E n) s := by
  unfold M.loopN
  rw [chkLine_run]
  show _ = M.bind _ _ s
  unfold M.bind chkRest
  rcases peekToken E false s with e | ⟨k, u, es⟩
  · rfl
  · simp only
    by_cases h1 : k.kind = .EndOfFile
    · rw [if_pos h1, if_pos h1]
      simp
    · rw [if_neg h1, if_neg h1]
      by_cases h2 : k.kind = .ToplevelNewline
      · rw [if_pos h2, if_pos h2]
        simp
      · rw [if_neg h2, if_neg h2]

theorem firstLine_outN (n : Nat) : ∀ (s s' : St), Near s s' → Pos E.cfg z s' →
    OutF E.cfg (.all (Spot E.cfg z)) z (CodeParser.M.loopN (baseLine E.cfg) n () s) (M.loopN (chkLine E) n () s') := by
  induction n with
  | zero => intro s s' _ _; exact .inl rfl
  | succ n ih =>
    intro s s' hs hp
    rw [baseLine_loop, chkLine_loop]
    refine OutF.peek hs hp ⟨s', hp, rfl⟩ ?_ ?_
    · intro k u e h1 h
      unfold baseRest
      rw [if_neg h.kind.1, if_neg h.kind.2.2.2]
      left
      cases n with
      | zero => exact ⟨.fuel, rfl, .inr rfl⟩
      | succ n =>
        refine ⟨e, ?_, .inl rfl⟩
        unfold CodeParser.M.loopN
        rw [baseLine_stuck h]
    · intro k u u' h6 h3 h4 h8 h9
      unfold baseRest chkRest
      by_cases h1 : k.kind = .EndOfFile
      · rw [if_pos h1, if_pos h1]
        exact OutF.pure h3 h4
      · rw [if_neg h1, if_neg h1]
        by_cases h2 : k.kind = .ToplevelNewline
        · rw [if_pos h2, if_pos h2]
          exact OutF.pure h8 h9
        · rw [if_neg h2, if_neg h2]
          exact ih _ _ h8 h9

theorem firstLine_out {first : FirstLine} (hs : Near s s') (hp : Pos E.cfg z s') :
    OutF E.cfg (.all (Spot E.cfg z)) z (CodeParser.handleFirstLine E.cfg first s) (handleFirstLine E first s') := by
  have key : OutF E.cfg (.all (Spot E.cfg z)) z (CodeParser.handleFirstLine E.cfg .check s) (handleFirstLine E .check s') := by
    unfold CodeParser.handleFirstLine handleFirstLine
    refine OutF.peek hs hp ⟨s', hp, rfl⟩ ?_ ?_
    · intro k u e h1 h
      rw [if_pos h.kind.2.1]
      obtain ⟨e', g1, g2⟩ := h.loop (hs.wf hp.wf) h1
      injection g2 with g2
      subst g2
      exact .inr ⟨(), u, rfl, g1⟩
    intro k u u' h6 h3 h4 h8 h9
    by_cases h1 : k.kind ≠ .Hash
    · rw [if_pos h1, if_pos h1]
      exact OutF.pure h3 h4
    · rw [if_neg h1, if_neg h1, skip_run]
      show OutF _ _ _ ((CodeParser.peekToken E.cfg false >>= _) (k.skipSt u)) _
      refine OutF.peek h8 h9 ⟨_, h9, rfl⟩ ?_ ?_
      · intro k u e h1 h
        rw [if_pos h.kind.2.2.1]
        obtain ⟨e', g1, g2⟩ := h.loop (h8.wf h9.wf) h1
        injection g2 with g2
        subst g2
        exact .inr ⟨(), u, rfl, g1⟩
      intro k u u' h6 h3 h4 h8 h9
      by_cases h1 : k.kind ≠ .Bang
      · rw [if_pos h1, if_pos h1]
        exact OutF.pure h3 h4
      · rw [if_neg h1, if_neg h1, skip_run]
        show OutF _ _ _ (CodeParser.M.loopN (baseLine E.cfg) (k.after.length + 2) () (k.skipSt u))
          (M.loopN (chkLine E) (k.after.length + 2) () (k.skipSt u'))
        exact firstLine_outN _ _ _ h8 h9
  cases first with
  | notScript => exact OutF.pure hs hp
  | check => exact key
  | script => exact key

/-! ### Whole runs -/

theorem init_pos (cfg : Cfg) (conv : Conv) (bs : List UInt8) : Pos cfg (St.init conv bs) (St.init conv bs) := by
  refine .refl (WF_init conv bs) ?_
  cases conv <;> simp [St.init, Conv.start, ColOK]

theorem tokens_out (conv : Conv) (first : FirstLine) (bs : List UInt8) :
    match CodeParser.tokens E.cfg conv first bs with
    | .ok (ts, t) => ∃ t' es, tokens E conv first bs = .ok (ts, t', es) ∧ Near t t' ∧ Pos E.cfg (St.init conv bs) t' ∧
        ∀ e ∈ es, Placed E.cfg (.all (Spot E.cfg (St.init conv bs))) (St.init conv bs) e
    | .error e => tokens E conv first bs = .error (.base e) := by
  have h := firstLine_out (E := E) (first := first) (.refl _) (init_pos E.cfg conv bs)
  have hw := tokens_wp (cfg := E.cfg) conv first bs
  have e1 : CodeParser.tokens E.cfg conv first bs = (match CodeParser.handleFirstLine E.cfg first (St.init conv bs) with
    | .ok (_, t) => CodeParser.tokenLoop E.cfg t
    | .error e => .error e) := by
    unfold CodeParser.tokens
    show CodeParser.M.bind _ _ _ = _
    unfold CodeParser.M.bind
    rcases CodeParser.handleFirstLine E.cfg first (St.init conv bs) with e | ⟨a, t⟩ <;> rfl
  have e2 : tokens E conv first bs = (match handleFirstLine E first (St.init conv bs) with
    | .error e => .error e
    | .ok (_, t, es) =>
      match tokenLoop E t with
      | .error e => .error e
      | .ok (b, u, fs) => .ok (b, u, es ++ fs)) := by
    unfold tokens
    show M.bind _ _ _ = _
    unfold M.bind
    rcases handleFirstLine E first (St.init conv bs) with e | ⟨a, t, es⟩
    · rfl
    · simp only
      rcases tokenLoop E t with e | ⟨b, u, fs⟩ <;> rfl
  rw [e1] at hw
  rw [e1, e2]
  revert hw
  rcases h1 : CodeParser.handleFirstLine E.cfg first (St.init conv bs) with e | ⟨a, t⟩ <;>
    rcases h2 : handleFirstLine E first (St.init conv bs) with f | ⟨a', t', es⟩ <;> rw [h1, h2] at h
  · intro hw
    rcases h with h | rfl
    · exact congrArg _ h
    · cases hw.1
  · exact h.elim
  · obtain ⟨e, h3, rfl⟩ := h
    intro _
    simp only
    rw [h3]
  · obtain ⟨-, h3, h4, h5⟩ := h
    have h6 := tokenLoop_out (E := E) h3 h4
    simp only
    rcases g1 : CodeParser.tokenLoop E.cfg t with e | ⟨ts, u⟩ <;>
      rcases g2 : tokenLoop E t' with f | ⟨ts', u', fs⟩ <;> rw [g1, g2] at h6
    · intro hw
      rcases h6 with h | rfl
      · simp only; exact congrArg _ h
      · cases hw.1
    · exact h6.elim
    · exact h6.elim
    · intro _
      obtain ⟨rfl, i1, i2, i3, i4⟩ := h6
      refine ⟨u', es ++ fs, rfl, i1, i2, fun e he => ?_⟩
      rcases List.mem_append.mp he with he | he
      · exact h5 e he
      · exact (i4 e he).mono' fun l hl => hl.2

end
end CodeParser.Chk
