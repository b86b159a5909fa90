import Verif.Proofs.Check6
/-!
Helper lemmas about the token handlers with issues: operators that are looked behind, the dispatch.
-/
namespace CodeParser.Chk
open CodeParser (Bad Path WF SameAt MSim R)

/-- The operators behind which a character is looked at in search of issues. -/
def Peeking (k : TK) : Prop := k = .UnderDot ∨ k = .MinusMinus ∨ k = .BarGreater ∨ k = .PlusPlus

/-- A token after which the text cannot be read further. -/
def Stuck (cfg : Cfg) (a : Tok) (t : St) (e' : Fail) : Prop :=
  Peeking a.kind ∧ a.after = t.rest ∧ a.stop = t.loc ∧ ∃ e, CodeParser.nextC cfg t = .error e ∧ e' = .base e

/-- A step in search of issues: it fails only if reading the next character fails. -/
def PeeksAt (E : Env) (T : Want) (z : St) (I : M Unit) (s s' : St) : Prop :=
  QuietAt E.cfg T z (fun _ => True) I s' ∨ ∃ e, I s' = .error (.base e) ∧ CodeParser.nextC E.cfg s = .error e

section
variable {E : Env} {T : Want} {z w : St} {pol : Pol} {start start' m m' : St} {c : WLC} {s s' : St}

theorem curC_err {cfg : Cfg} {e : Err} (h : CodeParser.curC cfg s = .error e) : CodeParser.nextC cfg s = .error e := by
  have e1 : CodeParser.curC cfg s = (match CodeParser.nextC cfg s with
    | .ok (c, t) => .ok (c, t.seek s)
    | .error e => .error e) := by
    unfold CodeParser.curC
    show CodeParser.M.bind (CodeParser.nextC cfg) (fun c => CodeParser.M.bind (CodeParser.M.seek s) fun _ => pure c) s = _
    unfold CodeParser.M.bind
    rcases CodeParser.nextC cfg s with e | ⟨c, t⟩ <;> rfl
  rw [e1] at h
  split at h
  · cases h
  · injection h with h
    rename_i h2
    rw [h2, h]

theorem PeeksAt.here {f : Loc → M Unit} (h : PeeksAt E T z (f s'.loc) s s') : PeeksAt E T z (here >>= f) s s' := by
  rcases h with h | ⟨e, h1, h2⟩
  · exact .inl (QuietAt.here h)
  · refine .inr ⟨e, ?_, h2⟩
    show M.bind Chk.here f s' = _
    unfold M.bind Chk.here
    simp only
    rw [h1]

theorem PeeksAt.curC {f : WLC → M Unit} (hE : Fit E T) (hs : Near s s') (hp : Pos E.cfg z s')
    (hf : ∀ c, (∃ r', NextB s'.rest c r') → Quiet E.cfg T z (fun _ => True) (f c)) : PeeksAt E T z (curC E >>= f) s s' := by
  have h := curC_simE (T := T) hE s s' hs hp
  rcases h1 : CodeParser.curC E.cfg s with e | ⟨c, t⟩ <;> rcases h2 : Chk.curC E s' with e' | ⟨c', t', es⟩ <;> rw [h1, h2] at h
  · refine .inr ⟨e, ?_, curC_err h1⟩
    show M.bind (Chk.curC E) f s' = _
    unfold M.bind
    rw [h2]
    simp only
    exact congrArg _ h
  · exact h.elim
  · exact h.elim
  · obtain ⟨hcc, ht, hpt, hes⟩ := h
    have hnb : ∃ r', NextB s'.rest c' r' := by
      have hw := curC_wp (cfg := E.cfg) (hs.wf hp.wf)
      unfold wp at hw
      rw [h1] at hw
      rw [← hs.same.rest, ← hcc]
      exact hw.2.2.2
    obtain ⟨a, u, fs, g1, g2, g3, g4, g5⟩ := hf c' hnb t' hpt
    refine .inl ⟨a, u, es ++ fs, bind_ok h2 g1, trivial, ?_, g4, fun e he => ?_⟩
    · have hw := curC_wp (cfg := E.cfg) hp.wf
      have h := curC_simE (T := T) hE s' s' (.refl _) hp
      unfold wp at hw
      rcases h3 : CodeParser.curC E.cfg s' with e | ⟨c0, t0⟩ <;> rw [h3] at h hw <;> rw [h2] at h
      · exact h.elim
      · obtain ⟨hR, hsm, -, -⟩ := hw
        exact Near.trans ⟨hsm.trans h.2.1.same, fun hfl => h.2.1.flag (hR.keep hfl)⟩ g3
    · rcases List.mem_append.mp he with he | he
      · exact hes e he
      · exact g5 e he

variable (hE : Fit E T)
include hE

theorem equalIssue_peeks (hs : Near s s') (hp : Pos E.cfg z s') : PeeksAt E T z (equalIssue E) s s' := by
  unfold equalIssue
  exact PeeksAt.curC hE hs hp fun c _ => Quiet.when fun _ => ambiguousHere_quiet

theorem underDotIssue_peeks (hs : Near s s') (hp : Pos E.cfg z s') : PeeksAt E T z (underDotIssue E) s s' := by
  unfold underDotIssue
  refine PeeksAt.here (PeeksAt.curC hE hs hp fun c hb => Quiet.ite (fun hc => Quiet.emit ?_) fun _ => Quiet.pure trivial)
  refine issue_placed hp hp.self rfl (fun a ha => ?_) fun _ => .dot between_nil (starts (by decide) hb hc)
  simp only [List.mem_singleton] at ha; subst ha
  rfl

theorem minusMinusIssue_peeks (hs : Near s s') (hz : Pos E.cfg z start') (hp : Pos E.cfg start' s') : PeeksAt E T z (minusMinusIssue E start') s s' := by
  unfold minusMinusIssue
  refine PeeksAt.here (PeeksAt.curC hE hs (hz.trans hp) fun c hb => Quiet.ite (fun hc => ?_) fun _ => Quiet.ite (fun _ => ambiguousHere_quiet) fun _ => Quiet.pure trivial)
  refine (Quiet.spanOf hp).bind ?_
  rintro _ rfl
  have hbt : Between E.cfg z ⟨start'.loc, s'.loc⟩ := ⟨_, _, hz, hp, rfl⟩
  refine Quiet.emit ⟨hbt, fun a ha => ?_, fun _ => ⟨_, _, hz, hp, rfl, .arrow (starts (by decide) hb hc)⟩⟩
  simp only [List.mem_cons, List.not_mem_nil, or_false] at ha
  rcases ha with rfl | rfl
  · exact hbt
  · exact .at (hz.trans hp)

theorem peekTail {k : TK} {b : Bool} {I : M Unit} (h : Marks E.cfg start' start start') (hk : Peeking k)
    (hI : ∀ s s', Near s s' → Pos E.cfg start' s' → PeeksAt E T start' I s s') :
    Sim E.cfg T (Stuck E.cfg) start' Eq (CodeParser.tokNext E.cfg k start)
      (nextC E >>= fun _ => M.when b I >>= fun _ => tok k start') := by
  unfold CodeParser.tokNext
  refine (nextC_simE hE).bindE fun _ => ?_
  intro s s' hs hp
  have ht : Sim E.cfg T (Stuck E.cfg) start' Eq (CodeParser.tok k start) (tok k start') := (tok_s h).weaken
  cases b with
  | false => exact (Quiet.when fun h => by cases h).sim (fun _ _ => ht) s s' hs hp
  | true =>
    rcases hI s s' hs hp with hq | ⟨e, h1, h2⟩
    · exact QuietAt.out (m' := M.when true I) hq hs fun _ t' _ hs' hp' => ht s t' hs' hp'
    · have e1 : (M.when true I >>= fun _ => tok k start') s' = .error (.base e) := by
        show M.bind I _ s' = _
        unfold M.bind
        rw [h1]
      rw [e1]
      unfold CodeParser.tok
      rw [h.1.loc, hs.same.loc, hp.span]
      simp only
      exact ⟨hk, rfl, hs.same.loc.symm, e, h2, rfl⟩

theorem handleUnder_s (h : Marks E.cfg start' start start') :
    Sim E.cfg T (Stuck E.cfg) start' Eq (CodeParser.handleUnder E.cfg start c) (handleUnder E start' c) := by
  unfold CodeParser.handleUnder handleUnder
  cs1; cs1
  refine Sim.ite (fun _ => Sim.weaken (by cs)) fun _ => Sim.ite (fun _ => ?_) fun _ => Sim.weaken (by cs)
  exact peekTail hE h (.inl rfl) fun s s' hs hp => underDotIssue_peeks hE hs hp

theorem handleMinus_s (h : Marks E.cfg start' start start') :
    Sim E.cfg T (Stuck E.cfg) start' Eq (CodeParser.handleMinus E.cfg start c) (handleMinus E start' c) := by
  unfold CodeParser.handleMinus handleMinus
  cs1; cs1
  refine Sim.ite (fun _ => Sim.weaken (by cs)) fun _ => Sim.ite (fun _ => ?_) fun _ => Sim.weaken (by cs)
  exact peekTail hE h (.inr (.inl rfl)) fun s s' hs hp => minusMinusIssue_peeks hE hs h.2 hp

theorem handleBar_s (h : Marks E.cfg start' start start') :
    Sim E.cfg T (Stuck E.cfg) start' Eq (CodeParser.handleBar E.cfg start c) (handleBar E start' c) := by
  unfold CodeParser.handleBar handleBar
  cs1; cs1
  refine Sim.ite (fun _ => ?_) fun _ => Sim.weaken (by cs)
  exact peekTail hE h (.inr (.inr (.inl rfl))) fun s s' hs hp => equalIssue_peeks hE hs hp

theorem handlePlus_s (h : Marks E.cfg start' start start') :
    Sim E.cfg T (Stuck E.cfg) start' Eq (CodeParser.handlePlus E.cfg start c) (handlePlus E start' c) := by
  unfold CodeParser.handlePlus handlePlus
  cs1; cs1
  refine Sim.ite (fun _ => ?_) fun _ => Sim.weaken (by cs)
  exact peekTail hE h (.inr (.inr (.inr rfl))) fun s s' hs hp => equalIssue_peeks hE hs hp

/-! ### The dispatch -/

omit hE in
theorem handlePunctuation_s (h : Marks E.cfg z start start') :
    Sim E.cfg T never w Eq (CodeParser.handlePunctuation start c) (handlePunctuation start' c) := by
  have hk : ∀ st, Keeps (CodeParser.handlePunctuation st c) := by
    intro st
    unfold CodeParser.handlePunctuation
    cases c.point with
    | char k =>
      simp only
      cases longNameCodePointToOperator k
      · exact keeps_panic
      · exact keeps_tok
    | _ => exact keeps_panic
  exact Sim.lift (handlePunctuation_sim h.1) (hk _) (hk _)

omit hE in
theorem handleLinearSyntax_s (h : Marks E.cfg z start start') :
    Sim E.cfg T never w Eq (CodeParser.handleLinearSyntax start c) (handleLinearSyntax start' c) := by
  have hk : ∀ st, Keeps (CodeParser.handleLinearSyntax st c) := by
    intro st
    unfold CodeParser.handleLinearSyntax
    repeat' split
    all_goals first
      | exact keeps_tok
      | exact keeps_panic
  exact Sim.lift (handleLinearSyntax_sim h.1) (hk _) (hk _)

omit hE in
theorem mbWhite_char {p : CP} (h : p.isMBWhitespace = true) : ∃ n, p = .char n := by
  cases p <;> first
    | exact ⟨_, rfl⟩
    | (exfalso; revert h; decide)

omit hE in
theorem mbNewline_char {p : CP} (h : p.isMBNewline = true) (h' : p ≠ .crlf) : ∃ n, p = .char n := by
  cases p <;> first
    | exact ⟨_, rfl⟩
    | exact absurd rfl h'
    | (exfalso; revert h; decide)

theorem nextTokenOther_s (h : Marks E.cfg start' start start') (hc : Ready c) :
    Sim E.cfg T never start' Eq (CodeParser.nextTokenOther E.cfg pol start c) (nextTokenOther E pol start' c) := by
  unfold CodeParser.nextTokenOther nextTokenOther
  refine Sim.ite (fun _ => by cs) fun _ => Sim.ite (fun _ => handleBlob_s hE h) fun _ => Sim.ite (fun _ => handleLinearSyntax_s h) fun _ =>
    Sim.ite (fun _ => by cs) fun _ => Sim.ite (fun hw => ?_) fun _ => Sim.ite (fun hw => ?_) fun _ => Sim.ite (fun _ => handlePunctuation_s h) fun _ =>
    Sim.ite (fun _ => by cs) fun _ => ?_
  · exact (Quiet.when fun _ => unexpectedChar_quiet h.2 hc (mbWhite_char hw) (by decide) (by decide)).sim fun _ _ => by cs
  · refine (Quiet.when fun hb => unexpectedChar_quiet h.2 hc (mbNewline_char hw ?_) (by decide) (by decide)).sim fun _ _ => by cs
    intro he
    rw [he] at hb
    simp at hb
  · cs1
    exact handleSymbol_s hE h hc

theorem nextTokenUncommon_s (h : Marks E.cfg start' start start') (hc : Ready c) :
    Sim E.cfg T (Stuck E.cfg) start' Eq (CodeParser.nextTokenUncommon E.cfg pol start c) (nextTokenUncommon E pol start' c) := by
  unfold CodeParser.nextTokenUncommon nextTokenUncommon
  refine Sim.ite (fun _ => Sim.weaken (by cs)) fun _ => Sim.ite (fun _ => Sim.weaken (by cs)) fun _ => Sim.ite (fun _ => Sim.weaken (handleSymbol_s hE h hc)) fun _ =>
    Sim.ite (fun _ => Sim.weaken (by cs)) fun _ => Sim.ite (fun _ => Sim.weaken (by cs)) fun _ => Sim.ite (fun hw => ?_) fun _ => ?_
  · refine (Quiet.when fun _ => unexpectedChar_quiet h.2 hc ?_ (by decide) (by decide)).sim fun _ _ => Sim.weaken (by cs)
    rcases hw with hw | hw <;> exact ⟨_, hw⟩
  · repeat' (with_reducible refine Sim.ite (fun _ => ?_) fun _ => ?_)
    all_goals first
      | with_reducible exact Sim.weaken (tok_s h)
      | with_reducible exact Sim.weaken (handleOpenParen_s hE h)
      | with_reducible exact handlePlus_s hE h
      | with_reducible exact Sim.weaken (handleCaret_s hE h)
      | with_reducible exact Sim.weaken (handleEqual_s hE h)
      | with_reducible exact Sim.weaken (handleDoubled_s hE h)
      | with_reducible exact Sim.weaken (handleColon_s hE h)
      | with_reducible exact Sim.weaken (handleBang_s hE h)
      | with_reducible exact Sim.weaken (handlePercent_s hE h)
      | with_reducible exact Sim.weaken (handleStar_s hE h)
      | with_reducible exact Sim.weaken (handleDot_s hE h)
      | with_reducible exact Sim.weaken (handleSlash_s hE h)
      | with_reducible exact Sim.weaken (handleLess_s hE h)
      | with_reducible exact Sim.weaken (handleGreater_s hE h)
      | with_reducible exact Sim.weaken (handleAt_s hE h)
      | with_reducible exact Sim.weaken (handleBackslash_s hE h)
      | with_reducible exact handleUnder_s hE h
      | with_reducible exact handleBar_s hE h
      | with_reducible exact Sim.weaken (nextTokenOther_s hE h hc)

theorem dispatch_s (h : Marks E.cfg start' start start') (hc : Ready c) :
    Sim E.cfg T (Stuck E.cfg) start' Eq (CodeParser.dispatch E.cfg pol start c) (dispatch E pol start' c) := by
  unfold CodeParser.dispatch dispatch
  repeat' (with_reducible refine Sim.ite (fun _ => ?_) fun _ => ?_)
  all_goals first
    | with_reducible exact Sim.weaken (tok_s h)
    | with_reducible exact Sim.weaken (handleString_s hE h)
    | with_reducible exact Sim.weaken (handleSymbol_s hE h hc)
    | with_reducible exact handleMinus_s hE h
    | with_reducible exact Sim.weaken (handleNumber_s hE h)
    | with_reducible exact nextTokenUncommon_s hE h hc

end

/-! ### Tokens -/

/-- The location of a state. -/
def Is (s : St) : Want := .all (· = s.loc)

section
variable {E : Env} {pol : Pol} {s s' : St}

theorem mark_run {α : Type} {f : St → M α} (s : St) : (M.mark >>= f) s = f s s := by
  show M.bind M.mark f s = _
  have h : M.mark s = .ok (s, s, []) := rfl
  unfold M.bind
  rw [h]
  simp only
  rcases f s s with e | ⟨a, t, es⟩ <;> rfl

theorem fit_at (E : Env) (s : St) (a b : Bool) : Fit (E.at s.loc a b) (Is s) := ⟨rfl, rfl⟩

theorem nextToken_out (hs : Near s s') (hp : Pos E.cfg s' s') :
    Out E.cfg (Is s') (Stuck E.cfg) s' Eq (CodeParser.nextToken E.cfg pol s) (nextToken E pol s') := by
  unfold nextToken
  rw [mark_run]
  generalize hE' : E.at s'.loc (!pol.insideSlot) true = E'
  have hc : E'.cfg = E.cfg := by rw [← hE']; rfl
  have hf : Fit E' (Is s') := by rw [← hE']; exact fit_at ..
  rw [← hc] at hp ⊢
  have hm : Marks E'.cfg s' s s' := ⟨hs.same, hp⟩
  show Out E'.cfg _ _ s' Eq ((CodeParser.nextC E'.cfg >>= fun c => CodeParser.dispatch E'.cfg pol s c) s) _
  unfold nextTokenAt
  refine Sim.bind (T := Is s') (nextC_sim' hf) (fun c c' h => ?_) s s' hs hp
  obtain ⟨rfl, h⟩ := h
  exact dispatch_s hf hm h

theorem nextTokenTag_out (hs : Near s s') (hp : Pos E.cfg s' s') :
    Out E.cfg (Is s') never s' Eq (CodeParser.nextTokenTag E.cfg s) (nextTokenTag E s') := by
  unfold nextTokenTag
  rw [mark_run]
  generalize hE' : E.at s'.loc true true = E'
  have hc : E'.cfg = E.cfg := by rw [← hE']; rfl
  have hf : Fit E' (Is s') := by rw [← hE']; exact fit_at ..
  rw [← hc] at hp ⊢
  exact tagAt_s hf ⟨hs.same, hp⟩ s s' hs hp

theorem nextTokenFile_out (hs : Near s s') (hp : Pos E.cfg s' s') :
    Out E.cfg (Is s') never s' Eq (CodeParser.nextTokenFile E.cfg s) (nextTokenFile E s') := by
  unfold nextTokenFile
  rw [mark_run]
  generalize hE' : E.at s'.loc false false = E'
  have hc : E'.cfg = E.cfg := by rw [← hE']; rfl
  have hf : Fit E' (Is s') := by rw [← hE']; exact fit_at ..
  rw [← hc] at hp ⊢
  have hm : Marks E'.cfg s' s s' := ⟨hs.same, hp⟩
  show Out E'.cfg _ _ s' Eq ((CodeParser.src E'.cfg >>= fun c =>
    if c = .eof then CodeParser.errorTokAt .Error_ExpectedFile s
    else if c = ch '\n' ∨ c = ch '\r' ∨ c = .crlf then CodeParser.tok Pol.file.newline s
    else if c = ch ' ' ∨ c = ch '\t' then CodeParser.tok .Whitespace s
    else if c = ch '"' then CodeParser.handleString E'.cfg s ⟨c, .none⟩
    else CodeParser.stringifyAsFileRest E'.cfg s c) s) _
  unfold nextTokenFileAt
  refine Sim.bindE (T := Is s') src_simE (fun c => ?_) s s' hs hp
  cs
  · exact handleString_s hf hm
  · exact fileRest_s hm

end
end CodeParser.Chk
